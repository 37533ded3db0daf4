import Verif.Spec.Ciphers
import Verif.Proof.ChaChaIndep
import Verif.Proof.Generic
import Verif.Proof.SalsaStream
import Verif.Proof.Hc256
import Verif.Proof.RabbitPeriod
import Verif.Proof.Rc4
/-!
# Every cipher type of the repository is a cursor over its published keystream
-/
namespace Verif
open Spec

namespace SeekCipher

/-- The core of every seekable cipher obeys the laws for its published keystream, and a fresh object is at position 0. -/
theorem law (u : Nat) (c : SeekCipher) : ∃ Rel, SeekLaw (c.core u) u c.block Rel c.blocks ∧
    ∃ s₀, c.create u = .ok (Wrapper.fromCore s₀) ∧ Rel s₀ 0 := by
  cases c with
  | chacha dr key nonce =>
    have law := ChaCha.seekLaw u dr .ietf (ChaCha.ietfState key nonce)
    rw [show ChaCha.ksOf dr .ietf (ChaCha.ietfState key nonce) = Spec.ChaCha.ietfBlock dr key nonce from
      funext fun n => ChaCha.ksOf_ietf dr key nonce n] at law
    refine ⟨_, law, ChaCha.ietfState key nonce, ?_, rfl⟩
    show ChaCha.cipherIetf key nonce = _
    simp only [ChaCha.cipherIetf, ChaCha.newIetf_eq]; rfl
  | chachaLegacy dr key nonce =>
    have law := ChaCha.seekLaw u dr .legacy (ChaCha.legacyState key nonce)
    rw [show ChaCha.ksOf dr .legacy (ChaCha.legacyState key nonce) = Spec.ChaCha.djbBlock dr key nonce from
      funext fun n => ChaCha.ksOf_legacy dr key nonce n] at law
    refine ⟨_, law, ChaCha.legacyState key nonce, ?_, ?_⟩
    · show ChaCha.cipherLegacy key nonce = _
      simp only [ChaCha.cipherLegacy, ChaCha.newLegacy_eq]; rfl
    · show ChaCha.legacyState key nonce = ChaCha.at' .legacy (ChaCha.setupState key 0 0 _ _) 0
      rw [ChaCha.at'_legacy]
      rfl
  | xchacha dr key nonce =>
    have law := ChaCha.seekLaw u dr .ietf
      (ChaCha.ietfState (Spec.ChaCha.xSubkey dr key nonce) (Spec.ChaCha.xNonce nonce))
    rw [show ChaCha.ksOf dr .ietf (ChaCha.ietfState (Spec.ChaCha.xSubkey dr key nonce) (Spec.ChaCha.xNonce nonce)) =
      Spec.ChaCha.xBlock dr key nonce from funext fun n => ChaCha.ksOf_ietf dr _ _ n] at law
    refine ⟨_, law, ChaCha.ietfState (Spec.ChaCha.xSubkey dr key nonce) (Spec.ChaCha.xNonce nonce), ?_, rfl⟩
    show ChaCha.cipherX dr key nonce = _
    simp only [ChaCha.cipherX, ChaCha.newX_eq, ChaCha.hchacha_eq]
    rw [ChaCha.newIetf_eq]; rfl
  | salsa m dr key nonce =>
    have law := Salsa.seekLaw ChaCha.Env u m dr (Salsa.new key nonce)
    rw [show Salsa.ksOf dr (Salsa.new key nonce) = Spec.Salsa.block dr key nonce from
      funext fun n => Salsa.ksOf_new dr key nonce n] at law
    exact ⟨_, law, Salsa.new key nonce, rfl, Salsa.rel_new key nonce⟩
  | xsalsa m dr key nonce =>
    have law := Salsa.seekLaw ChaCha.Env u m dr (Salsa.newX dr key nonce)
    rw [show Salsa.ksOf dr (Salsa.newX dr key nonce) = Spec.Salsa.xBlock dr key nonce from
      funext fun n => by rw [Salsa.newX, Salsa.ksOf_new, Salsa.hsalsa_eq]; rfl] at law
    exact ⟨_, law, Salsa.newX dr key nonce, rfl, Salsa.rel_new _ _⟩

variable {u : Nat} {c : SeekCipher}

theorem isSeekStream (u : Nat) (c : SeekCipher) :
    ∃ w, c.create u = .ok w ∧ IsSeekStream u (c.core u) c.stream c.blocks w 0 := by
  obtain ⟨Rel, law, s₀, hc, hr⟩ := c.law u
  exact ⟨_, hc, law.isSeekStream (by decide) _ 0 (At.fromCore _ _ hr _)⟩

theorem ioLike (u : Nat) (c : SeekCipher) :
    IoLike u (c.Allowed u) (Cursor.step 64 c.stream (some (64 * c.blocks))) .io id c.stream (some (64 * c.blocks)) :=
  ioLike_seek u 64 c.blocks c.stream

/-- Any allowed history runs. -/
theorem reach_exists (u : Nat) (c : SeekCipher) (h : List (ChaCha.Env × SeekOp)) (hh : ∀ e ∈ h, c.Allowed u e.2) :
    ∃ w, c.Reach u h (Cursor.run (Cursor.step 64 c.stream (some (64 * c.blocks))) (h.map (·.2)) 0).1 w := by
  obtain ⟨w₀, hc, hs⟩ := c.isSeekStream u
  obtain ⟨w, hw⟩ := hs h hh
  exact ⟨w, hh, w₀, hc, hw⟩

theorem Reach.simulates {h : List (ChaCha.Env × SeekOp)} {os : List Obs} {w : c.Obj u} (hr : c.Reach u h os w) :
    Simulates (c.step u) (c.Allowed u) (Cursor.step 64 c.stream (some (64 * c.blocks))) w (booked h os) ∧
      Within (some (64 * c.blocks)) (booked h os) := by
  obtain ⟨hh, w₀, hc, hrun⟩ := hr
  obtain ⟨w₁, hc', hs⟩ := c.isSeekStream u
  rw [hc] at hc'
  cases hc'
  exact Simulates.reach (c.ioLike u) hs h hh os w hrun

theorem Reach.le {h : List (ChaCha.Env × SeekOp)} {os : List Obs} {w : c.Obj u} (hr : c.Reach u h os w) :
    booked h os ≤ 64 * c.blocks := hr.simulates.2 _ rfl

theorem Reach.at {h : List (ChaCha.Env × SeekOp)} {os : List Obs} {w : c.Obj u} (hr : c.Reach u h os w) :
    ∃ Rel, SeekLaw (c.core u) u c.block Rel c.blocks ∧ At c.block (by decide) Rel (some c.blocks) w (booked h os) := by
  obtain ⟨hh, w₀, hc, hrun⟩ := hr
  obtain ⟨Rel, law, s₀, hc', hrel⟩ := c.law u
  rw [hc] at hc'
  cases hc'
  obtain ⟨w', h1, h2⟩ := seekHistory_spec law (by decide) h _ 0 (At.fromCore _ _ hrel _) hh
  have h3 : runHistory (c.step u) h (Wrapper.fromCore s₀) = .ok (os, w) := hrun
  rw [show runHistory (c.step u) h (Wrapper.fromCore s₀) = _ from h1] at h3
  simp only [Except.ok.injEq, Prod.mk.injEq] at h3
  obtain ⟨h4, rfl⟩ := h3
  refine ⟨Rel, law, ?_⟩
  have h5 := trackAll_run 64 c.stream (some (64 * c.blocks)) (h.map (·.2)) 0
  have h6 : booked h os = (Cursor.run (Cursor.step 64 c.stream (some (64 * c.blocks))) (h.map (·.2)) 0).2 := by
    rw [← h5]
    exact congrArg (fun l => trackAll 0 (h.map (·.2)) l) h4.symm
  rw [h6]
  exact h2

end SeekCipher

/-! ## All ciphers -/

namespace PlainCipher

theorem isStream (u : Nat) (hu : 16 ≤ u) (c : PlainCipher) :
    ∃ w, c.create u = .ok w ∧ Simulates (c.step u) (FitsUsize u) (Cursor.io c.stream none) w 0 := by
  cases c with
  | hc256 m key iv =>
    obtain ⟨s, hs, hr⟩ := Hc256.new_eq m hu key iv
    refine ⟨Wrapper.fromCore s, ?_, ?_⟩
    · show Hc256.cipher m u key iv = _
      rw [Hc256.cipher, hs, Rabbit.ok_bind]; rfl
    · exact (Hc256.coreLaw m hu key iv).isStream (by decide) _ 0 (At.fromCore _ _ hr _)
  | rabbitKeyOnly m key =>
    refine ⟨Wrapper.fromCore (Rabbit.setupKeyPure key), ?_, ?_⟩
    · show Rabbit.cipherKeyOnly m key = _
      rw [Rabbit.cipherKeyOnly, Rabbit.setupKey_eq, Rabbit.ok_bind]; rfl
    · exact (Rabbit.coreLaw m u _).isStream (by decide) _ 0 (At.fromCore _ _ (Rabbit.rel_keyOnly key) _)
  | rabbit m key iv =>
    refine ⟨Wrapper.fromCore (Rabbit.next4Pure (Rabbit.ivXor iv (Rabbit.setupKeyPure key))), ?_, ?_⟩
    · show Rabbit.cipher m key iv = _
      rw [Rabbit.cipher, Rabbit.setupKey_eq, Rabbit.ok_bind, Rabbit.setupIv_eq, Rabbit.ok_bind]; rfl
    · exact (Rabbit.coreLaw m u _).isStream (by decide) _ 0 (At.fromCore _ _ (Rabbit.rel_iv key iv) _)
  | rc4 key hkey =>
    obtain ⟨s, hs, hr⟩ := Rc4.newFromSlice_ok key hkey
    refine ⟨s, ?_, ?_⟩
    · show (do match ← Rc4.newFromSlice key with | .ok s => return s | .error _ => .error .unwrap : Except Panic Rc4.State) = _
      rw [hs, Rabbit.ok_bind]; rfl
    · intro h _
      obtain ⟨s', h1, _⟩ := Rc4.history_rel key h s 0 hr
      exact ⟨s', h1⟩

theorem ioLike (u : Nat) (c : PlainCipher) :
    IoLike u (FitsUsize u) (Cursor.io c.stream none) id .io c.stream none := ioLike_plain u c.stream none

theorem reach_exists (u : Nat) (hu : 16 ≤ u) (c : PlainCipher) (h : List (Unit × Op)) (hh : ∀ e ∈ h, FitsUsize u e.2) :
    ∃ w, c.Reach u h (Cursor.run (Cursor.io c.stream none) (h.map (·.2)) 0).1 w := by
  obtain ⟨w₀, hc, hs⟩ := c.isStream u hu
  obtain ⟨w, hw⟩ := hs h hh
  exact ⟨w, hh, w₀, hc, hw⟩

theorem Reach.simulates {u : Nat} {c : PlainCipher} (hu : 16 ≤ u) {h : List (Unit × Op)} {os : List Obs} {w : c.Obj}
    (hr : c.Reach u h os w) : Simulates (c.step u) (FitsUsize u) (Cursor.io c.stream none) w (booked h os) := by
  obtain ⟨hh, w₀, hc, hrun⟩ := hr
  obtain ⟨w₁, hc', hs⟩ := c.isStream u hu
  rw [hc] at hc'
  cases hc'
  exact (Simulates.reach (c.ioLike u) hs h hh os w hrun).1

end PlainCipher

end Verif
