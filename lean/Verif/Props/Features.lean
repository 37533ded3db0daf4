import Verif.Model.Features
import Verif.Props.Packed
import Verif.Props.Hygiene
/-!
# Dropping whole objects, and Cargo features (C76)
-/
namespace Verif
open Spec

/-! ## C76: what is left of a dropped cipher object -/

/-- `on` says which features are on in a program that uses the crates `used` and asks for `req`. -/
def Resolves (used : Pkg → Prop) (req : Pkg → Feat → Prop) (on : Pkg → Feat → Bool) : Prop := ∀ p f, on p f = true ↔ On used req p f

/-- **C76**.  The feature that clears key-stream buffers is on iff somebody asks for it directly or for the feature `zeroize` of `salsa20`, `hc-256`,
`rabbit` or `rc4`.  Asking `chacha20` for zeroisation does not switch it on. -/
theorem C76_resolution (used : Pkg → Prop) (req : Pkg → Feat → Prop) :
    On used req .cipher .zeroize ↔ ∃ p, req p .zeroize ∧ p ≠ .chacha20 := by
  constructor
  · intro h
    cases h with
    | asked h => exact ⟨_, h, by decide⟩
    | @demanded p _ _ _ h => cases p <;> simp [demands] at h
    | @activated p f _ _ hp h =>
      have key : f = .zeroize ∧ (p = .salsa20 ∨ p = .hc256 ∨ p = .rabbit ∨ p = .rc4) := by
        cases p <;> cases f <;> simp [activates] at h ⊢
      obtain ⟨rfl, hp'⟩ := key
      have hn : p ≠ .chacha20 := by rintro rfl; simp at hp'
      have hc : p ≠ .cipher := by rintro rfl; simp at hp'
      cases hp with
      | asked h => exact ⟨_, h, hn⟩
      | @demanded q _ _ _ h => cases q <;> simp [demands] at h
      | @activated q g _ _ _ h => cases q <;> cases g <;> simp [activates] at h <;> exact absurd h hc
  · rintro ⟨p, h, hp⟩
    cases p with
    | chacha20 => exact absurd rfl hp
    | cipher => exact .asked h
    | salsa20 => exact .activated (.asked h) (by decide)
    | hc256 => exact .activated (.asked h) (by decide)
    | rabbit => exact .activated (.asked h) (by decide)
    | rc4 => exact .activated (.asked h) (by decide)

/-- Asked for every feature of `chacha20`: buffers are not cleared.  Asked for that of `rc4` as well: they are. -/
example : (¬On (fun _ => True) (fun p _ => p = .chacha20) .cipher .zeroize) ∧
    On (fun _ => True) (fun p f => p = .chacha20 ∨ (p = .rc4 ∧ f = .zeroize)) .cipher .zeroize := by
  rw [C76_resolution, C76_resolution]
  exact ⟨fun ⟨_, h, hn⟩ => hn h, .rc4, .inr ⟨rfl, rfl⟩, by decide⟩

theorem Resolves.buffer {used : Pkg → Prop} {req : Pkg → Feat → Prop} {on : Pkg → Feat → Bool} (h : Resolves used req on) {p : Pkg}
    (hp : req p .zeroize) (hne : p ≠ .chacha20) : on .cipher .zeroize = true :=
  (h _ _).mpr ((C76_resolution used req).mpr ⟨p, hp, hne⟩)

theorem Resolves.own {used : Pkg → Prop} {req : Pkg → Feat → Prop} {on : Pkg → Feat → Bool} (h : Resolves used req on) {p : Pkg} {f : Feat}
    (hp : req p f) : on p f = true := (h _ _).mpr (.asked hp)

/-- **C76**, Salsa, HC-256 and Rabbit: with the crate's feature `zeroize`, nothing is left of a dropped object, be it of the core, of the buffered key
stream or of the read position.  (RC4 has no buffer; see C44.) -/
theorem C76_cleared (used : Pkg → Prop) (req : Pkg → Feat → Prop) (on : Pkg → Feat → Bool) (h : Resolves used req on) :
    (req .salsa20 .zeroize → ∀ p, AllZero (Salsa.dropCipher on p).core ∧ AllZero (Salsa.dropCipher on p).buf) ∧
    (req .hc256 .zeroize → ∀ p, AllZero (Hc256.dropCipher on p).core.ptable ∧ AllZero (Hc256.dropCipher on p).core.qtable ∧
      (Hc256.dropCipher on p).core.idx = 0 ∧ AllZero (Hc256.dropCipher on p).buf) ∧
    (req .rabbit .zeroize → ∀ p, AllZero (Rabbit.dropCipher on p).core.x ∧ AllZero (Rabbit.dropCipher on p).core.c ∧
      (Rabbit.dropCipher on p).core.carry = 0 ∧ AllZero (Rabbit.dropCipher on p).buf) := by
  refine ⟨fun hr p => ?_, fun hr p => ?_, fun hr p => ?_⟩
  · have e : Salsa.dropCipher on p = ⟨Salsa.drop true p.core, zeroizeArray p.buf⟩ := by
      simp only [Salsa.dropCipher, Packed.drop, h.own hr, h.buffer hr (by decide), if_true]
    rw [e]
    exact ⟨C44_salsa _, zeroizeArray_allZero _⟩
  · have e : Hc256.dropCipher on p = ⟨Hc256.drop true p.core, zeroizeArray p.buf⟩ := by
      simp only [Hc256.dropCipher, Packed.drop, h.own hr, h.buffer hr (by decide), if_true]
    rw [e]
    exact ⟨(C44_hc256 _).1, (C44_hc256 _).2.1, (C44_hc256 _).2.2, zeroizeArray_allZero _⟩
  · have e : Rabbit.dropCipher on p = ⟨Rabbit.drop true p.core, zeroizeArray p.buf⟩ := by
      simp only [Rabbit.dropCipher, Packed.drop, h.own hr, h.buffer hr (by decide), if_true]
    rw [e]
    exact ⟨(C44_rabbit _).1, (C44_rabbit _).2.1, (C44_rabbit _).2.2, zeroizeArray_allZero _⟩

/-- A set of features resolves to something. -/
theorem resolves_exists (used : Pkg → Prop) (req : Pkg → Feat → Prop) : ∃ on, Resolves used req on := by
  classical
  exact ⟨fun p f => decide (On used req p f), fun p f => decide_eq_true_iff⟩

/-- A Rabbit object with key stream in its buffer. -/
example : ∃ on, Resolves (fun p => p = .rabbit) (fun p f => p = .rabbit ∧ f = .zeroize) on ∧
    (Rabbit.dropCipher on ⟨⟨Vector.replicate 8 1, Vector.replicate 8 2, 1⟩, Vector.replicate 16 7⟩).buf[9] = 0 := by
  obtain ⟨on, h⟩ := resolves_exists (fun p => p = .rabbit) (fun p f => p = .rabbit ∧ f = .zeroize)
  exact ⟨on, h, ((C76_cleared _ _ on h).2.2 ⟨rfl, rfl⟩ _).2.2.2 9 (by decide)⟩

/-- The crate a seekable cipher comes from. -/
def SeekCipher.pkg : SeekCipher → Pkg
  | .chacha .. | .chachaLegacy .. | .xchacha .. => .chacha20
  | .salsa .. | .xsalsa .. => .salsa20

/-- The destructor of a seekable cipher. -/
def SeekCipher.drop (u : Nat) (on : Pkg → Feat → Bool) : (c : SeekCipher) → Packed 64 (c.core u).σ → Packed 64 (c.core u).σ
  | .chacha .. => ChaCha.dropCipher on
  | .chachaLegacy .. => ChaCha.dropCipher on
  | .xchacha .. => ChaCha.dropCipher on
  | .salsa .. => Salsa.dropCipher on
  | .xsalsa .. => Salsa.dropCipher on

theorem SeekCipher.drop_buf {u : Nat} {on : Pkg → Feat → Bool} (c : SeekCipher) (p : Packed 64 (c.core u).σ) :
    (c.drop u on p).buf = if on .cipher .zeroize then zeroizeArray p.buf else p.buf := by
  cases c <;> rfl

theorem window_getElem (st : Nat → U8) (p len i : Nat) (h : i < (window st p len).length) : (window st p len)[i] = st (p + i) := by
  simp [window]

/-- The object in memory after a history of allowed calls: its position is stored in its first byte, and the unread part of its buffer is the key
stream at the caller's position. -/
theorem SeekCipher.packed_at (u : Nat) (c : SeekCipher) (l : List (ChaCha.Env × SeekOp)) (hl : ∀ e ∈ l, c.Allowed u e.2) :
    ∃ w₀ os p, c.create u = .ok w₀ ∧
      runHistory (fun x p op => Packed.seekStep (by decide) (c.core u) x p op) l (w₀.packed (by decide)) = .ok (os, p) ∧
      ∀ i (hi : i < 64), p.buf[0].toNat ≤ i → p.buf[i] = c.stream (SeekCipher.booked l os + (i - p.buf[0].toNat)) := by
  obtain ⟨w, hr⟩ := c.reach_exists u l hl
  obtain ⟨Rel, law, hat⟩ := hr.at
  obtain ⟨_, w₀, hc, hw⟩ := hr
  have hp := c.create_pos hc
  have hrel := Packed.runHistory_rel (Packed.Rel (by decide)) _ _
    (fun x s t op hst => Packed.seekStep_rel (c.core u) (by decide) x s t hst op) l w₀ (w₀.packed (by decide))
    ⟨rfl, Packed.Holds.fresh _ _ (by omega) (by omega)⟩
  have hw' : runHistory (Wrapper.seekStep (c.core u)) l w₀ = _ := hw
  rw [hw'] at hrel
  generalize hy : runHistory (fun x p op => Packed.seekStep (by decide) (c.core u) x p op) l (w₀.packed (by decide)) = y at hrel
  cases hrel with
  | @ok a b hq =>
    obtain ⟨os, p⟩ := b
    obtain ⟨ho, hh⟩ := hq
    have ho : _ = os := ho
    subst ho
    refine ⟨w₀, _, p, hc, hy, fun i hi hle => ?_⟩
    have hh : Packed.Rel (by decide) w p := hh
    have hu := hh.holds.upper
    have e0 : p.buf[0].toNat = w.pos := by
      rw [hh.holds.first, BitVec.toNat_ofNat]
      omega
    rw [e0] at hle ⊢
    rw [hh.holds.unread i hi hle]
    have hlen : i - w.pos < (w.buf.toList.drop w.pos).length := by simp only [List.length_drop, Vector.length_toList]; omega
    have e1 : (w.buf.toList.drop w.pos)[i - w.pos] = w.buf[i] := by
      rw [List.getElem_drop, Vector.getElem_toList]
      exact getElem_congr_idx (by omega)
    rw [← e1]
    have hb := hat.buf
    have : (w.buf.toList.drop w.pos)[i - w.pos] = (window (byteStream c.block (by decide)) (SeekCipher.booked l
        (Cursor.run (Cursor.step 64 c.stream (some (64 * c.blocks))) (l.map (·.2)) 0).1) (64 - w.pos))[i - w.pos]'(by
          rw [← hb]; exact hlen) := getElem_congr_coll hb
    rw [this, window_getElem]
    rfl

/-- **C76**, ChaCha and XChaCha: whatever features of `chacha20` are asked for - if nobody asks another crate for zeroisation, then after any history
of allowed calls the destructor leaves the buffer as it was: at and after the read position (first byte) it holds the key stream that the object would
have used next, up to 63 bytes of it. -/
theorem C76_left (u : Nat) (c : SeekCipher) (used : Pkg → Prop) (req : Pkg → Feat → Prop) (on : Pkg → Feat → Bool)
    (h : Resolves used req on) (hreq : ∀ p, req p .zeroize → p = .chacha20) (l : List (ChaCha.Env × SeekOp)) (hl : ∀ e ∈ l, c.Allowed u e.2) :
    ∃ w₀ os p, c.create u = .ok w₀ ∧
      runHistory (fun x p op => Packed.seekStep (by decide) (c.core u) x p op) l (w₀.packed (by decide)) = .ok (os, p) ∧
      (c.drop u on p).buf = p.buf ∧
      ∀ i (hi : i < 64), (c.drop u on p).buf[0].toNat ≤ i →
        (c.drop u on p).buf[i] = c.stream (SeekCipher.booked l os + (i - (c.drop u on p).buf[0].toNat)) := by
  obtain ⟨w₀, os, p, h0, h1, h2⟩ := c.packed_at u l hl
  have hoff : on .cipher .zeroize = false := by
    cases e : on .cipher .zeroize with
    | false => rfl
    | true =>
      obtain ⟨q, hq, hne⟩ := (C76_resolution used req).mp ((h _ _).mp e)
      exact absurd (hreq q hq) hne
  have hd : (c.drop u on p).buf = p.buf := by rw [c.drop_buf, hoff]; rfl
  refine ⟨w₀, os, p, h0, h1, hd, ?_⟩
  rw [hd]
  exact h2

/-- ChaCha20 with all features of `chacha20`, dropped at position 5: 59 bytes of key stream stay behind. -/
example : ∃ on w₀ os p, Resolves (fun _ => True) (fun p _ => p = .chacha20) on ∧ on .chacha20 .zeroize = true ∧ Sample.chacha20.create 64 = .ok w₀ ∧
    runHistory (fun x p op => Packed.seekStep (by decide) (Sample.chacha20.core 64) x p op) Sample.history (w₀.packed (by decide)) = .ok (os, p) ∧
    (Sample.chacha20.drop 64 on p).buf = p.buf := by
  obtain ⟨on, h⟩ := resolves_exists (fun _ => True) (fun p _ => p = .chacha20)
  obtain ⟨w₀, os, p, h0, h1, h2, _⟩ := C76_left 64 Sample.chacha20 _ _ on h (fun _ hp => hp) Sample.history (Sample.history_allowed _)
  exact ⟨on, w₀, os, p, h, h.own rfl, h0, h1, h2⟩

/-- **C76**, ChaCha and XChaCha: with the feature of `chacha20` and, through any other crate, that of `cipher`, nothing is left. -/
theorem C76_chacha (used : Pkg → Prop) (req : Pkg → Feat → Prop) (on : Pkg → Feat → Bool) (h : Resolves used req on)
    (hreq : req .chacha20 .zeroize) (p : Packed 64 ChaCha.State) :
    AllZero (ChaCha.dropCipher on p).core ∧ ((∃ q, req q .zeroize ∧ q ≠ .chacha20) → AllZero (ChaCha.dropCipher on p).buf) := by
  constructor
  · have e : (ChaCha.dropCipher on p).core = zeroizeArray p.core := by
      simp only [ChaCha.dropCipher, Packed.drop, ChaCha.dropState, h.own hreq, if_true]
    rw [e]
    exact zeroizeArray_allZero _
  · rintro ⟨q, hq, hne⟩
    have e : (ChaCha.dropCipher on p).buf = zeroizeArray p.buf := by
      simp only [ChaCha.dropCipher, Packed.drop, h.buffer hq hne, if_true]
    rw [e]
    exact zeroizeArray_allZero _

example : ∃ on, Resolves (fun _ => True) (fun p f => f = .zeroize ∧ (p = .chacha20 ∨ p = .cipher)) on ∧
    (ChaCha.dropCipher on ⟨Vector.replicate 16 3, Vector.replicate 64 7⟩).buf[40] = 0 := by
  obtain ⟨on, h⟩ := resolves_exists (fun _ => True) (fun p f => f = .zeroize ∧ (p = .chacha20 ∨ p = .cipher))
  exact ⟨on, h, (C76_chacha _ _ on h ⟨rfl, .inl rfl⟩ _).2 ⟨.cipher, ⟨rfl, .inr rfl⟩, by decide⟩ 40 (by decide)⟩

end Verif
