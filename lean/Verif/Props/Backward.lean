import Verif.Spec.Backward
import Verif.Props.Merge
import Verif.Props.Structure
import Verif.Props.Streams
/-!
# RC4 and HC-256 run backwards (C73)
-/
namespace Verif
open Spec

theorem booked_io (st : Nat → U8) (h : List (Unit × Op)) : trackAll 0 (h.map fun e => .io e.2) (Cursor.run (Cursor.io st none) (h.map (·.2)) 0).1 =
    (Cursor.run (Cursor.io st none) (h.map (·.2)) 0).2 := by
  have e := (ioLike_plain 16 st none).trackAll (h.map (·.2)) 0
  rw [List.map_map] at e
  exact e

namespace Rc4

theorem fin_add_sub (a b : Fin 256) : a + b - b = a := by
  apply Fin.ext
  have := a.isLt
  have := b.isLt
  rw [Fin.sub_def, Fin.add_def]
  simp only
  omega

theorem fin_sub_add (a b : Fin 256) : a - b + b = a := by
  apply Fin.ext
  have := a.isLt
  have := b.isLt
  rw [Fin.sub_def, Fin.add_def]
  simp only
  omega

theorem prev_next (s : Spec.Rc4.St) : Spec.Rc4.prev (Spec.Rc4.next s) = s := by
  obtain ⟨S, i, j⟩ := s
  simp only [Spec.Rc4.prev, Spec.Rc4.next, swap_swap, fin_add_sub]

theorem next_prev (s : Spec.Rc4.St) : Spec.Rc4.next (Spec.Rc4.prev s) = s := by
  obtain ⟨S, i, j⟩ := s
  simp only [Spec.Rc4.prev, Spec.Rc4.next, fin_sub_add, swap_swap]

theorem undo_after (key : List U8) (n : Nat) : Spec.Rc4.undo n (Spec.Rc4.after key n) = Spec.Rc4.after key 0 := by
  induction n with
  | zero => rfl
  | succ n ih => rw [Spec.Rc4.undo, show Spec.Rc4.after key (n + 1) = Spec.Rc4.next (Spec.Rc4.after key n) from rfl, prev_next, ih]

theorem rewind_after (key : List U8) (n : Nat) : Spec.Rc4.rewind n (Spec.Rc4.after key n) = window (Spec.Rc4.stream key) 0 n := by
  induction n with
  | zero => rfl
  | succ n ih =>
    rw [Spec.Rc4.rewind, window_add, Spec.Rc4.after, prev_next, ih, Nat.zero_add]
    rfl

theorem iter_i (n : Nat) : ∀ s : State, (iter n (fun s => (prga s).2) s).i = s.i + BitVec.ofNat 8 n := by
  induction n with
  | zero => intro s; exact (BitVec.add_zero s.i).symm
  | succ n ih =>
    intro s
    show (iter n (fun s => (prga s).2) (prga s).2).i = _
    rw [ih]
    show s.i + 1 + BitVec.ofNat 8 n = _
    apply BitVec.eq_of_toNat_eq
    simp only [BitVec.toNat_add, BitVec.toNat_ofNat]
    have : (1 : U8).toNat = 1 := rfl
    omega

end Rc4

/-- An RC4 state as the numbers of `Spec/Rc4`. -/
def Rc4.State.numbers (s : Rc4.State) : Spec.Rc4.St := ⟨fun k => (s.state[k.val]).toFin, s.i.toFin, s.j.toFin⟩

/-- **C73**, RC4.  The object left by any history that has used `p` bytes gives back those `p` keystream bytes and the state made by the key schedule,
without the key. -/
theorem C73_rc4 (u : Nat) (key : List U8) (hkey : 1 ≤ key.length ∧ key.length ≤ 256) {h : List (Unit × Op)} {os : List Obs} {w : Rc4.State}
    (hr : (PlainCipher.rc4 key hkey).Reach u h os w) :
    Spec.Rc4.rewind (PlainCipher.booked h os) w.numbers = window (Spec.Rc4.stream key) 0 (PlainCipher.booked h os) ∧
    Spec.Rc4.undo (PlainCipher.booked h os) w.numbers = Spec.Rc4.after key 0 := by
  obtain ⟨hh, w₀, hc, hrun⟩ := hr
  obtain ⟨s, hs, hv⟩ := Rc4.newFromSlice_ok key hkey
  have hc : (do match ← Rc4.newFromSlice key with | .ok s => return s | .error _ => .error .unwrap : Except Panic Rc4.State) = .ok w₀ := hc
  rw [hs] at hc
  have hc : (.ok s : Except Panic Rc4.State) = .ok w₀ := hc
  cases hc
  obtain ⟨s', h1, h2⟩ := Rc4.history_rel key h w₀ 0 hv
  have hrun : runHistory Rc4.step h w₀ = .ok (os, w) := hrun
  rw [hrun] at h1
  simp only [Except.ok.injEq, Prod.mk.injEq] at h1
  obtain ⟨ho, rfl⟩ := h1
  have hb : PlainCipher.booked h os = (Cursor.run (Cursor.io (Spec.Rc4.stream key) none) (h.map (·.2)) 0).2 := by
    rw [ho, PlainCipher.booked]
    exact booked_io _ h
  rw [hb]
  have hv' : w.numbers = Spec.Rc4.after key (Cursor.run (Cursor.io (Spec.Rc4.stream key) none) (h.map (·.2)) 0).2 := h2
  rw [hv']
  exact ⟨Rc4.rewind_after key _, Rc4.undo_after key _⟩

/-- Five bytes of RC4 under the key `1, 2, 3`, in two calls. -/
example : ∃ os w, (PlainCipher.rc4 [1, 2, 3] (by decide)).Reach 64 [((), .apply [9, 9]), ((), .write [0, 0, 0])] os w ∧
    Spec.Rc4.rewind 5 w.numbers = window (Spec.Rc4.stream [1, 2, 3]) 0 5 := by
  obtain ⟨w, hw⟩ := (PlainCipher.rc4 [1, 2, 3] (by decide)).reach_exists 64 (by decide) [((), .apply [9, 9]), ((), .write [0, 0, 0])] (by
    intro e he
    simp only [List.mem_cons, List.not_mem_nil, or_false] at he
    rcases he with rfl | rfl
    · show [(9 : U8), 9].length < 2 ^ 64
      decide
    · show [(0 : U8), 0, 0].length < 2 ^ 64
      decide)
  have e := (C73_rc4 64 [1, 2, 3] (by decide) hw).1
  have hb : PlainCipher.booked [((), .apply [9, 9]), ((), .write [0, 0, 0])] _ = 5 :=
    booked_io (PlainCipher.rc4 [1, 2, 3] (by decide)).stream [((), .apply [9, 9]), ((), .write [0, 0, 0])]
  rw [hb] at e
  exact ⟨_, w, hw, e⟩

/-- **C73**, RC4.  The number of bytes that leads from a state back to itself is a multiple of 256. -/
theorem C73_rc4_return (s : Rc4.State) (buf out : List U8) (h : Rc4.step () s (.write buf) = .ok (.data (.ok ()) out, s)) : 256 ∣ buf.length := by
  simp only [Rc4.step, Rc4.checkRemaining, Except.ok.injEq, Prod.mk.injEq] at h
  have e := h.2
  rw [Rc4.write_state] at e
  have hi := congrArg (fun s : Rc4.State => s.i.toNat) e
  rw [Rc4.iter_i, BitVec.toNat_add, BitVec.toNat_ofNat] at hi
  have := s.i.isLt
  omega

/-- Returns exist (C58). -/
example (s : Rc4.State) : ∃ p, 256 ≤ p ∧ ∃ out, Rc4.step () s (.write (List.replicate p 0)) = .ok (.data (.ok ()) out, s) := by
  obtain ⟨p, h0, h⟩ := C58_rc4 s
  obtain ⟨out, h⟩ := h (List.replicate p 0) List.length_replicate
  have e := C73_rc4_return s _ out h
  rw [List.length_replicate] at e
  exact ⟨p, Nat.le_of_dvd h0 e, out, h⟩

namespace Hc256

theorem sub_of_add {a b c : U32} (h : a = b + c) : b = a - c := by rw [h, BitVec.add_sub_cancel]

theorem upd_undo (A B : Fin 1024 → U32) (j : Fin 1024) (v : U32) (T : Fin 1024 → U32)
    (hv : v = A j + A (j - 10) + Spec.Hc256.g B (A (j - 3)) (A (j - 1023))) (hT : T = Spec.Hc256.upd A j v) :
    Spec.Hc256.upd T j (T j - T (j - 10) - Spec.Hc256.g B (T (j - 3)) (T (j - 1023))) = A := by
  have ho : ∀ k, k ≠ j → T k = A k := fun k hk => by rw [hT, Spec.Hc256.upd, if_neg hk]
  have hj : T j = v := by rw [hT, Spec.Hc256.upd, if_pos rfl]
  funext k
  by_cases hk : k = j
  · subst hk
    rw [Spec.Hc256.upd, if_pos rfl, ho _ (sub_ne k 10 (by decide)), ho _ (sub_ne k 3 (by decide)), ho _ (sub_ne k 1023 (by decide)), hj, hv]
    generalize Spec.Hc256.g B _ _ = x
    apply BitVec.eq_of_toNat_eq
    simp only [BitVec.toNat_sub, BitVec.toNat_add]
    have := (A k).isLt
    have := (A (k - 10)).isLt
    have := x.isLt
    omega
  · rw [Spec.Hc256.upd, if_neg hk, ho k hk]

theorem unstep_step (n : Nat) (t : Spec.Hc256.Tables) : Spec.Hc256.unstep n (Spec.Hc256.step n t).2 = t := by
  obtain ⟨P, Q⟩ := t
  unfold Spec.Hc256.step Spec.Hc256.unstep
  dsimp only
  by_cases h : n % 2048 < 1024
  · rw [if_pos h, if_pos h]
    exact congrArg (Spec.Hc256.Tables.mk · Q) (upd_undo P Q _ _ _ rfl rfl)
  · rw [if_neg h, if_neg h]
    exact congrArg (Spec.Hc256.Tables.mk P) (upd_undo Q P _ _ _ rfl rfl)

theorem undo_before (t : Spec.Hc256.Tables) (n : Nat) : Spec.Hc256.undo n (Spec.Hc256.before t n) = t := by
  induction n with
  | zero => rfl
  | succ n ih => rw [Spec.Hc256.undo, Spec.Hc256.before, unstep_step, ih]

theorem unexpand_eq (key iv : Vector U8 32) (d : Nat) : ∀ i, 512 ≤ i + d → i < 2560 →
    Spec.Hc256.unexpand (Spec.Hc256.tables key iv) i = Spec.Hc256.W key iv i := by
  induction d with
  | zero =>
    intro i h1 h2
    rw [Spec.Hc256.unexpand]
    by_cases h : 1536 ≤ i
    · rw [if_pos h]
      show Spec.Hc256.W key iv ((i - 1536) % 1024 + 1536) = _
      rw [show (i - 1536) % 1024 + 1536 = i by omega]
    · rw [if_neg h, if_pos (by omega)]
      show Spec.Hc256.W key iv ((i - 512) % 1024 + 512) = _
      rw [show (i - 512) % 1024 + 512 = i by omega]
  | succ d ih =>
    intro i h1 h2
    by_cases h : 512 ≤ i + d
    · exact ih i h h2
    · rw [Spec.Hc256.unexpand, if_neg (by omega), if_neg (by omega), ih (i + 16) (by omega) (by omega), ih (i + 1) (by omega) (by omega),
        ih (i + 9) (by omega) (by omega), ih (i + 14) (by omega) (by omega), W_rec key iv (i + 16) (by omega),
        show i + 16 - 2 = i + 14 by omega, show i + 16 - 7 = i + 9 by omega, show i + 16 - 15 = i + 1 by omega, show i + 16 - 16 = i by omega]
      generalize Spec.Hc256.f2 _ = a
      generalize Spec.Hc256.f1 _ = b
      generalize Spec.Hc256.W key iv (i + 9) = c
      generalize Spec.Hc256.W key iv i = e
      generalize BitVec.ofNat 32 (i + 16) = f
      have := a.isLt
      have := b.isLt
      have := c.isLt
      have := e.isLt
      have := f.isLt
      apply BitVec.eq_of_toNat_eq
      simp only [BitVec.toNat_sub, BitVec.toNat_add]
      omega

theorem recover_eq (key iv : Vector U8 32) (n : Nat) :
    Spec.Hc256.recover n (Spec.Hc256.before (Spec.Hc256.initialise key iv) n) = (key, iv) := by
  unfold Spec.Hc256.recover
  dsimp only
  rw [undo_before, Spec.Hc256.initialise, undo_before]
  have byte : ∀ (b : Vector U8 32) (f : Nat → U32), (∀ i, i < 8 → f i = leWord b.toList i) →
      (Vector.ofFn fun k : Fin 32 => leByte (f (k.val / 4)).toNat (k.val % 4)) = b := by
    intro b f hf
    apply Vector.ext
    intro i hi
    rw [Vector.getElem_ofFn]
    dsimp only
    rw [hf (i / 4) (by omega), leByte_leWord b.toList (i / 4) (i % 4) (by omega) (by simp; omega)]
    simp only [Vector.getElem_toList, show 4 * (i / 4) + i % 4 = i by omega]
  refine congr (congrArg Prod.mk (byte key _ fun i hi => ?_)) (byte iv (fun i => Spec.Hc256.unexpand (Spec.Hc256.tables key iv) (8 + i)) fun i hi => ?_)
  · rw [unexpand_eq key iv 512 i (by omega) (by omega), W_key key iv i hi]
  · rw [unexpand_eq key iv 512 (8 + i) (by omega) (by omega), Nat.add_comm, W_iv key iv i hi]

theorem genMany_idx (m : Mode) {u : Nat} (hu : 16 ≤ u) (k : Nat) : ∀ (s t : State) (n : Nat) (l : List (Vector U8 4)), s.idx.toNat = n % 2048 →
    genMany (genBlock m u) k s = .ok (l, t) → t.idx.toNat = (n + k) % 2048 := by
  induction k with
  | zero =>
    intro s t n l h e
    simp only [genMany, Except.ok.injEq, Prod.mk.injEq] at e
    rw [← e.2, h]
    rfl
  | succ k ih =>
    intro s t n l h e
    obtain ⟨s', h1, h2, h3⟩ := genWord_step m hu s n h
    have hb : genBlock m u s = .ok (toLe32 (Spec.Hc256.step n (view s)).1, s') := by rw [genBlock, h1]; rfl
    rw [genMany, hb, ok_bind] at e
    obtain ⟨r, h4, h5⟩ := bind_ok e
    have h5 : Except.ok (_ :: r.1, r.2) = Except.ok (l, t) := h5
    simp only [Except.ok.injEq, Prod.mk.injEq] at h5
    have := ih s' r.2 (n + 1) r.1 h3 h4
    rw [h5.2] at this
    rw [this, show n + 1 + k = n + (k + 1) by omega]

end Hc256

/-- **C73**, HC-256.  The object left by any history gives back the key and the IV: `p` bytes used are `⌈p/4⌉` words drawn. -/
theorem C73_hc256 (m : Mode) (u : Nat) (hu : 16 ≤ u) (key iv : Vector U8 32) {h : List (Unit × Op)} {os : List Obs} {w : Wrapper 4 Hc256.State}
    (hr : (PlainCipher.hc256 m key iv).Reach u h os w) :
    Spec.Hc256.recover ((PlainCipher.booked h os + 3) / 4) ⟨fun i => w.core.ptable[i], fun i => w.core.qtable[i]⟩ = (key, iv) := by
  obtain ⟨hh, w₀, hc, hrun⟩ := hr
  obtain ⟨s, hs, hv⟩ := Hc256.new_eq m hu key iv
  have hc : Hc256.cipher m u key iv = .ok w₀ := hc
  rw [Hc256.cipher, hs, Hc256.ok_bind] at hc
  have hc : (.ok (Wrapper.fromCore s) : Except Panic (Wrapper 4 Hc256.State)) = .ok w₀ := hc
  have hc := Except.ok.inj hc
  subst hc
  obtain ⟨w', h1, h2⟩ := history_spec (Hc256.coreLaw m hu key iv) (by decide) h _ 0 (At.fromCore (by decide) s hv none) hh
  have h1 := Prod.mk.inj (Except.ok.inj (hrun.symm.trans h1))
  obtain ⟨ho, rfl⟩ := h1
  have hb : PlainCipher.booked h os =
      (Cursor.run (Cursor.io (byteStream (Spec.Hc256.block key iv) (by decide)) (byteLimit 4 none)) (h.map (·.2)) 0).2 := by
    rw [ho, PlainCipher.booked]
    exact booked_io _ h
  obtain ⟨n, hrel, hn, -⟩ := h2.ex
  have h3 := h2.pos_le
  have h4 := h2.pos_pos
  rw [← hb] at hn
  have e : (PlainCipher.booked h os + 3) / 4 = n := by omega
  rw [e]
  have hview : (⟨fun i => w.core.ptable[i], fun i => w.core.qtable[i]⟩ : Spec.Hc256.Tables) = Spec.Hc256.before (Spec.Hc256.initialise key iv) n := hrel.1
  rw [hview]
  exact Hc256.recover_eq key iv n

/-- Six bytes are two words. -/
example : ∃ os w, (PlainCipher.hc256 .debug (Sample.bytes 32 0) (Sample.bytes 32 7)).Reach 64 [((), .write [0, 0, 0, 0, 0, 0])] os w ∧
    Spec.Hc256.recover 2 ⟨fun i => (show Wrapper 4 Hc256.State from w).core.ptable[i], fun i => (show Wrapper 4 Hc256.State from w).core.qtable[i]⟩ =
      (Sample.bytes 32 0, Sample.bytes 32 7) := by
  obtain ⟨w, hw⟩ := (PlainCipher.hc256 .debug (Sample.bytes 32 0) (Sample.bytes 32 7)).reach_exists 64 (by decide) [((), .write [0, 0, 0, 0, 0, 0])] (by
    intro e he
    simp only [List.mem_cons, List.not_mem_nil, or_false] at he
    subst he
    show [(0 : U8), 0, 0, 0, 0, 0].length < 2 ^ 64
    decide)
  have e := C73_hc256 .debug 64 (by decide) _ _ hw
  have hb : PlainCipher.booked [((), .write [0, 0, 0, 0, 0, 0])] _ = 6 :=
    booked_io (PlainCipher.hc256 .debug (Sample.bytes 32 0) (Sample.bytes 32 7)).stream [((), .write [0, 0, 0, 0, 0, 0])]
  rw [hb] at e
  exact ⟨_, w, hw, e⟩

/-- **C73**, HC-256.  The number of words that leads from a state (with its index in range) back to itself is a multiple of 2048. -/
theorem C73_hc256_return (m : Mode) (u : Nat) (hu : 16 ≤ u) (s : Hc256.State) (hs : s.idx.toNat < 2048) (p : Nat) (l : List (Vector U8 4))
    (h : genMany (Hc256.genBlock m u) p s = .ok (l, s)) : 2048 ∣ p := by
  have e := Hc256.genMany_idx m hu p s s s.idx.toNat l (Nat.mod_eq_of_lt hs).symm h
  omega

/-- Returns exist (C58). -/
example (p q : Vector U32 1024) : ∃ n l, 2048 ≤ n ∧ genMany (Hc256.genBlock .debug 64) n ⟨p, q, 5#32⟩ = .ok (l, ⟨p, q, 5#32⟩) := by
  obtain ⟨n, l, h0, h⟩ := C58_hc256 .debug 64 (by decide) ⟨p, q, 5#32⟩ (by decide : (5#32).toNat < 2048)
  exact ⟨n, l, Nat.le_of_dvd h0 (C73_hc256_return .debug 64 (by decide) _ (by decide : (5#32).toNat < 2048) n l h), h⟩

end Verif
