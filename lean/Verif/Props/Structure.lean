import Verif.Props.Merge
import Verif.Props.Salsa
import Verif.Props.Counter
import Verif.Props.Others
import Mathlib.Data.Finite.Prod
import Mathlib.Data.Fintype.Pigeonhole
import Mathlib.Data.Fintype.EquivFin
/-!
# Structural facts about Salsa, RC4 and HC-256 (C56, C57, C58)
-/
namespace Verif
open Spec

/-! ## C56 -/

/-- The top bit of every word inverted. -/
def flipTop (s : Vector U32 16) : Vector U32 16 := s.map (· ^^^ 0x80000000#32)

theorem xor_top (a : U32) : a ^^^ 0x80000000#32 = a + 0x80000000#32 := by
  have ht : (0x80000000#32 : U32) = BitVec.twoPow 32 31 := by decide
  have key : ∀ a : U32, a.getLsbD 31 = false → a ^^^ 0x80000000#32 = a + 0x80000000#32 := by
    intro a ha
    have hz : a &&& 0x80000000#32 = 0#32 := by
      apply BitVec.eq_of_getLsbD_eq
      intro i hi
      rw [BitVec.getLsbD_and, ht, BitVec.getLsbD_twoPow, BitVec.getLsbD_zero]
      by_cases h : 31 = i
      · subst h; rw [ha]; rfl
      · simp [h]
    rw [BitVec.add_eq_or_of_and_eq_zero _ _ hz]
    apply BitVec.eq_of_getLsbD_eq
    intro i hi
    rw [BitVec.getLsbD_xor, BitVec.getLsbD_or, ht, BitVec.getLsbD_twoPow]
    by_cases h : 31 = i
    · subst h; rw [ha]; rfl
    · simp [h]
  cases ha : a.getLsbD 31 with
  | false => exact key a ha
  | true =>
    have hb := key (a ^^^ 0x80000000#32) (by
      rw [BitVec.getLsbD_xor, ha, ht, BitVec.getLsbD_twoPow]
      rfl)
    rw [BitVec.xor_assoc, BitVec.xor_self, BitVec.xor_zero] at hb
    have h2 := congrArg (· + 0x80000000#32) hb
    simp only [BitVec.add_assoc] at h2
    rw [h2, show (0x80000000#32 : U32) + 0x80000000#32 = 0#32 by decide, BitVec.add_zero]

theorem flip_add (a b : U32) : (a ^^^ 0x80000000#32) + (b ^^^ 0x80000000#32) = a + b := by
  rw [xor_top, xor_top, BitVec.add_assoc, ← BitVec.add_assoc 0x80000000#32, BitVec.add_comm 0x80000000#32 b, BitVec.add_assoc b,
    show (0x80000000#32 : U32) + 0x80000000#32 = 0#32 by decide, BitVec.add_zero]

theorem flip_step (s : Vector U32 16) (a b d : Fin 16) (r : Nat) :
    (flipTop s).set b ((flipTop s)[b] ^^^ ((flipTop s)[a] + (flipTop s)[d]).rotateLeft r) =
      flipTop (s.set b (s[b] ^^^ (s[a] + s[d]).rotateLeft r)) := by
  unfold flipTop
  rw [Vector.map_set]
  simp only [Fin.getElem_fin, Vector.getElem_map, flip_add]
  rw [BitVec.xor_assoc, BitVec.xor_comm 0x80000000#32, ← BitVec.xor_assoc]

theorem flip_quarterRound (a b c d : Fin 16) (s : Vector U32 16) :
    Salsa.quarterRound a b c d (flipTop s) = flipTop (Salsa.quarterRound a b c d s) := by
  simp only [Salsa.quarterRound, flip_step]

theorem flip_doubleRound (s : Vector U32 16) : Salsa.doubleRound (flipTop s) = flipTop (Salsa.doubleRound s) := by
  simp only [Salsa.doubleRound, flip_quarterRound]

theorem flip_runRounds (dr : Nat) (s : Vector U32 16) : Salsa.runRounds dr (flipTop s) = Salsa.runRounds dr s := by
  have h : iter dr Salsa.doubleRound (flipTop s) = flipTop (iter dr Salsa.doubleRound s) :=
    (iter_comm_hom Salsa.doubleRound Salsa.doubleRound flipTop (fun x => (flip_doubleRound x).symm) dr s).symm
  unfold Salsa.runRounds
  rw [h]
  apply Vector.ext
  intro i hi
  simp only [flipTop, Vector.getElem_zipWith, Vector.getElem_map, flip_add]

theorem flip_toNat (a : U32) : (a ^^^ 0x80000000#32).toNat = (a.toNat + 2 ^ 31) % 2 ^ 32 := by
  rw [xor_top, BitVec.toNat_add]
  rfl

/-- The flipped state, `i` blocks on, as long as neither counter carries into its upper word. -/
theorem flip_at (s : Vector U32 16) (i : Nat) (h : s[8].toNat % 2 ^ 31 + i < 2 ^ 31) :
    Salsa.at' (flipTop s) ((Salsa.getBlockPos (flipTop s)).toNat + i) = flipTop (Salsa.at' s ((Salsa.getBlockPos s).toNat + i)) := by
  have e8 : (flipTop s)[8] = s[8] ^^^ 0x80000000#32 := by simp only [flipTop, Vector.getElem_map]
  have e9 : (flipTop s)[9] = s[9] ^^^ 0x80000000#32 := by simp only [flipTop, Vector.getElem_map]
  have l8 := s[8].isLt
  have l9 := s[9].isLt
  have p1 := Salsa.getBlockPos_toNat s
  have p2 := Salsa.getBlockPos_toNat (flipTop s)
  rw [e8, e9, flip_toNat, flip_toNat] at p2
  apply Vector.ext
  intro j hj
  have hf : (flipTop (Salsa.at' s ((Salsa.getBlockPos s).toNat + i)))[j] =
      (Salsa.at' s ((Salsa.getBlockPos s).toNat + i))[j] ^^^ 0x80000000#32 := by simp only [flipTop, Vector.getElem_map]
  rw [hf]
  unfold Salsa.at'
  by_cases h8 : j = 8
  · subst h8
    rw [Salsa.setBlockPos_8, Salsa.setBlockPos_8]
    apply BitVec.eq_of_toNat_eq
    rw [flip_toNat, Salsa.lo_toNat, Salsa.lo_toNat, BitVec.toNat_ofNat, BitVec.toNat_ofNat, p1, p2]
    omega
  by_cases h9 : j = 9
  · subst h9
    rw [Salsa.setBlockPos_9, Salsa.setBlockPos_9]
    apply BitVec.eq_of_toNat_eq
    rw [flip_toNat, Salsa.hi_toNat, Salsa.hi_toNat, BitVec.toNat_ofNat, BitVec.toNat_ofNat, p1, p2]
    omega
  rw [Salsa.setBlockPos_other _ _ _ hj h8 h9, Salsa.setBlockPos_other _ _ _ hj h8 h9]
  simp only [flipTop, Vector.getElem_map]

/-- **C56**.  Cores made by `from_raw_state` from a state and from the same state with the top bit of every word inverted give the same
keystream - as long as the low counter word does not pass a multiple of `2^31`. -/
theorem C56_collision {χ : Type} (u : Nat) (m : Mode) (dr : Nat) (x : χ) (s : Vector U32 16) (k : Nat)
    (hk : s[8].toNat % 2 ^ 31 + k ≤ 2 ^ 31)
    (hm : m = .release ∨ (Salsa.getBlockPos s).toNat + k ≤ 2 ^ 64 - 1 ∧ (Salsa.getBlockPos (flipTop s)).toNat + k ≤ 2 ^ 64 - 1) :
    ∃ out t t', (Salsa.core χ u m dr).process x (writeBlocksClosure k) s = .ok (out, t) ∧
      (Salsa.core χ u m dr).process x (writeBlocksClosure k) (flipTop s) = .ok (out, t') := by
  have h1 := Salsa.process_of_ref u m dr x (writeBlocksClosure k) s _ k (hm.imp id And.left) (writeBlocks_ref _ 1 (by decide) k _)
  have h2 := Salsa.process_of_ref u m dr x (writeBlocksClosure k) (flipTop s) _ k (hm.imp id And.right) (writeBlocks_ref _ 1 (by decide) k _)
  have hb : blocksFrom (Salsa.ksOf dr (flipTop s)) (Salsa.getBlockPos (flipTop s)).toNat k = blocksFrom (Salsa.ksOf dr s) (Salsa.getBlockPos s).toNat k := by
    unfold blocksFrom
    apply List.map_congr_left
    intro i hi
    have := List.mem_range.1 hi
    unfold Salsa.ksOf
    rw [flip_at s i (by omega), flip_runRounds]
  rw [hb] at h2
  exact ⟨_, _, _, h1, h2⟩

/-- A state for which 1000 blocks coincide. -/
example : (Vector.replicate 16 5#32)[8].toNat % 2 ^ 31 + 1000 ≤ 2 ^ 31 ∧ flipTop (Vector.replicate 16 5#32) ≠ Vector.replicate 16 5#32 := by
  refine ⟨by decide, fun h => ?_⟩
  have e := congrArg (fun v : Vector U32 16 => v[0]) h
  simp [flipTop] at e

/-- No key and nonce lead to both: the constants are not flipped by a change of key or nonce. -/
theorem C56_unreachable (key key' : Vector U8 32) (nonce nonce' : Vector U8 8) (b b' : U64) :
    Salsa.setBlockPos (Salsa.new key nonce) b ≠ flipTop (Salsa.setBlockPos (Salsa.new key' nonce') b') := by
  intro h
  have e := congrArg (fun v : Vector U32 16 => v[0]) h
  simp only [flipTop, Vector.getElem_map] at e
  rw [Salsa.setBlockPos_other _ _ _ (by decide) (by decide) (by decide), Salsa.setBlockPos_other _ _ _ (by decide) (by decide) (by decide),
    Salsa.new_eq, Salsa.new_eq] at e
  exact absurd (show (0x61707865#32 : U32) = 0x61707865#32 ^^^ 0x80000000#32 from e) (by decide)

example : Salsa.setBlockPos (Salsa.new (Sample.bytes 32 0) (Sample.bytes 8 1)) 5#64 ≠
    flipTop (Salsa.setBlockPos (Salsa.new (Sample.bytes 32 128) (Sample.bytes 8 129)) 5#64) := C56_unreachable _ _ _ _ _ _

/-! ## C57 -/

theorem Rc4.at_swap_left (t : Vector U8 256) (a b : U8) : Rc4.at_ (Rc4.swap t a b) a = Rc4.at_ t b := by
  unfold Rc4.at_ Rc4.swap Rc4.at_
  dsimp only
  rw [Vector.getElem_set]
  split
  · rename_i h
    have : b = a := BitVec.eq_of_toNat_eq h
    subst this
    rfl
  · rw [Vector.getElem_set, if_pos rfl]

theorem Rc4.at_swap_right (t : Vector U8 256) (a b : U8) : Rc4.at_ (Rc4.swap t a b) b = Rc4.at_ t a := by
  unfold Rc4.at_ Rc4.swap Rc4.at_
  dsimp only
  rw [Vector.getElem_set, if_pos rfl]

theorem Rc4.at_swap_other (t : Vector U8 256) (a b c : U8) (ha : c ≠ a) (hb : c ≠ b) : Rc4.at_ (Rc4.swap t a b) c = Rc4.at_ t c := by
  unfold Rc4.at_ Rc4.swap Rc4.at_
  dsimp only
  rw [Vector.getElem_set, if_neg (fun h => hb (BitVec.eq_of_toNat_eq h).symm), Vector.getElem_set,
    if_neg (fun h => ha (BitVec.eq_of_toNat_eq h).symm)]

/-- **C57** (Mantin and Shamir).  If the key schedule leaves 0 in entry 2 and something other than 2 in entry 1, the second keystream byte
is 0. -/
theorem C57_second_byte (key : List U8) (s : Rc4.State) (hs : Rc4.newFromSlice key = .ok (.ok s)) (h2 : s.state[2] = 0#8)
    (h1 : s.state[1] ≠ 2#8) (a b : U8) (rest : List U8) :
    ∃ z out t, Rc4.step () s (.apply (a :: b :: rest)) = .ok (.data (.ok ()) (z :: b :: out), t) := by
  have hij : s.i = 0#8 ∧ s.j = 0#8 := by
    by_cases hk : 1 ≤ key.length ∧ key.length ≤ 256
    · obtain ⟨s₁, hs₁, hr⟩ := Rc4.newFromSlice_ok key hk
      rw [hs] at hs₁
      cases hs₁
      have e1 : Spec.Rc4.num s.i = 0 := congrArg Spec.Rc4.St.i hr
      have e2 : Spec.Rc4.num s.j = 0 := congrArg Spec.Rc4.St.j hr
      exact ⟨Rc4.num_inj e1, Rc4.num_inj e2⟩
    · rw [Rc4.newFromSlice_err key hk] at hs
      cases hs
  obtain ⟨st, i, j⟩ := s
  obtain ⟨rfl, rfl⟩ := hij
  have z : (Rc4.prga (Rc4.prga ⟨st, 0#8, 0#8⟩).2).1 = 0#8 := by
    have q1 : Rc4.at_ st 2#8 = 0#8 := h2
    have q2 : Rc4.at_ st 1#8 ≠ 2#8 := h1
    unfold Rc4.prga
    dsimp only
    rw [show (0#8 : U8) + 1 = 1#8 by decide, show (1#8 : U8) + 1 = 2#8 by decide, BitVec.zero_add]
    generalize hx : Rc4.at_ st 1#8 = x at *
    have r1 : Rc4.at_ (Rc4.swap st 1#8 x) 2#8 = 0#8 := by
      rw [Rc4.at_swap_other _ _ _ _ (by decide) (Ne.symm q2), q1]
    have r2 : Rc4.at_ (Rc4.swap st 1#8 x) x = x := by rw [Rc4.at_swap_right, hx]
    have a1 : Rc4.at_ (Rc4.swap (Rc4.swap st 1#8 x) 2#8 x) 2#8 = x := by rw [Rc4.at_swap_left, r2]
    have a2 : Rc4.at_ (Rc4.swap (Rc4.swap st 1#8 x) 2#8 x) x = 0#8 := by rw [Rc4.at_swap_right, r1]
    rw [r1, BitVec.add_zero, a1, a2, BitVec.add_zero, a2]
  refine ⟨(Rc4.prga ⟨st, 0#8, 0#8⟩).1 ^^^ a, (Rc4.applyKeystream rest (Rc4.prga (Rc4.prga ⟨st, 0#8, 0#8⟩).2).2).1,
    (Rc4.applyKeystream rest (Rc4.prga (Rc4.prga ⟨st, 0#8, 0#8⟩).2).2).2, ?_⟩
  have e : (Rc4.prga (Rc4.prga ⟨st, 0#8, 0#8⟩).2).1 ^^^ b = b := by rw [z, BitVec.zero_xor]
  simp only [Rc4.step, Rc4.checkRemaining, Rc4.applyKeystream, e]

/-- Does the key satisfy the hypotheses of C57? -/
def mantinShamir (key : List U8) : Bool :=
  match Rc4.newFromSlice key with
  | .ok (.ok s) => s.state[2] == 0#8 && s.state[1] != 2#8
  | _ => false

/-- The hypotheses are satisfiable. -/
example : mantinShamir [252, 1] = true := by decide +kernel

/-! ## C58 -/

/-- An injective map on a finite set comes back to every point. -/
theorem returns {α : Type} [Finite α] (f : α → α) (hf : Function.Injective f) (x : α) : ∃ p, 0 < p ∧ iter p f x = x := by
  obtain ⟨i, j, hij, h⟩ := Finite.exists_ne_map_eq_of_infinite (fun n : Nat => iter n f x)
  have main : ∀ i j, i < j → iter i f x = iter j f x → ∃ p, 0 < p ∧ iter p f x = x := by
    intro i j hlt e
    refine ⟨j - i, by omega, ?_⟩
    apply iter_injective f hf i
    rw [← iter_add, show i + (j - i) = j by omega]
    exact e.symm
  rcases Nat.lt_or_gt_of_ne hij with h' | h'
  · exact main i j h' h
  · exact main j i h' h.symm

instance finiteU (n : Nat) : Finite (BitVec n) := Finite.of_injective BitVec.toFin (fun _ _ h => BitVec.eq_of_toFin_eq h)

instance finiteVec (n w : Nat) : Finite (Vector (BitVec w) n) :=
  Finite.of_injective (fun v : Vector (BitVec w) n => fun i : Fin n => v[i]) (fun a b h => by
    apply Vector.ext
    intro i hi
    exact congrFun h ⟨i, hi⟩)

instance : Finite Rc4.State :=
  Finite.of_injective (fun s : Rc4.State => (s.state, s.i, s.j)) (fun a b h => by
    obtain ⟨s, i, j⟩ := a
    obtain ⟨s', i', j'⟩ := b
    simp only [Prod.mk.injEq] at h
    obtain ⟨rfl, rfl, rfl⟩ := h
    rfl)

instance : Finite Hc256.State :=
  Finite.of_injective (fun s : Hc256.State => (s.ptable, s.qtable, s.idx)) (fun a b h => by
    obtain ⟨s, i, j⟩ := a
    obtain ⟨s', i', j'⟩ := b
    simp only [Prod.mk.injEq] at h
    obtain ⟨rfl, rfl, rfl⟩ := h
    rfl)

theorem Rc4.write_state (buf : List U8) (s : Rc4.State) : (Rc4.writeKeystream buf s).2 = iter buf.length (fun s => (Rc4.prga s).2) s := by
  induction buf generalizing s with
  | nil => rfl
  | cons b bs ih => simp only [Rc4.writeKeystream, ih, List.length_cons, iter]

/-- **C58**, RC4.  From every state, some number of keystream bytes leads back to that very state: the keystream of every key is periodic
from its first byte. -/
theorem C58_rc4 (s : Rc4.State) : ∃ p, 0 < p ∧ ∀ buf : List U8, buf.length = p → ∃ out, Rc4.step () s (.write buf) = .ok (.data (.ok ()) out, s) := by
  obtain ⟨p, hp, h⟩ := returns (fun s => (Rc4.prga s).2) (fun a b e => Classical.byContradiction fun hne => C40_no_merge a b hne e) s
  refine ⟨p, hp, fun buf hb => ⟨(Rc4.writeKeystream buf s).1, ?_⟩⟩
  have e : (Rc4.writeKeystream buf s).2 = s := by rw [Rc4.write_state, hb, h]
  simp only [Rc4.step, Rc4.checkRemaining]
  rw [e]

/-- The state that the key schedule makes of the key `1, 2, 3`. -/
example : ∃ s p, Rc4.newFromSlice [1, 2, 3] = .ok (.ok s) ∧ 0 < p ∧
    ∀ buf : List U8, buf.length = p → ∃ out, Rc4.step () s (.write buf) = .ok (.data (.ok ()) out, s) := by
  obtain ⟨s, hs, _⟩ := Rc4.newFromSlice_ok [1, 2, 3] (by decide)
  obtain ⟨p, h⟩ := C58_rc4 s
  exact ⟨s, p, hs, h⟩

/-- **C58**, HC-256.  From the state after set-up (and from every state with the index in range) some number of keystream words leads back
to that very state. -/
theorem C58_hc256 (m : Mode) (u : Nat) (hu : 16 ≤ u) (s : Hc256.State) (hs : s.idx.toNat < 2048) :
    ∃ p l, 0 < p ∧ genMany (Hc256.genBlock m u) p s = .ok (l, s) := by
  have tot : ∀ s : {s : Hc256.State // s.idx.toNat < 2048}, ∃ t : {s : Hc256.State // s.idx.toNat < 2048}, ∃ w,
      Hc256.genWord m u s.1 = .ok (w, t.1) := by
    rintro ⟨s, hs⟩
    obtain ⟨t, h1, _, h3⟩ := Hc256.genWord_step m hu s s.idx.toNat (Nat.mod_eq_of_lt hs).symm
    exact ⟨⟨t, by rw [h3]; exact Nat.mod_lt _ (by decide)⟩, _, h1⟩
  choose f w hf using tot
  have inj : Function.Injective f := by
    intro a b e
    apply Subtype.ext
    have h1 := hf a
    rw [e] at h1
    exact C50_step m m u hu a.1 b.1 (f b).1 (w a) (w b) a.2 b.2 h1 (hf b)
  have run : ∀ n s, ∃ l, genMany (Hc256.genBlock m u) n s.1 = .ok (l, (iter n f s).1) := by
    intro n
    induction n with
    | zero => intro s; exact ⟨[], rfl⟩
    | succ n ih =>
      intro s
      obtain ⟨l, hl⟩ := ih (f s)
      refine ⟨toLe32 (w s) :: l, ?_⟩
      rw [genMany, Hc256.genBlock, hf s, Hc256.ok_bind]
      show (genMany (Hc256.genBlock m u) n (f s).1 >>= _) = _
      rw [hl]
      rfl
  obtain ⟨p, hp, h⟩ := returns f inj ⟨s, hs⟩
  obtain ⟨l, hl⟩ := run p ⟨s, hs⟩
  rw [h] at hl
  exact ⟨p, l, hp, hl⟩

/-- The index is in range after set-up. -/
example : ∃ s, Hc256.new .debug 64 (Sample.bytes 32 0) (Sample.bytes 32 7) = .ok s ∧ s.idx.toNat < 2048 := by
  obtain ⟨s, h1, r⟩ := Hc256.new_eq .debug (u := 64) (by decide) (Sample.bytes 32 0) (Sample.bytes 32 7)
  refine ⟨s, h1, ?_⟩
  have := r.2
  omega

end Verif
