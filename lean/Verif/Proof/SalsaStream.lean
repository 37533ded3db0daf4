import Verif.Proof.SalsaCore
import Verif.Proof.Stream
/-!
# Salsa as a seekable core
-/
namespace Verif.Salsa
open Spec

/-! ## The block counter -/

theorem getBlockPos_toNat (s : State) : (getBlockPos s).toNat = s[8].toNat + 2 ^ 32 * s[9].toNat := by
  have h0 := s[8].isLt; have h1 := s[9].isLt
  simp only [getBlockPos, BitVec.toNat_add, BitVec.toNat_shiftLeft, BitVec.toNat_setWidth, Nat.shiftLeft_eq]
  omega

/-- The addition in `get_block_pos` never overflows. -/
theorem getBlockPos_no_overflow (s : State) :
    (s[8].setWidth 64 : U64).toNat + (s[9].setWidth 64 <<< 32 : U64).toNat < 2 ^ 64 := by
  have h0 := s[8].isLt; have h1 := s[9].isLt
  simp only [BitVec.toNat_shiftLeft, BitVec.toNat_setWidth, Nat.shiftLeft_eq]
  omega

theorem lo_toNat (c : U64) : ((c &&& 0xFFFFFFFF#64).setWidth 32 : U32).toNat = c.toNat % 2 ^ 32 := by
  have : (0xFFFFFFFF#64).toNat = 2 ^ 32 - 1 := by decide
  simp only [BitVec.toNat_setWidth, BitVec.toNat_and, this, Nat.and_two_pow_sub_one_eq_mod]
  omega

theorem hi_toNat (c : U64) : (((c >>> 32) &&& 0xFFFFFFFF#64).setWidth 32 : U32).toNat = c.toNat / 2 ^ 32 := by
  have := c.isLt
  rw [lo_toNat]
  simp only [BitVec.toNat_ushiftRight, Nat.shiftRight_eq_div_pow]
  omega

theorem setBlockPos_8 (s : State) (p : U64) : (setBlockPos s p)[8] = (p &&& 0xFFFFFFFF#64).setWidth 32 := by
  simp [setBlockPos]

theorem setBlockPos_9 (s : State) (p : U64) : (setBlockPos s p)[9] = ((p >>> 32) &&& 0xFFFFFFFF#64).setWidth 32 := by
  simp [setBlockPos]

theorem setBlockPos_other (s : State) (p : U64) (i : Nat) (hi : i < 16) (h8 : i ≠ 8) (h9 : i ≠ 9) :
    (setBlockPos s p)[i] = s[i] := by
  simp only [setBlockPos, Vector.getElem_set]
  rw [if_neg (by omega), if_neg (by omega)]

theorem getBlockPos_setBlockPos (s : State) (p : U64) : getBlockPos (setBlockPos s p) = p := by
  apply BitVec.eq_of_toNat_eq
  rw [getBlockPos_toNat, setBlockPos_8, setBlockPos_9, lo_toNat, hi_toNat]
  omega

theorem setBlockPos_setBlockPos (s : State) (p q : U64) : setBlockPos (setBlockPos s p) q = setBlockPos s q := by
  simp only [setBlockPos]
  apply Vector.ext; intro i hi
  simp only [Vector.getElem_set]
  repeat' split
  all_goals first | rfl | omega

theorem setBlockPos_getBlockPos (s : State) : setBlockPos s (getBlockPos s) = s := by
  have h0 := s[8].isLt; have h1 := s[9].isLt
  apply Vector.ext; intro i hi
  by_cases h8 : i = 8
  · subst h8
    rw [setBlockPos_8]
    apply BitVec.eq_of_toNat_eq
    rw [lo_toNat, getBlockPos_toNat]; omega
  by_cases h9 : i = 9
  · subst h9
    rw [setBlockPos_9]
    apply BitVec.eq_of_toNat_eq
    rw [hi_toNat, getBlockPos_toNat]; omega
  exact setBlockPos_other _ _ _ hi h8 h9

/-- State standing for block `n` of the stream of `s0`. -/
def at' (s0 : State) (n : Nat) : State := setBlockPos s0 (BitVec.ofNat 64 n)

/-- Keystream blocks of the stream of `s0`. -/
def ksOf (dr : Nat) (s0 : State) (n : Nat) : Block := leBytes (runRounds dr (at' s0 n))

/-- `s` stands for block `n`. -/
def Rel (s0 : State) (s : State) (n : Nat) : Prop := s = at' s0 n

theorem genBlock_ok (m : Mode) (dr : Nat) (s : State) (h : m = .release ∨ (getBlockPos s).toNat < 2 ^ 64 - 1) :
    genBlock m dr s = .ok (leBytes (runRounds dr s), setBlockPos s (getBlockPos s + 1)) := by
  unfold genBlock incr
  split
  · rename_i hc
    rcases h with rfl | h
    · rw [hc]; rfl
    · rw [hc] at h
      exact absurd h (by decide)
  · rfl

theorem genBlock_at' (m : Mode) (dr : Nat) (s0 : State) (n : Nat) (h : m = .release ∨ n < 2 ^ 64 - 1) :
    genBlock m dr (at' s0 n) = .ok (ksOf dr s0 n, at' s0 (n + 1)) := by
  rw [genBlock_ok]
  · simp only [ksOf, at', getBlockPos_setBlockPos, setBlockPos_setBlockPos, BitVec.ofNat_add, BitVec.ofNat_eq_ofNat]
  · refine h.imp_right fun h => ?_
    simp only [at', getBlockPos_setBlockPos, BitVec.toNat_ofNat]
    rw [Nat.mod_eq_of_lt (by omega)]
    exact h

theorem seekLaw (χ : Type) (u : Nat) (m : Mode) (dr : Nat) (s0 : State) :
    SeekLaw (core χ u m dr) u (ksOf dr s0) (Rel s0) (2 ^ 64 - 1) where
  process := by
    intro e s n hr
    refine ⟨1, by decide, ?_⟩
    intro α f a n' h hw
    obtain ⟨s', h1, h2⟩ := run_ofBlock_ref 1 (genBlock m dr) (ksOf dr s0) (Rel s0) (some (2 ^ 64 - 1)) (by
        intro s n hr hw
        refine ⟨_, ?_, rfl⟩
        rw [hr]
        have : n + 1 ≤ 2 ^ 64 - 1 := hw _ rfl
        exact genBlock_at' m dr s0 n (.inr (by omega))) _ s n a n' hr h hw
    exact ⟨s', h1, h2⟩
  remaining := by
    intro s n hr hw
    have hn : n ≤ 2 ^ 64 - 1 := hw _ rfl
    rw [hr]
    simp only [core, remainingBlocks, at', getBlockPos_setBlockPos]
    have : (BitVec.allOnes 64 - BitVec.ofNat 64 n).toNat = 2 ^ 64 - 1 - n := by
      rw [BitVec.toNat_sub_of_le, BitVec.toNat_allOnes, BitVec.toNat_ofNat, Nat.mod_eq_of_lt (by omega)]
      rw [BitVec.le_def, BitVec.toNat_allOnes, BitVec.toNat_ofNat, Nat.mod_eq_of_lt (by omega)]
      exact hn
    rw [this]
  getPos := by
    intro s n hr hn
    rw [hr]
    simp only [core, at', getBlockPos_setBlockPos, BitVec.toNat_ofNat]
    exact Nat.mod_eq_of_lt (by omega)
  setPos := by
    intro s n m hr _
    rw [hr]
    simp only [core, Rel, at', setBlockPos_setBlockPos]
  ctrMax := by simp only [core]

/-! ## Set-up -/

/-- The state built from a key and the four words in the middle. -/
def setupState (key : Vector U8 32) (n0 n1 n2 n3 : U32) : State :=
  #v[0x61707865#32, leWord key.toList 0, leWord key.toList 1, leWord key.toList 2, leWord key.toList 3,
     0x3320646e#32, n0, n1, n2, n3, 0x79622d32#32,
     leWord key.toList 4, leWord key.toList 5, leWord key.toList 6, leWord key.toList 7, 0x6b206574#32]

theorem sigma_words : leWord Spec.Salsa.sigma 0 = 0x61707865#32 ∧ leWord Spec.Salsa.sigma 1 = 0x3320646e#32 ∧
    leWord Spec.Salsa.sigma 2 = 0x79622d32#32 ∧ leWord Spec.Salsa.sigma 3 = 0x6b206574#32 := by
  decide

theorem toMat_setupState (key : Vector U8 32) (n : Fin 4 → U32) :
    toMat (setupState key (n 0) (n 1) (n 2) (n 3)) = Spec.Salsa.expand key n := by
  obtain ⟨h0, h1, h2, h3⟩ := sigma_words
  unfold Spec.Salsa.expand
  rw [h0, h1, h2, h3]
  rfl

theorem new_eq (key : Vector U8 32) (iv : Vector U8 8) :
    new key iv = setupState key (leWord iv.toList 0) (leWord iv.toList 1) 0 0 := by
  unfold new setupState
  simp only [wordAt_eq_leWord]
  rfl

theorem hsalsaState_eq (key : Vector U8 32) (inp : Vector U8 16) :
    hsalsaState key inp = setupState key (leWord inp.toList 0) (leWord inp.toList 1) (leWord inp.toList 2)
      (leWord inp.toList 3) := by
  unfold hsalsaState setupState
  simp only [wordAt_eq_leWord]
  rfl

theorem at'_setup (key : Vector U8 32) (n0 n1 n2 n3 : U32) (n : Nat) :
    at' (setupState key n0 n1 n2 n3) n = setupState key n0 n1 (BitVec.ofNat 32 n) (BitVec.ofNat 32 (n / 2 ^ 32)) := by
  have h1 : ((BitVec.ofNat 64 n &&& 0xFFFFFFFF#64).setWidth 32 : U32) = BitVec.ofNat 32 n := by
    apply BitVec.eq_of_toNat_eq
    rw [lo_toNat]; simp only [BitVec.toNat_ofNat]; omega
  have h2 : (((BitVec.ofNat 64 n >>> 32) &&& 0xFFFFFFFF#64).setWidth 32 : U32) = BitVec.ofNat 32 (n / 2 ^ 32) := by
    apply BitVec.eq_of_toNat_eq
    rw [hi_toNat]; simp only [BitVec.toNat_ofNat]; omega
  rw [← h1, ← h2]
  rfl

theorem ksOf_new (dr : Nat) (key : Vector U8 32) (iv : Vector U8 8) (n : Nat) :
    ksOf dr (new key iv) n = Spec.Salsa.block dr key iv n := by
  unfold ksOf Spec.Salsa.block
  rw [leBytes_runRounds, new_eq, at'_setup]
  exact congrArg (fun m => Spec.Salsa.serialize (Spec.Salsa.hash dr m)) (toMat_setupState key fun j => match j with
    | 0 => leWord iv.toList 0
    | 1 => leWord iv.toList 1
    | 2 => BitVec.ofNat 32 n
    | 3 => BitVec.ofNat 32 (n / 2 ^ 32))

theorem rel_new (key : Vector U8 32) (iv : Vector U8 8) : Rel (new key iv) (new key iv) 0 := by
  show new key iv = at' (new key iv) 0
  rw [new_eq, at'_setup]
  rfl

/-! ## HSalsa -/

theorem hsalsa_words (s : State) :
    (#v[s[0], s[5], s[10], s[15], s[6], s[7], s[8], s[9]] : Vector U32 8) =
      #v[(toMat s)[0][0], (toMat s)[1][1], (toMat s)[2][2], (toMat s)[3][3], (toMat s)[1][2], (toMat s)[1][3],
        (toMat s)[2][0], (toMat s)[2][1]] := rfl

theorem hsalsa_eq (dr : Nat) (key : Vector U8 32) (inp : Vector U8 16) :
    hsalsa dr key inp = Spec.Salsa.hsalsa dr key inp := by
  have hm : toMat (iter dr doubleRound (hsalsaState key inp)) =
      Spec.Salsa.rounds dr (Spec.Salsa.expand key fun j => leWord inp.toList j) := by
    rw [toMat_iter, hsalsaState_eq, ← toMat_setupState]; rfl
  unfold hsalsa Spec.Salsa.hsalsa
  dsimp only
  rw [hsalsa_words, hm]
  apply Vector.ext; intro k hk
  rw [leBytes_getElem _ _ hk, Vector.getElem_ofFn]

end Verif.Salsa
