import Verif.Model.ChaCha
import Verif.Spec.ChaCha
import Verif.Proof.Word
/-! # The portable ChaCha block function computes the published one -/
namespace Verif.ChaCha
open Verif.Spec

/-- The four words of the published quarter round. -/
abbrev qr := Spec.ChaCha.quarterRound

theorem quarterRound_eq (a b c d : Fin 16) (s : State) (hab : a ≠ b) (hac : a ≠ c) (had : a ≠ d)
    (hbc : b ≠ c) (hbd : b ≠ d) (hcd : c ≠ d) :
    quarterRound a b c d s =
      (((s.set a (qr s[a] s[b] s[c] s[d])[0]).set b (qr s[a] s[b] s[c] s[d])[1]).set c
        (qr s[a] s[b] s[c] s[d])[2]).set d (qr s[a] s[b] s[c] s[d])[3] := by
  have hab' : a.val ≠ b.val := fun h => hab (Fin.ext h)
  have hac' : a.val ≠ c.val := fun h => hac (Fin.ext h)
  have had' : a.val ≠ d.val := fun h => had (Fin.ext h)
  have hbc' : b.val ≠ c.val := fun h => hbc (Fin.ext h)
  have hbd' : b.val ≠ d.val := fun h => hbd (Fin.ext h)
  have hcd' : c.val ≠ d.val := fun h => hcd (Fin.ext h)
  apply Vector.ext; intro i hi
  simp only [quarterRound, Vector.getElem_set, Fin.getElem_fin, Spec.ChaCha.quarterRound]
  by_cases h1 : d.val = i
  · subst h1
    simp [*, Ne.symm hab', Ne.symm hac', Ne.symm had', Ne.symm hbc', Ne.symm hbd', Ne.symm hcd']
  by_cases h2 : c.val = i
  · subst h2
    simp [*, Ne.symm hab', Ne.symm hac', Ne.symm had', Ne.symm hbc', Ne.symm hbd', Ne.symm hcd']
  by_cases h3 : b.val = i
  · subst h3
    simp [*, Ne.symm hab', Ne.symm hac', Ne.symm had', Ne.symm hbc', Ne.symm hbd', Ne.symm hcd']
  by_cases h4 : a.val = i
  · subst h4
    simp [*, Ne.symm hab', Ne.symm hac', Ne.symm had', Ne.symm hbc', Ne.symm hbd', Ne.symm hcd']
  simp [*]

/-- Read a 16-word state as a 4x4 matrix, row by row. -/
def toMat (s : State) : Spec.ChaCha.Mat :=
  Spec.ChaCha.mat fun i j => s[4 * i.val + j.val]

theorem mat_getElem (f : Fin 4 → Fin 4 → U32) (i j : Nat) (hi : i < 4) (hj : j < 4) :
    ((Spec.ChaCha.mat f)[i])[j] = f ⟨i, hi⟩ ⟨j, hj⟩ := by
  simp [Spec.ChaCha.mat]

theorem vec16_eta (s : State) : s = #v[s[0], s[1], s[2], s[3], s[4], s[5], s[6], s[7], s[8], s[9], s[10],
    s[11], s[12], s[13], s[14], s[15]] := by
  apply Vector.ext
  apply forall_lt16 <;> rfl

attribute [local irreducible] Spec.ChaCha.quarterRound

theorem qr_lit_0_4 (x0 x1 x2 x3 x4 x5 x6 x7 x8 x9 x10 x11 x12 x13 x14 x15 : U32) :
    quarterRound 0 4 8 12 #v[x0, x1, x2, x3, x4, x5, x6, x7, x8, x9, x10, x11, x12, x13, x14, x15] =
      #v[(qr x0 x4 x8 x12)[0], x1, x2, x3, (qr x0 x4 x8 x12)[1], x5, x6, x7, (qr x0 x4 x8 x12)[2], x9, x10, x11, (qr x0 x4 x8 x12)[3], x13, x14, x15] := by
  rw [quarterRound_eq 0 4 8 12 _ (by decide) (by decide) (by decide) (by decide) (by decide) (by decide)]
  unfold qr; generalize Spec.ChaCha.quarterRound = q
  rfl

theorem qr_lit_1_5 (x0 x1 x2 x3 x4 x5 x6 x7 x8 x9 x10 x11 x12 x13 x14 x15 : U32) :
    quarterRound 1 5 9 13 #v[x0, x1, x2, x3, x4, x5, x6, x7, x8, x9, x10, x11, x12, x13, x14, x15] =
      #v[x0, (qr x1 x5 x9 x13)[0], x2, x3, x4, (qr x1 x5 x9 x13)[1], x6, x7, x8, (qr x1 x5 x9 x13)[2], x10, x11, x12, (qr x1 x5 x9 x13)[3], x14, x15] := by
  rw [quarterRound_eq 1 5 9 13 _ (by decide) (by decide) (by decide) (by decide) (by decide) (by decide)]
  unfold qr; generalize Spec.ChaCha.quarterRound = q
  rfl

theorem qr_lit_2_6 (x0 x1 x2 x3 x4 x5 x6 x7 x8 x9 x10 x11 x12 x13 x14 x15 : U32) :
    quarterRound 2 6 10 14 #v[x0, x1, x2, x3, x4, x5, x6, x7, x8, x9, x10, x11, x12, x13, x14, x15] =
      #v[x0, x1, (qr x2 x6 x10 x14)[0], x3, x4, x5, (qr x2 x6 x10 x14)[1], x7, x8, x9, (qr x2 x6 x10 x14)[2], x11, x12, x13, (qr x2 x6 x10 x14)[3], x15] := by
  rw [quarterRound_eq 2 6 10 14 _ (by decide) (by decide) (by decide) (by decide) (by decide) (by decide)]
  unfold qr; generalize Spec.ChaCha.quarterRound = q
  rfl

theorem qr_lit_3_7 (x0 x1 x2 x3 x4 x5 x6 x7 x8 x9 x10 x11 x12 x13 x14 x15 : U32) :
    quarterRound 3 7 11 15 #v[x0, x1, x2, x3, x4, x5, x6, x7, x8, x9, x10, x11, x12, x13, x14, x15] =
      #v[x0, x1, x2, (qr x3 x7 x11 x15)[0], x4, x5, x6, (qr x3 x7 x11 x15)[1], x8, x9, x10, (qr x3 x7 x11 x15)[2], x12, x13, x14, (qr x3 x7 x11 x15)[3]] := by
  rw [quarterRound_eq 3 7 11 15 _ (by decide) (by decide) (by decide) (by decide) (by decide) (by decide)]
  unfold qr; generalize Spec.ChaCha.quarterRound = q
  rfl

theorem qr_lit_0_5 (x0 x1 x2 x3 x4 x5 x6 x7 x8 x9 x10 x11 x12 x13 x14 x15 : U32) :
    quarterRound 0 5 10 15 #v[x0, x1, x2, x3, x4, x5, x6, x7, x8, x9, x10, x11, x12, x13, x14, x15] =
      #v[(qr x0 x5 x10 x15)[0], x1, x2, x3, x4, (qr x0 x5 x10 x15)[1], x6, x7, x8, x9, (qr x0 x5 x10 x15)[2], x11, x12, x13, x14, (qr x0 x5 x10 x15)[3]] := by
  rw [quarterRound_eq 0 5 10 15 _ (by decide) (by decide) (by decide) (by decide) (by decide) (by decide)]
  unfold qr; generalize Spec.ChaCha.quarterRound = q
  rfl

theorem qr_lit_1_6 (x0 x1 x2 x3 x4 x5 x6 x7 x8 x9 x10 x11 x12 x13 x14 x15 : U32) :
    quarterRound 1 6 11 12 #v[x0, x1, x2, x3, x4, x5, x6, x7, x8, x9, x10, x11, x12, x13, x14, x15] =
      #v[x0, (qr x1 x6 x11 x12)[0], x2, x3, x4, x5, (qr x1 x6 x11 x12)[1], x7, x8, x9, x10, (qr x1 x6 x11 x12)[2], (qr x1 x6 x11 x12)[3], x13, x14, x15] := by
  rw [quarterRound_eq 1 6 11 12 _ (by decide) (by decide) (by decide) (by decide) (by decide) (by decide)]
  unfold qr; generalize Spec.ChaCha.quarterRound = q
  rfl

theorem qr_lit_2_7 (x0 x1 x2 x3 x4 x5 x6 x7 x8 x9 x10 x11 x12 x13 x14 x15 : U32) :
    quarterRound 2 7 8 13 #v[x0, x1, x2, x3, x4, x5, x6, x7, x8, x9, x10, x11, x12, x13, x14, x15] =
      #v[x0, x1, (qr x2 x7 x8 x13)[0], x3, x4, x5, x6, (qr x2 x7 x8 x13)[1], (qr x2 x7 x8 x13)[2], x9, x10, x11, x12, (qr x2 x7 x8 x13)[3], x14, x15] := by
  rw [quarterRound_eq 2 7 8 13 _ (by decide) (by decide) (by decide) (by decide) (by decide) (by decide)]
  unfold qr; generalize Spec.ChaCha.quarterRound = q
  rfl

theorem qr_lit_3_4 (x0 x1 x2 x3 x4 x5 x6 x7 x8 x9 x10 x11 x12 x13 x14 x15 : U32) :
    quarterRound 3 4 9 14 #v[x0, x1, x2, x3, x4, x5, x6, x7, x8, x9, x10, x11, x12, x13, x14, x15] =
      #v[x0, x1, x2, (qr x3 x4 x9 x14)[0], (qr x3 x4 x9 x14)[1], x5, x6, x7, x8, (qr x3 x4 x9 x14)[2], x10, x11, x12, x13, (qr x3 x4 x9 x14)[3], x15] := by
  rw [quarterRound_eq 3 4 9 14 _ (by decide) (by decide) (by decide) (by decide) (by decide) (by decide)]
  unfold qr; generalize Spec.ChaCha.quarterRound = q
  rfl

/-- `doubleRound` written out with the published quarter round. -/
theorem doubleRound_lit (x0 x1 x2 x3 x4 x5 x6 x7 x8 x9 x10 x11 x12 x13 x14 x15 : U32) :
    doubleRound #v[x0, x1, x2, x3, x4, x5, x6, x7, x8, x9, x10, x11, x12, x13, x14, x15] =
    (let c0 := qr x0 x4 x8 x12
     let c1 := qr x1 x5 x9 x13
     let c2 := qr x2 x6 x10 x14
     let c3 := qr x3 x7 x11 x15
     let d0 := qr c0[0] c1[1] c2[2] c3[3]
     let d1 := qr c1[0] c2[1] c3[2] c0[3]
     let d2 := qr c2[0] c3[1] c0[2] c1[3]
     let d3 := qr c3[0] c0[1] c1[2] c2[3]
     #v[d0[0], d1[0], d2[0], d3[0],
        d3[1], d0[1], d1[1], d2[1],
        d2[2], d3[2], d0[2], d1[2],
        d1[3], d2[3], d3[3], d0[3]]) := by
  unfold doubleRound
  simp only [qr_lit_0_4, qr_lit_1_5, qr_lit_2_6, qr_lit_3_7, qr_lit_0_5, qr_lit_1_6, qr_lit_2_7, qr_lit_3_4]

theorem mat_ext (f g : Fin 4 → Fin 4 → U32) (h : ∀ i j, f i j = g i j) :
    Spec.ChaCha.mat f = Spec.ChaCha.mat g :=
  congrArg Spec.ChaCha.mat (funext fun i => funext fun j => h i j)

theorem columnRound_mat (f : Fin 4 → Fin 4 → U32) :
    Spec.ChaCha.columnRound (Spec.ChaCha.mat f) =
      Spec.ChaCha.mat fun i j => (qr (f 0 j) (f 1 j) (f 2 j) (f 3 j))[i] := by
  apply mat_ext; intro i j
  simp only [Fin.getElem_fin, mat_getElem]
  rfl

theorem toColumns_mat (f : Fin 4 → Fin 4 → U32) :
    Spec.ChaCha.toColumns (Spec.ChaCha.mat f) = Spec.ChaCha.mat fun i j => f i (j + i) := by
  apply mat_ext; intro i j
  simp only [Fin.getElem_fin, mat_getElem]

theorem toDiagonals_mat (f : Fin 4 → Fin 4 → U32) :
    Spec.ChaCha.toDiagonals (Spec.ChaCha.mat f) = Spec.ChaCha.mat fun i j => f i (j - i) := by
  apply mat_ext; intro i j
  simp only [Fin.getElem_fin, mat_getElem]

theorem fin4_cases {P : Fin 4 → Prop} (h0 : P 0) (h1 : P 1) (h2 : P 2) (h3 : P 3) : ∀ i, P i
  | 0 => h0 | 1 => h1 | 2 => h2 | 3 => h3

/-- The index bookkeeping of a double round, for an arbitrary quarter round `q`. -/
theorem doubleRound_indices (q : U32 → U32 → U32 → U32 → Vector U32 4) (s : State) :
    ∀ i j : Fin 4,
    (let c0 := q s[0] s[4] s[8] s[12]
     let c1 := q s[1] s[5] s[9] s[13]
     let c2 := q s[2] s[6] s[10] s[14]
     let c3 := q s[3] s[7] s[11] s[15]
     let d0 := q c0[0] c1[1] c2[2] c3[3]
     let d1 := q c1[0] c2[1] c3[2] c0[3]
     let d2 := q c2[0] c3[1] c0[2] c1[3]
     let d3 := q c3[0] c0[1] c1[2] c2[3]
     #v[d0[0], d1[0], d2[0], d3[0],
        d3[1], d0[1], d1[1], d2[1],
        d2[2], d3[2], d0[2], d1[2],
        d1[3], d2[3], d3[3], d0[3]])[4 * i.val + j.val] =
    (let c : Fin 4 → Fin 4 → U32 := fun i j =>
      (q s[0 + j.val] s[4 + j.val] s[8 + j.val] s[12 + j.val])[i]
     let e : Fin 4 → Fin 4 → U32 := fun i j => c i (j + i)
     let d : Fin 4 → Fin 4 → U32 := fun i j => (q (e 0 j) (e 1 j) (e 2 j) (e 3 j))[i]
     d i (j - i)) := by
  apply fin4_cases <;> apply fin4_cases <;> rfl

theorem toMat_doubleRound (s : State) :
    toMat (doubleRound s) = Spec.ChaCha.doubleRound (toMat s) := by
  rw [toMat, toMat, Spec.ChaCha.doubleRound, Spec.ChaCha.diagonalRound,
    columnRound_mat, toColumns_mat, columnRound_mat, toDiagonals_mat]
  apply mat_ext
  have h := doubleRound_lit s[0] s[1] s[2] s[3] s[4] s[5] s[6] s[7] s[8] s[9] s[10] s[11] s[12] s[13] s[14] s[15]
  rw [← vec16_eta s] at h
  intro i j
  have h2 := doubleRound_indices qr s i j
  simp only [h]
  exact h2

theorem toMat_iter (n : Nat) (s : State) :
    toMat (iter n doubleRound s) = Spec.ChaCha.rounds n (toMat s) := by
  induction n with
  | zero => rfl
  | succ n ih => rw [iter_succ', toMat_doubleRound, ih]; rfl

/-! ## Feed-forward and serialisation -/

theorem leBytes_runRounds (dr : Nat) (s : State) :
    (leBytes (runRounds dr s) : Block) = Spec.ChaCha.serialize (Spec.ChaCha.core dr (toMat s)) := by
  apply Vector.ext; intro k hk
  rw [leBytes_getElem _ _ hk]
  have hdiv : k / 16 < 4 := by omega
  have hmod : k / 4 % 4 < 4 := by omega
  simp only [Spec.ChaCha.serialize, Vector.getElem_ofFn, Spec.ChaCha.core, mat_getElem, ← toMat_iter, runRounds,
    Vector.getElem_zipWith, Fin.getElem_fin]
  have hidx : 4 * (k / 16) + k / 4 % 4 = k / 4 := by omega
  simp only [toMat, mat_getElem, hidx]

/-! ## The block counter -/

theorem join_toNat (hi lo : U32) :
    ((hi.setWidth 64 <<< 32) ||| lo.setWidth 64 : U64).toNat = hi.toNat * 2 ^ 32 + lo.toNat := by
  rw [← BitVec.add_eq_or_of_and_eq_zero]
  · have h0 := hi.isLt; have h1 := lo.isLt
    simp only [BitVec.toNat_add, BitVec.toNat_shiftLeft, BitVec.toNat_setWidth, Nat.shiftLeft_eq]
    omega
  · ext i hi'
    simp only [BitVec.getElem_and, BitVec.getElem_shiftLeft, BitVec.getElem_setWidth, BitVec.getElem_zero]
    by_cases h : i < 32
    · simp [h]
    · simp [BitVec.getLsbD_of_ge lo i (by omega)]

theorem lo_toNat (c : U64) : ((c &&& 0xFFFFFFFF#64).setWidth 32 : U32).toNat = c.toNat % 2 ^ 32 := by
  have : (0xFFFFFFFF#64).toNat = 2 ^ 32 - 1 := by decide
  simp only [BitVec.toNat_setWidth, BitVec.toNat_and, this, Nat.and_two_pow_sub_one_eq_mod]
  omega

theorem hi_toNat (c : U64) : ((c >>> 32).setWidth 32 : U32).toNat = c.toNat / 2 ^ 32 := by
  have := c.isLt
  simp only [BitVec.toNat_setWidth, BitVec.toNat_ushiftRight, Nat.shiftRight_eq_div_pow]
  omega

theorem Ietf.get_set (s : State) (p : U32) : Ietf.getBlockPos (Ietf.setBlockPos s p) = p := by
  simp [Ietf.getBlockPos, Ietf.setBlockPos]

theorem Legacy.get_set (s : State) (p : U64) : Legacy.getBlockPos (Legacy.setBlockPos s p) = p := by
  apply BitVec.eq_of_toNat_eq
  simp only [Legacy.getBlockPos, Legacy.setBlockPos]
  rw [join_toNat]
  have h : ¬ (13 = 12) := by decide
  simp only [Vector.getElem_set, if_pos, h, if_false, hi_toNat, lo_toNat]
  omega

theorem Ietf.set_set (s : State) (p q : U32) :
    Ietf.setBlockPos (Ietf.setBlockPos s p) q = Ietf.setBlockPos s q := by
  simp [Ietf.setBlockPos]

theorem Legacy.set_set (s : State) (p q : U64) :
    Legacy.setBlockPos (Legacy.setBlockPos s p) q = Legacy.setBlockPos s q := by
  simp only [Legacy.setBlockPos]
  apply Vector.ext; intro i hi
  simp only [Vector.getElem_set]
  repeat' split
  all_goals first | rfl | omega

theorem Ietf.set_get (s : State) : Ietf.setBlockPos s (Ietf.getBlockPos s) = s := by
  simp [Ietf.setBlockPos, Ietf.getBlockPos]

theorem Legacy.set_get (s : State) : Legacy.setBlockPos s (Legacy.getBlockPos s) = s := by
  have e12 := s[12].isLt
  apply Vector.ext; intro i hi
  simp only [Legacy.setBlockPos, Legacy.getBlockPos, Vector.getElem_set]
  split
  · subst_vars
    apply BitVec.eq_of_toNat_eq
    rw [hi_toNat, join_toNat]
    omega
  · split
    · subst_vars
      apply BitVec.eq_of_toNat_eq
      rw [lo_toNat, join_toNat]
      omega
    · rfl

/-- Reading the counter back gives what was stored. -/
theorem getBlockPos_setBlockPos (V : Variant) (s : State) (p : V.Counter) :
    getBlockPos V (setBlockPos V s p) = p := by
  cases V
  · exact Ietf.get_set s p
  · exact Legacy.get_set s p

theorem setBlockPos_setBlockPos (V : Variant) (s : State) (p q : V.Counter) :
    setBlockPos V (setBlockPos V s p) q = setBlockPos V s q := by
  cases V
  · exact Ietf.set_set s p q
  · exact Legacy.set_set s p q

theorem setBlockPos_getBlockPos (V : Variant) (s : State) : setBlockPos V s (getBlockPos V s) = s := by
  cases V
  · exact Ietf.set_get s
  · exact Legacy.set_get s

/-- `s` with the block counter advanced by `k`, modulo the counter width. -/
def advance (V : Variant) (k : Nat) (s : State) : State :=
  setBlockPos V s (getBlockPos V s + BitVec.ofNat _ k)

theorem advance_ietf (k : Nat) (s : State) :
    advance .ietf k s = s.set 12 (s[12] + BitVec.ofNat 32 k) := rfl

theorem advance_legacy (k : Nat) (s : State) :
    advance .legacy k s = Legacy.setBlockPos s (Legacy.getBlockPos s + BitVec.ofNat 64 k) := rfl

theorem advance_zero (V : Variant) (s : State) : advance V 0 s = s := by
  simp [advance, setBlockPos_getBlockPos]

theorem advance_advance (V : Variant) (j k : Nat) (s : State) :
    advance V j (advance V k s) = advance V (k + j) s := by
  simp only [advance, getBlockPos_setBlockPos, setBlockPos_setBlockPos, BitVec.ofNat_add, BitVec.add_assoc]

theorem softAdvance_eq (V : Variant) (s : State) : softAdvance V s = advance V 1 s := by
  have h1 := s[12].isLt
  have h2 := s[13].isLt
  cases V
  · rw [advance_ietf]
    have h : ¬ (4 = 8) := by decide
    simp only [softAdvance, Variant.ctrBytes, h, if_false]
    congr 1
    apply BitVec.eq_of_toNat_eq
    simp only [BitVec.toNat_setWidth, BitVec.toNat_add, join_toNat]
    have : (1 : U64).toNat = 1 := rfl
    have : (BitVec.ofNat 32 1).toNat = 1 := rfl
    omega
  · rw [advance_legacy]
    simp only [softAdvance, Variant.ctrBytes, if_true, Legacy.setBlockPos, Legacy.getBlockPos]
    congr 2
    apply BitVec.eq_of_toNat_eq
    rw [lo_toNat]
    simp only [BitVec.toNat_setWidth]
    rfl

end Verif.ChaCha
