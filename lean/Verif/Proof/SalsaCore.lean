import Verif.Model.Salsa
import Verif.Spec.Salsa
import Verif.Proof.CoreRef
import Verif.Proof.Word
/-! # The Salsa block function computes the published one -/
set_option linter.unusedSimpArgs false
namespace Verif.Salsa
open Verif.Spec

/-- The four words of the published quarter round. -/
abbrev qr := Spec.Salsa.quarterround

theorem quarterRound_eq (a b c d : Fin 16) (s : State) (hab : a ≠ b) (hac : a ≠ c) (had : a ≠ d)
    (hbc : b ≠ c) (hbd : b ≠ d) (hcd : c ≠ d) :
    quarterRound a b c d s =
      (((s.set a (qr s[a] s[b] s[c] s[d])[0]).set b (qr s[a] s[b] s[c] s[d])[1]).set c
        (qr s[a] s[b] s[c] s[d])[2]).set d (qr s[a] s[b] s[c] s[d])[3] := by
  have hab' : a.val ≠ b.val := fun h => hab (Fin.ext h)
  have hac' : a.val ≠ c.val := fun h => hac (Fin.ext h)
  have had' : a.val ≠ d.val := fun h => had (Fin.ext h)
  have hbc' : b.val ≠ c.val := fun h => hbc (Fin.ext h)
  have hbd' : b.val ≠ d.val := fun h => hbd (Fin.ext h)
  have hcd' : c.val ≠ d.val := fun h => hcd (Fin.ext h)
  apply Vector.ext; intro i hi
  simp only [quarterRound, Vector.getElem_set, Fin.getElem_fin, Spec.Salsa.quarterround]
  by_cases h1 : d.val = i
  · subst h1
    simp [*, Ne.symm hab', Ne.symm hac', Ne.symm had', Ne.symm hbc', Ne.symm hbd', Ne.symm hcd']
  by_cases h2 : c.val = i
  · subst h2
    simp [*, Ne.symm hab', Ne.symm hac', Ne.symm had', Ne.symm hbc', Ne.symm hbd', Ne.symm hcd']
  by_cases h3 : b.val = i
  · subst h3
    simp [*, Ne.symm hab', Ne.symm hac', Ne.symm had', Ne.symm hbc', Ne.symm hbd', Ne.symm hcd']
  by_cases h4 : a.val = i
  · subst h4
    simp [*, Ne.symm hab', Ne.symm hac', Ne.symm had', Ne.symm hbc', Ne.symm hbd', Ne.symm hcd']
  simp [*]

/-- Read a 16-word state as a 4x4 matrix, row by row. -/
def toMat (s : State) : Spec.Salsa.Mat :=
  Spec.Salsa.mat fun i j => s[4 * i.val + j.val]

theorem mat_getElem (f : Fin 4 → Fin 4 → U32) (i j : Nat) (hi : i < 4) (hj : j < 4) :
    ((Spec.Salsa.mat f)[i])[j] = f ⟨i, hi⟩ ⟨j, hj⟩ := by
  simp [Spec.Salsa.mat]

theorem vec16_eta (s : State) : s = #v[s[0], s[1], s[2], s[3], s[4], s[5], s[6], s[7], s[8], s[9], s[10],
    s[11], s[12], s[13], s[14], s[15]] := by
  apply Vector.ext
  apply forall_lt16 <;> rfl

attribute [local irreducible] Spec.Salsa.quarterround

theorem qr_lit_0_4 (x0 x1 x2 x3 x4 x5 x6 x7 x8 x9 x10 x11 x12 x13 x14 x15 : U32) :
    quarterRound 0 4 8 12 #v[x0, x1, x2, x3, x4, x5, x6, x7, x8, x9, x10, x11, x12, x13, x14, x15] =
      #v[(qr x0 x4 x8 x12)[0], x1, x2, x3, (qr x0 x4 x8 x12)[1], x5, x6, x7, (qr x0 x4 x8 x12)[2], x9, x10, x11, (qr x0 x4 x8 x12)[3], x13, x14, x15] := by
  rw [quarterRound_eq 0 4 8 12 _ (by decide) (by decide) (by decide) (by decide) (by decide) (by decide)]
  unfold qr; generalize Spec.Salsa.quarterround = q
  rfl

theorem qr_lit_5_9 (x0 x1 x2 x3 x4 x5 x6 x7 x8 x9 x10 x11 x12 x13 x14 x15 : U32) :
    quarterRound 5 9 13 1 #v[x0, x1, x2, x3, x4, x5, x6, x7, x8, x9, x10, x11, x12, x13, x14, x15] =
      #v[x0, (qr x5 x9 x13 x1)[3], x2, x3, x4, (qr x5 x9 x13 x1)[0], x6, x7, x8, (qr x5 x9 x13 x1)[1], x10, x11, x12, (qr x5 x9 x13 x1)[2], x14, x15] := by
  rw [quarterRound_eq 5 9 13 1 _ (by decide) (by decide) (by decide) (by decide) (by decide) (by decide)]
  unfold qr; generalize Spec.Salsa.quarterround = q
  rfl

theorem qr_lit_10_14 (x0 x1 x2 x3 x4 x5 x6 x7 x8 x9 x10 x11 x12 x13 x14 x15 : U32) :
    quarterRound 10 14 2 6 #v[x0, x1, x2, x3, x4, x5, x6, x7, x8, x9, x10, x11, x12, x13, x14, x15] =
      #v[x0, x1, (qr x10 x14 x2 x6)[2], x3, x4, x5, (qr x10 x14 x2 x6)[3], x7, x8, x9, (qr x10 x14 x2 x6)[0], x11, x12, x13, (qr x10 x14 x2 x6)[1], x15] := by
  rw [quarterRound_eq 10 14 2 6 _ (by decide) (by decide) (by decide) (by decide) (by decide) (by decide)]
  unfold qr; generalize Spec.Salsa.quarterround = q
  rfl

theorem qr_lit_15_3 (x0 x1 x2 x3 x4 x5 x6 x7 x8 x9 x10 x11 x12 x13 x14 x15 : U32) :
    quarterRound 15 3 7 11 #v[x0, x1, x2, x3, x4, x5, x6, x7, x8, x9, x10, x11, x12, x13, x14, x15] =
      #v[x0, x1, x2, (qr x15 x3 x7 x11)[1], x4, x5, x6, (qr x15 x3 x7 x11)[2], x8, x9, x10, (qr x15 x3 x7 x11)[3], x12, x13, x14, (qr x15 x3 x7 x11)[0]] := by
  rw [quarterRound_eq 15 3 7 11 _ (by decide) (by decide) (by decide) (by decide) (by decide) (by decide)]
  unfold qr; generalize Spec.Salsa.quarterround = q
  rfl

theorem qr_lit_0_1 (x0 x1 x2 x3 x4 x5 x6 x7 x8 x9 x10 x11 x12 x13 x14 x15 : U32) :
    quarterRound 0 1 2 3 #v[x0, x1, x2, x3, x4, x5, x6, x7, x8, x9, x10, x11, x12, x13, x14, x15] =
      #v[(qr x0 x1 x2 x3)[0], (qr x0 x1 x2 x3)[1], (qr x0 x1 x2 x3)[2], (qr x0 x1 x2 x3)[3], x4, x5, x6, x7, x8, x9, x10, x11, x12, x13, x14, x15] := by
  rw [quarterRound_eq 0 1 2 3 _ (by decide) (by decide) (by decide) (by decide) (by decide) (by decide)]
  unfold qr; generalize Spec.Salsa.quarterround = q
  rfl

theorem qr_lit_5_6 (x0 x1 x2 x3 x4 x5 x6 x7 x8 x9 x10 x11 x12 x13 x14 x15 : U32) :
    quarterRound 5 6 7 4 #v[x0, x1, x2, x3, x4, x5, x6, x7, x8, x9, x10, x11, x12, x13, x14, x15] =
      #v[x0, x1, x2, x3, (qr x5 x6 x7 x4)[3], (qr x5 x6 x7 x4)[0], (qr x5 x6 x7 x4)[1], (qr x5 x6 x7 x4)[2], x8, x9, x10, x11, x12, x13, x14, x15] := by
  rw [quarterRound_eq 5 6 7 4 _ (by decide) (by decide) (by decide) (by decide) (by decide) (by decide)]
  unfold qr; generalize Spec.Salsa.quarterround = q
  rfl

theorem qr_lit_10_11 (x0 x1 x2 x3 x4 x5 x6 x7 x8 x9 x10 x11 x12 x13 x14 x15 : U32) :
    quarterRound 10 11 8 9 #v[x0, x1, x2, x3, x4, x5, x6, x7, x8, x9, x10, x11, x12, x13, x14, x15] =
      #v[x0, x1, x2, x3, x4, x5, x6, x7, (qr x10 x11 x8 x9)[2], (qr x10 x11 x8 x9)[3], (qr x10 x11 x8 x9)[0], (qr x10 x11 x8 x9)[1], x12, x13, x14, x15] := by
  rw [quarterRound_eq 10 11 8 9 _ (by decide) (by decide) (by decide) (by decide) (by decide) (by decide)]
  unfold qr; generalize Spec.Salsa.quarterround = q
  rfl

theorem qr_lit_15_12 (x0 x1 x2 x3 x4 x5 x6 x7 x8 x9 x10 x11 x12 x13 x14 x15 : U32) :
    quarterRound 15 12 13 14 #v[x0, x1, x2, x3, x4, x5, x6, x7, x8, x9, x10, x11, x12, x13, x14, x15] =
      #v[x0, x1, x2, x3, x4, x5, x6, x7, x8, x9, x10, x11, (qr x15 x12 x13 x14)[1], (qr x15 x12 x13 x14)[2], (qr x15 x12 x13 x14)[3], (qr x15 x12 x13 x14)[0]] := by
  rw [quarterRound_eq 15 12 13 14 _ (by decide) (by decide) (by decide) (by decide) (by decide) (by decide)]
  unfold qr; generalize Spec.Salsa.quarterround = q
  rfl

/-- `doubleRound` written out with the published quarter round. -/
theorem doubleRound_lit (x0 x1 x2 x3 x4 x5 x6 x7 x8 x9 x10 x11 x12 x13 x14 x15 : U32) :
    doubleRound #v[x0, x1, x2, x3, x4, x5, x6, x7, x8, x9, x10, x11, x12, x13, x14, x15] =
    (let c0 := qr x0 x4 x8 x12
     let c1 := qr x5 x9 x13 x1
     let c2 := qr x10 x14 x2 x6
     let c3 := qr x15 x3 x7 x11
     let d0 := qr c0[0] c1[3] c2[2] c3[1]
     let d1 := qr c1[0] c2[3] c3[2] c0[1]
     let d2 := qr c2[0] c3[3] c0[2] c1[1]
     let d3 := qr c3[0] c0[3] c1[2] c2[1]
     #v[d0[0], d0[1], d0[2], d0[3], d1[3], d1[0], d1[1], d1[2], d2[2], d2[3], d2[0], d2[1], d3[1], d3[2], d3[3], d3[0]]) := by
  unfold doubleRound
  simp only [qr_lit_0_4, qr_lit_5_9, qr_lit_10_14, qr_lit_15_3, qr_lit_0_1, qr_lit_5_6, qr_lit_10_11, qr_lit_15_12]

theorem mat_ext (f g : Fin 4 → Fin 4 → U32) (h : ∀ i j, f i j = g i j) :
    Spec.Salsa.mat f = Spec.Salsa.mat g :=
  congrArg Spec.Salsa.mat (funext fun i => funext fun j => h i j)

theorem rowround_mat (f : Fin 4 → Fin 4 → U32) :
    Spec.Salsa.rowround (Spec.Salsa.mat f) =
      Spec.Salsa.mat fun i j => (qr (f i i) (f i (i + 1)) (f i (i + 2)) (f i (i + 3)))[j - i] := by
  apply mat_ext; intro i j
  simp only [Fin.getElem_fin, mat_getElem]

theorem transpose_mat (f : Fin 4 → Fin 4 → U32) :
    Spec.Salsa.transpose (Spec.Salsa.mat f) = Spec.Salsa.mat fun i j => f j i := by
  apply mat_ext; intro i j
  simp only [Fin.getElem_fin, mat_getElem]

theorem fin4_cases {P : Fin 4 → Prop} (h0 : P 0) (h1 : P 1) (h2 : P 2) (h3 : P 3) : ∀ i, P i
  | 0 => h0 | 1 => h1 | 2 => h2 | 3 => h3

/-- The index bookkeeping of a double round, for an arbitrary quarter round `q`. -/
theorem doubleRound_indices (q : U32 → U32 → U32 → U32 → Vector U32 4) (s : State) :
    ∀ i j : Fin 4,
    (let c0 := q s[0] s[4] s[8] s[12]
     let c1 := q s[5] s[9] s[13] s[1]
     let c2 := q s[10] s[14] s[2] s[6]
     let c3 := q s[15] s[3] s[7] s[11]
     let d0 := q c0[0] c1[3] c2[2] c3[1]
     let d1 := q c1[0] c2[3] c3[2] c0[1]
     let d2 := q c2[0] c3[3] c0[2] c1[1]
     let d3 := q c3[0] c0[3] c1[2] c2[1]
     #v[d0[0], d0[1], d0[2], d0[3], d1[3], d1[0], d1[1], d1[2], d2[2], d2[3], d2[0], d2[1], d3[1], d3[2], d3[3], d3[0]])[4 * i.val + j.val] =
    (let f : Fin 4 → Fin 4 → U32 := fun i j => s[4 * j.val + i.val]
     let r : Fin 4 → Fin 4 → U32 := fun i j => (q (f i i) (f i (i + 1)) (f i (i + 2)) (f i (i + 3)))[j - i]
     let g : Fin 4 → Fin 4 → U32 := fun i j => r j i
     (q (g i i) (g i (i + 1)) (g i (i + 2)) (g i (i + 3)))[j - i]) := by
  apply fin4_cases <;> apply fin4_cases <;> rfl

theorem toMat_doubleRound (s : State) :
    toMat (doubleRound s) = Spec.Salsa.doubleround (toMat s) := by
  rw [toMat, toMat, Spec.Salsa.doubleround, Spec.Salsa.columnround,
    transpose_mat, rowround_mat, transpose_mat, rowround_mat]
  apply mat_ext
  have h := doubleRound_lit s[0] s[1] s[2] s[3] s[4] s[5] s[6] s[7] s[8] s[9] s[10] s[11] s[12] s[13] s[14] s[15]
  rw [← vec16_eta s] at h
  intro i j
  have h2 := doubleRound_indices qr s i j
  simp only [h]
  exact h2

theorem toMat_iter (n : Nat) (s : State) :
    toMat (iter n doubleRound s) = Spec.Salsa.rounds n (toMat s) := by
  induction n with
  | zero => rfl
  | succ n ih => rw [iter_succ', toMat_doubleRound, ih]; rfl

/-! ## Feed-forward and serialisation -/

theorem leBytes_runRounds (dr : Nat) (s : State) :
    (leBytes (runRounds dr s) : Block) = Spec.Salsa.serialize (Spec.Salsa.hash dr (toMat s)) := by
  apply Vector.ext; intro k hk
  rw [leBytes_getElem _ _ hk]
  have hdiv : k / 16 < 4 := by omega
  have hmod : k / 4 % 4 < 4 := by omega
  simp only [Spec.Salsa.serialize, Vector.getElem_ofFn, Spec.Salsa.hash, mat_getElem, ← toMat_iter, runRounds,
    Vector.getElem_zipWith, Fin.getElem_fin]
  have hidx : 4 * (k / 16) + k / 4 % 4 = k / 4 := by omega
  simp only [toMat, mat_getElem, hidx]

end Verif.Salsa
