import Verif.Proof.Word
import Verif.Model.Rng
/-!
# Little-endian numbers of any length
-/
namespace Verif
open Spec

theorem leNat_lt (bs : List U8) : leNat bs < 256 ^ bs.length := by
  induction bs with
  | nil => exact Nat.one_pos
  | cons b bs ih =>
    have := b.isLt
    simp only [leNat, List.length_cons, Nat.pow_succ]
    omega

theorem leNat_append (as bs : List U8) : leNat (as ++ bs) = leNat as + 256 ^ as.length * leNat bs := by
  induction as with
  | nil => simp [leNat]
  | cons a as ih =>
    simp only [List.cons_append, leNat, ih, List.length_cons, Nat.pow_succ, Nat.mul_add]
    rw [Nat.mul_comm (256 ^ as.length) 256, Nat.mul_assoc]
    omega

theorem leNat_replicate (n : Nat) : leNat (List.replicate n 0) = 0 := by
  induction n with
  | zero => rfl
  | succ n ih => rw [List.replicate_succ, leNat, ih]; rfl

theorem leByte_zero (v : Nat) : leByte v 0 = BitVec.ofNat 8 v := by simp [leByte]

theorem leByte_succ (v i : Nat) : leByte v (i + 1) = leByte (v / 256) i := by
  simp only [leByte, Nat.pow_succ, Nat.div_div_eq_div_mul, Nat.mul_comm]

theorem leNat_map_leByte (n v : Nat) : leNat ((List.range n).map (leByte v)) = v % 256 ^ n := by
  induction n generalizing v with
  | zero => simp [leNat, Nat.mod_one]
  | succ n ih =>
    rw [List.range_succ_eq_map, List.map_cons, List.map_map]
    have : leByte v ∘ Nat.succ = leByte (v / 256) := funext fun i => leByte_succ v i
    rw [this, leNat, ih, leByte_zero, Nat.pow_succ, Nat.mul_comm (256 ^ n), Nat.mod_mul]
    simp only [BitVec.toNat_ofNat]

theorem leByte_leNat (bs : List U8) (i : Nat) (h : i < bs.length) : leByte (leNat bs) i = bs[i] := by
  induction bs generalizing i with
  | nil => exact absurd h (by simp)
  | cons b bs ih =>
    have := b.isLt
    cases i with
    | zero =>
      apply BitVec.eq_of_toNat_eq
      simp only [leByte_zero, leNat, BitVec.toNat_ofNat, List.getElem_cons_zero]
      omega
    | succ i =>
      rw [leByte_succ, leNat, show (b.toNat + 256 * leNat bs) / 256 = leNat bs by omega]
      exact ih i (by simpa using h)

theorem map_leByte_leNat (bs : List U8) : (List.range bs.length).map (leByte (leNat bs)) = bs := by
  apply List.ext_getElem
  · simp
  · intro i h1 h2
    simp only [List.getElem_map, List.getElem_range]
    exact leByte_leNat bs i h2

theorem leByte_mod (v n i : Nat) (h : i < n) : leByte (v % 256 ^ n) i = leByte v i := by
  obtain ⟨m, rfl⟩ : ∃ m, n = i + 1 + m := ⟨n - (i + 1), by omega⟩
  apply BitVec.eq_of_toNat_eq
  simp only [leByte, BitVec.toNat_ofNat]
  rw [show 256 ^ (i + 1 + m) = 256 ^ i * (256 * 256 ^ m) by simp only [Nat.pow_add, Nat.pow_one, Nat.mul_assoc],
    Nat.mod_mul_right_div_self]
  exact Nat.mod_mul_right_mod _ 256 _

theorem leByte_leWord (l : List U8) (q j : Nat) (hj : j < 4) (h : 4 * q + 3 < l.length) :
    leByte (leWord l q).toNat j = l[4 * q + j] := by
  have hl : ((l.drop (4 * q)).take 4).length = 4 := by simp; omega
  have := leNat_lt ((l.drop (4 * q)).take 4)
  rw [hl] at this
  rw [leWord, BitVec.toNat_ofNat, Nat.mod_eq_of_lt (Nat.lt_of_lt_of_le this (by decide)), leByte_leNat _ _ (by omega)]
  simp

/-- A word of the little-endian bytes of a number. -/
theorem leWord_map_leByte (n v q : Nat) (h : 4 * q + 4 ≤ n) :
    leWord ((List.range n).map (leByte v)) q = BitVec.ofNat 32 (v / 2 ^ (32 * q)) := by
  have e : (((List.range n).map (leByte v)).drop (4 * q)).take 4 = (List.range 4).map (leByte (v / 256 ^ (4 * q))) := by
    apply List.ext_getElem
    · simp; omega
    · intro i h1 h2
      simp only [List.getElem_take, List.getElem_drop, List.getElem_map, List.getElem_range, leByte, Nat.pow_add,
        Nat.div_div_eq_div_mul]
  rw [leWord, e, leNat_map_leByte, show (256 : Nat) ^ (4 * q) = 2 ^ (32 * q) by rw [Nat.pow_mul, Nat.pow_mul]]
  apply BitVec.eq_of_toNat_eq
  simp only [BitVec.toNat_ofNat]
  exact Nat.mod_mod _ _

namespace ChaCha

theorem fromLeBytes_toNat (w : Nat) (bs : List U8) : (fromLeBytes w bs).toNat = leNat bs % 2 ^ w := by
  induction bs with
  | nil => simp [fromLeBytes, leNat]
  | cons b bs ih =>
    show ((fromLeBytes w bs <<< 8) ||| b.setWidth w).toNat = _
    rw [← BitVec.add_eq_or_of_and_eq_zero]
    · simp only [BitVec.toNat_add, BitVec.toNat_shiftLeft, BitVec.toNat_setWidth, Nat.shiftLeft_eq, ih, leNat]
      rw [← Nat.add_mod, Nat.add_mod, Nat.mod_mul_mod, ← Nat.add_mod, Nat.add_comm, Nat.mul_comm]
    · ext i hi
      simp only [BitVec.getElem_and, BitVec.getElem_shiftLeft, BitVec.getElem_setWidth, BitVec.getElem_zero]
      by_cases h : i < 8
      · simp [h]
      · simp [BitVec.getLsbD_of_ge b i (by omega)]

theorem toLeBytes_getElem (n : Nat) (x : BitVec (8 * n)) (i : Nat) (h : i < n) : (toLeBytes n x)[i] = leByte x.toNat i := by
  apply BitVec.eq_of_toNat_eq
  simp only [toLeBytes, Vector.getElem_ofFn, leByte, BitVec.toNat_setWidth, BitVec.toNat_ushiftRight, BitVec.toNat_ofNat,
    Nat.shiftRight_eq_div_pow, Nat.pow_mul]

theorem toLeBytes_toList (n : Nat) (x : BitVec (8 * n)) : (toLeBytes n x).toList = (List.range n).map (leByte x.toNat) := by
  apply List.ext_getElem
  · simp
  · intro i h1 h2
    simp only [Vector.length_toList] at h1
    simp only [Vector.getElem_toList, List.getElem_map, List.getElem_range, toLeBytes_getElem n x i h1]

theorem toLe32_toList (w : U32) : (toLe32 w).toList = (List.range 4).map (leByte w.toNat) := by
  apply List.ext_getElem
  · simp
  · intro i h1 h2
    simp only [Vector.length_toList] at h1
    simp only [Vector.getElem_toList, List.getElem_map, List.getElem_range, toLe32_getElem w i h1]

theorem leNat_toLe32 (w : U32) : leNat (toLe32 w).toList = w.toNat := by
  rw [toLe32_toList, leNat_map_leByte]
  exact Nat.mod_eq_of_lt w.isLt

end ChaCha
end Verif
