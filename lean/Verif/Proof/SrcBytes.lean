import Verif.Rust.Lit
import Verif.Proof.SrcRabbit
import Verif.Proof.LeNat
/-!
# Loops over the words of byte arrays, in translated text
-/
namespace Verif.Rust

theorem fromLe4 (a b c d : U8) : fromLeBytes (w := 32) [a, b, c, d] = .ok (le32 a b c d) := by
  have h : [a, b, c, d].foldr (fun (b : U8) (acc : U32) => (acc <<< 8) ||| b.setWidth 32) 0 = le32 a b c d := by
    rw [le32_eq_leNat]
    apply BitVec.eq_of_toNat_eq
    rw [BitVec.toNat_ofNat]
    exact ChaCha.fromLeBytes_toNat 32 [a, b, c, d]
  unfold fromLeBytes
  rw [if_pos (show 8 * [a, b, c, d].length = 32 from rfl), h]

/-- Word `i` of a byte array: `u32::from_le_bytes` of the `i`-th chunk of four bytes. -/
theorem chunk_word {n : Nat} (v : Vector U8 n) (i : Nat) (h : 4 * i + 3 < n) : fromLeBytes (chunk v.toList 4 i) = .ok (wordAt v i h) := by
  have hl : 4 * i + 3 < v.toList.length := by rw [Vector.length_toList]; exact h
  rw [chunk, list_take4_drop v.toList i hl, fromLe4]
  rfl

theorem chunk_drop (l : List U8) (a m k : Nat) (h : 4 * k + 4 ≤ m) : chunk ((l.drop (4 * a)).take m) 4 k = chunk l 4 (a + k) := by
  rw [chunk, chunk, List.drop_take, List.take_take, List.drop_drop, Nat.min_eq_left (by omega), Nat.mul_add]

theorem chunk_word_drop {n : Nat} (v : Vector U8 n) (a m k : Nat) (h : 4 * k + 4 ≤ m) (hn : 4 * (a + k) + 3 < n) :
    fromLeBytes (chunk ((v.toList.drop (4 * a)).take m) 4 k) = .ok (wordAt v (a + k) hn) := by
  rw [chunk_drop _ _ _ _ h, chunk_word v (a + k) hn]

/-- `v` with elements `a .. a+k-1` replaced by `w 0 .. w (k-1)`. -/
def setRange {α : Type} {n : Nat} (v : Vector α n) (a : Nat) (w : Nat → α) : Nat → Vector α n
  | 0 => v
  | k + 1 => if h : a + k < n then (setRange v a w k).set (a + k) (w k) else setRange v a w k

theorem setRange_succ {α : Type} {n : Nat} (v : Vector α n) (a : Nat) (w : Nat → α) (k : Nat) (h : a + k < n) :
    setRange v a w (k + 1) = (setRange v a w k).set (a + k) (w k) := by
  rw [setRange, dif_pos h]

/-- Writing the words `w` into a byte array from the left: `k` of them written. -/
def wrote {m : Nat} (w : Vector U32 m) (l : List U8) (k : Nat) : List U8 := (leBytes w).toList.take (4 * k) ++ l.drop (4 * k)

theorem wrote_zero {m : Nat} (w : Vector U32 m) (l : List U8) : wrote w l 0 = l := rfl

theorem wrote_all {m : Nat} (w : Vector U32 m) (l : List U8) (h : l.length = 4 * m) : wrote w l m = (leBytes w).toList := by
  rw [wrote, List.take_of_length_le (by rw [Vector.length_toList]; omega), List.drop_of_length_le (by omega), List.append_nil]

theorem toLeBytes_eq (w : U32) : toLeBytes w = (toLe32 w).toList := by
  rw [toList4 (toLe32 w)]
  rfl

theorem leBytes_chunk {m : Nat} (w : Vector U32 m) (k : Nat) (h : k < m) : chunk (leBytes w).toList 4 k = toLeBytes w[k] := by
  rw [toLeBytes_eq, chunk]
  apply List.ext_getElem
  · simp; omega
  · intro i h1 h2
    simp only [Vector.length_toList] at h2
    simp only [List.getElem_take, List.getElem_drop, Vector.getElem_toList, leBytes, Vector.getElem_ofFn]
    simp only [show (4 * k + i) / 4 = k by omega, show (4 * k + i) % 4 = i by omega]

theorem wrote_length {m : Nat} (w : Vector U32 m) (l : List U8) (h : l.length = 4 * m) (k : Nat) (hk : k ≤ m) : (wrote w l k).length = 4 * m := by
  rw [wrote, List.length_append, List.length_take, List.length_drop, Vector.length_toList, h]
  omega

/-- One round of such a loop. -/
theorem wrote_succ {m : Nat} (w : Vector U32 m) (l : List U8) (h : l.length = 4 * m) (k : Nat) (hk : k < m) :
    copyFromSlice (chunk (wrote w l k) 4 k) (toLeBytes w[k]) = .ok (toLeBytes w[k]) ∧
      putChunk (wrote w l k) 4 k (toLeBytes w[k]) = wrote w l (k + 1) := by
  have hl := wrote_length w l h k (by omega)
  have ht : (toLeBytes w[k]).length = 4 := by rw [toLeBytes_eq, Vector.length_toList]
  have hta : ((leBytes w).toList.take (4 * k)).length = 4 * k := by rw [List.length_take, Vector.length_toList]; omega
  refine ⟨by rw [copyFromSlice, if_pos (by rw [chunk, List.length_take, List.length_drop, hl, ht]; omega)], ?_⟩
  rw [putChunk]
  have h1 : (wrote w l k).take (4 * k) = (leBytes w).toList.take (4 * k) := by rw [wrote, List.take_left' hta]
  have h2 : (wrote w l k).drop (4 * k + 4) = l.drop (4 * (k + 1)) := by
    rw [wrote, ← List.drop_drop, List.drop_left' hta, List.drop_drop]; rfl
  rw [h1, h2, wrote, ← leBytes_chunk w k hk, chunk, show 4 * (k + 1) = 4 * k + 4 by omega, List.take_add]

end Verif.Rust
