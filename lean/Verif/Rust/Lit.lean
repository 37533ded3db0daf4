import Verif.Rust.Lemmas
/-!
# Straight-line code on arrays of known length

`rsteps` runs a translated function statement by statement, as long as the statements are array accesses and shifts by constants.
-/
namespace Verif.Rust

theorem step_ok {α β : Type} {x : Except Panic α} {a : α} {f : α → Except Panic β} {r : Except Panic β} (hx : x = .ok a) (h : f a = r) : (x >>= f) = r := by
  subst hx; exact h

theorem shl_ok {tgt : Target} {w : Nat} (x : BitVec w) (n : Nat) (h : n < w) : shl tgt x n = .ok (x <<< n) := if_pos h

theorem shr_ok {tgt : Target} {w : Nat} (x : BitVec w) (n : Nat) (h : n < w) : shr tgt x n = .ok (x >>> n) := if_pos h

theorem idx_at {α : Type} {tgt : Target} (l : List α) (n : Nat) (a : α) (h : l[n]? = some a) : idx l (OfNat.ofNat n : Usize tgt) = .ok a := by
  obtain ⟨hn, ha⟩ := List.getElem?_eq_some_iff.mp h
  show nth l n = _
  rw [nth_ok l n hn, ha]

theorem rep4 {α : Type} {tgt : Target} (a : α) : List.replicate (Usize.val (4 : Usize tgt)) a = [a, a, a, a] := rfl

theorem rep8 {α : Type} {tgt : Target} (a : α) : List.replicate (Usize.val (8 : Usize tgt)) a = [a, a, a, a, a, a, a, a] := rfl

theorem rep16 {α : Type} {tgt : Target} (a : α) :
    List.replicate (Usize.val (16 : Usize tgt)) a = [a, a, a, a, a, a, a, a, a, a, a, a, a, a, a, a] := rfl

section
variable {α : Type} {tgt : Target} (a0 a1 a2 a3 y : α)
theorem upd4_0 : upd [a0, a1, a2, a3] (0 : Usize tgt) y = .ok [y, a1, a2, a3] := rfl
theorem upd4_1 : upd [a0, a1, a2, a3] (1 : Usize tgt) y = .ok [a0, y, a2, a3] := rfl
theorem upd4_2 : upd [a0, a1, a2, a3] (2 : Usize tgt) y = .ok [a0, a1, y, a3] := rfl
theorem upd4_3 : upd [a0, a1, a2, a3] (3 : Usize tgt) y = .ok [a0, a1, a2, y] := rfl
end

theorem toList4 {α : Type} (v : Vector α 4) : v.toList = [v[0], v[1], v[2], v[3]] := by
  apply List.ext_getElem
  · simp
  · intro i h1 h2
    rw [Vector.getElem_toList]
    rw [Vector.length_toList] at h1
    rcases i with _ | _ | _ | _ | i
    all_goals first | rfl | omega

section
variable {α : Type} {tgt : Target} (a0 a1 a2 a3 a4 a5 a6 a7 y : α)
theorem upd8_0 : upd [a0, a1, a2, a3, a4, a5, a6, a7] (0 : Usize tgt) y = .ok [y, a1, a2, a3, a4, a5, a6, a7] := rfl
theorem upd8_1 : upd [a0, a1, a2, a3, a4, a5, a6, a7] (1 : Usize tgt) y = .ok [a0, y, a2, a3, a4, a5, a6, a7] := rfl
theorem upd8_2 : upd [a0, a1, a2, a3, a4, a5, a6, a7] (2 : Usize tgt) y = .ok [a0, a1, y, a3, a4, a5, a6, a7] := rfl
theorem upd8_3 : upd [a0, a1, a2, a3, a4, a5, a6, a7] (3 : Usize tgt) y = .ok [a0, a1, a2, y, a4, a5, a6, a7] := rfl
theorem upd8_4 : upd [a0, a1, a2, a3, a4, a5, a6, a7] (4 : Usize tgt) y = .ok [a0, a1, a2, a3, y, a5, a6, a7] := rfl
theorem upd8_5 : upd [a0, a1, a2, a3, a4, a5, a6, a7] (5 : Usize tgt) y = .ok [a0, a1, a2, a3, a4, y, a6, a7] := rfl
theorem upd8_6 : upd [a0, a1, a2, a3, a4, a5, a6, a7] (6 : Usize tgt) y = .ok [a0, a1, a2, a3, a4, a5, y, a7] := rfl
theorem upd8_7 : upd [a0, a1, a2, a3, a4, a5, a6, a7] (7 : Usize tgt) y = .ok [a0, a1, a2, a3, a4, a5, a6, y] := rfl
end

theorem toList8 {α : Type} (v : Vector α 8) : v.toList = [v[0], v[1], v[2], v[3], v[4], v[5], v[6], v[7]] := by
  apply List.ext_getElem
  · simp
  · intro i h1 h2
    rw [Vector.getElem_toList]
    rw [Vector.length_toList] at h1
    rcases i with _ | _ | _ | _ | _ | _ | _ | _ | i
    all_goals first | rfl | omega

section
variable {α : Type} {tgt : Target} (a0 a1 a2 a3 a4 a5 a6 a7 a8 a9 a10 a11 a12 a13 a14 a15 y : α)
theorem upd16_0 : upd [a0, a1, a2, a3, a4, a5, a6, a7, a8, a9, a10, a11, a12, a13, a14, a15] (0 : Usize tgt) y = .ok [y, a1, a2, a3, a4, a5, a6, a7, a8, a9, a10, a11, a12, a13, a14, a15] := rfl
theorem upd16_1 : upd [a0, a1, a2, a3, a4, a5, a6, a7, a8, a9, a10, a11, a12, a13, a14, a15] (1 : Usize tgt) y = .ok [a0, y, a2, a3, a4, a5, a6, a7, a8, a9, a10, a11, a12, a13, a14, a15] := rfl
theorem upd16_2 : upd [a0, a1, a2, a3, a4, a5, a6, a7, a8, a9, a10, a11, a12, a13, a14, a15] (2 : Usize tgt) y = .ok [a0, a1, y, a3, a4, a5, a6, a7, a8, a9, a10, a11, a12, a13, a14, a15] := rfl
theorem upd16_3 : upd [a0, a1, a2, a3, a4, a5, a6, a7, a8, a9, a10, a11, a12, a13, a14, a15] (3 : Usize tgt) y = .ok [a0, a1, a2, y, a4, a5, a6, a7, a8, a9, a10, a11, a12, a13, a14, a15] := rfl
theorem upd16_4 : upd [a0, a1, a2, a3, a4, a5, a6, a7, a8, a9, a10, a11, a12, a13, a14, a15] (4 : Usize tgt) y = .ok [a0, a1, a2, a3, y, a5, a6, a7, a8, a9, a10, a11, a12, a13, a14, a15] := rfl
theorem upd16_5 : upd [a0, a1, a2, a3, a4, a5, a6, a7, a8, a9, a10, a11, a12, a13, a14, a15] (5 : Usize tgt) y = .ok [a0, a1, a2, a3, a4, y, a6, a7, a8, a9, a10, a11, a12, a13, a14, a15] := rfl
theorem upd16_6 : upd [a0, a1, a2, a3, a4, a5, a6, a7, a8, a9, a10, a11, a12, a13, a14, a15] (6 : Usize tgt) y = .ok [a0, a1, a2, a3, a4, a5, y, a7, a8, a9, a10, a11, a12, a13, a14, a15] := rfl
theorem upd16_7 : upd [a0, a1, a2, a3, a4, a5, a6, a7, a8, a9, a10, a11, a12, a13, a14, a15] (7 : Usize tgt) y = .ok [a0, a1, a2, a3, a4, a5, a6, y, a8, a9, a10, a11, a12, a13, a14, a15] := rfl
theorem upd16_8 : upd [a0, a1, a2, a3, a4, a5, a6, a7, a8, a9, a10, a11, a12, a13, a14, a15] (8 : Usize tgt) y = .ok [a0, a1, a2, a3, a4, a5, a6, a7, y, a9, a10, a11, a12, a13, a14, a15] := rfl
theorem upd16_9 : upd [a0, a1, a2, a3, a4, a5, a6, a7, a8, a9, a10, a11, a12, a13, a14, a15] (9 : Usize tgt) y = .ok [a0, a1, a2, a3, a4, a5, a6, a7, a8, y, a10, a11, a12, a13, a14, a15] := rfl
theorem upd16_10 : upd [a0, a1, a2, a3, a4, a5, a6, a7, a8, a9, a10, a11, a12, a13, a14, a15] (10 : Usize tgt) y = .ok [a0, a1, a2, a3, a4, a5, a6, a7, a8, a9, y, a11, a12, a13, a14, a15] := rfl
theorem upd16_11 : upd [a0, a1, a2, a3, a4, a5, a6, a7, a8, a9, a10, a11, a12, a13, a14, a15] (11 : Usize tgt) y = .ok [a0, a1, a2, a3, a4, a5, a6, a7, a8, a9, a10, y, a12, a13, a14, a15] := rfl
theorem upd16_12 : upd [a0, a1, a2, a3, a4, a5, a6, a7, a8, a9, a10, a11, a12, a13, a14, a15] (12 : Usize tgt) y = .ok [a0, a1, a2, a3, a4, a5, a6, a7, a8, a9, a10, a11, y, a13, a14, a15] := rfl
theorem upd16_13 : upd [a0, a1, a2, a3, a4, a5, a6, a7, a8, a9, a10, a11, a12, a13, a14, a15] (13 : Usize tgt) y = .ok [a0, a1, a2, a3, a4, a5, a6, a7, a8, a9, a10, a11, a12, y, a14, a15] := rfl
theorem upd16_14 : upd [a0, a1, a2, a3, a4, a5, a6, a7, a8, a9, a10, a11, a12, a13, a14, a15] (14 : Usize tgt) y = .ok [a0, a1, a2, a3, a4, a5, a6, a7, a8, a9, a10, a11, a12, a13, y, a15] := rfl
theorem upd16_15 : upd [a0, a1, a2, a3, a4, a5, a6, a7, a8, a9, a10, a11, a12, a13, a14, a15] (15 : Usize tgt) y = .ok [a0, a1, a2, a3, a4, a5, a6, a7, a8, a9, a10, a11, a12, a13, a14, y] := rfl
end

theorem toList16 {α : Type} (v : Vector α 16) : v.toList = [v[0], v[1], v[2], v[3], v[4], v[5], v[6], v[7], v[8], v[9], v[10], v[11], v[12], v[13], v[14], v[15]] := by
  apply List.ext_getElem
  · simp
  · intro i h1 h2
    rw [Vector.getElem_toList]
    rw [Vector.length_toList] at h1
    rcases i with _ | _ | _ | _ | _ | _ | _ | _ | _ | _ | _ | _ | _ | _ | _ | _ | i
    all_goals first | rfl | omega

syntax "rstep" : tactic

macro_rules
  | `(tactic| rstep) => `(tactic| with_reducible first
    | refine step_ok (idx_at _ _ _ (by with_unfolding_all rfl)) ?_
    | refine step_ok (shl_ok _ _ (by decide)) ?_
    | refine step_ok (shr_ok _ _ (by decide)) ?_
    | refine step_ok (upd4_0 ..) ?_
    | refine step_ok (upd4_1 ..) ?_
    | refine step_ok (upd4_2 ..) ?_
    | refine step_ok (upd4_3 ..) ?_
    | refine step_ok (upd8_0 ..) ?_
    | refine step_ok (upd8_1 ..) ?_
    | refine step_ok (upd8_2 ..) ?_
    | refine step_ok (upd8_3 ..) ?_
    | refine step_ok (upd8_4 ..) ?_
    | refine step_ok (upd8_5 ..) ?_
    | refine step_ok (upd8_6 ..) ?_
    | refine step_ok (upd8_7 ..) ?_
    | refine step_ok (upd16_0 ..) ?_
    | refine step_ok (upd16_1 ..) ?_
    | refine step_ok (upd16_2 ..) ?_
    | refine step_ok (upd16_3 ..) ?_
    | refine step_ok (upd16_4 ..) ?_
    | refine step_ok (upd16_5 ..) ?_
    | refine step_ok (upd16_6 ..) ?_
    | refine step_ok (upd16_7 ..) ?_
    | refine step_ok (upd16_8 ..) ?_
    | refine step_ok (upd16_9 ..) ?_
    | refine step_ok (upd16_10 ..) ?_
    | refine step_ok (upd16_11 ..) ?_
    | refine step_ok (upd16_12 ..) ?_
    | refine step_ok (upd16_13 ..) ?_
    | refine step_ok (upd16_14 ..) ?_
    | refine step_ok (upd16_15 ..) ?_)

macro "rsteps" : tactic => `(tactic| repeat rstep)

end Verif.Rust
