import Verif.Rust.Lang
/-!
# Rules for computing with translated Rust text
-/
namespace Verif.Rust

theorem ok_bind {α β : Type} (a : α) (f : α → Except Panic β) : (Except.ok a >>= f) = f a := rfl

theorem pure_eq {α : Type} (a : α) : (pure a : Except Panic α) = .ok a := rfl

/-- A loop over `0..n` whose state before round `k` is `S k`. -/
theorem forIn_range {β : Type} (n : Nat) (S : Nat → β) (f : Nat → β → Except Panic (ForInStep β)) (s₀ : β) (h₀ : s₀ = S 0)
    (h : ∀ k, k < n → f k (S k) = .ok (.yield (S (k + 1)))) : forIn (List.range n) s₀ f = .ok (S n) := by
  subst h₀
  have key : ∀ m a, a + m = n → forIn (List.range' a m) (S a) f = .ok (S n) := by
    intro m
    induction m with
    | zero => intro a ha; rw [List.range'_zero, List.forIn_nil, pure_eq, ← ha]; rfl
    | succ m ih =>
      intro a ha
      rw [List.range'_succ, List.forIn_cons, h a (by omega), ok_bind]
      exact ih (a + 1) (by omega)
  rw [List.range_eq_range']
  exact key n 0 (by omega)

/-- Run `g` over the elements of a list, threading a state. -/
def mapAccum {σ α : Type} (g : σ → α → σ × α) : σ → List α → σ × List α
  | s, [] => (s, [])
  | s, a :: l => ((mapAccum g (g s a).1 l).1, (g s a).2 :: (mapAccum g (g s a).1 l).2)

/-- A loop over the elements of a mutable slice that changes each of them; `R` represents the states of the loop. -/
theorem forIn_elems {τ σ α : Type} (R : τ → σ) (l : List α) (s : τ) (f : Nat → σ × List α → Except Panic (ForInStep (σ × List α)))
    (g : τ → α → τ × α) (h : ∀ k s (l : List α) (hk : k < l.length), f k (R s, l) = .ok (.yield (R (g s l[k]).1, l.set k (g s l[k]).2))) :
    forIn (List.range l.length) (R s, l) f = .ok (R (mapAccum g s l).1, (mapAccum g s l).2) := by
  have key : ∀ (l pre : List α) (s : τ), forIn (List.range' pre.length l.length) (R s, pre ++ l) f =
      .ok (R (mapAccum g s l).1, pre ++ (mapAccum g s l).2) := by
    intro l
    induction l with
    | nil => intro pre s; rfl
    | cons a l ih =>
      intro pre s
      have hk : pre.length < (pre ++ a :: l).length := by rw [List.length_append, List.length_cons]; omega
      have ha : (pre ++ a :: l)[pre.length] = a := by simp
      rw [List.length_cons, List.range'_succ, List.forIn_cons, h _ _ _ hk, ok_bind, ha]
      have hs : (pre ++ a :: l).set pre.length (g s a).2 = (pre ++ [(g s a).2]) ++ l := by simp
      have := ih (pre ++ [(g s a).2]) (g s a).1
      rw [List.length_append, List.length_singleton] at this
      dsimp only
      rw [hs, this, List.append_assoc]
      rfl
  rw [List.range_eq_range']
  exact key l [] s

theorem val_lit {tgt : Target} (n : Nat) : Usize.val (no_index (OfNat.ofNat n : Usize tgt)) = n := rfl

section
variable {α : Type} {tgt : Target}

theorem nth_ok (l : List α) (i : Nat) (h : i < l.length) : nth l i = .ok l[i] := dif_pos h

theorem nth_vec {n : Nat} (v : Vector α n) (i : Nat) (h : i < n) : nth v.toList i = .ok v[i] := by
  rw [nth_ok _ _ (by rw [Vector.length_toList]; exact h), Vector.getElem_toList]

theorem idx_vec {n : Nat} (v : Vector α n) (i : Usize tgt) (h : i.val < n) : idx v.toList i = .ok v[i.val] := nth_vec v _ h

theorem toList_set {n : Nat} (v : Vector α n) (i : Nat) (h : i < n) (x : α) : v.toList.set i x = (v.set i x h).toList := by
  rw [Vector.toList_set]

theorem upd_vec {n : Nat} (v : Vector α n) (i : Usize tgt) (h : i.val < n) (x : α) : upd v.toList i x = .ok (v.set i.val x h).toList := by
  rw [upd, if_pos (by rw [Vector.length_toList]; exact h), toList_set v _ h]

theorem swap_vec {n : Nat} (v : Vector α n) (i j : Usize tgt) (hi : i.val < n) (hj : j.val < n) :
    swap v.toList i j = .ok ((v.set i.val v[j.val] hi).set j.val v[i.val] hj).toList := by
  rw [swap, idx_vec v i hi, ok_bind, idx_vec v j hj, ok_bind, upd_vec v i hi, ok_bind, upd_vec _ j hj]

end

theorem mapM_ok {α β : Type} (l : List α) (f : α → Except Panic β) (g : α → β) (h : ∀ x ∈ l, f x = .ok (g x)) : l.mapM f = .ok (l.map g) := by
  induction l with
  | nil => rfl
  | cons a l ih =>
    rw [List.mapM_cons, h a (List.mem_cons_self ..), ok_bind, ih fun x hx => h x (List.mem_cons_of_mem _ hx), ok_bind]
    rfl

theorem fromFn_vec {α : Type} {tgt : Target} (n : Nat) (f : Usize tgt → Except Panic α) (v : Vector α n)
    (h : ∀ k (hk : k < n), f ⟨k⟩ = .ok v[k]) : fromFn (tgt := tgt) ⟨n⟩ f = .ok v.toList := by
  have hr : range (tgt := tgt) ⟨0⟩ ⟨n⟩ = (List.finRange n).map fun k => ⟨k.val⟩ := by
    rw [range]
    apply List.ext_getElem
    · simp
    · intro i h1 h2
      simp
  show (range (tgt := tgt) ⟨0⟩ ⟨n⟩).mapM f = _
  rw [hr, List.mapM_map, mapM_ok _ _ (fun k => v[k.val]) fun k _ => h k.val k.isLt]
  refine congrArg _ ?_
  apply List.ext_getElem
  · simp
  · intro i h1 h2
    simp

/-- Conversion of a byte to `usize`. -/
theorem cast_byte {tgt : Target} (ht : 16 ≤ tgt.bits) (b : U8) : cast (Usize tgt) b = ⟨b.toNat⟩ := by
  have : b.toNat < 2 ^ tgt.bits := Nat.lt_of_lt_of_le b.isLt (Nat.pow_le_pow_right (by decide) (by omega))
  show (⟨b.toNat % 2 ^ tgt.bits⟩ : Usize tgt) = _
  rw [Nat.mod_eq_of_lt this]

/-- Conversion of a 32-bit word that fits to `usize`. -/
theorem cast_usize {tgt : Target} {w : Nat} (x : BitVec w) (h : x.toNat < 2 ^ tgt.bits) : cast (Usize tgt) x = ⟨x.toNat⟩ := by
  show (⟨x.toNat % 2 ^ tgt.bits⟩ : Usize tgt) = _
  rw [Nat.mod_eq_of_lt h]

theorem cast_bv {v w : Nat} (x : BitVec w) : cast (BitVec v) x = x.setWidth v := BitVec.ofNat_toNat ..

theorem pow_bits {tgt : Target} (ht : 16 ≤ tgt.bits) {n : Nat} (h : n < 65536) : n < 2 ^ tgt.bits :=
  Nat.lt_of_lt_of_le h (Nat.pow_le_pow_right (by decide : 0 < 2) ht)

/-- `usize` arithmetic that stays small. -/
theorem add_usize {tgt : Target} (a b : Usize tgt) (h : a.val + b.val < 2 ^ tgt.bits) : add tgt a b = .ok ⟨a.val + b.val⟩ := by
  have h1 : RInt.toNat a + RInt.toNat b < 2 ^ RInt.width (Usize tgt) := h
  rw [add, if_pos h1]
  show Except.ok (⟨(a.val + b.val) % 2 ^ tgt.bits⟩ : Usize tgt) = _
  rw [Nat.mod_eq_of_lt h]

theorem mul_usize {tgt : Target} (a b : Usize tgt) (h : a.val * b.val < 2 ^ tgt.bits) : mul tgt a b = .ok ⟨a.val * b.val⟩ := by
  have h1 : RInt.toNat a * RInt.toNat b < 2 ^ RInt.width (Usize tgt) := h
  rw [mul, if_pos h1]
  show Except.ok (⟨(a.val * b.val) % 2 ^ tgt.bits⟩ : Usize tgt) = _
  rw [Nat.mod_eq_of_lt h]

end Verif.Rust
