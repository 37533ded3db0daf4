import Verif.Proof.Oblivious
/-!
# Forgetting what is recorded, one statement at a time

For functions too long for `simp only [erase]`.
-/
namespace Verif.Rust

theorem er_bind {α β : Type} {m : Tr α} {n : Except Panic α} {k : α → Tr β} {k' : α → Except Panic β} (h : m.1 = n) (hk : ∀ a, (k a).1 = k' a) :
    (m >>= k).1 = n >>= k' := by
  rw [Tr.bind_fst, h]
  exact congrArg (n >>= ·) (funext hk)

theorem er_ok {α β : Type} {m : Tr α} {a : α} {k : α → Tr β} {n : Except Panic β} (hm : m.1 = .ok a) (h : (k a).1 = n) : (m >>= k).1 = n := by
  rw [Tr.bind_fst, hm]
  exact h

theorem er_pure {α β : Type} {a : α} {k : α → Tr β} {n : Except Panic β} (h : (k a).1 = n) : ((pure a : Tr α) >>= k).1 = n := er_ok (Tr.pure_fst _) h
theorem er_instr {α β : Type} {s : String} {a : α} {k : α → Tr β} {n : Except Panic β} (h : (k a).1 = n) : (Tr.instr s a >>= k).1 = n := er_ok (Tr.instr_fst _ _) h
theorem er_branch {β : Type} {a : Bool} {k : Bool → Tr β} {n : Except Panic β} (h : (k a).1 = n) : (Tr.branch a >>= k).1 = n := er_ok (Tr.branch_fst _) h
theorem er_loop {β : Type} {l : Nat} {k : Unit → Tr β} {n : Except Panic β} (h : (k ()).1 = n) : (Tr.loop l >>= k).1 = n := er_ok (Tr.loop_fst _) h

theorem er_ite {α : Type} {c : Prop} [Decidable c] {a b : Tr α} {a' b' : Except Panic α} (h : a.1 = a') (h' : b.1 = b') :
    (if c then a else b).1 = if c then a' else b' := by
  split <;> assumption

theorem er_pure0 {α : Type} (a : α) : (pure a : Tr α).1 = pure a := rfl

theorem er_forIn {α β : Type} {l : List α} {b : β} {f : α → β → Tr (ForInStep β)} {g : α → β → Except Panic (ForInStep β)} (h : ∀ a b, (f a b).1 = g a b) :
    (forIn l b f).1 = forIn l b g := by
  rw [Tr.forIn_fst]
  exact congrArg (forIn l b) (funext fun a => funext (h a))

/-- Shows that what a traced function returns is what the function returns. -/
macro "erases" : tactic => `(tactic|
  repeat first
    | with_reducible refine er_pure ?_; (try dsimp only)
    | with_reducible refine er_instr ?_; (try dsimp only)
    | with_reducible refine er_branch ?_; (try dsimp only)
    | with_reducible refine er_loop ?_; (try dsimp only)
    | with_reducible refine er_ite ?_ ?_
    | with_reducible refine er_forIn fun _ _ => ?_
    | with_reducible refine er_bind ?_ fun _ => ?_; (try dsimp only)
    | with_reducible exact er_pure0 _
    | with_reducible exact Tr.lift_fst _
    | with_reducible exact Tr.idx_fst _ _
    | with_reducible exact Tr.upd_fst _ _ _
    | with_reducible exact Tr.store_fst _ _ _ _
    | with_reducible exact Tr.div_fst _ _
    | (focus (simp only [erase]; done)))

end Verif.Rust
