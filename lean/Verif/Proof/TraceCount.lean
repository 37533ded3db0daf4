import Verif.Proof.RecoveryTables
/-!
# How much is seen of the set-up of HC-256
-/
namespace Verif.Rust

/-- If the run does not panic, `n` things are seen, none of which is a vector instruction, and `P` holds of the result. -/
def Tr.Count {α : Type} (n : Nat) (P : α → Prop) (m : Tr α) : Prop := ∀ a, m.1 = .ok a → (m.2.length = n ∧ ∀ e ∈ m.2, Allowed [] e) ∧ P a

namespace Tr.Count

variable {α β : Type} {tgt : Target} {P : α → Prop} {Q : β → Prop} {a b n : Nat}

theorem bind {m : Tr α} {k : α → Tr β} (h : Count a (fun _ => True) m) (h' : ∀ x, Count b Q (k x)) : Count (a + b) Q (m >>= k) := by
  obtain ⟨r, t⟩ := m
  cases r with
  | error p => exact nofun
  | ok x =>
    intro y hy
    obtain ⟨h1, h2⟩ := h' x y hy
    refine ⟨?_, h2⟩
    obtain ⟨⟨h3, h4⟩, -⟩ := h x rfl
    refine ⟨?_, fun e he => (List.mem_append.1 he).elim (h4 e) (h1.2 e)⟩
    show (t ++ (k x).2).length = a + b
    rw [List.length_append, h1.1, show t.length = a from h3]

theorem pure (x : α) (h : P x) : Count 0 P (Pure.pure x : Tr α) := fun _ h' => ⟨⟨rfl, nofun⟩, by cases h'; exact h⟩
theorem lift (m : Except Panic α) : Count 0 (fun _ => True) (liftM m : Tr α) := fun _ _ => ⟨⟨rfl, nofun⟩, trivial⟩
theorem see (e : Event) (m : Except Panic α) (h : Allowed [] e) : Count 1 (fun _ => True) (Tr.see e m) :=
  fun _ _ => ⟨⟨rfl, fun _ he => by cases List.mem_singleton.1 he; exact h⟩, trivial⟩
theorem idx (l : List α) (i : Usize tgt) : Count 1 (fun _ => True) (Tr.idx l i) := see _ _ True.intro
theorem upd (l : List α) (i : Usize tgt) (x : α) : Count 1 (fun _ => True) (Tr.upd l i x) := see _ _ True.intro
theorem slice (l : List α) (i j : Usize tgt) : Count 1 (fun _ => True) (Tr.slice l i j) := see _ _ True.intro
theorem branch (c : Bool) : Count 1 (fun _ => True) (Tr.branch c) := see _ _ True.intro
theorem loop (k : Nat) : Count 1 (fun _ => True) (Tr.loop k) := see _ _ True.intro
theorem of {m : Tr α} (h : Count a P m) (e : a = n) : Count n P m := e ▸ h
theorem any {m : Tr α} (h : Count n P m) : Count n (fun _ => True) m := fun x hx => ⟨(h x hx).1, trivial⟩

theorem ite {c : Prop} [Decidable c] {m m' : Tr α} (h : Count n P m) (h' : Count n P m') : Count n P (if c then m else m') := by
  split <;> assumption

theorem forIn (f : α → β → Tr (ForInStep β)) (h : ∀ x y, Count n (fun r => ∃ z, r = .yield z) (f x y)) (l : List α) (y : β) :
    Count (l.length * n) (fun _ => True) (ForIn.forIn l y f) := by
  induction l generalizing y with
  | nil => exact fun _ _ => ⟨⟨(Nat.zero_mul n).symm, nofun⟩, trivial⟩
  | cons x l ih =>
    rw [List.forIn_cons]
    intro r hr
    have h1 := h x y
    generalize f x y = m at h1 hr
    obtain ⟨e, t⟩ := m
    cases e with
    | error p => cases hr
    | ok s =>
      obtain ⟨h2, z, rfl⟩ := h1 s rfl
      obtain ⟨h3, h4⟩ := (ih z r hr).1
      refine ⟨⟨?_, fun e he => (List.mem_append.1 he).elim (h2.2 e) (h4 e)⟩, trivial⟩
      show (t ++ (ForIn.forIn l z f : Tr β).2).length = _
      rw [List.length_append, h3, show t.length = n from h2.1, List.length_cons, Nat.add_mul, Nat.one_mul, Nat.add_comm]

end Tr.Count

/-- A step in counting what is seen. -/
syntax "count1" : tactic
macro_rules | `(tactic| count1) => `(tactic| first
    | with_reducible exact Tr.Count.pure _ trivial
    | with_reducible exact Tr.Count.pure _ ⟨_, rfl⟩
    | with_reducible exact Tr.Count.lift _
    | with_reducible exact Tr.Count.idx _ _
    | with_reducible exact Tr.Count.upd _ _ _
    | with_reducible exact Tr.Count.slice _ _ _
    | with_reducible exact Tr.Count.branch _
    | with_reducible exact Tr.Count.loop _
    | with_reducible apply Tr.Count.bind
    | with_reducible apply Tr.Count.ite
    | with_reducible apply Tr.Count.forIn
    | intro _)

/-- Count what is seen. -/
syntax "count" : tactic
macro_rules | `(tactic| count) => `(tactic| repeat count1)

namespace Hc256

variable {tgt : Target}

theorem f1_count (x : U32) : Tr.Count 0 (fun _ => True) (f1_tr tgt x) := by
  apply Tr.Count.of
  · rw [f1_tr]
    count
  · rfl

theorem f2_count (x : U32) : Tr.Count 0 (fun _ => True) (f2_tr tgt x) := by
  apply Tr.Count.of
  · rw [f2_tr]
    count
  · rfl

theorem g1_count (s : Hc256Core) (x y : U32) : Tr.Count 1 (fun _ => True) (Hc256Core.g1_tr tgt s x y) := by
  apply Tr.Count.of
  · rw [Hc256Core.g1_tr]
    count
  · rfl

theorem g2_count (s : Hc256Core) (x y : U32) : Tr.Count 1 (fun _ => True) (Hc256Core.g2_tr tgt s x y) := by
  apply Tr.Count.of
  · rw [Hc256Core.g2_tr]
    count
  · rfl

theorem h1_count (s : Hc256Core) (x : U32) : Tr.Count 4 (fun _ => True) (Hc256Core.h1_tr tgt s x) := by
  apply Tr.Count.of
  · rw [Hc256Core.h1_tr]
    count
  · rfl

theorem h2_count (s : Hc256Core) (x : U32) : Tr.Count 4 (fun _ => True) (Hc256Core.h2_tr tgt s x) := by
  apply Tr.Count.of
  · rw [Hc256Core.h2_tr]
    count
  · rfl

theorem word_count (s : Hc256Core) : Tr.Count 13 (fun _ => True) (Hc256Core.gen_word_tr tgt s) := by
  apply Tr.Count.of
  · rw [Hc256Core.gen_word_tr]
    repeat first
      | with_reducible exact g1_count ..
      | with_reducible exact g2_count ..
      | with_reducible exact h1_count ..
      | with_reducible exact h2_count ..
      | count1
  · rfl

/-- The same number of things is seen of the set-up under all keys. -/
theorem new_count (ht : 16 ≤ tgt.bits) : ∃ n, ∀ key iv, Tr.Count n (fun _ => True) (Hc256Core.new_tr tgt key iv) := by
  have h16 : add tgt (⟨8⟩ : Usize tgt) ⟨8⟩ = .ok ⟨16⟩ := add_usize _ _ (pow_bits ht (show 8 + 8 < 65536 by decide))
  apply Exists.intro
  · intro key iv
    rw [Hc256Core.new_tr]
    simp only [table_size_eq, init_size_eq, key_words_eq, iv_words_eq, Tr.lift_ok, pure_bind, h16, val_lit, Nat.sub_zero]
    repeat first
      | with_reducible exact f1_count ..
      | with_reducible exact f2_count ..
      | with_reducible exact word_count ..
      | count1

end Hc256

end Verif.Rust
