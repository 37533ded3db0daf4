import Verif.Rust.Trace
import Verif.Rust.Lemmas
import Verif.Proof.Attr
/-!
# Reasoning about text that records what it does

Erasing the record gives the text (`erase`), and a relation between two runs of the text: whenever neither of them panics, the same things are seen (`Obl`).
Which parts of values may be seen is decided by their types: words, bytes and vector registers are secret, `usize`, conditions, pointers and the
lengths of arrays are not (`Like`).
-/
namespace Verif.Rust

/-- Two values that may differ only in what is secret. -/
class Like (α : Type) where
  rel : α → α → Prop

/-- May differ only in what is secret. -/
def like {α : Type} [Like α] (a b : α) : Prop := Like.rel a b

instance {w : Nat} : Like (BitVec w) := ⟨fun _ _ => True⟩
instance : Like M128 := ⟨fun _ _ => True⟩
instance : Like M256 := ⟨fun _ _ => True⟩
instance : Like M512 := ⟨fun _ _ => True⟩
instance : Like Unit := ⟨fun _ _ => True⟩
instance {tgt : Target} : Like (Usize tgt) := ⟨Eq⟩
instance : Like Nat := ⟨Eq⟩
instance : Like Bool := ⟨Eq⟩
instance {α β : Type} [Like α] [Like β] : Like (α × β) := ⟨fun p q => like p.1 q.1 ∧ like p.2 q.2⟩
instance {α : Type} [Like α] : Like (List α) :=
  ⟨fun l l' => l.length = l'.length ∧ ∀ i (h : i < l.length) (h' : i < l'.length), like l[i] l'[i]⟩

/-- Steps of loops. -/
instance {α : Type} [Like α] : Like (ForInStep α) := ⟨fun
  | .yield a, .yield b => like a b
  | .done a, .done b => like a b
  | _, _ => False⟩

/-- Events that use no vector instruction but these. -/
def Allowed (I : List String) : Event → Prop
  | .instr name => name ∈ I
  | _ => True

/-- If the run does not panic, it uses no vector instruction but these. -/
def Uses {α : Type} (I : List String) (m : Tr α) : Prop := ∀ a, m.1 = .ok a → ∀ e ∈ m.2, Allowed I e

/-- If neither run panics, the same things are seen, no vector instruction but these is used, and the results are related. -/
def Obl {α β : Type} (I : List String) (Q : α → β → Prop) (m : Tr α) (m' : Tr β) : Prop :=
  ∀ a a', m.1 = .ok a → m'.1 = .ok a' → m.2 = m'.2 ∧ (∀ e ∈ m.2, Allowed I e) ∧ Q a a'

variable {α β γ δ : Type} {tgt : Target}

namespace Tr

@[erase] theorem pure_fst (a : α) : (pure a : Tr α).1 = .ok a := rfl

@[erase] theorem bind_fst (m : Tr α) (k : α → Tr β) : (m >>= k).1 = (m.1 >>= fun a => (k a).1) := by
  obtain ⟨m, t⟩ := m
  cases m <;> rfl

@[erase] theorem lift_fst (m : Except Panic α) : (liftM m : Tr α).1 = m := rfl
@[erase] theorem see_fst (e : Event) (m : Except Panic α) : (see e m).1 = m := rfl
@[erase] theorem branch_fst (b : Bool) : (branch b).1 = .ok b := rfl
@[erase] theorem loop_fst (n : Nat) : (loop n).1 = .ok () := rfl
@[erase] theorem instr_fst (s : String) (a : α) : (instr s a).1 = .ok a := rfl
@[erase] theorem idx_fst (l : List α) (i : Usize tgt) : (idx l i).1 = Rust.idx l i := rfl
@[erase] theorem upd_fst (l : List α) (i : Usize tgt) (x : α) : (upd l i x).1 = Rust.upd l i x := rfl
@[erase] theorem slice_fst (l : List α) (a b : Usize tgt) : (slice l a b).1 = Rust.slice l a b := rfl
@[erase] theorem splitAt_fst (l : List α) (n : Usize tgt) : (splitAt l n).1 = Rust.splitAt l n := rfl
@[erase] theorem swap_fst (l : List α) (i j : Usize tgt) : (swap l i j).1 = Rust.swap l i j := rfl
@[erase] theorem div_fst [RInt α] (a b : α) : (div tgt a b).1 = Rust.div tgt a b := rfl
@[erase] theorem rem_fst [RInt α] (a b : α) : (rem tgt a b).1 = Rust.rem tgt a b := rfl

@[erase] theorem load_fst [Mem α] [Reg β] (s : String) (a : α) (o : Nat) : (load s a o : Tr β).1 = Rust.load a o := by
  rw [load, bind_fst, instr_fst]; rfl

@[erase] theorem store_fst [Mem α] [Reg β] (s : String) (a : α) (o : Nat) (x : β) : (store s a o x).1 = Rust.store a o x := by
  rw [store, bind_fst, instr_fst]; rfl

@[erase] theorem ite_fst (c : Prop) [Decidable c] (m m' : Tr α) : (if c then m else m').1 = if c then m.1 else m'.1 := by
  split <;> rfl

@[erase] theorem forIn_fst (l : List α) (b : β) (f : α → β → Tr (ForInStep β)) :
    (forIn l b f).1 = forIn l b fun a b => (f a b).1 := by
  induction l generalizing b with
  | nil => rfl
  | cons a l ih =>
    rw [List.forIn_cons, List.forIn_cons, bind_fst]
    refine congrArg _ (funext fun s => ?_)
    cases s with
    | done _ => rfl
    | yield b => exact ih b

instance : LawfulMonad Tr := LawfulMonad.mk' Tr
  (id_map := by
    rintro α ⟨x, t⟩
    cases x with
    | error e => rfl
    | ok a => show ((.ok a, t ++ []) : Except Panic α × List Event) = (.ok a, t); rw [List.append_nil])
  (pure_bind := by intros; rfl)
  (bind_assoc := by
    rintro α β γ ⟨x, t⟩ f g
    cases x with
    | error e => rfl
    | ok a =>
      show ((match (f a).1 with
          | .ok b => ((g b).1, (t ++ (f a).2) ++ (g b).2)
          | .error e => (.error e, t ++ (f a).2)) : Except Panic γ × List Event) =
        ((f a >>= g).1, t ++ (f a >>= g).2)
      generalize f a = y
      obtain ⟨y, u⟩ := y
      cases y with
      | error e => rfl
      | ok b => show (_, _) = (_, _); rw [List.append_assoc]; rfl)

@[erase] theorem mapM_fst (l : List α) (f : α → Tr β) : (l.mapM f).1 = l.mapM fun a => (f a).1 := by
  rw [← List.mapM'_eq_mapM, ← List.mapM'_eq_mapM]
  induction l with
  | nil => rfl
  | cons a l ih =>
    simp only [List.mapM'_cons, bind_fst, ih, pure_fst]
    rfl

@[erase] theorem fromFn_fst (n : Usize tgt) (f : Usize tgt → Tr α) : (fromFn n f).1 = Rust.fromFn n fun i => (f i).1 := by
  rw [fromFn, bind_fst, loop_fst, mapM_fst]; rfl

@[erase] theorem except_pure {α : Type} (a : α) : (pure a : Except Panic α) = .ok a := rfl

theorem except_bind_ok {α : Type} (m : Except Panic α) : (m >>= fun a => Except.ok a) = m := by cases m <;> rfl

theorem lift_ok_bind {α β : Type} (a : α) (f : α → Tr β) : ((liftM (Except.ok a : Except Panic α) : Tr α) >>= f) = f a := by
  apply Prod.ext <;> rfl

end Tr

@[erase] theorem okBind (a : α) (k : α → Except Panic β) : ((.ok a : Except Panic α) >>= k) = k a := rfl

/-! ### Values -/

namespace like

class Refl (α : Type) [Like α] : Prop where
  refl : ∀ a : α, like a a

instance {w : Nat} : Refl (BitVec w) := ⟨fun _ => trivial⟩
instance : Refl M128 := ⟨fun _ => trivial⟩
instance : Refl M256 := ⟨fun _ => trivial⟩
instance : Refl M512 := ⟨fun _ => trivial⟩
instance : Refl Unit := ⟨fun _ => trivial⟩
instance : Refl (Usize tgt) := ⟨fun _ => rfl⟩
instance : Refl Nat := ⟨fun _ => rfl⟩
instance : Refl Bool := ⟨fun _ => rfl⟩
instance [Like α] [Like β] [Refl α] [Refl β] : Refl (α × β) := ⟨fun _ => ⟨Refl.refl _, Refl.refl _⟩⟩
instance [Like α] [Refl α] : Refl (List α) := ⟨fun _ => ⟨rfl, fun _ _ _ => Refl.refl _⟩⟩

theorem rfl' [Like α] [Refl α] {a : α} : like a a := Refl.refl a

variable [Like α] [Like β] {l l' m m' : List α} {a a' : α} {b b' : β}

theorem word {w : Nat} (x y : BitVec w) : like x y := trivial
theorem m128 (x y : M128) : like x y := trivial
theorem m256 (x y : M256) : like x y := trivial
theorem m512 (x y : M512) : like x y := trivial

theorem yield (h : like a a') : like (ForInStep.yield a) (ForInStep.yield a') := h
theorem done (h : like a a') : like (ForInStep.done a) (ForInStep.done a') := h

theorem length (h : like l l') : l.length = l'.length := h.1

theorem isEmpty (h : like l l') : l.isEmpty = l'.isEmpty := by
  have := h.1
  cases l <;> cases l' <;> first | rfl | simp at this

theorem prod (h : like a a') (k : like b b') : like (a, b) (a', b') := ⟨h, k⟩

theorem nil : like ([] : List α) [] := ⟨rfl, fun _ h _ => absurd h (by simp)⟩

theorem cons (h : like a a') (k : like l l') : like (a :: l) (a' :: l') := by
  refine ⟨by simp [k.1], fun i hi hi' => ?_⟩
  cases i with
  | zero => exact h
  | succ i => exact k.2 i (by simpa using hi) (by simpa using hi')

theorem set (h : like l l') (i : Nat) (k : like a a') : like (l.set i a) (l'.set i a') := by
  refine ⟨by simp [h.1], fun j hj hj' => ?_⟩
  rw [List.length_set] at hj hj'
  rw [List.getElem_set, List.getElem_set]
  split
  · exact k
  · exact h.2 j hj hj'

theorem append (h : like l l') (k : like m m') : like (l ++ m) (l' ++ m') := by
  have hl := h.1
  refine ⟨by simp [h.1, k.1], fun j hj hj' => ?_⟩
  rw [List.length_append] at hj hj'
  rw [List.getElem_append, List.getElem_append]
  by_cases c : j < l.length
  · rw [dif_pos c, dif_pos (by omega)]; exact h.2 j c _
  · rw [dif_neg c, dif_neg (by omega)]
    simp only [hl]
    exact k.2 _ _ _

theorem take (h : like l l') (n : Nat) : like (l.take n) (l'.take n) := by
  refine ⟨by simp [h.1], fun j hj hj' => ?_⟩
  rw [List.getElem_take, List.getElem_take]
  exact h.2 _ _ _

theorem drop (h : like l l') (n : Nat) : like (l.drop n) (l'.drop n) := by
  refine ⟨by simp [h.1], fun j hj hj' => ?_⟩
  rw [List.getElem_drop, List.getElem_drop]
  exact h.2 _ _ _

theorem replicate (n : Nat) (h : like a a') : like (List.replicate n a) (List.replicate n a') := by
  refine ⟨by simp, fun j hj hj' => ?_⟩
  rw [List.getElem_replicate, List.getElem_replicate]
  exact h

theorem chunk (h : like l l') (n k : Nat) : like (chunk l n k) (Rust.chunk l' n k) := (h.drop _).take _

theorem putChunk (h : like l l') (n k : Nat) (hm : like m m') : like (putChunk l n k m) (Rust.putChunk l' n k m') :=
  ((h.take _).append hm).append (h.drop _)

theorem putSlice (h : like l l') {a b a' b' : Usize tgt} (ha : a = a') (hb : b = b') (hm : like m m') :
    like (putSlice l a b m) (Rust.putSlice l' a' b' m') := by
  cases ha; cases hb
  exact ((h.take _).append hm).append (h.drop _)

theorem toLeBytes {w : Nat} (x x' : BitVec w) : like (toLeBytes x) (Rust.toLeBytes x') := by
  refine ⟨by simp [Rust.toLeBytes], fun _ _ _ => trivial⟩

/-- Lists of words with the same length. -/
theorem words {w : Nat} {l l' : List (BitVec w)} (h : l.length = l'.length) : like l l' := ⟨h, fun _ _ _ => trivial⟩

theorem usize {a b : Usize tgt} (h : a = b) : like a b := h

end like

/-! ### Runs -/

theorem like.tail [Like α] {a b : α} {l l' : List α} (h : like (a :: l) (b :: l')) : like a b ∧ like l l' := by
  refine ⟨h.2 0 (by simp) (by simp), by have := h.1; simpa using this, fun i hi hi' => ?_⟩
  exact h.2 (i + 1) (by simpa using hi) (by simpa using hi')

variable {I : List String}

namespace Uses

theorem pure (a : α) : Uses I (pure a) := fun _ _ _ h => nomatch h

theorem lift (x : Except Panic α) : Uses I (liftM x) := fun _ _ _ h => nomatch h

theorem bind {m : Tr α} {k : α → Tr β} (h : Uses I m) (hk : ∀ a, Uses I (k a)) : Uses I (m >>= k) := by
  intro x hx e he
  obtain ⟨m, t⟩ := m
  cases m with
  | error e => cases hx
  | ok a =>
    rcases List.mem_append.1 he with he | he
    · exact h a rfl e he
    · exact hk a x hx e he

theorem see {e : Event} {x : Except Panic α} (h : Allowed I e) : Uses I (Tr.see e x) := by
  intro a _ e' he'
  cases List.mem_singleton.1 he'
  exact h

theorem instr {s : String} (h : s ∈ I) (a : α) : Uses I (Tr.instr s a) := see h
theorem loop (n : Nat) : Uses I (Tr.loop n) := see trivial
theorem branch (b : Bool) : Uses I (Tr.branch b) := see trivial
theorem idx (l : List α) (i : Usize tgt) : Uses I (Tr.idx l i) := see trivial
theorem upd (l : List α) (i : Usize tgt) (x : α) : Uses I (Tr.upd l i x) := see trivial
theorem slice (l : List α) (i j : Usize tgt) : Uses I (Tr.slice l i j) := see trivial
theorem splitAt (l : List α) (i : Usize tgt) : Uses I (Tr.splitAt l i) := see trivial
theorem div [RInt α] (a b : α) : Uses I (Tr.div tgt a b) := see trivial
theorem rem [RInt α] (a b : α) : Uses I (Tr.rem tgt a b) := see trivial

end Uses

namespace Obl

variable {Q : α → β → Prop} {m : Tr α} {m' : Tr β}

theorem pure {a : α} {b : β} (h : Q a b) : Obl I Q (pure a) (Pure.pure b) := by
  intro x y hx hy
  cases hx; cases hy
  exact ⟨rfl, (fun _ h => nomatch h), h⟩

theorem same {m : Tr α} (h : Uses I m) : Obl I Eq m m := by
  intro x y hx hy
  rw [hx] at hy
  cases hy
  exact ⟨rfl, h x hx, rfl⟩

theorem mono {Q' : α → β → Prop} (h : Obl I Q m m') (k : ∀ a b, Q a b → Q' a b) : Obl I Q' m m' :=
  fun a b ha hb => ⟨(h a b ha hb).1, (h a b ha hb).2.1, k a b (h a b ha hb).2.2⟩

/-- More instructions. -/
theorem weaken {J : List String} (h : Obl I Q m m') (hI : ∀ s ∈ I, s ∈ J) : Obl J Q m m' := by
  intro a b ha hb
  obtain ⟨h1, h2, h3⟩ := h a b ha hb
  refine ⟨h1, fun e he => ?_, h3⟩
  have := h2 e he
  cases e <;> first | exact trivial | exact hI _ this

theorem bind {S : γ → δ → Prop} {k : α → Tr γ} {k' : β → Tr δ} (h : Obl I Q m m') (hk : ∀ a b, Q a b → Obl I S (k a) (k' b)) :
    Obl I S (m >>= k) (m' >>= k') := by
  intro x y hx hy
  obtain ⟨m, t⟩ := m
  obtain ⟨m', t'⟩ := m'
  cases m with
  | error e => cases hx
  | ok a =>
    cases m' with
    | error e => cases hy
    | ok b =>
      obtain ⟨h1, hu, h2⟩ := h a b rfl rfl
      obtain ⟨h3, hv, h4⟩ := hk a b h2 x y hx hy
      refine ⟨?_, fun e he => ?_, h4⟩
      · show t ++ (k a).2 = t' ++ (k' b).2
        rw [h3]
        exact congrArg (· ++ _) h1
      · rcases List.mem_append.1 he with he | he
        · exact hu e he
        · exact hv e he

theorem bind_same {S : γ → δ → Prop} {n : Tr α} {k : α → Tr γ} {k' : α → Tr δ} (h : Uses I n) (hk : ∀ a, Obl I S (k a) (k' a)) :
    Obl I S (n >>= k) (n >>= k') := bind (same h) fun a b h => by subst h; exact hk a

theorem bind_lift {S : γ → δ → Prop} {n : Except Panic α} {k : α → Tr γ} {k' : α → Tr δ} (hk : ∀ a, n = .ok a → Obl I S (k a) (k' a)) :
    Obl I S ((liftM n : Tr α) >>= k) (liftM n >>= k') := by
  cases n with
  | error e => exact fun x y hx => nomatch hx
  | ok a => exact hk a rfl

theorem bind_like [Like α] {S : γ → δ → Prop} {n n' : Tr α} {k : α → Tr γ} {k' : α → Tr δ} (h : Obl I like n n')
    (hk : ∀ a b, like a b → Obl I S (k a) (k' b)) : Obl I S (n >>= k) (n' >>= k') := bind h hk

theorem ite {c : Prop} [Decidable c] {n n' : Tr α} {k k' : Tr β} (h : c → Obl I Q n k) (h' : ¬ c → Obl I Q n' k') :
    Obl I Q (if c then n else n') (if c then k else k') := by
  by_cases hc : c
  · rw [if_pos hc, if_pos hc]; exact h hc
  · rw [if_neg hc, if_neg hc]; exact h' hc

theorem see {e e' : Event} {x : Except Panic α} {y : Except Panic β} (hA : Allowed I e) (he : e = e') (h : ∀ a b, x = .ok a → y = .ok b → Q a b) :
    Obl I Q (Tr.see e x) (Tr.see e' y) := by
  subst he
  exact fun a b ha hb => ⟨rfl, Uses.see hA a ha, h a b ha hb⟩

theorem lift {x : Except Panic α} {y : Except Panic β} (h : ∀ a b, x = .ok a → y = .ok b → Q a b) : Obl I Q (liftM x) (liftM y) :=
  fun a b ha hb => ⟨rfl, (fun _ h => nomatch h), h a b ha hb⟩

theorem bind_any {S : γ → δ → Prop} {n : Except Panic α} {n' : Except Panic β} {k : α → Tr γ} {k' : β → Tr δ} (hk : ∀ a b, Obl I S (k a) (k' b)) :
    Obl I S ((liftM n : Tr α) >>= k) (liftM n' >>= k') := bind (lift fun _ _ _ _ => trivial) fun a b (_ : True) => hk a b

/-- A run that panics. -/
theorem error (p : Panic) (y : Tr β) : Obl I Q (liftM (Except.error p)) y := fun _ _ ha => nomatch ha

theorem forIn [Like γ] (l : List α) {b b' : γ} {f f' : α → γ → Tr (ForInStep γ)} (hb : like b b')
    (h : ∀ a x x', like x x' → Obl I like (f a x) (f' a x')) : Obl I like (forIn l b f) (ForIn.forIn l b' f') := by
  induction l generalizing b b' with
  | nil => exact pure hb
  | cons a l ih =>
    rw [List.forIn_cons, List.forIn_cons]
    refine bind (h a b b' hb) fun s s' hs => ?_
    cases s <;> cases s' <;> first | exact hs.elim | exact pure hs | exact ih hs

theorem loops [Like γ] {n n' : Nat} (hn : n = n') {b b' : γ} {f f' : Nat → γ → Tr (ForInStep γ)} (hb : like b b')
    (h : ∀ a x x', like x x' → Obl I like (f a x) (f' a x')) : Obl I like (ForIn.forIn (List.range n) b f) (ForIn.forIn (List.range n') b' f') := by
  subst hn
  exact forIn _ hb h

theorem mapM [Like γ] (l : List α) {f f' : α → Tr γ} (h : ∀ a, Obl I like (f a) (f' a)) : Obl I like (l.mapM f) (l.mapM f') := by
  rw [← List.mapM'_eq_mapM, ← List.mapM'_eq_mapM]
  induction l with
  | nil => exact pure like.nil
  | cons a l ih =>
    rw [List.mapM'_cons, List.mapM'_cons]
    exact bind (h a) fun x x' hx => bind ih fun y y' hy => pure (hx.cons hy)

theorem mapM_like [Like α] [Like γ] {f f' : α → Tr γ} {l l' : List α} (hl : like l l') (h : ∀ a b, like a b → Obl I like (f a) (f' b)) :
    Obl I like (l.mapM f) (l'.mapM f') := by
  rw [← List.mapM'_eq_mapM, ← List.mapM'_eq_mapM]
  induction l generalizing l' with
  | nil =>
    cases l' with
    | nil => exact pure like.nil
    | cons b l' => exact absurd hl.1 (by simp)
  | cons a l ih =>
    cases l' with
    | nil => exact absurd hl.1 (by simp)
    | cons b l' =>
      rw [List.mapM'_cons, List.mapM'_cons]
      exact bind (h a b hl.tail.1) fun x x' hx => bind (ih hl.tail.2) fun y y' hy => pure (hx.cons hy)

theorem fromFn [Like γ] {n n' : Usize tgt} (hn : n = n') {f f' : Usize tgt → Tr γ} (h : ∀ a, Obl I like (f a) (f' a)) :
    Obl I like (Tr.fromFn n f) (Tr.fromFn n' f') := by
  subst hn
  exact bind_same (Uses.loop _) fun _ => mapM _ h

variable [Like γ] {l l' : List γ} {x x' : γ}

theorem branch {b b' : Bool} (h : b = b') : Obl I Eq (Tr.branch b) (Tr.branch b') := by subst h; exact same (Uses.branch _)

theorem loop {n n' : Nat} (h : n = n') : Obl I (like (α := Unit)) (Tr.loop n) (Tr.loop n') := by
  subst h; exact (same (Uses.loop _)).mono fun _ _ _ => trivial

theorem instr {s : String} (hs : s ∈ I) (h : like x x') : Obl I like (Tr.instr s x) (Tr.instr s x') :=
  see hs rfl fun a b ha hb => by cases ha; cases hb; exact h

theorem of_nth {i : Nat} (h : like l l') (a b : γ) (ha : nth l i = .ok a) (hb : nth l' i = .ok b) : like a b := by
  unfold nth at ha hb
  split at ha
  · split at hb
    · cases ha; cases hb; exact h.2 _ _ _
    · cases hb
  · cases ha

theorem nth {i i' : Nat} (hi : i = i') (h : like l l') : Obl I like (liftM (nth l i)) (liftM (Rust.nth l' i')) := by
  subst hi
  exact lift (of_nth h)

theorem idx {i i' : Usize tgt} (hi : i = i') (h : like l l') : Obl I like (Tr.idx l i) (Tr.idx l' i') := by
  subst hi
  exact see trivial rfl (of_nth h)

theorem upd {i i' : Usize tgt} (hi : i = i') (h : like l l') (hx : like x x') : Obl I like (Tr.upd l i x) (Tr.upd l' i' x') := by
  subst hi
  refine see trivial rfl fun a b ha hb => ?_
  unfold Rust.upd at ha hb
  split at ha
  · split at hb
    · cases ha; cases hb; exact h.set _ hx
    · cases hb
  · cases ha

theorem of_slice {i j : Usize tgt} (h : like l l') (a b : List γ) (ha : slice l i j = .ok a) (hb : slice l' i j = .ok b) : like a b := by
  unfold slice at ha hb
  split at ha
  · split at hb
    · cases ha; cases hb; exact (h.drop _).take _
    · cases hb
  · cases ha

theorem slice {i i' j j' : Usize tgt} (hi : i = i') (hj : j = j') (h : like l l') : Obl I like (Tr.slice l i j) (Tr.slice l' i' j') := by
  subst hi; subst hj
  exact see trivial rfl (of_slice h)

theorem splitAt {n n' : Usize tgt} (hi : n = n') (h : like l l') : Obl I like (Tr.splitAt l n) (Tr.splitAt l' n') := by
  subst hi
  refine see trivial rfl fun a b ha hb => ?_
  unfold Rust.splitAt at ha hb
  split at ha
  · split at hb
    · cases ha; cases hb; exact ⟨h.take _, h.drop _⟩
    · cases hb
  · cases ha

theorem copyFromSlice {k k' m m' : List γ} (hm : like m m') : Obl I like (liftM (copyFromSlice k m)) (liftM (Rust.copyFromSlice k' m')) := by
  refine lift fun a b ha hb => ?_
  unfold Rust.copyFromSlice at ha hb
  split at ha
  · split at hb
    · cases ha; cases hb; exact hm
    · cases hb
  · cases ha

theorem arrayOf {n n' : Usize tgt} (h : like l l') : Obl I like (liftM (arrayOf n l)) (liftM (Rust.arrayOf n' l')) := by
  refine lift fun a b ha hb => ?_
  unfold Rust.arrayOf at ha hb
  split at ha
  · split at hb
    · cases ha; cases hb; exact h
    · cases hb
  · cases ha

theorem unwrap {a a' : Option γ} (h : ∀ x x', a = some x → a' = some x' → like x x') :
    Obl I like (liftM (Unwrap.unwrap a : Except Panic γ)) (liftM (Unwrap.unwrap a' : Except Panic γ)) := by
  refine lift fun x y hx hy => ?_
  cases a with
  | none => cases hx
  | some a =>
    cases a' with
    | none => cases hy
    | some a' => cases hx; cases hy; exact h _ _ rfl rfl

theorem unwrap_list (h : like l l') :
    Obl I like (liftM (Unwrap.unwrap (TryInto.tryInto l : Option (List γ)) : Except Panic (List γ)))
      (liftM (Unwrap.unwrap (TryInto.tryInto l' : Option (List γ)) : Except Panic (List γ))) :=
  unwrap fun _ _ hx hy => by cases hx; cases hy; exact h

/-- Operations on words: nothing is seen, and the result is secret. -/
theorem word {w : Nat} (x y : Except Panic (BitVec w)) : Obl I like (liftM x) (liftM y) := lift fun _ _ _ _ => trivial

theorem unit (x y : Except Panic Unit) : Obl I like (liftM x) (liftM y) := lift fun _ _ _ _ => trivial

theorem secret [Like α] {a b : α} (h : like a b) : Obl I like (Pure.pure a) (Pure.pure b) := pure h

/-- Division by a public power of two. -/
theorem of_div {w : Nat} {a a' b b' : BitVec w} {f : Except Panic (BitVec w)} {f' : Except Panic (BitVec w)} (h : b = b') (hp : b.toNat = 2 ^ b.toNat.log2) :
    Obl I like (Tr.see (Tr.divide (RInt.toNat a) (RInt.toNat b)) f) (Tr.see (Tr.divide (RInt.toNat a') (RInt.toNat b')) f') := by
  subst h
  refine see trivial ?_ fun _ _ _ _ => trivial
  show Event.divide (if b.toNat = 2 ^ b.toNat.log2 then 0 else _) _ = Event.divide (if b.toNat = 2 ^ b.toNat.log2 then 0 else _) _
  rw [if_pos hp, if_pos hp]

theorem div {w : Nat} {a a' b b' : BitVec w} (h : b = b') (hp : b.toNat = 2 ^ b.toNat.log2) : Obl I like (Tr.div tgt a b) (Tr.div tgt a' b') := of_div h hp
theorem rem {w : Nat} {a a' b b' : BitVec w} (h : b = b') (hp : b.toNat = 2 ^ b.toNat.log2) : Obl I like (Tr.rem tgt a b) (Tr.rem tgt a' b') := of_div h hp

end Obl

/-! ### Memory -/

/-- Types of values whose bytes can be written without changing what is public. -/
class LikeMem (α : Type) [Mem α] [Like α] : Prop where
  size : ∀ a b : α, like a b → Mem.size a = Mem.size b
  unit : ∀ a b : α, like a b → Mem.unit a = Mem.unit b
  put : ∀ (a b : α) (l l' : List U8), like a b → like (Mem.put a l) (Mem.put b l')

theorem toLeBytes_length {w : Nat} (x : BitVec w) : (toLeBytes x).length = w / 8 := by simp [toLeBytes]

instance : LikeMem U8 := ⟨fun _ _ _ => rfl, fun _ _ _ => rfl, fun _ _ _ _ _ => trivial⟩
instance : LikeMem U32 := ⟨fun a b _ => by show (toLeBytes a).length = (toLeBytes b).length; rw [toLeBytes_length, toLeBytes_length], fun _ _ _ => rfl, fun _ _ _ _ _ => trivial⟩

theorem m128_size (a : M128) : Mem.size a = 16 := by
  show (toLeBytes _ ++ toLeBytes _ ++ toLeBytes _ ++ toLeBytes _).length = 16
  simp only [List.length_append, toLeBytes_length]

instance : LikeMem M128 := ⟨fun a b _ => by rw [m128_size, m128_size], fun _ _ _ => rfl, fun _ _ _ _ _ => trivial⟩

theorem m256_size (a : M256) : Mem.size a = 32 := by
  show (Reg.bytes _ ++ Reg.bytes _).length = 32
  rw [List.length_append]
  have h0 : (Reg.bytes a.lo).length = 16 := m128_size a.lo
  have h1 : (Reg.bytes a.hi).length = 16 := m128_size a.hi
  omega

instance : LikeMem M256 := ⟨fun a b _ => by rw [m256_size, m256_size], fun _ _ _ => rfl, fun _ _ _ _ _ => trivial⟩

theorem m512_size (a : M512) : Mem.size a = 64 := by
  show (Reg.bytes _ ++ Reg.bytes _ ++ Reg.bytes _ ++ Reg.bytes _).length = 64
  rw [List.length_append, List.length_append, List.length_append]
  have h0 : (Reg.bytes a.l0).length = 16 := m128_size a.l0
  have h1 : (Reg.bytes a.l1).length = 16 := m128_size a.l1
  have h2 : (Reg.bytes a.l2).length = 16 := m128_size a.l2
  have h3 : (Reg.bytes a.l3).length = 16 := m128_size a.l3
  omega

instance : LikeMem M512 := ⟨fun a b _ => by rw [m512_size, m512_size], fun _ _ _ => rfl, fun _ _ _ _ _ => trivial⟩

instance [Mem α] [Like α] [LikeMem α] : LikeMem (List α) where
  size l l' h := by
    induction l generalizing l' with
    | nil =>
      cases l' with
      | nil => rfl
      | cons b l' => exact absurd h.1 (by simp)
    | cons a l ih =>
      cases l' with
      | nil => exact absurd h.1 (by simp)
      | cons b l' =>
        show (Mem.bytes a ++ l.flatMap Mem.bytes).length = (Mem.bytes b ++ l'.flatMap Mem.bytes).length
        rw [List.length_append, List.length_append]
        have h0 : (Mem.bytes a).length = (Mem.bytes b).length := LikeMem.size _ _ h.tail.1
        have h1 : (l.flatMap Mem.bytes).length = (l'.flatMap Mem.bytes).length := ih _ h.tail.2
        omega
  unit l l' h := by
    cases l with
    | nil =>
      cases l' with
      | nil => rfl
      | cons b l' => exact absurd h.1 (by simp)
    | cons a l =>
      cases l' with
      | nil => exact absurd h.1 (by simp)
      | cons b l' => exact LikeMem.size _ _ h.tail.1
  put l l' c c' h := by
    show like (puts l c) (puts l' c')
    induction l generalizing l' c c' with
    | nil =>
      cases l' with
      | nil => exact like.nil
      | cons b l' => exact absurd h.1 (by simp)
    | cons a l ih =>
      cases l' with
      | nil => exact absurd h.1 (by simp)
      | cons b l' => exact like.cons (LikeMem.put _ _ _ _ h.tail.1) (ih _ _ _ h.tail.2)

theorem Obl.load [Mem α] [Reg β] [Like β] {s : String} (hs : s ∈ I) {a a' : α} {o o' : Nat} (ho : o = o') (hr : ∀ x y : β, like x y) :
    Obl I like (Tr.load s a o : Tr β) (Tr.load s a' o') := by
  subst ho
  exact Obl.bind_same (Uses.instr hs _) fun _ => Obl.see trivial rfl fun _ _ _ _ => hr _ _

theorem Obl.store [Mem α] [Like α] [LikeMem α] [Reg β] {s : String} (hs : s ∈ I) {a a' : α} {o o' : Nat} {x x' : β} (ho : o = o') (h : like a a') :
    Obl I like (Tr.store s a o x) (Tr.store s a' o' x') := by
  subst ho
  refine Obl.bind_same (Uses.instr hs _) fun _ => Obl.see trivial rfl fun c c' hc hc' => ?_
  unfold Rust.store at hc hc'
  split at hc
  · split at hc'
    · cases hc; cases hc'; exact LikeMem.put _ _ _ _ h
    · cases hc'
  · cases hc

theorem Obl.ptrAdd {s s' u u' o o' : Nat} {i i' : Usize tgt} (hs : s = s') (hu : u = u') (ho : o = o') (hi : i = i') :
    Obl I like (liftM (ptrAdd s u o i)) (liftM (Rust.ptrAdd s' u' o' i')) := by
  subst hs hu ho hi
  exact (Obl.same (Uses.lift _)).mono fun _ _ h => h

theorem Obl.transmute [Mem α] [Reg β] [Like β] {n n' : Usize tgt} (hn : n = n') {a a' : α} (hr : ∀ x y : β, like x y) :
    Obl I like (liftM (transmute n a : Except Panic (List β))) (liftM (Rust.transmute n' a' : Except Panic (List β))) := by
  subst hn
  refine Obl.lift fun c c' hc hc' => ?_
  unfold Rust.transmute at hc hc'
  split at hc
  · split at hc'
    · cases hc; cases hc'; exact ⟨by simp, fun _ _ _ => hr _ _⟩
    · cases hc'
  · cases hc

/-! ### Taking results apart -/

namespace Elim

variable {P : α → α → Prop}

theorem prod [Like α] [Like β] {P : α × β → α × β → Prop} (h : ∀ a a', like a a' → ∀ b b', like b b' → P (a, b) (a', b')) :
    ∀ p p', like p p' → P p p' := fun _ _ hp => h _ _ hp.1 _ _ hp.2

theorem unit {P : Unit → Unit → Prop} (h : P () ()) : ∀ p p', like p p' → P p p' := fun _ _ _ => h
theorem usize {P : Usize tgt → Usize tgt → Prop} (h : ∀ a, P a a) : ∀ p p', like p p' → P p p' := fun p p' e => by cases (e : p = p'); exact h _
theorem nat {P : Nat → Nat → Prop} (h : ∀ a, P a a) : ∀ p p', like p p' → P p p' := fun p p' e => by cases (e : p = p'); exact h _
theorem bool {P : Bool → Bool → Prop} (h : ∀ a, P a a) : ∀ p p', like p p' → P p p' := fun p p' e => by cases (e : p = p'); exact h _

end Elim

end Verif.Rust
