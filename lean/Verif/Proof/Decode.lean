import Verif.Proof.Extent
/-!
# The requests are seen

Where of the records of different requests neither begins with the other, and what the text records after client code begins with an event with which no request begins, the requests can be
read off the record.
-/
namespace Verif
open ChaCha.Isa (Req)

namespace Rust

/-- If text returns, its record begins with an event of this kind. -/
def Heads {α : Type} (m : Tr α) (φ : Event → Prop) : Prop := ∀ a, m.1 = .ok a → ∃ e, m.2.head? = some e ∧ φ e

theorem Heads.see {α : Type} (e : Event) (m : Except Panic α) {φ : Event → Prop} (h : φ e) : Heads (Tr.see e m) φ := fun _ _ => ⟨e, rfl, h⟩

theorem Heads.bind {α β : Type} {m : Tr α} {k : α → Tr β} {φ : Event → Prop} (h : Heads m φ) : Heads (m >>= k) φ := fun b hb => by
  obtain ⟨a, h1, h2⟩ := Tr.bind_ok hb
  obtain ⟨e, h3, h4⟩ := h a (congrArg Prod.fst h1)
  refine ⟨e, ?_, h4⟩
  have h5 : (m >>= k) = (.ok b, m.2 ++ (k a).2) := Tr.bind_eq h1 (Prod.ext h2 rfl)
  rw [h5]
  cases hm : m.2 with
  | nil => rw [hm] at h3; cases h3
  | cons x t => rw [hm] at h3; exact h3

theorem Heads.loop {β : Type} (n : Nat) (k : Unit → Tr β) : Heads (Tr.loop n >>= k) (· = .loop n) := Heads.bind (φ := (· = .loop n)) (Heads.see _ _ rfl)

theorem Heads.pure {α β : Type} {a : α} {k : α → Tr β} {φ : Event → Prop} (h : Heads (k a) φ) : Heads ((Pure.pure a : Tr α) >>= k) φ := h

theorem Heads.lift {α β : Type} {m : Except Panic α} {k : α → Tr β} {φ : Event → Prop} (h : ∀ a, Heads (k a) φ) : Heads ((liftM m : Tr α) >>= k) φ := by
  cases m with
  | error p => exact fun _ hb => nomatch hb
  | ok a => exact h a

theorem Heads.mono {α : Type} {m : Tr α} {φ ψ : Event → Prop} (h : Heads m φ) (hi : ∀ a, m.1 = .ok a → ∀ e, φ e → ψ e) : Heads m ψ := fun a ha => by
  obtain ⟨e, h1, h2⟩ := h a ha
  exact ⟨e, h1, hi a ha e h2⟩

section
variable {bs : Nat} {σ : Type} {run : (α : Type) → Prog bs α → σ → Tr (α × σ)}

/-- A request that is answered is told by the event with which its record begins. -/
structure Decodes (run : (α : Type) → Prog bs α → σ → Tr (α × σ)) (φ : Req → Event → Prop) : Prop where
  heads : ∀ q s, Heads (run Unit (Prog.ofReqs [q]) s) (φ q)
  inj : ∀ q q' e, φ q e → φ q' e → q = q'

/-- A record that does not begin as a request does. -/
def Apart (φ : Req → Event → Prop) (w : List Event) : Prop := ∀ q e, φ q e → w.head? ≠ some e

theorem Apart.nil (φ : Req → Event → Prop) : Apart φ [] := fun _ _ _ h => nomatch h

theorem IsRun.decode (R : IsRun run) {φ : Req → Event → Prop} (D : Decodes run φ) {l l' : List Req} {s : σ} {r r' : Unit × σ} {u u' w w' : List Event}
    (h : run Unit (Prog.ofReqs l) s = (.ok r, u)) (h' : run Unit (Prog.ofReqs l') s = (.ok r', u')) (hw : Apart φ w) (hw' : Apart φ w') (he : u ++ w = u' ++ w') : l = l' := by
  have first : ∀ {q : Req} {k : List Req} {s : σ} {r : Unit × σ} {u : List Event}, run Unit (Prog.ofReqs (q :: k)) s = (.ok r, u) →
      ∃ a e v u1, run Unit (Prog.ofReqs [q]) s = (.ok a, e :: v) ∧ φ q e ∧ run Unit (Prog.ofReqs k) a.2 = (.ok r, u1) ∧ u = e :: v ++ u1 := fun {q k s r u} h => by
    have h0 : run Unit (Prog.ofReqs [q]) s >>= (fun r => run Unit (Prog.ofReqs k) r.2) = (.ok r, u) := (R.append [q] k s).symm.trans h
    obtain ⟨a, h1, h2⟩ := Tr.bind_ok (congrArg Prod.fst h0)
    obtain ⟨e, h3, h4⟩ := D.heads q s a (congrArg Prod.fst h1)
    cases hv : (run Unit (Prog.ofReqs [q]) s).2 with
    | nil => rw [hv] at h3; cases h3
    | cons x v =>
      rw [hv] at h1 h3
      cases h3
      refine ⟨a, e, v, (run Unit (Prog.ofReqs k) a.2).2, h1, h4, Prod.ext h2 rfl, ?_⟩
      exact (congrArg Prod.snd (h0.symm.trans (Tr.bind_eq h1 (Prod.ext h2 rfl))))
  induction l generalizing l' s r r' u u' with
  | nil =>
    cases l' with
    | nil => rfl
    | cons q k =>
      obtain ⟨a, e, v, u1, -, h2, -, rfl⟩ := first h'
      rw [Prog.ofReqs, R.done] at h
      have hu : u = [] := (congrArg Prod.snd h).symm
      subst hu
      exact absurd (congrArg List.head? he) (hw q e h2)
  | cons q k ih =>
    obtain ⟨a, e, v, u1, h1, h2, h3, rfl⟩ := first h
    cases l' with
    | nil =>
      rw [Prog.ofReqs, R.done] at h'
      have hu : u' = [] := (congrArg Prod.snd h').symm
      subst hu
      exact absurd (congrArg List.head? he.symm) (hw' q e h2)
    | cons q' k' =>
      obtain ⟨a', e', v', u1', h1', h2', h3', rfl⟩ := first h'
      have e1 : e = e' := (List.cons.inj he).1
      subst e1
      have e2 := D.inj q q' e h2 h2'
      subst e2
      have e3 : ((Except.ok a, e :: v) : Tr (Unit × σ)) = (Except.ok a', e :: v') := h1.symm.trans h1'
      cases e3
      rw [List.append_assoc, List.append_assoc] at he
      exact congrArg (q :: ·) (ih h3 h3' (List.append_cancel_left he))

end

/-- Text from whose record the requests of client code can be read off. -/
def Tells {A : Type} (P : Callee Unit → Tr A) : Prop := ∀ (l l' : List Req) (r r' : A),
  (P (.ready fun _ => Prog.ofReqs l)).1 = .ok r → (P (.ready fun _ => Prog.ofReqs l')).1 = .ok r' →
    (P (.ready fun _ => Prog.ofReqs l)).2 = (P (.ready fun _ => Prog.ofReqs l')).2 → l = l'

theorem Tells.call {τ B : Type} [StreamCipherBackend τ] {tgt : Target} {φ : Req → Event → Prop} (D : Decodes (σ := τ) (fun _ p s => runTr tgt p s) φ) (b : τ)
    (Q : Unit × Callee Unit × τ → Tr B) (hq : ∀ r a, (Q r).1 = .ok a → Apart φ (Q r).2) : Tells fun f => StreamCipherClosure.call_tr tgt f b >>= fun r => Q r := by
  intro l l' r r' h h' he
  have e : ∀ l : List Req, (StreamCipherClosure.call_tr tgt (Callee.ready fun _ => Prog.ofReqs l) b >>= fun r => Q r) =
      runTr tgt (Prog.ofReqs l) b >>= fun r => Q ((), .done r.1, r.2) := fun l => by
    show (runTr tgt (Prog.ofReqs l) b >>= fun r => pure ((), Callee.done r.1, r.2)) >>= _ = _
    rw [bind_assoc]
    rfl
  dsimp only at h h' he
  rw [e] at h h' he
  rw [e l'] at he
  obtain ⟨a, h1, h2⟩ := Tr.bind_ok h
  obtain ⟨a', h1', h2'⟩ := Tr.bind_ok h'
  rw [Tr.bind_eq h1 (Prod.ext h2 rfl), Tr.bind_eq h1' (Prod.ext h2' rfl)] at he
  exact (runTr_isRun tgt).decode D h1 h1' (hq _ _ h2) (hq _ _ h2') he

theorem Tells.pre {A B : Type} (m : Tr A) (P : A → Callee Unit → Tr B) (h : ∀ a, Tells (P a)) : Tells fun f => m >>= fun a => P a f := by
  intro l l' r r' h1 h1' he
  obtain ⟨a, h2, h3⟩ := Tr.bind_ok h1
  obtain ⟨a', h2', h3'⟩ := Tr.bind_ok h1'
  have e : a = a' := Except.ok.inj (congrArg Prod.fst (h2.symm.trans h2'))
  subst e
  dsimp only at he
  rw [Tr.bind_eq h2 (Prod.ext h3 rfl), Tr.bind_eq h2 (Prod.ext h3' rfl)] at he
  exact h a l l' r r' h3 h3' (List.append_cancel_left he)

/-- What records nothing may follow. -/
theorem Tells.post {A B : Type} {P : Callee Unit → Tr A} (hp : Tells P) {Q : A → Tr B} (hq : ∀ r a, (Q r).1 = .ok a → (Q r).2 = []) : Tells fun f => P f >>= fun r => Q r := by
  intro l l' r r' h h' he
  obtain ⟨a, h1, h2⟩ := Tr.bind_ok h
  obtain ⟨a', h1', h2'⟩ := Tr.bind_ok h'
  dsimp only at he
  rw [Tr.bind_eq h1 (Prod.ext h2 (hq _ _ h2)), Tr.bind_eq h1' (Prod.ext h2' (hq _ _ h2')), List.append_nil, List.append_nil] at he
  exact hp l l' a a' (congrArg Prod.fst h1) (congrArg Prod.fst h1') he

theorem returned_silent {σ : Type} (r : Unit × σ × Callee Unit) (a : Unit × σ) (h : (returned r).1 = .ok a) : (returned r).2 = [] := by
  obtain ⟨_, s, f⟩ := r
  cases f with
  | ready f => exact nomatch h
  | done u => rfl

theorem provided_ok {σ : Type} {n : Nat} {gen : σ → List U8 → Tr (Unit × σ × List U8)} {s : σ} {l : List (List U8)} {a : Unit × σ × List (List U8)}
    (h : (providedTail_tr n gen s l).1 = .ok a) : l.length < n := by
  by_cases hl : l.length < n
  · exact hl
  · rw [providedTail_tr] at h
    simp only [if_neg hl] at h
    exact nomatch h

/-- The events with which requests begin, if a group is one block: a block begins with an event of kind `B`, a group with a loop of one round and a tail with one of none. -/
def single (B : Event → Prop) : Req → Event → Prop
  | .block, e => B e
  | .par, e => e = .loop 1
  | .tail n, e => e = .loop 0 ∧ n = 0

theorem single_inj {B : Event → Prop} (h0 : ¬ B (.loop 0)) (h1 : ¬ B (.loop 1)) (q q' : Req) (e : Event) (h : single B q e) (h' : single B q' e) : q = q' := by
  cases q <;> cases q' <;> simp_all [single]

/-- Of text that begins with something that is seen. -/
macro "heads" : tactic => `(tactic| repeat' first
  | exact Heads.see _ _ rfl
  | with_reducible refine Heads.pure ?_
  | with_reducible refine Heads.lift fun _ => ?_
  | with_reducible refine Heads.bind ?_
  | dsimp only)

theorem decodes_block {n : Nat} {τ : Type} [BlockBackend n τ] {tgt : Target} {B : Event → Prop} (h0 : ¬ B (.loop 0)) (h1 : ¬ B (.loop 1))
    (hb : ∀ (s : τ) b, Heads (BlockBackend.gen_ks_block_tr n tgt s b) B) : Decodes (bs := n) (σ := τ) (fun _ p s => runBlockTr n tgt p s) (single B) where
  inj := single_inj h0 h1
  heads q s := by
    cases q with
    | block => exact (hb _ _).bind
    | par => exact Heads.loop 1 _
    | tail m =>
      refine Heads.bind (m := providedTail_tr 1 (BlockBackend.gen_ks_block_tr n tgt) s (List.replicate m (List.replicate n 0))) ?_
      intro a ha
      have hn := provided_ok ha
      rw [List.length_replicate] at hn
      cases Nat.lt_one_iff.1 hn
      obtain ⟨e, h1, h2⟩ := (show Heads (providedTail_tr 1 (BlockBackend.gen_ks_block_tr n tgt) s []) (· = .loop 0) from Heads.loop 0 _) a ha
      exact ⟨e, h1, h2, rfl⟩

/-! ### Requests that begin alike -/

/-- If both return, neither record begins with the other. -/
def Diverge {α β : Type} (m : Tr α) (m' : Tr β) : Prop := ∀ a b, m.1 = .ok a → m'.1 = .ok b → ∀ w w', m.2 ++ w ≠ m'.2 ++ w'

theorem Diverge.symm {α β : Type} {m : Tr α} {m' : Tr β} (h : Diverge m m') : Diverge m' m := fun a b ha hb w w' e => h b a hb ha w' w e.symm

theorem Diverge.bind {α β γ δ : Type} {m : Tr α} {m' : Tr β} (h : Diverge m m') (k : α → Tr γ) (k' : β → Tr δ) : Diverge (m >>= k) (m' >>= k') := by
  intro c d hc hd w w' e
  obtain ⟨a, h1, h2⟩ := Tr.bind_ok hc
  obtain ⟨b, h1', h2'⟩ := Tr.bind_ok hd
  rw [Tr.bind_eq h1 (Prod.ext h2 rfl), Tr.bind_eq h1' (Prod.ext h2' rfl), List.append_assoc, List.append_assoc] at e
  exact h a b (congrArg Prod.fst h1) (congrArg Prod.fst h1') _ _ e

/-- What is seen alike may come first. -/
theorem Diverge.step {α β γ δ : Type} {I : List String} {Q : α → β → Prop} {m : Tr α} {m' : Tr β} {k : α → Tr γ} {k' : β → Tr δ} (ho : Obl I Q m m') (h : ∀ a b, Q a b → Diverge (k a) (k' b)) :
    Diverge (m >>= k) (m' >>= k') := by
  intro c d hc hd w w' e
  obtain ⟨a, h1, h2⟩ := Tr.bind_ok hc
  obtain ⟨b, h1', h2'⟩ := Tr.bind_ok hd
  obtain ⟨e1, -, hq⟩ := ho a b (congrArg Prod.fst h1) (congrArg Prod.fst h1')
  rw [Tr.bind_eq h1 (Prod.ext h2 rfl), Tr.bind_eq h1' (Prod.ext h2' rfl), e1, List.append_assoc, List.append_assoc] at e
  exact h a b hq c d h2 h2' _ _ (List.append_cancel_left e)

theorem Diverge.same {α γ δ : Type} {m : Tr α} {k : α → Tr γ} {k' : α → Tr δ} (h : ∀ a, Diverge (k a) (k' a)) : Diverge (m >>= k) (m >>= k') := by
  intro c d hc hd w w' e
  obtain ⟨a, h1, h2⟩ := Tr.bind_ok hc
  obtain ⟨b, h1', h2'⟩ := Tr.bind_ok hd
  have e1 : a = b := Except.ok.inj (congrArg Prod.fst (h1.symm.trans h1'))
  subst e1
  rw [Tr.bind_eq h1 (Prod.ext h2 rfl), Tr.bind_eq h1 (Prod.ext h2' rfl), List.append_assoc, List.append_assoc] at e
  exact h a c d h2 h2' _ _ (List.append_cancel_left e)

theorem Diverge.heads {α β : Type} {m : Tr α} {m' : Tr β} {φ ψ : Event → Prop} (h : Heads m φ) (h' : Heads m' ψ) (hn : ∀ e, φ e → ψ e → False) : Diverge m m' := by
  intro a b ha hb w w' e
  obtain ⟨x, h1, h2⟩ := h a ha
  obtain ⟨y, h3, h4⟩ := h' b hb
  cases hm : m.2 with
  | nil => rw [hm] at h1; cases h1
  | cons x' t =>
    cases hm' : m'.2 with
    | nil => rw [hm'] at h3; cases h3
    | cons y' t' =>
      rw [hm] at h1 e
      rw [hm'] at h3 e
      cases h1
      cases h3
      cases (List.cons.inj e).1
      exact hn _ h2 h4

/-- Two loops that run alike up to a step in which they part. -/
theorem Diverge.forIn {ι β γ : Type} {I : List String} (Q : β → γ → Prop) (D : ι → Prop) {f : ι → β → Tr (ForInStep β)} {f' : ι → γ → Tr (ForInStep γ)} (L : List ι)
    (ho : ∀ x ∈ L, ¬ D x → ∀ s s', Q s s' → Obl I (fun a b => ∃ t t', a = .yield t ∧ b = .yield t' ∧ Q t t') (f x s) (f' x s'))
    (hd : ∀ x ∈ L, D x → ∀ s s', Q s s' → Diverge (f x s) (f' x s')) (he : ∃ x ∈ L, D x) {s : β} {s' : γ} (hq : Q s s') : Diverge (ForIn.forIn L s f) (ForIn.forIn L s' f') := by
  classical
  induction L generalizing s s' with
  | nil => obtain ⟨x, h, -⟩ := he; cases h
  | cons x L ih =>
    rw [List.forIn_cons, List.forIn_cons]
    by_cases hx : D x
    · exact (hd x (List.mem_cons_self ..) hx s s' hq).bind _ _
    · refine Diverge.step (ho x (List.mem_cons_self ..) hx s s' hq) fun a b h => ?_
      obtain ⟨t, t', rfl, rfl, h⟩ := h
      refine ih (fun y hy => ho y (List.mem_cons_of_mem _ hy)) (fun y hy => hd y (List.mem_cons_of_mem _ hy)) ?_ h
      obtain ⟨y, hy, hD⟩ := he
      rcases List.mem_cons.1 hy with rfl | hy
      · exact absurd hD hx
      · exact ⟨y, hy, hD⟩

theorem Obl.forInYield {ι β γ : Type} {I : List String} (Q : β → γ → Prop) {f : ι → β → Tr (ForInStep β)} {f' : ι → γ → Tr (ForInStep γ)} (L : List ι)
    (ho : ∀ x ∈ L, ∀ s s', Q s s' → Obl I (fun a b => ∃ t t', a = .yield t ∧ b = .yield t' ∧ Q t t') (f x s) (f' x s')) {s : β} {s' : γ} (hq : Q s s') :
    Obl I Q (ForIn.forIn L s f) (ForIn.forIn L s' f') := by
  induction L generalizing s s' with
  | nil => exact Obl.pure hq
  | cons x L ih =>
    rw [List.forIn_cons, List.forIn_cons]
    refine Obl.bind (ho x (List.mem_cons_self ..) s s' hq) fun a b h => ?_
    obtain ⟨t, t', rfl, rfl, h⟩ := h
    exact ih (fun y hy => ho y (List.mem_cons_of_mem _ hy)) h

theorem Diverge.branch {α β : Type} {c c' : Bool} {k1 k2 : Tr α} {k1' k2' : Tr β} (ht : c = true → c' = true → Diverge k1 k1') (hf : c = false → c' = false → Diverge k2 k2') :
    Diverge (Tr.branch c >>= fun r => if r = true then k1 else k2) (Tr.branch c' >>= fun r => if r = true then k1' else k2') := by
  cases c <;> cases c'
  · exact Diverge.step (I := []) (Q := fun a b => a = false ∧ b = false) (Obl.see trivial rfl fun a b ha hb => ⟨(Except.ok.inj ha).symm, (Except.ok.inj hb).symm⟩) fun a b ⟨h, h'⟩ => by
      subst h h'
      exact hf rfl rfl
  · exact Diverge.heads (φ := (· = .branch false)) (ψ := (· = .branch true)) (Heads.bind (Heads.see _ _ rfl)) (Heads.bind (Heads.see _ _ rfl)) fun _ h h' => by cases h.symm.trans h'
  · exact Diverge.heads (φ := (· = .branch true)) (ψ := (· = .branch false)) (Heads.bind (Heads.see _ _ rfl)) (Heads.bind (Heads.see _ _ rfl)) fun _ h h' => by cases h.symm.trans h'
  · exact Diverge.step (I := []) (Q := fun a b => a = true ∧ b = true) (Obl.see trivial rfl fun a b ha hb => ⟨(Except.ok.inj ha).symm, (Except.ok.inj hb).symm⟩) fun a b ⟨h, h'⟩ => by
      subst h h'
      exact ht rfl rfl

section
variable {bs : Nat} {σ : Type} {run : (α : Type) → Prog bs α → σ → Tr (α × σ)}

/-- Of the records of different requests neither begins with the other, and all begin with events of one kind. -/
structure Parts (run : (α : Type) → Prog bs α → σ → Tr (α × σ)) (B : Event → Prop) : Prop where
  heads : ∀ q s, Heads (run Unit (Prog.ofReqs [q]) s) B
  diverge : ∀ q q' s, q ≠ q' → Diverge (run Unit (Prog.ofReqs [q]) s) (run Unit (Prog.ofReqs [q']) s)

theorem IsRun.parts (R : IsRun run) {B : Event → Prop} (D : Parts run B) {l l' : List Req} {s : σ} {r r' : Unit × σ} {u u' w w' : List Event}
    (h : run Unit (Prog.ofReqs l) s = (.ok r, u)) (h' : run Unit (Prog.ofReqs l') s = (.ok r', u')) (hw : ∀ e, w.head? = some e → ¬ B e) (hw' : ∀ e, w'.head? = some e → ¬ B e)
    (he : u ++ w = u' ++ w') : l = l' := by
  have first : ∀ {q : Req} {k : List Req} {s : σ} {r : Unit × σ} {u : List Event}, run Unit (Prog.ofReqs (q :: k)) s = (.ok r, u) →
      ∃ a e v u1, run Unit (Prog.ofReqs [q]) s = (.ok a, e :: v) ∧ B e ∧ run Unit (Prog.ofReqs k) a.2 = (.ok r, u1) ∧ u = e :: v ++ u1 := fun {q k s r u} h => by
    have h0 : run Unit (Prog.ofReqs [q]) s >>= (fun r => run Unit (Prog.ofReqs k) r.2) = (.ok r, u) := (R.append [q] k s).symm.trans h
    obtain ⟨a, h1, h2⟩ := Tr.bind_ok (congrArg Prod.fst h0)
    obtain ⟨e, h3, h4⟩ := D.heads q s a (congrArg Prod.fst h1)
    cases hv : (run Unit (Prog.ofReqs [q]) s).2 with
    | nil => rw [hv] at h3; cases h3
    | cons x v =>
      rw [hv] at h1 h3
      cases h3
      refine ⟨a, e, v, (run Unit (Prog.ofReqs k) a.2).2, h1, h4, Prod.ext h2 rfl, ?_⟩
      exact (congrArg Prod.snd (h0.symm.trans (Tr.bind_eq h1 (Prod.ext h2 rfl))))
  induction l generalizing l' s r r' u u' with
  | nil =>
    cases l' with
    | nil => rfl
    | cons q k =>
      obtain ⟨a, e, v, u1, -, h2, -, rfl⟩ := first h'
      rw [Prog.ofReqs, R.done] at h
      have hu : u = [] := (congrArg Prod.snd h).symm
      subst hu
      exact absurd h2 (hw e (congrArg List.head? he))
  | cons q k ih =>
    obtain ⟨a, e, v, u1, h1, h2, h3, rfl⟩ := first h
    cases l' with
    | nil =>
      rw [Prog.ofReqs, R.done] at h'
      have hu : u' = [] := (congrArg Prod.snd h').symm
      subst hu
      exact absurd h2 (hw' e (congrArg List.head? he.symm))
    | cons q' k' =>
      obtain ⟨a', e', v', u1', h1', h2', h3', rfl⟩ := first h'
      by_cases hq : q = q'
      · subst hq
        have e3 : ((Except.ok a, e :: v) : Tr (Unit × σ)) = (Except.ok a', e' :: v') := h1.symm.trans h1'
        cases e3
        rw [List.append_assoc, List.append_assoc] at he
        exact congrArg (q :: ·) (ih h3 h3' (List.append_cancel_left he))
      · refine absurd ?_ (D.diverge q q' s hq a a' (congrArg Prod.fst h1) (congrArg Prod.fst h1') (u1 ++ w) (u1' ++ w'))
        rw [h1, h1', ← List.append_assoc, ← List.append_assoc]
        exact he

end

theorem Tells.parts {τ B : Type} [StreamCipherBackend τ] {tgt : Target} {φ : Event → Prop} (D : Parts (σ := τ) (fun _ p s => runTr tgt p s) φ) (b : τ)
    (Q : Unit × Callee Unit × τ → Tr B) (hq : ∀ r, Heads (Q r) fun e => ¬ φ e) : Tells fun f => StreamCipherClosure.call_tr tgt f b >>= fun r => Q r := by
  intro l l' r r' h h' he
  have e : ∀ l : List Req, (StreamCipherClosure.call_tr tgt (Callee.ready fun _ => Prog.ofReqs l) b >>= fun r => Q r) =
      runTr tgt (Prog.ofReqs l) b >>= fun r => Q ((), .done r.1, r.2) := fun l => by
    show (runTr tgt (Prog.ofReqs l) b >>= fun r => pure ((), Callee.done r.1, r.2)) >>= _ = _
    rw [bind_assoc]
    rfl
  have hq' : ∀ r a, (Q r).1 = .ok a → ∀ e, (Q r).2.head? = some e → ¬ φ e := fun r a ha e he => by
    obtain ⟨x, h1, h2⟩ := hq r a ha
    cases h1.symm.trans he
    exact h2
  dsimp only at h h' he
  rw [e] at h h' he
  rw [e l'] at he
  obtain ⟨a, h1, h2⟩ := Tr.bind_ok h
  obtain ⟨a', h1', h2'⟩ := Tr.bind_ok h'
  rw [Tr.bind_eq h1 (Prod.ext h2 rfl), Tr.bind_eq h1' (Prod.ext h2' rfl)] at he
  exact (runTr_isRun tgt).parts D h1 h1' (hq' _ _ h2) (hq' _ _ h2') he

/-! ### Requests that are told by what follows -/

/-- An event with which a request begins, if a block begins with a loop of `n` rounds and a group is one block. -/
def opens (n : Nat) (e : Event) : Prop := e = .loop 0 ∨ e = .loop 1 ∨ e = .loop n

/-- If text returns, its record begins with a loop of `n` rounds and an event with which no request begins. -/
def Second {α : Type} (n : Nat) (m : Tr α) : Prop := ∀ a, m.1 = .ok a → ∃ x t, m.2 = .loop n :: x :: t ∧ ¬ opens n x

theorem Second.bind {α β : Type} {n : Nat} {m : Tr α} {k : α → Tr β} (h : Second n m) : Second n (m >>= k) := fun b hb => by
  obtain ⟨a, h1, h2⟩ := Tr.bind_ok hb
  obtain ⟨x, t, h3, h4⟩ := h a (congrArg Prod.fst h1)
  have h5 : (m >>= k) = (.ok b, m.2 ++ (k a).2) := Tr.bind_eq h1 (Prod.ext h2 rfl)
  exact ⟨x, t ++ (k a).2, by rw [h5, h3]; rfl, h4⟩

theorem Second.loop {β : Type} {n : Nat} {k : Unit → Tr β} (h : Heads (k ()) fun e => ¬ opens n e) : Second n (Tr.loop n >>= k) := fun b hb => by
  obtain ⟨a, h1, h2⟩ := Tr.bind_ok hb
  obtain ⟨x, h3, h4⟩ := h b h2
  have h5 : (Tr.loop n >>= k) = (.ok b, .loop n :: (k ()).2) := Tr.bind_eq (m := Tr.loop n) (t := [.loop n]) (a := ()) rfl (Prod.ext h2 rfl)
  cases hk : (k ()).2 with
  | nil => rw [hk] at h3; cases h3
  | cons y t =>
    rw [hk] at h3 h5
    cases h3
    exact ⟨x, t, by rw [h5], h4⟩

/-- A loop over a range and what follows: of no rounds or of some. -/
theorem Heads.range {β γ : Type} {n : Nat} {f : Nat → β → Tr (ForInStep β)} {s : β} {k : β → Tr γ} {φ : Event → Prop} (h0 : n = 0 → Heads (k s) φ) (h1 : n ≠ 0 → Heads (f 0 s) φ) :
    Heads (ForIn.forIn (List.range n) s f >>= k) φ := by
  cases n with
  | zero => exact h0 rfl
  | succ n =>
    rw [List.range_succ_eq_map, List.forIn_cons, bind_assoc]
    exact (h1 (Nat.succ_ne_zero n)).bind

theorem idx_lt {α : Type} {tgt : Target} {l : List α} {i : Usize tgt} {x : α} (h : (Tr.idx l i).1 = .ok x) : i.val < l.length := by
  replace h : nth l i.val = .ok x := h
  unfold nth at h
  split at h
  · assumption
  · cases h

section
variable {bs : Nat} {σ : Type} {run : (α : Type) → Prog bs α → σ → Tr (α × σ)}

/-- Requests that are told by their records and the event after them. -/
structure Looks (run : (α : Type) → Prog bs α → σ → Tr (α × σ)) (B : Event → Prop) : Prop where
  heads : ∀ q s, Heads (run Unit (Prog.ofReqs [q]) s) B
  diverge : ∀ q q' s, q ≠ q' → ∀ a a', (run Unit (Prog.ofReqs [q]) s).1 = .ok a → (run Unit (Prog.ofReqs [q']) s).1 = .ok a' → ∀ w w' : List Event,
    (∀ e, w.head? = some e → B e) → (∀ e, w'.head? = some e → B e) → (run Unit (Prog.ofReqs [q]) s).2 ++ w ≠ (run Unit (Prog.ofReqs [q']) s).2 ++ w'

theorem IsRun.looks (R : IsRun run) {B : Event → Prop} (D : Looks run B) {l l' : List Req} {s : σ} {r r' : Unit × σ} {u : List Event}
    (h : run Unit (Prog.ofReqs l) s = (.ok r, u)) (h' : run Unit (Prog.ofReqs l') s = (.ok r', u)) : l = l' := by
  have first : ∀ {q : Req} {k : List Req} {s : σ} {r : Unit × σ} {u : List Event}, run Unit (Prog.ofReqs (q :: k)) s = (.ok r, u) →
      ∃ a e v u1, run Unit (Prog.ofReqs [q]) s = (.ok a, e :: v) ∧ B e ∧ run Unit (Prog.ofReqs k) a.2 = (.ok r, u1) ∧ u = e :: v ++ u1 := fun {q k s r u} h => by
    have h0 : run Unit (Prog.ofReqs [q]) s >>= (fun r => run Unit (Prog.ofReqs k) r.2) = (.ok r, u) := (R.append [q] k s).symm.trans h
    obtain ⟨a, h1, h2⟩ := Tr.bind_ok (congrArg Prod.fst h0)
    obtain ⟨e, h3, h4⟩ := D.heads q s a (congrArg Prod.fst h1)
    cases hv : (run Unit (Prog.ofReqs [q]) s).2 with
    | nil => rw [hv] at h3; cases h3
    | cons x v =>
      rw [hv] at h1 h3
      cases h3
      refine ⟨a, e, v, (run Unit (Prog.ofReqs k) a.2).2, h1, h4, Prod.ext h2 rfl, ?_⟩
      exact (congrArg Prod.snd (h0.symm.trans (Tr.bind_eq h1 (Prod.ext h2 rfl))))
  have next : ∀ {k : List Req} {s : σ} {r : Unit × σ} {u : List Event}, run Unit (Prog.ofReqs k) s = (.ok r, u) → ∀ e, u.head? = some e → B e := fun {k s r u} h e he => by
    cases k with
    | nil =>
      rw [Prog.ofReqs, R.done] at h
      have hu : u = [] := (congrArg Prod.snd h).symm
      subst hu
      cases he
    | cons q k =>
      obtain ⟨_, _, _, _, -, h2, -, rfl⟩ := first h
      cases he
      exact h2
  induction l generalizing l' s r r' u with
  | nil =>
    cases l' with
    | nil => rfl
    | cons q k =>
      obtain ⟨a, e, v, u1, -, h2, -, rfl⟩ := first h'
      rw [Prog.ofReqs, R.done] at h
      cases congrArg Prod.snd h
  | cons q k ih =>
    obtain ⟨a, e, v, u1, h1, h2, h3, rfl⟩ := first h
    cases l' with
    | nil =>
      rw [Prog.ofReqs, R.done] at h'
      cases congrArg Prod.snd h'
    | cons q' k' =>
      obtain ⟨a', e', v', u1', h1', h2', h3', he⟩ := first h'
      by_cases hq : q = q'
      · subst hq
        have e3 : ((Except.ok a, e :: v) : Tr (Unit × σ)) = (Except.ok a', e' :: v') := h1.symm.trans h1'
        cases e3
        have e4 := List.append_cancel_left he
        subst e4
        exact congrArg (q :: ·) (ih h3 h3')
      · refine absurd ?_ (D.diverge q q' s hq a a' (congrArg Prod.fst h1) (congrArg Prod.fst h1') u1 u1' (next h3) (next h3'))
        rw [h1, h1']
        exact he

end

theorem Tells.looks {τ B : Type} [StreamCipherBackend τ] {tgt : Target} {φ : Event → Prop} (D : Looks (σ := τ) (fun _ p s => runTr tgt p s) φ) (b : τ)
    (Q : Unit × Callee Unit × τ → Tr B) (hq : ∀ r a, (Q r).1 = .ok a → (Q r).2 = []) : Tells fun f => StreamCipherClosure.call_tr tgt f b >>= fun r => Q r := by
  refine Tells.post (fun l l' r r' h h' he => ?_) hq
  have e : ∀ l : List Req, StreamCipherClosure.call_tr tgt (Callee.ready fun _ => Prog.ofReqs l) b = runTr tgt (Prog.ofReqs l) b >>= fun r => pure ((), .done r.1, r.2) := fun _ => rfl
  rw [e] at h h' he
  rw [e l'] at he
  obtain ⟨a, h1, h2⟩ := Tr.bind_ok h
  obtain ⟨a', h1', h2'⟩ := Tr.bind_ok h'
  rw [Tr.bind_eq h1 (Prod.ext h2 rfl), Tr.bind_eq h1' (Prod.ext h2' rfl)] at he
  replace he := (List.append_nil _).symm.trans (he.trans (List.append_nil _))
  exact (runTr_isRun tgt).looks D h1 (h1'.trans (Prod.ext rfl he.symm))

/-- A backend whose groups are one block. -/
theorem looks_provided {τ : Type} [StreamCipherBackend τ] {tgt : Target} {n : Nat} (hb : ∀ (s : τ) b, Second n (StreamCipherBackend.gen_ks_block_tr tgt s b))
    (h1 : StreamCipherBackend.parSize τ = 1)
    (hp : ∀ (s : τ) l, StreamCipherBackend.gen_par_ks_blocks_tr tgt s l = Tr.loop l.length >>= fun _ => genEach_tr (StreamCipherBackend.gen_ks_block_tr tgt) s l)
    (ht : ∀ (s : τ) l, StreamCipherBackend.gen_tail_blocks_tr tgt s l = providedTail_tr 1 (StreamCipherBackend.gen_ks_block_tr tgt) s l) :
    Looks (σ := τ) (fun _ p s => runTr tgt p s) (opens n) := by
  have B : ∀ s a, (runTr (σ := τ) tgt (Prog.ofReqs [.block]) s).1 = .ok a → ∃ x t, (runTr (σ := τ) tgt (Prog.ofReqs [.block]) s).2 = .loop n :: x :: t ∧ ¬ opens n x := fun s =>
    Second.bind (hb s _)
  have P : ∀ s a, (runTr (σ := τ) tgt (Prog.ofReqs [.par]) s).1 = .ok a → ∃ t, (runTr (σ := τ) tgt (Prog.ofReqs [.par]) s).2 = .loop 1 :: .loop n :: t := fun s a ha => by
    obtain ⟨r, h2, h3⟩ := Tr.bind_ok (m := StreamCipherBackend.gen_par_ks_blocks_tr tgt s (List.replicate (StreamCipherBackend.parSize τ) (List.replicate 64 0))) ha
    have h4 : (runTr (σ := τ) tgt (Prog.ofReqs [.par]) s) = (.ok a, _) := Tr.bind_eq h2 (Prod.ext h3 rfl)
    have h5 : ∃ t, (StreamCipherBackend.gen_par_ks_blocks_tr tgt s (List.replicate (StreamCipherBackend.parSize τ) (List.replicate 64 0))).2 = .loop 1 :: .loop n :: t := by
      have h6 := congrArg Prod.fst h2
      rw [hp, h1] at h6 ⊢
      obtain ⟨_, h7, h8⟩ := Tr.bind_ok h6
      obtain ⟨c, h9, h10⟩ := Tr.bind_ok (m := StreamCipherBackend.gen_ks_block_tr tgt s (List.replicate 64 0)) h8
      obtain ⟨x, t, h11, -⟩ := hb s _ c (congrArg Prod.fst h9)
      rw [h11] at h9
      have h12 : genEach_tr (StreamCipherBackend.gen_ks_block_tr tgt) s (List.replicate 1 (List.replicate 64 0)) = (.ok r, _) := Tr.bind_eq h9 (Prod.ext h10 rfl)
      refine ⟨_, congrArg Prod.snd (Tr.bind_eq (m := Tr.loop 1) (t := [.loop 1]) (a := ()) rfl h12)⟩
    obtain ⟨t, h5⟩ := h5
    rw [h4, h5]
    exact ⟨_, rfl⟩
  have T : ∀ m s a, (runTr (σ := τ) tgt (Prog.ofReqs [.tail m]) s).1 = .ok a → m = 0 ∧ (runTr (σ := τ) tgt (Prog.ofReqs [.tail m]) s).2 = [.loop 0] := fun m s a ha => by
    obtain ⟨r, h2, h3⟩ := Tr.bind_ok (m := StreamCipherBackend.gen_tail_blocks_tr tgt s (List.replicate m (List.replicate 64 0))) ha
    rw [ht] at h2
    have hm := provided_ok (congrArg Prod.fst h2)
    rw [List.length_replicate] at hm
    cases Nat.lt_one_iff.1 hm
    refine ⟨rfl, ?_⟩
    show (StreamCipherBackend.gen_tail_blocks_tr tgt s [] >>= _ : Tr _).2 = _
    rw [ht]
    rfl
  refine ⟨fun q s a ha => ?_, fun q q' s hq a a' ha ha' w w' hw hw' e => ?_⟩
  · cases q with
    | block => obtain ⟨x, t, h, -⟩ := B s a ha; exact ⟨_, congrArg List.head? h, .inr (.inr rfl)⟩
    | par => obtain ⟨t, h⟩ := P s a ha; exact ⟨_, congrArg List.head? h, .inr (.inl rfl)⟩
    | tail m => exact ⟨_, congrArg List.head? (T m s a ha).2, .inl rfl⟩
  · have bp : ∀ {x t t' w w'}, ¬ opens n x → Event.loop n :: x :: t ++ w = Event.loop 1 :: .loop n :: t' ++ w' → False := fun hx e => by
      injection e with _ e
      injection e with e _
      exact hx (.inr (.inr e))
    have bt : ∀ {x t} {w w' : List Event}, ¬ opens n x → (∀ e, w'.head? = some e → opens n e) → Event.loop n :: x :: t ++ w = [.loop 0] ++ w' → False := fun hx hw e => by
      injection e with _ e
      exact hx (hw _ (congrArg List.head? e.symm))
    have pt : ∀ {t : List Event} {w w' : List Event}, Event.loop 1 :: t ++ w = [.loop 0] ++ w' → False := fun e => by
      injection e with e _
      cases e
    cases q <;> cases q'
    · exact hq rfl
    · obtain ⟨x, t, h, hx⟩ := B s a ha
      obtain ⟨t', h'⟩ := P s a' ha'
      rw [h, h'] at e
      exact bp hx e
    · obtain ⟨x, t, h, hx⟩ := B s a ha
      rw [h, (T _ s a' ha').2] at e
      exact bt hx hw' e
    · obtain ⟨x, t, h, hx⟩ := B s a' ha'
      obtain ⟨t', h'⟩ := P s a ha
      rw [h, h'] at e
      exact bp hx e.symm
    · exact hq rfl
    · obtain ⟨t', h'⟩ := P s a ha
      rw [h', (T _ s a' ha').2] at e
      exact pt e
    · obtain ⟨x, t, h, hx⟩ := B s a' ha'
      rw [h, (T _ s a ha).2] at e
      exact bt hx hw e.symm
    · obtain ⟨t', h'⟩ := P s a' ha'
      rw [h', (T _ s a ha).2] at e
      exact pt e.symm
    · exact hq (by rw [(T _ s a ha).1, (T _ s a' ha').1])

namespace ChaCha
variable {tgt : Target} {R V : Type} [Rounds R] [Variant V]

theorem second_rounds (s : List U32) (hs : 2 ≤ s.length) : Second (Rounds.count R) (run_rounds_tr (R := R) tgt s) := by
  unfold run_rounds_tr
  simp only [pure_bind]
  refine Second.loop (n := Rounds.count R) (Heads.range (fun h0 => ?_) fun h1 => ?_)
  · replace h0 : Rounds.count R = 0 := h0
    refine Heads.bind ((show Heads (Tr.loop _) (· = .loop (min s.length s.length)) from Heads.see _ _ rfl).mono fun _ _ e he => ?_)
    subst he
    rintro (h | h | h) <;> have := Event.loop.inj h <;> omega
  · refine Heads.bind ?_
    unfold quarter_round_tr
    refine Heads.mono (φ := (· = .index 0)) ?_ fun _ _ e he => by
      subst he
      rintro (h | h | h) <;> cases h
    heads

theorem second_block (s : Backend R V) (b : List U8) : Second (Rounds.count R) (Backend.gen_ks_block_tr tgt s b) := fun a ha => by
  refine Second.bind (n := Rounds.count R) (m := run_rounds_tr (R := R) tgt s.f0.state) (second_rounds _ ?_) a ha
  obtain ⟨r, -, h⟩ := Tr.bind_ok (m := run_rounds_tr (R := R) tgt s.f0.state) ha
  obtain ⟨x, h, -⟩ := Tr.bind_ok (m := Tr.idx s.f0.state 13) h
  exact Nat.le_of_lt (Nat.lt_of_lt_of_le (by decide : 2 < 13) (Nat.le_of_lt (idx_lt (congrArg Prod.fst h))))

theorem looks_soft : Looks (σ := Backend R V) (fun _ p s => runTr tgt p s) (opens (Rounds.count R)) := looks_provided second_block rfl (fun _ _ => rfl) fun _ _ => rfl

/-- The events with which requests on Neon begin. -/
def neon.begins : Req → Event → Prop
  | .block, e => e = .index 3
  | .par, e => e = .index 0
  | .tail n, e => e = .loop n

theorem neon.decodes : Decodes (σ := neon.Backend R V) (fun _ p s => runTr tgt p s) neon.begins where
  inj q q' e h h' := by
    cases q <;> cases q' <;> simp_all [neon.begins]
  heads q s := by
    cases q with
    | block =>
      refine Heads.bind (m := neon.Backend.gen_ks_block_tr tgt s (List.replicate 64 0)) ?_
      unfold neon.Backend.gen_ks_block_tr
      heads
    | par =>
      refine Heads.bind (m := neon.Backend.gen_par_ks_blocks_tr tgt s (List.replicate 8 (List.replicate 64 0))) ?_
      unfold neon.Backend.gen_par_ks_blocks_tr
      heads
    | tail n =>
      refine Heads.bind (m := providedTail_tr 8 (neon.Backend.gen_ks_block_tr tgt) s (List.replicate n (List.replicate 64 0))) ?_
      exact (Heads.see _ _ (by rw [List.length_replicate]; rfl)).bind

theorem neon.inner_tells (x : List U32) : Tells fun f => neon.inner_tr (R := R) (V := V) tgt x f := by
  unfold neon.inner_tr
  simp only [pure_bind]
  refine Tells.pre _ _ fun _ => Tells.call neon.decodes _ _ fun r a ha q e he hh => ?_
  obtain ⟨e', h1, b, rfl⟩ := Heads.bind (m := Tr.branch (sizeOfTy tgt (Variant.Counter V) == 4)) (φ := fun e => ∃ b, e = .branch b) (Heads.see _ _ ⟨_, rfl⟩) a ha
  have h2 : e = .branch b := Option.some.inj (hh.symm.trans h1)
  subst h2
  cases q <;> exact nomatch he

theorem avx2.block_par (s : avx2.Backend R V) (b : List U8) (l : List (List U8)) : Diverge (avx2.Backend.gen_ks_block_tr tgt s b) (avx2.Backend.gen_par_ks_blocks_tr tgt s l) := by
  unfold avx2.Backend.gen_ks_block_tr avx2.Backend.gen_par_ks_blocks_tr
  simp only [pure_bind, avx2.par_blocks_eq, Tr.lift_ok_bind]
  refine Diverge.same fun r0 => ?_
  show Diverge (Tr.loop _ >>= _) (Tr.loop _ >>= _)
  refine Diverge.same fun _ => ?_
  refine Diverge.step (I := avx2.used) (Q := like) ?_ fun _ _ _ => ?_
  · have : like s s := ⟨like.rfl', like.rfl'⟩
    obl
  · exact Diverge.heads (φ := (· = .index 0)) (ψ := fun e => ∃ n, e = .loop n) (Heads.bind (Heads.see _ _ rfl)) (Heads.bind (Heads.see _ _ ⟨_, rfl⟩)) fun e h h' => by
      obtain ⟨n, h'⟩ := h'
      cases h.symm.trans h'

theorem sse2.block_par (s : sse2.Backend R V) (b : List U8) (l : List (List U8)) : Diverge (sse2.Backend.gen_ks_block_tr tgt s b) (sse2.Backend.gen_par_ks_blocks_tr tgt s l) := by
  unfold sse2.Backend.gen_ks_block_tr sse2.Backend.gen_par_ks_blocks_tr
  simp only [pure_bind, sse2.par_blocks_eq, Tr.lift_ok_bind]
  refine Diverge.same fun r0 => ?_
  refine Diverge.step (I := sse2.used) (Q := like) ?_ fun _ _ _ => ?_
  · obl
  refine Diverge.step (I := sse2.used) (Q := fun _ _ => True) (Obl.see trivial rfl fun _ _ _ _ => trivial) fun _ _ _ => ?_
  show Diverge (Tr.loop 4 >>= _) (Tr.loop 4 >>= _)
  refine Diverge.same fun _ => ?_
  refine Diverge.heads (φ := (· = .index 0)) (ψ := (· = .loop 4)) (Heads.bind ?_) (Heads.bind ?_) fun e h h' => by cases h.symm.trans h'
  · show Heads (forIn [0, 1, 2, 3] _ _) _
    rw [List.forIn_cons]
    heads
  · show Heads (forIn [0, 1, 2, 3] _ _) _
    rw [List.forIn_cons]
    heads

theorem avx2.heads_rounds (v c : List M256) : Heads (avx2.rounds_tr (R := R) tgt v c) (· = .instr "_mm256_setzero_si256") := by
  unfold avx2.rounds_tr
  simp only [pure_bind]
  heads

theorem sse2.heads_rounds (v : List M128) : Heads (sse2.rounds_tr (R := R) (V := V) tgt v) (· = .loop 3) := by
  unfold sse2.rounds_tr
  simp only [pure_bind, sse2.par_blocks_eq, Tr.lift_ok_bind]
  exact Heads.loop 3 _

/-- Three blocks one after the other are told from one block by the second event. -/
theorem sse2.rounds_tail {β : Type} (v : List M128) {m : Tr β} (h : Heads m (· = .loop 3)) : Diverge (Tr.loop 3 >>= fun _ => m) (sse2.rounds_tr (R := R) (V := V) tgt v) := by
  unfold sse2.rounds_tr
  simp only [pure_bind, sse2.par_blocks_eq, Tr.lift_ok_bind]
  show Diverge (Tr.loop 3 >>= _) (Tr.loop 3 >>= _)
  refine Diverge.same fun _ => Diverge.heads (φ := (· = .loop 3)) (ψ := fun e => ∃ b, e = .branch b) h (Heads.bind ?_) fun e h h' => by
    obtain ⟨b, h'⟩ := h'
    cases h.symm.trans h'
  show Heads (forIn [0, 1, 2] _ _) _
  rw [List.forIn_cons]
  exact Heads.bind (Heads.bind (Heads.bind (Heads.see _ _ ⟨_, rfl⟩)))

/-- Requests to a backend with the provided `gen_tail_blocks`: what must be told apart. -/
theorem parts_provided {τ : Type} [StreamCipherBackend τ] {B : Event → Prop}
    (hb : ∀ (s : τ) b, Heads (StreamCipherBackend.gen_ks_block_tr tgt s b) B) (hp : ∀ (s : τ) l, Heads (StreamCipherBackend.gen_par_ks_blocks_tr tgt s l) B) (hl : ∀ n, B (.loop n))
    (ht : ∀ (s : τ) l, StreamCipherBackend.gen_tail_blocks_tr tgt s l = providedTail_tr (StreamCipherBackend.parSize τ) (StreamCipherBackend.gen_ks_block_tr tgt) s l)
    (h1 : ∀ (s : τ) b l, Diverge (StreamCipherBackend.gen_ks_block_tr tgt s b) (StreamCipherBackend.gen_par_ks_blocks_tr tgt s l))
    (h2 : ∀ (s : τ) l b, Diverge (providedTail_tr (StreamCipherBackend.parSize τ) (StreamCipherBackend.gen_ks_block_tr tgt) s l) (StreamCipherBackend.gen_ks_block_tr tgt s b))
    (h3 : ∀ (s : τ) l l', Diverge (providedTail_tr (StreamCipherBackend.parSize τ) (StreamCipherBackend.gen_ks_block_tr tgt) s l) (StreamCipherBackend.gen_par_ks_blocks_tr tgt s l')) :
    Parts (σ := τ) (fun _ p s => runTr tgt p s) B where
  heads q s := by
    cases q with
    | block => exact Heads.bind (hb s _)
    | par => exact Heads.bind (hp s _)
    | tail n =>
      refine Heads.bind ?_
      rw [ht]
      exact Heads.bind (Heads.see _ _ (hl _))
  diverge q q' s hq := by
    have t : ∀ (k : Unit × τ × List (List U8) → Tr (Unit × τ)) n, (StreamCipherBackend.gen_tail_blocks_tr tgt s (List.replicate n (List.replicate 64 0)) >>= k) =
      (providedTail_tr (StreamCipherBackend.parSize τ) (StreamCipherBackend.gen_ks_block_tr tgt) s (List.replicate n (List.replicate 64 0)) >>= k) := fun k n => by rw [ht]
    cases q <;> cases q'
    · exact absurd rfl hq
    · exact (h1 s _ _).bind _ _
    · exact (Diverge.bind (ht s _ ▸ h2 s _ _) _ _).symm
    · exact (h1 s _ _).symm.bind _ _
    · exact absurd rfl hq
    · exact (Diverge.bind (ht s _ ▸ h3 s _ _) _ _).symm
    · exact Diverge.bind (ht s _ ▸ h2 s _ _) _ _
    · exact Diverge.bind (ht s _ ▸ h3 s _ _) _ _
    · rename_i n m
      refine Diverge.bind (m := StreamCipherBackend.gen_tail_blocks_tr tgt s (List.replicate n (List.replicate 64 0)))
        (m' := StreamCipherBackend.gen_tail_blocks_tr tgt s (List.replicate m (List.replicate 64 0))) ?_ _ _
      rw [ht, ht]
      refine Diverge.heads (φ := (· = .loop n)) (ψ := (· = .loop m)) (Heads.bind (Heads.see _ _ (by rw [List.length_replicate]))) (Heads.bind (Heads.see _ _ (by rw [List.length_replicate])))
        fun e h h' => hq ?_
      rw [Event.loop.inj (h.symm.trans h')]

theorem avx2.parts : Parts (σ := avx2.Backend R V) (fun _ p s => runTr tgt p s) fun e => (∃ n, e = .loop n) ∨ e = .instr "_mm256_setzero_si256" := by
  have hb : ∀ (s : avx2.Backend R V) b, Heads (avx2.Backend.gen_ks_block_tr tgt s b) (· = .instr "_mm256_setzero_si256") := fun s b => by
    unfold avx2.Backend.gen_ks_block_tr
    exact (avx2.heads_rounds _ _).bind
  have hp : ∀ (s : avx2.Backend R V) b, Heads (avx2.Backend.gen_par_ks_blocks_tr tgt s b) (· = .instr "_mm256_setzero_si256") := fun s b => by
    unfold avx2.Backend.gen_par_ks_blocks_tr
    exact (avx2.heads_rounds _ _).bind
  refine parts_provided (fun s b => (hb s b).mono fun _ _ _ h => .inr h) (fun s b => (hp s b).mono fun _ _ _ h => .inr h) (fun n => .inl ⟨n, rfl⟩) (fun _ _ => rfl) avx2.block_par ?_ ?_
  · intro s l b
    exact Diverge.heads (φ := (· = .loop l.length)) (Heads.loop _ _) (hb s b) fun e h h' => by cases h.symm.trans h'
  · intro s l l'
    exact Diverge.heads (φ := (· = .loop l.length)) (Heads.loop _ _) (hp s l') fun e h h' => by cases h.symm.trans h'

theorem sse2.parts : Parts (σ := sse2.Backend R V) (fun _ p s => runTr tgt p s) fun e => ∃ n, e = .loop n := by
  have hb : ∀ (s : sse2.Backend R V) b, Heads (sse2.Backend.gen_ks_block_tr tgt s b) (· = .loop 3) := fun s b => by
    unfold sse2.Backend.gen_ks_block_tr
    exact (sse2.heads_rounds _).bind
  have hp : ∀ (s : sse2.Backend R V) b, Heads (sse2.Backend.gen_par_ks_blocks_tr tgt s b) (· = .loop 3) := fun s b => by
    unfold sse2.Backend.gen_par_ks_blocks_tr
    exact (sse2.heads_rounds _).bind
  have ht : ∀ {β γ : Type} (s : sse2.Backend R V) l (m : Tr β) (k : β → Tr γ), Heads (m >>= k) (· = .loop 3) → (∀ {m' : Tr (Unit × sse2.Backend R V × List (List U8))}, Heads m' (· = .loop 3) → Diverge (Tr.loop 3 >>= fun _ => m') m) →
      Diverge (providedTail_tr 4 (sse2.Backend.gen_ks_block_tr tgt) s l) (m >>= k) := fun s l m k hh h => by
    by_cases hl : l.length = 3
    · match l, hl with
      | [b0, b1, b2], _ =>
        rw [← bind_pure (providedTail_tr 4 (sse2.Backend.gen_ks_block_tr tgt) s [b0, b1, b2])]
        exact Diverge.bind (h (Heads.bind (hb s b0))) _ _
    · exact Diverge.heads (φ := (· = .loop l.length)) (Heads.loop _ _) hh fun e h h' => hl (Event.loop.inj (h.symm.trans h'))
  refine parts_provided (fun s b => (hb s b).mono fun _ _ _ h => ⟨_, h⟩) (fun s b => (hp s b).mono fun _ _ _ h => ⟨_, h⟩) (fun n => ⟨n, rfl⟩) (fun _ _ => rfl) sse2.block_par ?_ ?_
  · intro s l b
    have h := hb s b
    show Diverge _ (sse2.Backend.gen_ks_block_tr tgt s b)
    unfold sse2.Backend.gen_ks_block_tr at h ⊢
    simp only [pure_bind] at h ⊢
    exact ht s l _ _ h fun hm => sse2.rounds_tail _ hm
  · intro s l l'
    have h := hp s l'
    show Diverge _ (sse2.Backend.gen_par_ks_blocks_tr tgt s l')
    unfold sse2.Backend.gen_par_ks_blocks_tr at h ⊢
    simp only [pure_bind] at h ⊢
    exact ht s l _ _ h fun hm => sse2.rounds_tail _ hm

theorem sse2.inner_tells (x : List U32) : Tells fun f => sse2.inner_tr (R := R) (V := V) tgt x f := by
  unfold sse2.inner_tr
  simp only [pure_bind]
  iterate 8 refine Tells.pre _ _ fun _ => ?_
  exact Tells.parts sse2.parts _ _ fun r => Heads.bind (Heads.see _ _ fun ⟨_, h⟩ => nomatch h)

theorem avx2.inner_tells (x : List U32) : Tells fun f => avx2.inner_tr (R := R) (V := V) tgt x f := by
  unfold avx2.inner_tr
  simp only [pure_bind]
  iterate 17 refine Tells.pre _ _ fun _ => ?_
  exact Tells.parts avx2.parts _ _ fun r => Heads.bind (Heads.see _ _ fun h => h.elim (fun ⟨_, h⟩ => nomatch h) fun h => nomatch h)

namespace avx512

theorem increment_any (s s' : Backend R V) (a b : Usize tgt) (h : like s s') : Obl used like (Backend.increment_ctr_tr tgt s a) (Backend.increment_ctr_tr tgt s' b) := by
  obtain ⟨s0, s1⟩ := s
  obtain ⟨s0', s1'⟩ := s'
  obtain ⟨h0, h1⟩ := h
  dsimp only at h0 h1
  unfold Backend.increment_ctr_tr
  (try dsimp only)
  obl

/-- One step of storing, avx512.rs:203-208. -/
def put (tgt : Target) (d : Usize tgt) (x : M512) (s : List (List U8)) : Tr (ForInStep (List (List U8))) := do
  let r67 ← Tr.branch (lt d (len tgt s))
  if r67 = true then do
    let r68 ← Tr.idx s d
    let r69 ← Tr.store "_mm512_storeu_si512" r68 0 x
    let blocks ← Tr.upd s d r69
    pure (ForInStep.yield blocks)
  else pure (ForInStep.yield s)

theorem upd_length {α : Type} {l l' : List α} {i : Usize tgt} {x : α} (h : upd l i x = .ok l') : l'.length = l.length := by
  unfold upd at h
  split at h
  · cases h; simp
  · cases h

theorem put_same {n m : Nat} (d : Usize tgt) (hd : d.val < n ↔ d.val < m) (x x' : M512) (s s' : List (List U8)) (h : s.length = n ∧ s'.length = m) :
    Obl used (fun a b => ∃ t t', a = .yield t ∧ b = .yield t' ∧ t.length = n ∧ t'.length = m) (put tgt d x s) (put tgt d x' s') := by
  have e : lt d (len tgt s) = lt d (len tgt s') := by
    unfold lt len
    exact decide_eq_decide.2 (by rw [h.1, h.2]; exact hd)
  unfold put
  rw [e]
  refine Obl.bind_same (Uses.see trivial) fun c => Obl.ite (fun _ => ?_) fun _ => Obl.pure ⟨s, s', rfl, rfl, h⟩
  refine Obl.bind (Q := fun _ _ => True) (Obl.see trivial rfl fun _ _ _ _ => trivial) fun _ _ _ => ?_
  refine Obl.bind (Q := fun _ _ => True) ?_ fun _ _ _ => ?_
  · refine Obl.bind (Q := fun _ _ => True) (Obl.see (show "_mm512_storeu_si512" ∈ used by decide) rfl fun _ _ _ _ => trivial) fun _ _ _ => ?_
    exact Obl.see trivial rfl fun _ _ _ _ => trivial
  · refine Obl.bind (Q := fun a b => a.length = n ∧ b.length = m) (Obl.see trivial rfl fun a b ha hb => ⟨(upd_length ha).trans h.1, (upd_length hb).trans h.2⟩) fun a b hab => ?_
    exact Obl.pure ⟨a, b, rfl, rfl, hab⟩

theorem put_parts {n m : Nat} (d : Usize tgt) (hd : n ≤ d.val) (hd' : d.val < m) (x x' : M512) (s s' : List (List U8)) (h : s.length = n ∧ s'.length = m) :
    Diverge (put tgt d x s) (put tgt d x' s') := by
  have e : lt d (len tgt s) = false := decide_eq_false (show ¬ d.val < s.length by rw [h.1]; omega)
  have e' : lt d (len tgt s') = true := decide_eq_true (show d.val < s'.length by rw [h.2]; omega)
  unfold put
  rw [e, e']
  exact Diverge.heads (φ := (· = .branch false)) (ψ := (· = .branch true)) (Heads.bind (Heads.see _ _ rfl)) (Heads.bind (Heads.see _ _ rfl)) fun _ h h' => by cases h.symm.trans h'

theorem mul_eq (ht : 16 ≤ tgt.bits) (r : Nat) (hr : r < 4) : mul tgt (⟨Usize.val (0 : Usize tgt) + r⟩ : Usize tgt) ⟨4⟩ = .ok ⟨4 * r⟩ := by
  show mul tgt (⟨0 + r⟩ : Usize tgt) ⟨4⟩ = _
  rw [Nat.zero_add, Nat.mul_comm]
  exact mul_usize _ _ (pow_bits ht (show r * 4 < 65536 by omega))

theorem add_eq (ht : 16 ≤ tgt.bits) (r j : Nat) (hr : r < 4) (hj : j < 4) : add tgt (⟨4 * r⟩ : Usize tgt) ⟨j⟩ = .ok ⟨4 * r + j⟩ :=
  add_usize _ _ (pow_bits ht (show 4 * r + j < 65536 by omega))

theorem full_parts (ht : 16 ≤ tgt.bits) (N : Nat) (hN : N ≤ 4) (s : Backend R V) (l l' : List (List U8)) (hl : l.length < l'.length) (hl' : l'.length ≤ 4 * N) :
    Diverge (Backend.gen_blocks_fullwidth_tr N tgt s l) (Backend.gen_blocks_fullwidth_tr N tgt s l') := by
  unfold Backend.gen_blocks_fullwidth_tr
  simp only [pure_bind]
  refine Diverge.same fun _ => Diverge.same fun _ => ?_
  refine Diverge.step (I := used) (Q := fun _ _ => True) (Obl.lift fun _ _ _ _ => trivial) fun _ _ _ => ?_
  refine Diverge.same fun _ => Diverge.same fun _ => Diverge.same fun _ => ?_
  have hs : like s s := ⟨like.rfl', like.rfl'⟩
  refine Diverge.step (increment_any s s _ _ hs) fun r r' hr => ?_
  refine Diverge.step (I := used) (Q := like) ?_ fun x x' hx => ?_
  · obtain ⟨_, q, q1⟩ := r
    obtain ⟨_, q', q1'⟩ := r'
    have h : like q q' := hr.2.1
    dsimp only
    obl
  refine Diverge.step (rounds_obl N x x' hx _ _ like.rfl') fun y y' hy => ?_
  refine Diverge.same fun _ => Diverge.bind ?_ _ _
  refine Diverge.forIn (I := used) (fun a b => a.length = l.length ∧ b.length = l'.length) (fun r => ∃ j < 4, l.length ≤ 4 * r + j ∧ 4 * r + j < l'.length) _ ?_ ?_ ?_ ⟨rfl, rfl⟩
  · intro r hr hD a b hab
    have hr : r < 4 := Nat.lt_of_lt_of_le (List.mem_range.1 hr) hN
    iterate 22 refine Obl.bind (Q := fun _ _ => True) (Obl.see (by first | exact trivial | exact (show _ ∈ used by decide)) rfl fun _ _ _ _ => trivial) fun _ _ _ => ?_
    refine Obl.bind (Q := fun a b => a.length = l.length ∧ b.length = l'.length) (Obl.forInYield _ _ ?_ hab) fun a b hab => Obl.pure ⟨a, b, rfl, rfl, hab⟩
    intro j hj a b hab
    have hj : j < 4 := List.mem_range.1 hj
    refine Obl.bind (Q := fun _ _ => True) (Obl.lift fun _ _ _ _ => trivial) fun x x' _ => ?_
    simp only [per_vector_eq, Tr.lift_ok_bind, mul_eq ht r hr, add_eq ht r j hr hj]
    exact put_same _ (show 4 * r + j < _ ↔ 4 * r + j < _ from ⟨fun h => by omega, fun h => by
      by_contra hn
      exact hD ⟨j, hj, by omega, h⟩⟩) _ _ a b hab
  · intro r hr hD a b hab
    have hr : r < 4 := Nat.lt_of_lt_of_le (List.mem_range.1 hr) hN
    iterate 22 refine Diverge.step (I := used) (Q := fun _ _ => True) (Obl.see (by first | exact trivial | exact (show _ ∈ used by decide)) rfl fun _ _ _ _ => trivial) fun _ _ _ => ?_
    refine Diverge.bind (Diverge.forIn (I := used) (fun a b => a.length = l.length ∧ b.length = l'.length) (fun j => l.length ≤ 4 * r + j ∧ 4 * r + j < l'.length) _ ?_ ?_ ?_ hab) _ _
    · intro j hj hn a b hab
      have hj : j < 4 := List.mem_range.1 hj
      refine Obl.bind (Q := fun _ _ => True) (Obl.lift fun _ _ _ _ => trivial) fun x x' _ => ?_
      simp only [per_vector_eq, Tr.lift_ok_bind, mul_eq ht r hr, add_eq ht r j hr hj]
      exact put_same _ (show 4 * r + j < _ ↔ 4 * r + j < _ from ⟨fun h => by omega, fun h => by omega⟩) _ _ a b hab
    · intro j hj hD a b hab
      have hj : j < 4 := List.mem_range.1 hj
      refine Diverge.step (I := used) (Q := fun _ _ => True) (Obl.lift fun _ _ _ _ => trivial) fun x x' _ => ?_
      simp only [per_vector_eq, Tr.lift_ok_bind, mul_eq ht r hr, add_eq ht r j hr hj]
      exact put_parts _ hD.1 hD.2 _ _ a b hab
    · obtain ⟨j, hj, h1, h2⟩ := hD
      exact ⟨j, List.mem_range.2 hj, h1, h2⟩
  · refine ⟨l.length / 4, List.mem_range.2 ?_, l.length % 4, ?_, ?_, ?_⟩
    · show _ < N - 0
      omega
    all_goals omega

theorem tail_parts (ht : 16 ≤ tgt.bits) (s : Backend R V) (l l' : List (List U8)) (hl : l.length < l'.length) :
    Diverge (Backend.gen_tail_blocks_tr tgt s l) (Backend.gen_tail_blocks_tr tgt s l') := by
  unfold Backend.gen_tail_blocks_tr
  simp only [pure_bind, max_par_eq, max_n_eq, Tr.lift_ok_bind]
  refine Diverge.step (I := used) (Q := fun _ _ => l'.length < 16) (Obl.lift fun _ _ _ h => ?_) fun _ _ h16 => ?_
  · by_contra hn
    have : lt (len tgt l') (⟨16⟩ : Usize tgt) = false := decide_eq_false hn
    rw [this] at h
    cases h
  have beq : ∀ {l : List (List U8)} {n : Usize tgt}, (len tgt l == n) = true → l.length = n.val := fun h => congrArg Usize.val (eq_of_beq h)
  refine Diverge.branch (fun h h' => absurd hl ?_) fun _ _ => Diverge.branch (fun h h' => absurd hl ?_) fun _ _ => Diverge.branch (fun h h' => absurd hl ?_) fun _ _ =>
    Diverge.branch (fun h h' => ?_) fun _ _ => Diverge.branch (fun h h' => ?_) fun _ _ => ?_
  · rw [List.isEmpty_iff.1 h, List.isEmpty_iff.1 h']
    exact Nat.lt_irrefl _
  · rw [beq h, beq h']
    exact Nat.lt_irrefl _
  · rw [beq h, beq h']
    exact Nat.lt_irrefl _
  · exact (full_parts ht 1 (by decide) s l l' hl (of_decide_eq_true h')).bind _ _
  · exact (full_parts ht 2 (by decide) s l l' hl (of_decide_eq_true h')).bind _ _
  · exact (full_parts ht 4 (by decide) s l l' hl (by omega)).bind _ _

theorem parts (ht : 16 ≤ tgt.bits) : Parts (σ := Backend R V) (fun _ p s => runTr tgt p s)
    fun e => e = .index 0 ∨ e = .instr "_mm512_broadcast_i32x4" ∨ ∃ b, e = .branch b := by
  have hb : ∀ (s : Backend R V) b, Heads (Backend.gen_ks_block_tr tgt s b) (· = .index 0) := fun s b => by
    unfold Backend.gen_ks_block_tr
    heads
  have hp : ∀ (s : Backend R V) b, Heads (Backend.gen_par_ks_blocks_tr tgt s b) (· = .instr "_mm512_broadcast_i32x4") := fun s b => by
    unfold Backend.gen_par_ks_blocks_tr
    simp only [pure_bind, max_n_eq, Tr.lift_ok_bind]
    refine Heads.bind ?_
    unfold Backend.gen_blocks_fullwidth_tr
    heads
  have hq : ∀ (s : Backend R V) b, Heads (Backend.gen_tail_blocks_tr tgt s b) (fun e => ∃ b, e = .branch b) := fun s b => by
    unfold Backend.gen_tail_blocks_tr
    simp only [pure_bind]
    exact Heads.lift fun _ => Heads.lift fun _ => Heads.bind (Heads.see _ _ ⟨_, rfl⟩)
  have bp : ∀ s b l, Diverge (Backend.gen_ks_block_tr (R := R) (V := V) tgt s b) (Backend.gen_par_ks_blocks_tr tgt s l) := fun s b l =>
    Diverge.heads (hb s b) (hp s l) fun e h h' => by cases h.symm.trans h'
  have bt : ∀ s b l, Diverge (Backend.gen_ks_block_tr (R := R) (V := V) tgt s b) (Backend.gen_tail_blocks_tr tgt s l) := fun s b l =>
    Diverge.heads (hb s b) (hq s l) fun e h ⟨_, h'⟩ => by cases h.symm.trans h'
  have pt : ∀ s b l, Diverge (Backend.gen_par_ks_blocks_tr (R := R) (V := V) tgt s b) (Backend.gen_tail_blocks_tr tgt s l) := fun s b l =>
    Diverge.heads (hp s b) (hq s l) fun e h ⟨_, h'⟩ => by cases h.symm.trans h'
  refine ⟨fun q s => ?_, fun q q' s hn => ?_⟩
  · cases q with
    | block => exact Heads.bind ((hb s _).mono fun _ _ _ h => .inl h)
    | par => exact Heads.bind ((hp s _).mono fun _ _ _ h => .inr (.inl h))
    | tail n => exact Heads.bind ((hq s _).mono fun _ _ _ h => .inr (.inr h))
  · cases q <;> cases q'
    · exact absurd rfl hn
    · exact (bp s _ _).bind _ _
    · exact (bt s _ _).bind _ _
    · exact (bp s _ _).symm.bind _ _
    · exact absurd rfl hn
    · exact (pt s _ _).bind _ _
    · exact (bt s _ _).symm.bind _ _
    · exact (pt s _ _).symm.bind _ _
    · rename_i n m
      have hnm : n ≠ m := fun e => hn (e ▸ rfl)
      rcases Nat.lt_or_gt_of_ne hnm with h | h
      · exact (tail_parts ht s _ _ (by rw [List.length_replicate, List.length_replicate]; exact h)).bind _ _
      · exact (tail_parts ht s _ _ (by rw [List.length_replicate, List.length_replicate]; exact h)).symm.bind _ _

theorem inner_tells (ht : 16 ≤ tgt.bits) (x : List U32) : Tells fun f => inner_tr (R := R) (V := V) tgt x f := by
  unfold inner_tr
  simp only [pure_bind]
  iterate 7 refine Tells.pre _ _ fun _ => ?_
  exact Tells.parts (parts ht) _ _ fun r => Heads.bind (Heads.see _ _ fun h => h.elim (fun h => nomatch h) fun h => h.elim (fun h => absurd (Event.instr.inj h) (by decide)) fun ⟨_, h⟩ => nomatch h)

end avx512

/-- On every backend the requests are told by their records. -/
theorem processTr_tells (ht : 16 ≤ tgt.bits) (b : Verif.ChaCha.Config.Build) (d : Verif.ChaCha.Config.Detected) (c : ChaChaCore R V) : Tells fun f => processTr b d tgt c f := by
  have e : (fun (f : Callee Unit) => processTr b d tgt c f) =
      fun f => (show Tr Unit from (.ok (), asked b d)) >>= fun _ => armTr (tgt := tgt) (Verif.ChaCha.Config.select b d) c f :=
    funext fun f => processTr_eq b d tgt c f
  rw [e]
  refine Tells.pre _ _ fun _ => ?_
  cases Verif.ChaCha.Config.select b d with
  | soft => exact Tells.looks looks_soft _ _ fun _ _ _ => rfl
  | neon => exact (neon.inner_tells c.state).post fun _ _ _ => rfl
  | sse2 => exact (sse2.inner_tells c.state).post fun _ _ _ => rfl
  | avx2 => exact (avx2.inner_tells c.state).post fun _ _ _ => rfl
  | avx512 => exact (avx512.inner_tells ht c.state).post fun _ _ _ => rfl

end ChaCha

namespace Salsa
variable {tgt : Target} {R : Type} [Unsigned R]

theorem second_rounds (s : List U32) (hs : 2 ≤ s.length) : Second (Unsigned.value R) (run_rounds_tr (R := R) tgt s) := by
  unfold run_rounds_tr
  simp only [pure_bind]
  refine Second.loop (n := Unsigned.value R) (Heads.range (fun h0 => ?_) fun h1 => ?_)
  · replace h0 : Unsigned.value R = 0 := h0
    refine Heads.bind ((show Heads (Tr.loop _) (· = .loop (min s.length s.length)) from Heads.see _ _ rfl).mono fun _ _ e he => ?_)
    subst he
    rintro (h | h | h) <;> have := Event.loop.inj h <;> omega
  · refine Heads.bind ?_
    unfold quarter_round_tr
    refine Heads.mono (φ := (· = .index 0)) ?_ fun _ _ e he => by
      subst he
      rintro (h | h | h) <;> cases h
    heads

theorem second_block (s : Backend R) (b : List U8) : Second (Unsigned.value R) (Backend.gen_ks_block_tr tgt s b) := fun a ha => by
  refine Second.bind (n := Unsigned.value R) (m := run_rounds_tr (R := R) tgt s.f0.state) (second_rounds _ ?_) a ha
  obtain ⟨r, -, h⟩ := Tr.bind_ok (m := run_rounds_tr (R := R) tgt s.f0.state) ha
  obtain ⟨x, h, -⟩ := Tr.bind_ok (m := SalsaCore.get_block_pos_tr tgt s.f0) h
  replace h : (SalsaCore.get_block_pos_tr tgt s.f0).1 = .ok x := congrArg Prod.fst h
  unfold SalsaCore.get_block_pos_tr at h
  obtain ⟨y, h, -⟩ := Tr.bind_ok h
  exact Nat.le_of_lt (Nat.lt_of_lt_of_le (by decide : 2 < 8) (Nat.le_of_lt (idx_lt (congrArg Prod.fst h))))

theorem looks : Looks (σ := Backend R) (fun _ p s => runTr tgt p s) (opens (Unsigned.value R)) := looks_provided second_block rfl (fun _ _ => rfl) fun _ _ => rfl

theorem process_tells (s : SalsaCore R) : Tells fun f => SalsaCore.process_with_backend_tr tgt s f := by
  unfold SalsaCore.process_with_backend_tr
  simp only [pure_bind]
  exact Tells.looks looks _ _ fun _ _ _ => rfl

theorem processX_tells (s : XSalsaCore R) : Tells fun f => XSalsaCore.process_with_backend_tr tgt s f := by
  unfold XSalsaCore.process_with_backend_tr
  simp only [pure_bind]
  exact (process_tells _).post fun _ _ _ => rfl

end Salsa

theorem Rabbit.decodes (tgt : Target) : Decodes (bs := 16) (σ := Rabbit.Backend) (fun _ p s => runBlockTr 16 tgt p s) (single (· = .loop 8)) :=
  decodes_block (by decide) (by decide) fun s b => by
    show Heads (Rabbit.Backend.gen_ks_block_tr tgt s b) _
    unfold Rabbit.Backend.gen_ks_block_tr
    simp only [pure_bind]
    refine Heads.bind ?_
    unfold Rabbit.State.next_block_tr
    simp only [pure_bind]
    refine Heads.bind ?_
    unfold Rabbit.State.next_state_tr
    simp only [pure_bind]
    refine Heads.bind ?_
    unfold Rabbit.State.counter_update_tr
    heads

theorem Hc256.decodes (tgt : Target) : Decodes (bs := 4) (σ := Hc256.Backend) (fun _ p s => runBlockTr 4 tgt p s) (single (fun e => ∃ b, e = .branch b)) :=
  decodes_block (fun ⟨_, h⟩ => nomatch h) (fun ⟨_, h⟩ => nomatch h) fun s b => by
    show Heads (Hc256.Backend.gen_ks_block_tr tgt s b) _
    unfold Hc256.Backend.gen_ks_block_tr
    simp only [pure_bind]
    refine Heads.bind ?_
    unfold Hc256.Hc256Core.gen_word_tr
    repeat' first
      | exact Heads.see _ _ ⟨_, rfl⟩
      | with_reducible refine Heads.pure ?_
      | with_reducible refine Heads.lift fun _ => ?_

/-! ### Cores and histories -/

/-- A core from whose record the requests can be read off, in these circumstances. -/
def SeenCore.Telling {bs : Nat} {χ : Type} (C : SeenCore bs χ) (x : χ) : Prop := ∀ (s : C.σ) (l l' : List Req) (r r' : Unit × C.σ),
  (C.process x (fun _ => Prog.ofReqs l) s).1 = .ok r → (C.process x (fun _ => Prog.ofReqs l') s).1 = .ok r' →
    (C.process x (fun _ => Prog.ofReqs l) s).2 = (C.process x (fun _ => Prog.ofReqs l') s).2 → l = l'

theorem SeekText.telling (tgt : Target) (ht : 16 ≤ tgt.bits) (c : SeekText) (x : Circumstances) : (c.seen tgt).Telling x := by
  cases c with
  | chacha R key nonce => exact fun s => (ChaCha.processTr_tells ht x.build x.detected s).post returned_silent
  | chachaLegacy key nonce => exact fun s => (ChaCha.processTr_tells (R := ChaCha.R20) ht x.build x.detected s).post returned_silent
  | xchacha R key nonce =>
    exact fun s => Tells.post (P := fun f => ChaCha.processTr x.build x.detected tgt s.f0 f >>= fun r => pure ((), (⟨r.2.1⟩ : ChaCha.XChaChaCore R), r.2.2))
      ((ChaCha.processTr_tells ht x.build x.detected s.f0).post fun _ _ _ => rfl) returned_silent
  | salsa R key nonce => exact fun s => (Salsa.process_tells s).post returned_silent
  | xsalsa R key nonce => exact fun s => (Salsa.processX_tells s).post returned_silent

theorem blockCall_tells {n : Nat} {σ τ : Type} [BlockBackend n τ] {tgt : Target} {φ : Req → Event → Prop} (D : Decodes (bs := n) (σ := τ) (fun _ p s => runBlockTr n tgt p s) φ) (b : τ)
    (ret : τ → σ) (l l' : List Req) (r r' : Unit × σ) :
    let P (l : List Req) := (BlockClosure.call_tr (n := n) tgt (BlockCallee.ready (n := n) fun _ => Prog.ofReqs l) b >>= fun r => pure ((), ret r.2.2, r.2.1)) >>= blockReturned
    (P l).1 = .ok r → (P l').1 = .ok r' → (P l).2 = (P l').2 → l = l' := by
  have e : ∀ l : List Req, ((BlockClosure.call_tr (n := n) tgt (BlockCallee.ready (n := n) fun _ => Prog.ofReqs l) b >>= fun r => pure ((), ret r.2.2, r.2.1)) >>= blockReturned) =
      runBlockTr n tgt (Prog.ofReqs l) b >>= fun r => pure (r.1, ret r.2) := fun l => by
    show ((runBlockTr n tgt (Prog.ofReqs l) b >>= fun r => pure ((), BlockCallee.done r.1, r.2)) >>= _) >>= _ = _
    simp only [bind_assoc, pure_bind, blockReturned]
  dsimp only
  rw [e, e]
  intro h h' he
  obtain ⟨a, h1, h2⟩ := Tr.bind_ok h
  obtain ⟨a', h1', h2'⟩ := Tr.bind_ok h'
  rw [Tr.bind_eq h1 rfl, Tr.bind_eq h1' rfl] at he
  exact (runBlockTr_isRun tgt).decode D h1 h1' (Apart.nil _) (Apart.nil _) he

theorem Rabbit.telling_keyOnly (tgt : Target) : (Rabbit.seenKeyOnly tgt).Telling () :=
  fun s => blockCall_tells (Rabbit.decodes tgt) (⟨s.state⟩ : Rabbit.Backend) fun b => (⟨b.f0⟩ : Rabbit.RabbitKeyOnlyCore)

theorem Rabbit.telling (tgt : Target) : (Rabbit.seenCore tgt).Telling () :=
  fun s => blockCall_tells (Rabbit.decodes tgt) (⟨s.state⟩ : Rabbit.Backend) fun b => (⟨b.f0⟩ : Rabbit.RabbitCore)

theorem Hc256.telling (tgt : Target) : (Hc256.seenCore tgt).Telling () :=
  fun s => blockCall_tells (Hc256.decodes tgt) (⟨s⟩ : Hc256.Backend) fun b => b.f0

section
variable {bs : Nat} {χ : Type} {C : SeenCore bs χ}

/-- The record of the last call of a history. -/
theorem SeenCore.clients_end {h : List (χ × ClientOp bs)} {x : χ} {op : ClientOp bs} {s : C.σ} {r : List CoreObs × C.σ} (hr : (C.clients (h ++ [(x, op)]) s).1 = .ok r) :
    ∃ os t u o, C.clients h s = (.ok (os, t), u) ∧ (C.client x t op).1 = .ok o ∧ (C.clients (h ++ [(x, op)]) s).2 = u ++ (C.client x t op).2 := by
  induction h generalizing s r with
  | nil =>
    obtain ⟨o, h1, h2⟩ := Tr.bind_ok hr
    refine ⟨[], s, [], o, rfl, congrArg Prod.fst h1, ?_⟩
    exact (congrArg Prod.snd (Tr.bind_eq h1 rfl)).trans (List.append_nil _)
  | cons e h ih =>
    obtain ⟨y, p⟩ := e
    obtain ⟨o, h1, h2⟩ := Tr.bind_ok hr
    obtain ⟨os, h3, h4⟩ := Tr.bind_ok h2
    obtain ⟨os', t, u, o', e1, e2, e3⟩ := ih (congrArg Prod.fst h3)
    refine ⟨o.1 :: os', t, (C.client y s p).2 ++ (u ++ []), o', Tr.bind_eq h1 (Tr.bind_eq e1 rfl), e2, ?_⟩
    have h5 : (C.clients ((y, p) :: h ++ [(x, op)]) s) = _ := Tr.bind_eq h1 (Tr.bind_eq h3 rfl)
    refine (congrArg Prod.snd h5).trans ?_
    show (C.client y s p).2 ++ ((C.clients (h ++ [(x, op)]) o.2).2 ++ []) = _
    rw [e3, List.append_nil, List.append_nil, List.append_assoc]

/-- The requests of the last call of a life can be read off its record. -/
theorem SeenCore.Telling.life {x : χ} (E : C.Telling x) (m : Tr C.σ) (h : List (χ × ClientOp bs)) (l l' : List Req)
    (h1 : (C.clientLife m (h ++ [(x, (Asked.run l).client)])).1.isOk) (h2 : (C.clientLife m (h ++ [(x, (Asked.run l').client)])).1.isOk)
    (he : (C.clientLife m (h ++ [(x, (Asked.run l).client)])).2 = (C.clientLife m (h ++ [(x, (Asked.run l').client)])).2) : l = l' := by
  have ex : ∀ {β : Type} {p : Except Panic β}, p.isOk → ∃ b, p = .ok b := fun {_ p} h => by
    cases p with
    | error e => exact nomatch h
    | ok b => exact ⟨b, rfl⟩
  obtain ⟨r1, h1⟩ := ex h1
  obtain ⟨r2, h2⟩ := ex h2
  obtain ⟨s, hs, h1⟩ := Tr.bind_ok h1
  obtain ⟨s', hs', h2⟩ := Tr.bind_ok h2
  have e : s = s' := Except.ok.inj (congrArg Prod.fst (hs.symm.trans hs'))
  subst e
  obtain ⟨p1, h3, h4⟩ := Tr.bind_ok h1
  obtain ⟨p2, h5, h6⟩ := Tr.bind_ok h2
  obtain ⟨os, t, u, o, e1, e2, e3⟩ := SeenCore.clients_end (congrArg Prod.fst h3)
  obtain ⟨os', t', u', o', e1', e2', e3'⟩ := SeenCore.clients_end (congrArg Prod.fst h5)
  have e : (Except.ok (os, t), u) = ((Except.ok (os', t'), u') : Tr _) := e1.symm.trans e1'
  cases e
  have k1 : C.clientLife m (h ++ [(x, (Asked.run l).client)]) = _ := Tr.bind_eq hs (Tr.bind_eq h3 rfl)
  have k2 : C.clientLife m (h ++ [(x, (Asked.run l').client)]) = _ := Tr.bind_eq hs (Tr.bind_eq h5 rfl)
  rw [k1, k2] at he
  replace he := List.append_cancel_left he
  rw [List.append_nil, List.append_nil, e3, e3'] at he
  replace he := List.append_cancel_left he
  obtain ⟨a, h7, h8⟩ := Tr.bind_ok e2
  obtain ⟨a', h7', h8'⟩ := Tr.bind_ok e2'
  have k3 : C.client x t (Asked.run l).client = _ := Tr.bind_eq h7 rfl
  have k4 : C.client x t (Asked.run l').client = _ := Tr.bind_eq h7' rfl
  rw [k3, k4, List.append_nil, List.append_nil] at he
  exact E t l l' a a' (congrArg Prod.fst h7) (congrArg Prod.fst h7') he

end

end Rust
end Verif
