import Verif.Model.Family
import Verif.Proof.Rng
/-!
# Families of generators
-/
namespace Verif.ChaCha.Rng
open Spec (leByte)
open Verif.Spec.Rng (St RngOp RngObs)

/-- The bytes of a `fill_bytes` of a whole seed. -/
theorem fill_seed {dr : Nat} {a : St} {r : Rng} (h : Rel dr a r) (e : Env) :
    (Vector.ofFn fun k : Fin 32 => (fillBytes dr e 32 r).1.getD k.val 0) = Spec.Family.childSeed dr a := by
  rw [(fillBytes_rel h e 32).1, Spec.Family.childSeed]
  refine congrArg Vector.ofFn (funext fun k => ?_)
  rw [bytes, List.getD_eq_getElem?_getD, List.getElem?_map, List.getElem?_range k.isLt]
  rfl

theorem fromRng_rel {dr : Nat} {a : St} {r : Rng} (h : Rel dr a r) (e : Env) (dr' : Nat) :
    ∃ child r', fromRng dr e r = .ok (child, r') ∧ Rel dr (a.move 8) r' ∧
      fromSeed (Spec.Family.childSeed dr a) = .ok child ∧ Rel dr' (Spec.Rng.init (Spec.Family.childSeed dr a)) child := by
  obtain ⟨c, h1, h2⟩ := fromSeed_rel dr' (Spec.Family.childSeed dr a)
  refine ⟨c, (fillBytes dr e 32 r).2, ?_, (fillBytes_rel h e 32).2, h1, h2⟩
  show (fromSeed (Vector.ofFn fun k : Fin 32 => (fillBytes dr e 32 r).1.getD k.val 0) >>= _) = _
  rw [fill_seed h e, h1]
  rfl

/-- Members stand for each other one by one. -/
def FamRel (f : List (Nat × St)) (g : List (Nat × Rng)) : Prop :=
  f.length = g.length ∧ ∀ (i dr : Nat) (a : St), f[i]? = some (dr, a) → ∃ r, g[i]? = some (dr, r) ∧ Rel dr a r

theorem FamRel.none {f : List (Nat × St)} {g : List (Nat × Rng)} (h : FamRel f g) {i : Nat} (hi : f[i]? = none) : g[i]? = none := by
  rw [List.getElem?_eq_none_iff] at hi ⊢
  rw [← h.1]; exact hi

theorem FamRel.set {f : List (Nat × St)} {g : List (Nat × Rng)} (h : FamRel f g) {i dr : Nat} {a a' : St} {r' : Rng}
    (hi : f[i]? = some (dr, a)) (hr : Rel dr a' r') : FamRel (f.set i (dr, a')) (g.set i (dr, r')) := by
  refine ⟨by simp only [List.length_set, h.1], ?_⟩
  intro j drj b hj
  rw [List.getElem?_set] at hj ⊢
  have hlt : i < f.length := by
    rw [List.getElem?_eq_some_iff] at hi; exact hi.1
  by_cases hij : i = j
  · rw [if_pos hij, if_pos hlt] at hj
    rw [if_pos hij, if_pos (h.1 ▸ hlt)]
    simp only [Option.some.injEq, Prod.mk.injEq] at hj
    rw [← hj.1, ← hj.2]
    exact ⟨r', rfl, hr⟩
  · rw [if_neg hij] at hj ⊢
    exact h.2 j drj b hj

theorem FamRel.push {f : List (Nat × St)} {g : List (Nat × Rng)} (h : FamRel f g) {dr : Nat} {a : St} {r : Rng}
    (hr : Rel dr a r) : FamRel (f ++ [(dr, a)]) (g ++ [(dr, r)]) := by
  refine ⟨by simp only [List.length_append, h.1, List.length_cons, List.length_nil], ?_⟩
  intro j drj b hj
  rw [List.getElem?_append] at hj ⊢
  rw [← h.1]
  by_cases hlt : j < f.length
  · rw [if_pos hlt] at hj ⊢
    exact h.2 j drj b hj
  · rw [if_neg hlt] at hj ⊢
    cases hk : j - f.length with
    | zero =>
      rw [hk] at hj
      simp only [List.getElem?_cons_zero, Option.some.injEq, Prod.mk.injEq] at hj
      rw [← hj.1, ← hj.2]
      exact ⟨r, rfl, hr⟩
    | succ n => rw [hk] at hj; exact nomatch hj

/-- One call that is no `get_block_pos` under overflow checks. -/
theorem famStep_rel {f : List (Nat × St)} {g : List (Nat × Rng)} (h : FamRel f g) (m : Mode) (e : Env) (op : Spec.Family.Op)
    (hop : m = .debug → ∀ i, op ≠ .call i .getBlockPos) :
    ∃ g', famStep m e g op = .ok ((Spec.Family.step f op).1, g') ∧ FamRel (Spec.Family.step f op).2 g' := by
  cases op with
  | call i op =>
    unfold famStep Spec.Family.step
    dsimp only
    cases hi : f[i]? with
    | none => rw [h.none hi]; exact ⟨g, rfl, h⟩
    | some p =>
      obtain ⟨dr, a⟩ := p
      obtain ⟨r, hg, hr⟩ := h.2 i dr a hi
      obtain ⟨r', h1, h2⟩ := step_rel hr m e op fun ho hd => hop hd.1 i (by rw [ho])
      refine ⟨g.set i (dr, r'), ?_, h.set hi h2⟩
      rw [hg]
      show (step m dr e r op >>= _) = _
      rw [h1]
      rfl
  | fork i dr' =>
    unfold famStep Spec.Family.step
    dsimp only
    cases hi : f[i]? with
    | none => rw [h.none hi]; exact ⟨g, rfl, h⟩
    | some p =>
      obtain ⟨dr, a⟩ := p
      obtain ⟨r, hg, hr⟩ := h.2 i dr a hi
      obtain ⟨c, r', h1, h2, _, h3⟩ := fromRng_rel hr e dr'
      refine ⟨g.set i (dr, r') ++ [(dr', c)], ?_, (h.set hi h2).push h3⟩
      rw [hg]
      show (fromRng dr e r >>= _) = _
      rw [h1]
      rfl

/-- One call that did not panic. -/
theorem famStep_ok {f : List (Nat × St)} {g g' : List (Nat × Rng)} (h : FamRel f g) (m : Mode) (e : Env) (op : Spec.Family.Op) {o : RngObs}
    (hs : famStep m e g op = .ok (o, g')) : o = (Spec.Family.step f op).1 ∧ FamRel (Spec.Family.step f op).2 g' := by
  by_cases hop : ∃ i, op = .call i .getBlockPos
  · obtain ⟨i, rfl⟩ := hop
    unfold famStep at hs
    dsimp only at hs
    unfold Spec.Family.step
    dsimp only
    cases hi : f[i]? with
    | none =>
      rw [h.none hi] at hs
      simp only [Except.ok.injEq, Prod.mk.injEq] at hs
      rw [← hs.1, ← hs.2]; exact ⟨rfl, h⟩
    | some p =>
      obtain ⟨dr, a⟩ := p
      obtain ⟨r, hg, hr⟩ := h.2 i dr a hi
      rw [hg] at hs
      obtain ⟨⟨o', r'⟩, h1, h2⟩ := bind_eq_ok hs
      obtain ⟨h3, h4⟩ := step_ok hr m e _ h1
      simp only [pure, Except.pure, Except.ok.injEq, Prod.mk.injEq] at h2
      rw [← h2.1, ← h2.2, h3]
      exact ⟨rfl, h.set hi h4⟩
  · obtain ⟨g1, h1, h2⟩ := famStep_rel h m e op fun _ i hi => hop ⟨i, hi⟩
    rw [h1] at hs
    simp only [Except.ok.injEq, Prod.mk.injEq] at hs
    rw [← hs.1, ← hs.2]; exact ⟨rfl, h2⟩

theorem famRun_rel (m : Mode) (h : List (Env × Spec.Family.Op)) (hm : m = .debug → ∀ x ∈ h, ∀ i, x.2 ≠ .call i .getBlockPos) :
    ∀ {f : List (Nat × St)} {g : List (Nat × Rng)}, FamRel f g →
      ∃ g', famRun m h g = .ok ((Spec.Family.run (h.map (·.2)) f).1, g') ∧ FamRel (Spec.Family.run (h.map (·.2)) f).2 g' := by
  induction h with
  | nil => exact fun h => ⟨_, rfl, h⟩
  | cons x h ih =>
    intro f g hr
    obtain ⟨e, op⟩ := x
    obtain ⟨g1, h1, h2⟩ := famStep_rel hr m e op fun hd => hm hd (e, op) (List.mem_cons_self ..)
    obtain ⟨g2, h3, h4⟩ := ih (fun hd x hx => hm hd x (List.mem_cons_of_mem _ hx)) h2
    refine ⟨g2, ?_, h4⟩
    rw [famRun]
    show (famStep m e g op >>= _) = _
    rw [h1]
    show (famRun m h g1 >>= _) = _
    rw [h3]
    rfl

theorem famRun_ok (m : Mode) (h : List (Env × Spec.Family.Op)) : ∀ {f : List (Nat × St)} {g g' : List (Nat × Rng)} {os : List RngObs},
    FamRel f g → famRun m h g = .ok (os, g') →
      os = (Spec.Family.run (h.map (·.2)) f).1 ∧ FamRel (Spec.Family.run (h.map (·.2)) f).2 g' := by
  induction h with
  | nil =>
    intro f g g' os hr h
    simp only [famRun, Except.ok.injEq, Prod.mk.injEq] at h
    rw [← h.1, ← h.2]
    exact ⟨rfl, hr⟩
  | cons x h ih =>
    intro f g g' os hr hrun
    obtain ⟨e, op⟩ := x
    rw [famRun] at hrun
    obtain ⟨⟨o, g1⟩, h1, h2⟩ := bind_eq_ok hrun
    obtain ⟨⟨os', g2⟩, h3, h4⟩ := bind_eq_ok h2
    obtain ⟨h5, h6⟩ := famStep_ok hr m e op h1
    obtain ⟨h7, h8⟩ := ih h6 h3
    simp only [pure, Except.pure, Except.ok.injEq, Prod.mk.injEq] at h4
    rw [← h4.1, ← h4.2, h5, h7]
    exact ⟨rfl, h8⟩

/-! ## Members do not influence each other -/

/-- The calls on member `i`: those addressed to it, and a `fill_bytes` of 32 bytes for each new member it seeds. -/
def callsOf (i : Nat) : List (Env × Spec.Family.Op) → List (Env × RngOp)
  | [] => []
  | (e, .call j op) :: h => if j = i then (e, op) :: callsOf i h else callsOf i h
  | (e, .fork j _) :: h => if j = i then (e, .fill 32) :: callsOf i h else callsOf i h

theorem famStep_other {m : Mode} {e : Env} {g g' : List (Nat × Rng)} {op : Spec.Family.Op} {o : RngObs} (hs : famStep m e g op = .ok (o, g'))
    {i : Nat} {x : Nat × Rng} (hi : g[i]? = some x) (hop : callsOf i [(e, op)] = []) : g'[i]? = some x := by
  have hlt : i < g.length := by rw [List.getElem?_eq_some_iff] at hi; exact hi.1
  cases op with
  | call j op =>
    have hj : j ≠ i := by
      intro hj
      rw [callsOf, if_pos hj] at hop
      exact nomatch hop
    unfold famStep at hs
    dsimp only at hs
    cases hg : g[j]? with
    | none => rw [hg] at hs; simp only [Except.ok.injEq, Prod.mk.injEq] at hs; rw [← hs.2]; exact hi
    | some p =>
      rw [hg] at hs
      obtain ⟨⟨o', r'⟩, _, h2⟩ := bind_eq_ok hs
      simp only [pure, Except.pure, Except.ok.injEq, Prod.mk.injEq] at h2
      rw [← h2.2, List.getElem?_set, if_neg hj]; exact hi
  | fork j dr' =>
    have hj : j ≠ i := by
      intro hj
      rw [callsOf, if_pos hj] at hop
      exact nomatch hop
    unfold famStep at hs
    dsimp only at hs
    cases hg : g[j]? with
    | none => rw [hg] at hs; simp only [Except.ok.injEq, Prod.mk.injEq] at hs; rw [← hs.2]; exact hi
    | some p =>
      rw [hg] at hs
      obtain ⟨⟨o', r'⟩, _, h2⟩ := bind_eq_ok hs
      simp only [pure, Except.pure, Except.ok.injEq, Prod.mk.injEq] at h2
      rw [← h2.2, List.getElem?_append_left (by rw [List.length_set]; exact hlt), List.getElem?_set, if_neg hj]; exact hi

theorem famStep_own {m : Mode} {e : Env} {g g' : List (Nat × Rng)} {op : Spec.Family.Op} {o : RngObs} (hs : famStep m e g op = .ok (o, g'))
    {i dr : Nat} {r : Rng} (hi : g[i]? = some (dr, r)) (op' : RngOp) (hop : callsOf i [(e, op)] = [(e, op')]) :
    ∃ o' r', step m dr e r op' = .ok (o', r') ∧ g'[i]? = some (dr, r') := by
  have hlt : i < g.length := by rw [List.getElem?_eq_some_iff] at hi; exact hi.1
  cases op with
  | call j op =>
    have hj : j = i := by
      refine Classical.byContradiction fun hj => ?_
      rw [callsOf, if_neg hj] at hop
      exact nomatch hop
    subst hj
    rw [callsOf, if_pos rfl] at hop
    simp only [callsOf, List.cons.injEq, Prod.mk.injEq, true_and, and_true] at hop
    subst hop
    unfold famStep at hs
    dsimp only at hs
    rw [hi] at hs
    obtain ⟨⟨o', r'⟩, h1, h2⟩ := bind_eq_ok hs
    simp only [pure, Except.pure, Except.ok.injEq, Prod.mk.injEq] at h2
    refine ⟨o', r', h1, ?_⟩
    rw [← h2.2, List.getElem?_set, if_pos rfl, if_pos hlt]
  | fork j dr' =>
    have hj : j = i := by
      refine Classical.byContradiction fun hj => ?_
      rw [callsOf, if_neg hj] at hop
      exact nomatch hop
    subst hj
    rw [callsOf, if_pos rfl] at hop
    simp only [callsOf, List.cons.injEq, Prod.mk.injEq, true_and, and_true] at hop
    subst hop
    unfold famStep at hs
    dsimp only at hs
    rw [hi] at hs
    obtain ⟨⟨c, r'⟩, h1, h2⟩ := bind_eq_ok hs
    simp only [pure, Except.pure, Except.ok.injEq, Prod.mk.injEq] at h2
    obtain ⟨c', _, h4⟩ := bind_eq_ok (show (fromSeed (Vector.ofFn fun k : Fin 32 => (fillBytes dr e 32 r).1.getD k.val 0) >>=
      fun c => pure (c, (fillBytes dr e 32 r).2)) = .ok (c, r') from h1)
    simp only [pure, Except.pure, Except.ok.injEq, Prod.mk.injEq] at h4
    refine ⟨.bytes (fillBytes dr e 32 r).1, r', ?_, ?_⟩
    · rw [step, h4.2]
    · rw [← h2.2, List.getElem?_append_left (by rw [List.length_set]; exact hlt), List.getElem?_set, if_pos rfl, if_pos hlt]

theorem callsOf_cons (i : Nat) (x : Env × Spec.Family.Op) (h : List (Env × Spec.Family.Op)) :
    callsOf i (x :: h) = callsOf i [x] ++ callsOf i h := by
  obtain ⟨e, op⟩ := x
  cases op with
  | call j op => simp only [callsOf]; split <;> rfl
  | fork j dr => simp only [callsOf]; split <;> rfl

theorem callsOf_one (i : Nat) (x : Env × Spec.Family.Op) : callsOf i [x] = [] ∨ ∃ op, callsOf i [x] = [(x.1, op)] := by
  obtain ⟨e, op⟩ := x
  cases op with
  | call j op => simp only [callsOf]; split <;> simp
  | fork j dr => simp only [callsOf]; split <;> simp

/-- What became of member `i` is what its own calls made of it. -/
theorem famRun_member (m : Mode) (h : List (Env × Spec.Family.Op)) : ∀ {g g' : List (Nat × Rng)} {os : List RngObs} {i dr : Nat} {r : Rng},
    famRun m h g = .ok (os, g') → g[i]? = some (dr, r) →
      ∃ os' r', run m dr (callsOf i h) r = .ok (os', r') ∧ g'[i]? = some (dr, r') := by
  induction h with
  | nil =>
    intro g g' os i dr r hrun hi
    simp only [famRun, Except.ok.injEq, Prod.mk.injEq] at hrun
    rw [← hrun.2]
    exact ⟨[], r, rfl, hi⟩
  | cons x h ih =>
    intro g g' os i dr r hrun hi
    obtain ⟨e, op⟩ := x
    rw [famRun] at hrun
    obtain ⟨⟨o, g1⟩, h1, h2⟩ := bind_eq_ok hrun
    obtain ⟨⟨os1, g2⟩, h3, h4⟩ := bind_eq_ok h2
    simp only [pure, Except.pure, Except.ok.injEq, Prod.mk.injEq] at h4
    rw [← h4.2, callsOf_cons]
    rcases callsOf_one i (e, op) with h0 | ⟨op', h0⟩
    · rw [h0, List.nil_append]
      exact ih h3 (famStep_other h1 hi h0)
    · obtain ⟨o', r', h5, h6⟩ := famStep_own h1 hi op' h0
      obtain ⟨os', r'', h7, h8⟩ := ih h3 h6
      refine ⟨o' :: os', r'', ?_, h8⟩
      rw [h0]
      show (step m dr e r op' >>= _) = _
      rw [h5]
      show (run m dr (callsOf i h) r' >>= _) = _
      rw [h7]
      rfl

end Verif.ChaCha.Rng
