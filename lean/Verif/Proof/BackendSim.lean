import Verif.Model.Backend
/-!
# Simulation between backends
-/
namespace Verif

/-- Two computations agree: same panic, or same answer and related states. -/
inductive RelE {α σ τ : Type} (R : σ → τ → Prop) : Except Panic (α × σ) → Except Panic (α × τ) → Prop where
  | error (p : Panic) : RelE R (.error p) (.error p)
  | ok (a : α) (s : σ) (t : τ) (h : R s t) : RelE R (.ok (a, s)) (.ok (a, t))

theorem RelE.bind {α β σ τ : Type} {R : σ → τ → Prop} {x : Except Panic (α × σ)} {y : Except Panic (α × τ)}
    (h : RelE R x y) {f : α × σ → Except Panic (β × σ)} {g : α × τ → Except Panic (β × τ)}
    (hfg : ∀ a s t, R s t → RelE R (f (a, s)) (g (a, t))) : RelE R (x >>= f) (y >>= g) := by
  cases h with
  | error p => exact .error p
  | ok a s t h => exact hfg a s t h

theorem genMany_rel {bs : Nat} {σ τ : Type} {R : σ → τ → Prop}
    {g : σ → Except Panic (Vector U8 bs × σ)} {h : τ → Except Panic (Vector U8 bs × τ)}
    (hb : ∀ s t, R s t → RelE R (g s) (h t)) (n : Nat) :
    ∀ s t, R s t → RelE R (genMany g n s) (genMany h n t) := by
  induction n with
  | zero => intro s t hr; exact .ok _ _ _ hr
  | succ n ih =>
    intro s t hr
    refine (hb s t hr).bind fun a s t hr => ?_
    exact (ih s t hr).bind fun _ s t hr => .ok _ _ _ hr

/-- Backends with the same `ParBlocksSize` whose methods agree give the same result to every client. -/
theorem Prog.run_rel {bs : Nat} {σ τ α : Type} {R : σ → τ → Prop} (B : Backend bs σ) (C : Backend bs τ)
    (hb : ∀ s t, R s t → RelE R (B.genBlock s) (C.genBlock t))
    (hp : ∀ s t, R s t → RelE R (B.genPar s) (C.genPar t))
    (ht : ∀ n s t, R s t → RelE R (B.genTail n s) (C.genTail n t)) (p : Prog bs α) :
    ∀ s t, R s t → RelE R (p.run B s) (p.run C t) := by
  induction p with
  | done a => intro s t hr; exact .ok _ _ _ hr
  | block k ih => intro s t hr; exact (hb s t hr).bind fun a s t hr => ih a s t hr
  | par k ih => intro s t hr; exact (hp s t hr).bind fun a s t hr => ih a s t hr
  | tail n k ih => intro s t hr; exact (ht n s t hr).bind fun a s t hr => ih a s t hr

/-- The case of provided `gen_tail_blocks`. -/
theorem Backend.call_rel_ofBlock {bs : Nat} {σ τ α : Type} {R : σ → τ → Prop} {par : Nat}
    {g : σ → Except Panic (Vector U8 bs × σ)} {gp : σ → Except Panic (List (Vector U8 bs) × σ)}
    {h : τ → Except Panic (Vector U8 bs × τ)}
    (hb : ∀ s t, R s t → RelE R (g s) (h t))
    (hp : ∀ s t, R s t → RelE R (gp s) (genMany h par t)) (f : Closure bs α) (s : σ) (t : τ) (hr : R s t) :
    RelE R (Backend.call { Backend.ofBlock par g with genPar := gp } f s) (Backend.call (.ofBlock par h) f t) := by
  refine Prog.run_rel _ _ hb hp ?_ _ s t hr
  intro n s t hr
  simp only [Backend.ofBlock]
  split
  · exact genMany_rel hb n s t hr
  · exact .error _

theorem genMany_ok {bs : Nat} {σ : Type} (gen : σ → Except Panic (Vector U8 bs × σ))
    (out : σ → Vector U8 bs) (adv : Nat → σ → σ) (h0 : ∀ s, adv 0 s = s)
    (hadv : ∀ k s, adv k (adv 1 s) = adv (k + 1) s)
    (hgen : ∀ s, gen s = .ok (out s, adv 1 s)) (n : Nat) :
    ∀ s, genMany gen n s = .ok ((List.range n).map fun i => out (adv i s), adv n s) := by
  induction n with
  | zero => intro s; simp [genMany, h0]
  | succ n ih =>
    intro s
    simp only [genMany, hgen, bind, Except.bind, ih, pure, Except.pure, List.range_succ_eq_map,
      List.map_cons, List.map_map, h0, hadv]
    rfl

end Verif
