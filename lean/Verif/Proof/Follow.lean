import Verif.Rust.ClientRequests
import Verif.Proof.Client
/-!
# The record of client code is that of its requests
-/
namespace Verif
open ChaCha.Isa (Req)

theorem Prog.ofReqs_alike {bs : Nat} (l : List Req) : (Prog.ofReqs (bs := bs) l).Alike (Prog.ofReqs l) := by
  induction l with
  | nil => exact .done _ _
  | cons r l ih =>
    cases r with
    | block => exact .block fun _ _ => ih
    | par => exact .par fun _ _ => ih
    | tail n => exact .tail n fun _ _ => ih

namespace Rust

theorem Tr.bind_ok {α β : Type} {m : Tr α} {k : α → Tr β} {b : β} (h : (m >>= k).1 = .ok b) : ∃ a, m = (.ok a, m.2) ∧ (k a).1 = .ok b := by
  obtain ⟨r, t⟩ := m
  cases r with
  | error p => exact nomatch h
  | ok a => exact ⟨a, rfl, h⟩

theorem Tr.bind_eq {α β : Type} {m : Tr α} {a : α} {t u : List Event} {r : Except Panic β} {k : α → Tr β} (h : m = (.ok a, t)) (hk : k a = (r, u)) : (m >>= k) = (r, t ++ u) := by
  subst h
  show ((k a).1, t ++ (k a).2) = _
  rw [hk]

/-- Client code is run request by request. -/
structure IsRun {bs : Nat} {σ : Type} (run : (α : Type) → Prog bs α → σ → Tr (α × σ)) : Prop where
  done : ∀ (α : Type) (a : α) s, run α (.done a) s = pure (a, s)
  block : ∃ B : σ → Tr (Vector U8 bs × σ), ∀ (α : Type) (k : _ → Prog bs α) s, run α (.block k) s = B s >>= fun r => run α (k r.1) r.2
  par : ∃ B : σ → Tr (List (Vector U8 bs) × σ), ∀ (α : Type) (k : _ → Prog bs α) s, run α (.par k) s = B s >>= fun r => run α (k r.1) r.2
  tail : ∃ B : Nat → σ → Tr (List (Vector U8 bs) × σ), ∀ (α : Type) n (k : _ → Prog bs α) s, run α (.tail n k) s = B n s >>= fun r => run α (k r.1) r.2

section
variable {bs : Nat} {σ : Type} {run : (α : Type) → Prog bs α → σ → Tr (α × σ)} (R : IsRun run)
include R

theorem IsRun.map {α β : Type} (f : α → β) (p : Prog bs α) (s : σ) : run β (p.map f) s = run α p s >>= fun r => pure (f r.1, r.2) := by
  induction p generalizing s with
  | done a => rw [Prog.map, R.done, R.done, pure_bind]
  | block k ih =>
    obtain ⟨B, hB⟩ := R.block
    rw [Prog.map, hB, hB, bind_assoc]
    exact congrArg _ (funext fun r => ih _ _)
  | par k ih =>
    obtain ⟨B, hB⟩ := R.par
    rw [Prog.map, hB, hB, bind_assoc]
    exact congrArg _ (funext fun r => ih _ _)
  | tail n k ih =>
    obtain ⟨B, hB⟩ := R.tail
    rw [Prog.map, hB, hB, bind_assoc]
    exact congrArg _ (funext fun r => ih _ _)

/-- Client code that returns `a`, having made the requests `l`, is seen as those requests are. -/
def Followed (run : (α : Type) → Prog bs α → σ → Tr (α × σ)) {α : Type} (p : Prog bs α) (s : σ) (a : α) (l : List Req) (t : σ) : Prop :=
  ∃ u, run _ p.logged s = (.ok ((a, l), t), u) ∧ run _ p s = (.ok (a, t), u) ∧ run _ (Prog.ofReqs l) s = (.ok ((), t), u)

omit R in
theorem IsRun.step (R : IsRun run) {α β : Type} (B : Tr (β × σ)) (k : β → Prog bs α) (q : Req)
    (ih : ∀ b s {a l t}, (run _ (k b).logged s).1 = .ok ((a, l), t) → Followed run (k b) s a l t) {a : α} {l : List Req} {t : σ}
    (h : (B >>= fun r => run _ ((k r.1).logged.map fun r => (r.1, q :: r.2)) r.2 : Tr _).1 = .ok ((a, l), t)) :
    ∃ l' u, l = q :: l' ∧ (B >>= fun r => run _ ((k r.1).logged.map fun r => (r.1, q :: r.2)) r.2) = (.ok ((a, l), t), u) ∧
      (B >>= fun r => run _ (k r.1) r.2) = (.ok (a, t), u) ∧ (B >>= fun r => run _ (Prog.ofReqs l') r.2) = (.ok ((), t), u) := by
  obtain ⟨b, hb, h1⟩ := Tr.bind_ok h
  rw [R.map] at h1
  obtain ⟨⟨⟨a', l'⟩, t'⟩, h2, h3⟩ := Tr.bind_ok h1
  have h4 : ((a', q :: l'), t') = ((a, l), t) := Except.ok.inj h3
  cases h4
  obtain ⟨u, e1, e2, e3⟩ := ih _ _ (congrArg Prod.fst h2)
  refine ⟨l', _, rfl, Tr.bind_eq hb ?_, Tr.bind_eq hb e2, Tr.bind_eq hb e3⟩
  rw [R.map, e1]
  exact congrArg (Prod.mk _) (List.append_nil u)

/-- If client code returns, it is seen as the requests it made are. -/
theorem IsRun.follow {α : Type} (p : Prog bs α) (s : σ) {a : α} {l : List Req} {t : σ} (h : (run _ p.logged s).1 = .ok ((a, l), t)) : Followed run p s a l t := by
  induction p generalizing s a l t with
  | done b =>
    rw [Prog.logged, R.done] at h
    have h4 : ((b, []), s) = ((a, l), t) := Except.ok.inj h
    cases h4
    exact ⟨[], by rw [Prog.logged, R.done]; rfl, by rw [R.done]; rfl, by rw [Prog.ofReqs, R.done]; rfl⟩
  | block k ih =>
    obtain ⟨B, hB⟩ := R.block
    rw [Prog.logged, hB] at h
    obtain ⟨l', u, rfl, e⟩ := R.step (B s) k .block ih h
    exact ⟨u, by rw [Prog.logged, Prog.ofReqs, hB, hB, hB]; exact e⟩
  | par k ih =>
    obtain ⟨B, hB⟩ := R.par
    rw [Prog.logged, hB] at h
    obtain ⟨l', u, rfl, e⟩ := R.step (B s) k .par ih h
    exact ⟨u, by rw [Prog.logged, Prog.ofReqs, hB, hB, hB]; exact e⟩
  | tail n k ih =>
    obtain ⟨B, hB⟩ := R.tail
    rw [Prog.logged, hB] at h
    obtain ⟨l', u, rfl, e⟩ := R.step (B n s) k (.tail n) ih h
    exact ⟨u, by rw [Prog.logged, Prog.ofReqs, hB, hB, hB]; exact e⟩

end

theorem runTr_isRun {σ : Type} [StreamCipherBackend σ] (tgt : Target) : IsRun (σ := σ) (fun _ p s => runTr tgt p s) where
  done _ _ _ := rfl
  block := ⟨fun s => do
    let (_, s, b) ← StreamCipherBackend.gen_ks_block_tr tgt s (List.replicate 64 0)
    let v ← array 64 b
    pure (v, s), fun _ k s => by simp only [runTr, bind_assoc, pure_bind]⟩
  par := ⟨fun s => do
    let (_, s, l) ← StreamCipherBackend.gen_par_ks_blocks_tr tgt s (List.replicate (StreamCipherBackend.parSize σ) (List.replicate 64 0))
    let v ← arrays 64 l
    pure (v, s), fun _ k s => by simp only [runTr, bind_assoc, pure_bind]⟩
  tail := ⟨fun n s => do
    let (_, s, l) ← StreamCipherBackend.gen_tail_blocks_tr tgt s (List.replicate n (List.replicate 64 0))
    let v ← arrays 64 l
    pure (v, s), fun _ n k s => by simp only [runTr, bind_assoc, pure_bind]⟩

theorem runBlockTr_isRun {n : Nat} {σ : Type} [BlockBackend n σ] (tgt : Target) : IsRun (bs := n) (σ := σ) (fun _ p s => runBlockTr n tgt p s) where
  done _ _ _ := rfl
  block := ⟨fun s => do
    let (_, s, b) ← BlockBackend.gen_ks_block_tr n tgt s (List.replicate n 0)
    let v ← array n b
    pure (v, s), fun _ k s => by simp only [runBlockTr, bind_assoc, pure_bind]⟩
  par := ⟨fun s => do
    Tr.loop 1
    let (_, s, l) ← genEach_tr (BlockBackend.gen_ks_block_tr n tgt) s [List.replicate n 0]
    let v ← arrays n l
    pure (v, s), fun _ k s => by simp only [runBlockTr, bind_assoc, pure_bind]⟩
  tail := ⟨fun m s => do
    let (_, s, l) ← providedTail_tr 1 (BlockBackend.gen_ks_block_tr n tgt) s (List.replicate m (List.replicate n 0))
    let v ← arrays n l
    pure (v, s), fun _ n k s => by simp only [runBlockTr, bind_assoc, pure_bind]⟩

/-! ### Text that calls client code once -/

/-- Text that has called client code, and only returns what it left. -/
inductive Returns {σ : Type} : ((α : Type) → Callee α → Tr (Unit × σ × Callee α)) → Prop
  | ret (s : σ) : Returns fun _ f => pure ((), s, f)
  | bind {A : Type} (m : Tr A) (k : A → (α : Type) → Callee α → Tr (Unit × σ × Callee α)) (h : ∀ a, Returns (k a)) : Returns fun α f => m >>= fun a => k a α f
  | ite (c : Prop) [Decidable c] (P Q : (α : Type) → Callee α → Tr (Unit × σ × Callee α)) (hp : Returns P) (hq : Returns Q) : Returns fun α f => if c then P α f else Q α f

theorem Returns.eq {σ : Type} {P : (α : Type) → Callee α → Tr (Unit × σ × Callee α)} (h : Returns P) : ∃ p : Tr σ, ∀ α f, P α f = p >>= fun s => pure ((), s, f) := by
  induction h with
  | ret s => exact ⟨pure s, fun _ _ => (pure_bind _ _).symm⟩
  | bind m k _ ih =>
    choose p hp using ih
    exact ⟨m >>= p, fun α f => by rw [bind_assoc]; exact congrArg _ (funext fun a => hp a α f)⟩
  | ite c P Q _ _ ihp ihq =>
    obtain ⟨p, hp⟩ := ihp
    obtain ⟨q, hq⟩ := ihq
    by_cases hc : c
    · exact ⟨p, fun α f => by dsimp only; rw [if_pos hc, hp]⟩
    · exact ⟨q, fun α f => by dsimp only; rw [if_neg hc, hq]⟩

/-- Text that calls client code once, with a backend of type `τ`, and returns what it left. -/
inductive Calls (tgt : Target) (τ : Type) [StreamCipherBackend τ] : {σ : Type} → ((α : Type) → Callee α → Tr (Unit × σ × Callee α)) → Prop
  | call {σ : Type} (b : τ) (Q : (α : Type) → Unit × Callee α × τ → Tr (Unit × σ × Callee α)) (h : ∀ b', Returns fun α f => Q α ((), f, b')) :
      Calls tgt τ fun α f => StreamCipherClosure.call_tr tgt f b >>= fun r => Q α r
  | pre {σ A : Type} (m : Tr A) (P : A → (α : Type) → Callee α → Tr (Unit × σ × Callee α)) (h : ∀ a, Calls tgt τ (P a)) : Calls tgt τ fun α f => m >>= fun a => P a α f
  | ite {σ : Type} (c : Prop) [Decidable c] (P Q : (α : Type) → Callee α → Tr (Unit × σ × Callee α)) (hp : Calls tgt τ P) (hq : Calls tgt τ Q) :
      Calls tgt τ fun α f => if c then P α f else Q α f
  | post {σ σ' : Type} (P : (α : Type) → Callee α → Tr (Unit × σ × Callee α)) (hp : Calls tgt τ P) (Q : (α : Type) → Unit × σ × Callee α → Tr (Unit × σ' × Callee α))
      (hq : ∀ s, Returns fun α f => Q α ((), s, f)) : Calls tgt τ fun α f => P α f >>= fun r => Q α r

theorem call_follow {τ α : Type} [StreamCipherBackend τ] {tgt : Target} {g : Closure 64 α} {b t : τ} {a : α} {l : List Req}
    (h : (StreamCipherClosure.call_tr tgt (Callee.ready fun n => (g n).logged) b).1 = .ok ((), .done (a, l), t)) :
    ∃ u, StreamCipherClosure.call_tr tgt (Callee.ready fun n => (g n).logged) b = (.ok ((), .done (a, l), t), u) ∧
      StreamCipherClosure.call_tr tgt (Callee.ready g) b = (.ok ((), .done a, t), u) ∧
      StreamCipherClosure.call_tr tgt (Callee.ready fun _ => Prog.ofReqs l) b = (.ok ((), .done (), t), u) := by
  obtain ⟨⟨⟨a', l'⟩, t'⟩, h1, h2⟩ := Tr.bind_ok h
  have h3 : ((), Callee.done (a', l'), t') = ((), Callee.done (a, l), t) := Except.ok.inj h2
  obtain ⟨-, h4, h5⟩ := Prod.mk.inj h3 |>.imp id Prod.mk.inj
  cases h4
  cases h5
  obtain ⟨u, e1, e2, e3⟩ := (runTr_isRun tgt).follow (g (StreamCipherBackend.parSize τ)) b (congrArg Prod.fst h1)
  exact ⟨u ++ [], Tr.bind_eq e1 rfl, Tr.bind_eq e2 rfl, Tr.bind_eq e3 rfl⟩

theorem Calls.follow {tgt : Target} {τ : Type} [StreamCipherBackend τ] {σ : Type} {P : (α : Type) → Callee α → Tr (Unit × σ × Callee α)} (hP : Calls tgt τ P)
    {α : Type} {g : Closure 64 α} {t : σ} {a : α} {l : List Req} (h : (P _ (.ready fun n => (g n).logged)).1 = .ok ((), t, .done (a, l))) :
    ∃ u, P _ (.ready fun n => (g n).logged) = (.ok ((), t, .done (a, l)), u) ∧ P _ (.ready g) = (.ok ((), t, .done a), u) ∧
      P _ (.ready fun _ => Prog.ofReqs l) = (.ok ((), t, .done ()), u) := by
  induction hP with
  | call b Q hQ =>
    choose p hp using fun b' => (hQ b').eq
    obtain ⟨⟨y, f, b'⟩, h1, h2⟩ := Tr.bind_ok h
    rw [hp] at h2
    obtain ⟨s, h3, h4⟩ := Tr.bind_ok h2
    have h5 : ((), s, f) = ((), t, Callee.done (a, l)) := Except.ok.inj h4
    cases h5
    obtain ⟨u, e1, e2, e3⟩ := call_follow (congrArg Prod.fst h1)
    refine ⟨u ++ ((p b').2 ++ []), Tr.bind_eq e1 ?_, Tr.bind_eq e2 ?_, Tr.bind_eq e3 ?_⟩ <;> rw [hp] <;> exact Tr.bind_eq h3 rfl
  | pre m P _ ih =>
    obtain ⟨b, h1, h2⟩ := Tr.bind_ok h
    obtain ⟨u, e1, e2, e3⟩ := ih b h2
    exact ⟨_, Tr.bind_eq h1 e1, Tr.bind_eq h1 e2, Tr.bind_eq h1 e3⟩
  | ite c P Q _ _ ihp ihq =>
    by_cases hc : c
    · simp only [if_pos hc] at h ⊢
      exact ihp h
    · simp only [if_neg hc] at h ⊢
      exact ihq h
  | post P hP Q hQ ih =>
    choose p hp using fun s => (hQ s).eq
    obtain ⟨⟨y, s, f⟩, h1, h2⟩ := Tr.bind_ok h
    rw [hp] at h2
    obtain ⟨t', h3, h4⟩ := Tr.bind_ok h2
    have h5 : ((), t', f) = ((), t, Callee.done (a, l)) := Except.ok.inj h4
    cases h5
    obtain ⟨u, e1, e2, e3⟩ := ih (congrArg Prod.fst h1)
    refine ⟨u ++ ((p s).2 ++ []), Tr.bind_eq e1 ?_, Tr.bind_eq e2 ?_, Tr.bind_eq e3 ?_⟩ <;> rw [hp] <;> exact Tr.bind_eq h3 rfl

/-- What client code left, or will leave, as something else. -/
def Callee.map {α β : Type} (f : α → β) : Callee α → Callee β
  | .ready c => .ready fun n => (c n).map f
  | .done a => .done (f a)

theorem call_map {τ α β : Type} [StreamCipherBackend τ] {tgt : Target} (f : α → β) (g : Callee α) (b : τ) :
    StreamCipherClosure.call_tr tgt (g.map f) b = StreamCipherClosure.call_tr tgt g b >>= fun r => pure (r.1, r.2.1.map f, r.2.2) := by
  cases g with
  | done a => rfl
  | ready g =>
    show (runTr tgt ((g (StreamCipherBackend.parSize τ)).map f) b >>= fun r => pure ((), Callee.done r.1, r.2)) =
      (runTr tgt (g (StreamCipherBackend.parSize τ)) b >>= fun r => pure ((), Callee.done r.1, r.2)) >>= fun r => pure (r.1, r.2.1.map f, r.2.2)
    rw [show runTr tgt ((g (StreamCipherBackend.parSize τ)).map f) b = _ from (runTr_isRun tgt).map f _ b]
    simp only [bind_assoc, pure_bind]
    rfl

theorem Calls.map {tgt : Target} {τ : Type} [StreamCipherBackend τ] {σ : Type} {P : (α : Type) → Callee α → Tr (Unit × σ × Callee α)} (hP : Calls tgt τ P)
    {α β : Type} (f : α → β) (g : Callee α) : P _ (g.map f) = P _ g >>= fun r => pure (r.1, r.2.1, r.2.2.map f) := by
  induction hP with
  | call b Q hQ =>
    choose p hp using fun b' => (hQ b').eq
    dsimp only
    have hp' : ∀ α (r : Unit × Callee α × τ), Q α r = p r.2.2 >>= fun s => pure ((), s, r.2.1) := fun α r => hp r.2.2 α r.2.1
    simp only [call_map, hp', bind_assoc, pure_bind]
  | pre m P _ ih =>
    dsimp only
    rw [bind_assoc]
    exact congrArg _ (funext fun a => ih a)
  | ite c P Q _ _ ihp ihq =>
    by_cases hc : c
    · simp only [if_pos hc]
      exact ihp
    · simp only [if_neg hc]
      exact ihq
  | post P hP Q hQ ih =>
    choose p hp using fun s => (hQ s).eq
    dsimp only
    have hp' : ∀ α r, Q α r = p r.2.1 >>= fun s => pure ((), s, r.2.2) := fun α r => hp r.2.1 α r.2.2
    simp only [ih, hp', bind_assoc, pure_bind]

/-- On a core, client code that returns is seen as the requests it made are; and what is made of its result is not seen. -/
structure SeenCore.Follows {bs : Nat} {χ : Type} (C : SeenCore bs χ) : Prop where
  map : ∀ (x : χ) {α β : Type} (f : α → β) (g : Closure bs α) (s : C.σ), C.process x (fun n => (g n).map f) s = C.process x g s >>= fun r => pure (f r.1, r.2)
  follow : ∀ (x : χ) {α : Type} (g : Closure bs α) (s : C.σ) {a : α} {l : List Req} {t : C.σ}, (C.process x (fun n => (g n).logged) s).1 = .ok ((a, l), t) →
    ∃ u, C.process x g s = (.ok (a, t), u) ∧ C.process x (fun _ => Prog.ofReqs l) s = (.ok ((), t), u)

theorem Calls.process {tgt : Target} {τ : Type} [StreamCipherBackend τ] {σ : Type} {P : (α : Type) → Callee α → Tr (Unit × σ × Callee α)} (hP : Calls tgt τ P)
    {α : Type} (g : Closure 64 α) {t : σ} {a : α} {l : List Req} (h : (P _ (.ready fun n => (g n).logged) >>= returned).1 = .ok ((a, l), t)) :
    ∃ u, (P _ (.ready g) >>= returned) = (.ok (a, t), u) ∧ (P _ (.ready fun _ => Prog.ofReqs l) >>= returned) = (.ok ((), t), u) := by
  obtain ⟨⟨y, s, f⟩, h1, h2⟩ := Tr.bind_ok h
  cases f with
  | ready f => exact nomatch h2
  | done r =>
    have h3 : (r, s) = ((a, l), t) := Except.ok.inj h2
    cases h3
    obtain ⟨u, -, e2, e3⟩ := hP.follow (congrArg Prod.fst h1)
    exact ⟨_, Tr.bind_eq e2 rfl, Tr.bind_eq e3 rfl⟩

theorem Calls.mapped {tgt : Target} {τ : Type} [StreamCipherBackend τ] {σ : Type} {P : (α : Type) → Callee α → Tr (Unit × σ × Callee α)} (hP : Calls tgt τ P)
    {α β : Type} (f : α → β) (g : Closure 64 α) :
    (P _ (.ready fun n => (g n).map f) >>= returned) = (P _ (.ready g) >>= returned) >>= fun r => pure (f r.1, r.2) := by
  rw [show P _ (.ready fun n => (g n).map f) = _ from hP.map f (.ready g)]
  simp only [bind_assoc, pure_bind]
  refine congrArg _ (funext fun r => ?_)
  obtain ⟨_, s, c⟩ := r
  cases c with
  | ready c => rfl
  | done a => exact (pure_bind _ _).symm

/-- Of the rest of the text: it only returns what client code left. -/
macro "rets" : tactic => `(tactic| repeat' first | with_reducible exact Returns.ret _ | with_reducible refine Returns.ite _ _ _ ?_ ?_ | (with_reducible refine Returns.bind _ _ fun _ => ?_) | dsimp only)

/-- Of text that calls client code: it does so once. -/
macro "calls" : tactic => `(tactic| repeat' first
  | (with_reducible refine Calls.call _ _ fun _ => ?_; rets; done)
  | with_reducible refine Calls.ite _ _ _ ?_ ?_
  | (with_reducible refine Calls.pre _ _ fun _ => ?_)
  | dsimp only)

namespace ChaCha
variable {tgt : Target} {R V : Type} [Rounds R] [Variant V]

theorem sse2.inner_calls (x : List U32) : Calls tgt (sse2.Backend R V) fun _ f => sse2.inner_tr (R := R) (V := V) tgt x f := by
  unfold sse2.inner_tr
  simp only [pure_bind]
  calls

theorem avx2.inner_calls (x : List U32) : Calls tgt (avx2.Backend R V) fun _ f => avx2.inner_tr (R := R) (V := V) tgt x f := by
  unfold avx2.inner_tr
  simp only [pure_bind]
  calls

theorem avx512.inner_calls (x : List U32) : Calls tgt (avx512.Backend R V) fun _ f => avx512.inner_tr (R := R) (V := V) tgt x f := by
  unfold avx512.inner_tr
  simp only [pure_bind]
  calls

theorem neon.inner_calls (x : List U32) : Calls tgt (neon.Backend R V) fun _ f => neon.inner_tr (R := R) (V := V) tgt x f := by
  unfold neon.inner_tr
  simp only [pure_bind]
  calls

theorem processTr_calls (b : Verif.ChaCha.Config.Build) (d : Verif.ChaCha.Config.Detected) (c : ChaChaCore R V) :
    ∃ (τ : Type) (_ : StreamCipherBackend τ), Calls tgt τ fun _ f => processTr b d tgt c f := by
  have e : (fun (α : Type) (f : Callee α) => processTr b d tgt c f) =
      fun _ f => (show Tr Unit from (.ok (), asked b d)) >>= fun _ => armTr (tgt := tgt) (Verif.ChaCha.Config.select b d) c f :=
    funext fun _ => funext fun f => processTr_eq b d tgt c f
  rw [e]
  cases Verif.ChaCha.Config.select b d with
  | soft => exact ⟨Backend R V, inferInstance, .pre _ _ fun _ => .call _ _ fun _ => by rets⟩
  | sse2 => exact ⟨sse2.Backend R V, inferInstance, .pre _ _ fun _ => .post _ (sse2.inner_calls c.state) _ fun _ => by rets⟩
  | avx2 => exact ⟨avx2.Backend R V, inferInstance, .pre _ _ fun _ => .post _ (avx2.inner_calls c.state) _ fun _ => by rets⟩
  | avx512 => exact ⟨avx512.Backend R V, inferInstance, .pre _ _ fun _ => .post _ (avx512.inner_calls c.state) _ fun _ => by rets⟩
  | neon => exact ⟨neon.Backend R V, inferInstance, .pre _ _ fun _ => .post _ (neon.inner_calls c.state) _ fun _ => by rets⟩

theorem follows : (seenCore R V tgt).Follows where
  map x _ _ f g c := by
    obtain ⟨_, _, h⟩ := processTr_calls (tgt := tgt) x.build x.detected c
    exact h.mapped f g
  follow x _ g c _ _ _ h1 := by
    obtain ⟨_, _, h⟩ := processTr_calls (tgt := tgt) x.build x.detected c
    exact h.process g h1

theorem processX_calls (b : Verif.ChaCha.Config.Build) (d : Verif.ChaCha.Config.Detected) (c : XChaChaCore R) : ∃ (τ : Type) (_ : StreamCipherBackend τ), Calls tgt τ fun _ f =>
    letI : Dispatcher := ⟨Process.dispatch b d, processTr b d⟩
    XChaChaCore.process_with_backend_tr tgt c f := by
  obtain ⟨τ, i, h⟩ := processTr_calls (tgt := tgt) b d c.f0
  exact ⟨τ, i, .post _ h (fun _ r => pure ((), (⟨r.2.1⟩ : XChaChaCore R), r.2.2)) fun _ => by rets⟩

theorem follows_x : (seenCoreX R tgt).Follows where
  map x _ _ f g c := by
    obtain ⟨_, _, h⟩ := processX_calls (tgt := tgt) x.build x.detected c
    exact h.mapped f g
  follow x _ g c _ _ _ h1 := by
    obtain ⟨_, _, h⟩ := processX_calls (tgt := tgt) x.build x.detected c
    exact h.process g h1

end ChaCha

namespace Salsa
variable {tgt : Target} {R : Type} [Unsigned R]

theorem process_calls (s : SalsaCore R) : Calls tgt (Backend R) fun _ f => SalsaCore.process_with_backend_tr tgt s f := by
  unfold SalsaCore.process_with_backend_tr
  simp only [pure_bind]
  calls

theorem processX_calls (s : XSalsaCore R) : Calls tgt (Backend R) fun _ f => XSalsaCore.process_with_backend_tr tgt s f := by
  unfold XSalsaCore.process_with_backend_tr
  simp only [pure_bind]
  exact .post _ (process_calls _) _ fun _ => by rets

theorem follows : (seenCore R tgt).Follows where
  map _ _ _ f g s := (process_calls s).mapped f g
  follow _ _ g s _ _ _ h := (process_calls s).process g h

theorem follows_x : (seenCoreX R tgt).Follows where
  map _ _ _ f g s := (processX_calls s).mapped f g
  follow _ _ g s _ _ _ h := (processX_calls s).process g h

end Salsa

theorem SeekText.follows (tgt : Target) (c : SeekText) : (c.seen tgt).Follows := by
  cases c with
  | chacha R key nonce => exact ChaCha.follows
  | chachaLegacy key nonce => exact ChaCha.follows
  | xchacha R key nonce => exact ChaCha.follows_x
  | salsa R key nonce => exact Salsa.follows
  | xsalsa R key nonce => exact Salsa.follows_x

/-! ### Rabbit and HC-256 -/

theorem blockCall_mapped {n : Nat} {σ τ α β : Type} [BlockBackend n τ] (tgt : Target) (b : τ) (ret : τ → σ) (f : α → β) (g : Closure n α) :
    ((BlockClosure.call_tr (n := n) tgt (BlockCallee.ready fun m => (g m).map f) b >>= fun r => pure ((), ret r.2.2, r.2.1)) >>= blockReturned) =
      ((BlockClosure.call_tr (n := n) tgt (BlockCallee.ready g) b >>= fun r => pure ((), ret r.2.2, r.2.1)) >>= blockReturned) >>= fun r => pure (f r.1, r.2) := by
  show ((runBlockTr n tgt ((g 1).map f) b >>= fun r => pure ((), BlockCallee.done r.1, r.2)) >>= _) >>= _ =
    (((runBlockTr n tgt (g 1) b >>= fun r => pure ((), BlockCallee.done r.1, r.2)) >>= _) >>= _) >>= _
  rw [show runBlockTr n tgt ((g 1).map f) b = _ from (runBlockTr_isRun tgt).map f _ b]
  simp only [bind_assoc, pure_bind, blockReturned]

theorem blockCall_follow {n : Nat} {σ τ α : Type} [BlockBackend n τ] (tgt : Target) (b : τ) (ret : τ → σ) (g : Closure n α) {a : α} {l : List Req} {t : σ}
    (h : ((BlockClosure.call_tr (n := n) tgt (BlockCallee.ready fun m => (g m).logged) b >>= fun r => pure ((), ret r.2.2, r.2.1)) >>= blockReturned).1 = .ok ((a, l), t)) :
    ∃ u, ((BlockClosure.call_tr (n := n) tgt (BlockCallee.ready g) b >>= fun r => pure ((), ret r.2.2, r.2.1)) >>= blockReturned) = (.ok (a, t), u) ∧
      ((BlockClosure.call_tr (n := n) tgt (BlockCallee.ready (n := n) fun _ => Prog.ofReqs l) b >>= fun r => pure ((), ret r.2.2, r.2.1)) >>= blockReturned) = (.ok ((), t), u) := by
  have e : ∀ {γ : Type} (g : Closure n γ), ((BlockClosure.call_tr (n := n) tgt (BlockCallee.ready g) b >>= fun r => pure ((), ret r.2.2, r.2.1)) >>= blockReturned) =
      runBlockTr n tgt (g 1) b >>= fun r => pure (r.1, ret r.2) := fun g => by
    show ((runBlockTr n tgt (g 1) b >>= fun r => pure ((), BlockCallee.done r.1, r.2)) >>= _) >>= _ = _
    simp only [bind_assoc, pure_bind, blockReturned]
  rw [e] at h
  rw [e, e]
  obtain ⟨⟨⟨a', l'⟩, t'⟩, h1, h2⟩ := Tr.bind_ok h
  have h3 : ((a', l'), ret t') = ((a, l), t) := Except.ok.inj h2
  cases h3
  obtain ⟨u, -, e2, e3⟩ := (runBlockTr_isRun tgt).follow (g 1) b (congrArg Prod.fst h1)
  exact ⟨u ++ [], Tr.bind_eq e2 rfl, Tr.bind_eq e3 rfl⟩

theorem Rabbit.follows_keyOnly (tgt : Target) : (Rabbit.seenKeyOnly tgt).Follows where
  map _ _ _ f g s := blockCall_mapped (n := 16) tgt (⟨s.state⟩ : Rabbit.Backend) (fun b => (⟨b.f0⟩ : Rabbit.RabbitKeyOnlyCore)) f g
  follow _ _ g s _ _ _ h := blockCall_follow (n := 16) tgt (⟨s.state⟩ : Rabbit.Backend) (fun b => (⟨b.f0⟩ : Rabbit.RabbitKeyOnlyCore)) g h

theorem Rabbit.follows (tgt : Target) : (Rabbit.seenCore tgt).Follows where
  map _ _ _ f g s := blockCall_mapped (n := 16) tgt (⟨s.state⟩ : Rabbit.Backend) (fun b => (⟨b.f0⟩ : Rabbit.RabbitCore)) f g
  follow _ _ g s _ _ _ h := blockCall_follow (n := 16) tgt (⟨s.state⟩ : Rabbit.Backend) (fun b => (⟨b.f0⟩ : Rabbit.RabbitCore)) g h

theorem Hc256.follows (tgt : Target) : (Hc256.seenCore tgt).Follows where
  map _ _ _ f g s := blockCall_mapped (n := 4) tgt (⟨s⟩ : Hc256.Backend) (fun b => b.f0) f g
  follow _ _ g s _ _ _ h := blockCall_follow (n := 4) tgt (⟨s⟩ : Hc256.Backend) (fun b => b.f0) g h

/-! ### Histories -/

section
variable {bs : Nat} {χ χ' : Type}

theorem _root_.Verif.SeekHom.asks {C : SeekCore bs χ} {C' : SeekCore bs χ'} {e : χ' → χ} {f : C.σ → C'.σ} (H : SeekHom C C' e f) (x : χ') (s : C.σ) (op : ClientOp bs) :
    C'.asks x (f s) op = (C.asks (e x) s op).map (Prod.map id f) := by
  cases op with
  | run g out =>
    simp only [SeekCore.asks, H.process]
    cases C.process (e x) (fun n => (g n).logged) s <;> rfl
  | remaining => rfl
  | getPos => rfl
  | setPos b => simp only [SeekCore.asks, H.setPos]; rfl

theorem _root_.Verif.SeekHom.asked {C : SeekCore bs χ} {C' : SeekCore bs χ'} {e : χ' → χ} {f : C.σ → C'.σ} (H : SeekHom C C' e f) (h : List (χ' × ClientOp bs)) (s : C.σ) :
    C'.asked h (f s) = C.asked (h.map fun c => (e c.1, c.2)) s := by
  induction h generalizing s with
  | nil => rfl
  | cons c h ih =>
    obtain ⟨x, op⟩ := c
    simp only [SeekCore.asked, List.map_cons, H.asks]
    cases C.asks (e x) s op with
    | error p => rfl
    | ok r =>
      show (C'.asked h (f r.2) >>= _) = (C.asked _ r.2 >>= _)
      rw [ih]
      rfl

/-- Two calls that are seen alike. -/
inductive Likewise {σ : Type} (t : σ) (m m' : Tr (CoreObs × σ)) : Prop
  | mk (o o' : CoreObs) (u : List Event) (h : m = (.ok (o, t), u)) (h' : m' = (.ok (o', t), u)) (ho : SameAnswer o o')

variable {M : SeekCore bs χ'} {C : SeenCore bs χ} {e : χ → χ'} {f : M.σ → C.σ} (H : Faithful M C e f) (F : C.Follows)
include H F

theorem Faithful.asks_ok (x : χ) (s : M.σ) (op : ClientOp bs) {q : Asked} {t : M.σ} (h : M.asks (e x) s op = .ok (q, t)) :
    Likewise (f t) (C.client x (f s) op) (C.client x (f s) q.client) := by
  cases op with
  | run g out =>
    have h1 := H.process x (fun n => (g n).logged) s
    rw [SeekCore.asks] at h
    cases h2 : M.process (e x) (fun n => (g n).logged) s with
    | error p => rw [h2] at h; exact nomatch h
    | ok r =>
      obtain ⟨⟨a, l⟩, t'⟩ := r
      rw [h2] at h h1
      cases h
      obtain ⟨u, e1, e2⟩ := F.follow x g (f s) h1
      exact ⟨.blocks (out a), .blocks [], u ++ [], Tr.bind_eq e1 rfl, Tr.bind_eq e2 rfl, trivial⟩
  | remaining =>
    cases h
    exact ⟨_, _, _, Tr.bind_eq (Prod.ext (H.remaining s) rfl) rfl, Tr.bind_eq (Prod.ext (H.remaining s) rfl) rfl, rfl⟩
  | getPos =>
    cases h
    exact ⟨_, _, _, Tr.bind_eq (Prod.ext (H.getPos s) rfl) rfl, Tr.bind_eq (Prod.ext (H.getPos s) rfl) rfl, rfl⟩
  | setPos b =>
    cases h
    exact ⟨_, _, _, Tr.bind_eq (Prod.ext (H.setPos s b) rfl) rfl, Tr.bind_eq (Prod.ext (H.setPos s b) rfl) rfl, rfl⟩

theorem Faithful.asks_error (x : χ) (s : M.σ) (op : ClientOp bs) {p : Panic} (h : M.asks (e x) s op = .error p) : (C.client x (f s) op).1 = .error p := by
  cases op with
  | run g out =>
    have h1 := H.process x (fun n => (g n).logged) s
    rw [SeekCore.asks] at h
    cases h2 : M.process (e x) (fun n => (g n).logged) s with
    | ok r => rw [h2] at h; exact nomatch h
    | error p' =>
      rw [h2] at h h1
      cases h
      have h3 := F.map x Prod.fst (fun n => (g n).logged) (f s)
      simp only [Prog.map_logged] at h3
      rw [SeenCore.client, show C.process x g (f s) = _ from h3, Tr.bind_fst, Tr.bind_fst, h1]
      rfl
  | remaining => exact nomatch h
  | getPos => exact nomatch h
  | setPos b => exact nomatch h

theorem Faithful.asked_ok (h : List (χ × ClientOp bs)) (s : M.σ) {l : List Asked} (ha : M.asked (h.map fun c => (e c.1, c.2)) s = .ok l) :
    ∃ os os' t u, C.clients h (f s) = (.ok (os, t), u) ∧ C.clients (askedIn h l) (f s) = (.ok (os', t), u) ∧ Each SameAnswer os os' := by
  induction h generalizing s l with
  | nil => cases ha; exact ⟨[], [], f s, [], rfl, rfl, trivial⟩
  | cons c h ih =>
    obtain ⟨x, op⟩ := c
    rw [List.map_cons, SeekCore.asked] at ha
    cases h1 : M.asks (e x) s op with
    | error p => rw [h1] at ha; exact nomatch ha
    | ok r =>
      rw [h1] at ha
      replace ha : (M.asked (h.map fun c => (e c.1, c.2)) r.2 >>= fun qs => pure (r.1 :: qs)) = Except.ok l := ha
      cases h2 : M.asked (h.map fun c => (e c.1, c.2)) r.2 with
      | error p => rw [h2] at ha; exact nomatch ha
      | ok qs =>
        rw [h2] at ha
        cases ha
        obtain ⟨o, o', u, e1, e2, ho⟩ := H.asks_ok F x s op h1
        obtain ⟨os, os', t, v, e3, e4, hos⟩ := ih r.2 h2
        exact ⟨o :: os, o' :: os', t, u ++ (v ++ []), Tr.bind_eq e1 (Tr.bind_eq e3 rfl), Tr.bind_eq e2 (Tr.bind_eq e4 rfl), ho, hos⟩

theorem Faithful.asked_error (h : List (χ × ClientOp bs)) (s : M.σ) {p : Panic} (ha : M.asked (h.map fun c => (e c.1, c.2)) s = .error p) :
    (C.clients h (f s)).1 = .error p := by
  induction h generalizing s with
  | nil => exact nomatch ha
  | cons c h ih =>
    obtain ⟨x, op⟩ := c
    rw [List.map_cons, SeekCore.asked] at ha
    cases h1 : M.asks (e x) s op with
    | error p' =>
      rw [h1] at ha
      cases ha
      rw [SeenCore.clients, Tr.bind_fst, H.asks_error F x s op h1]
      rfl
    | ok r =>
      rw [h1] at ha
      replace ha : (M.asked (h.map fun c => (e c.1, c.2)) r.2 >>= fun qs => pure (r.1 :: qs)) = Except.error p := ha
      cases h2 : M.asked (h.map fun c => (e c.1, c.2)) r.2 with
      | ok qs => rw [h2] at ha; exact nomatch ha
      | error p' =>
        rw [h2] at ha
        cases ha
        obtain ⟨o, o', u, e1, e2, ho⟩ := H.asks_ok F x s op h1
        rw [SeenCore.clients, e1]
        show ((C.clients h (f r.2)) >>= _ : Tr _).1 = _
        rw [Tr.bind_fst, ih r.2 h2]
        rfl

/-- A life that returns is seen as a life of its requests is. -/
theorem Faithful.clientLife_asked {m : Tr C.σ} {s : M.σ} (hm : m.1 = .ok (f s)) (h : List (χ × ClientOp bs)) {l : List Asked}
    (ha : M.asked (h.map fun c => (e c.1, c.2)) s = .ok l) :
    ∃ os os' u, C.clientLife m h = (.ok os, u) ∧ C.clientLife m (askedIn h l) = (.ok os', u) ∧ Each SameAnswer os os' := by
  obtain ⟨os, os', t, u, e1, e2, ho⟩ := H.asked_ok F h s ha
  exact ⟨os, os', m.2 ++ (u ++ []), Tr.bind_eq (Prod.ext hm rfl) (Tr.bind_eq e1 rfl), Tr.bind_eq (Prod.ext hm rfl) (Tr.bind_eq e2 rfl), ho⟩

theorem Faithful.clientLife_panics {m : Tr C.σ} {s : M.σ} (hm : m.1 = .ok (f s)) (h : List (χ × ClientOp bs)) {p : Panic}
    (ha : M.asked (h.map fun c => (e c.1, c.2)) s = .error p) : (C.clientLife m h).1 = .error p := by
  rw [SeenCore.clientLife, Tr.bind_fst, hm, okBind, Tr.bind_fst, H.asked_error F h s ha]
  rfl

end

end Rust
end Verif
