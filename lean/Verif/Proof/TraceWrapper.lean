import Verif.Rust.WrapperTrace
import Verif.Proof.TraceClosure
import Verif.Proof.CoreHom
/-!
# What is seen of the wrapper

If nothing secret is seen of a core, nothing secret is seen of the wrapper around it.
-/
namespace Verif

namespace Prog.Alike
variable {bs : Nat} {α β : Type}

theorem map {p p' : Prog bs α} (h : p.Alike p') (g g' : α → β) : (p.map g).Alike (p'.map g') := by
  induction h with
  | done a b => exact .done _ _
  | block _ ih => exact .block ih
  | par _ ih => exact .par ih
  | tail n _ ih => exact .tail n ih

end Prog.Alike

theorem alike_singles {bs : Nat} {l l' : List (List U8)} (h : l.length = l'.length) : (applySingles (bs := bs) l).Alike (applySingles l') := by
  induction l generalizing l' with
  | nil =>
    cases l' with
    | nil => exact .done _ _
    | cons => cases h
  | cons d l ih =>
    cases l' with
    | nil => cases h
    | cons d' l' => exact .block fun b b' => (ih (Nat.succ.inj h)).map _ _

theorem alike_chunks {bs : Nat} (par m : Nat) {l l' : List (List U8)} (h : l.length = l'.length) :
    (applyChunks (bs := bs) par m l).Alike (applyChunks par m l') := by
  induction m generalizing l l' with
  | zero =>
    rw [applyChunks, applyChunks, h]
    exact .tail _ fun _ _ => .done _ _
  | succ m ih => exact .par fun b b' => (ih (by simp [h])).map _ _

theorem alike_apply {bs : Nat} {l l' : List (List U8)} (h : l.length = l'.length) (par : Nat) :
    (applyBlocksClosure (bs := bs) l par).Alike (applyBlocksClosure l' par) := by
  rw [applyBlocksClosure, applyBlocksClosure, h]
  split
  · exact alike_chunks _ _ h
  · exact alike_singles h

theorem alike_block (bs par : Nat) : (writeBlockClosure bs par).Alike (writeBlockClosure bs par) := .block fun _ _ => .done _ _

theorem alike_writeSingles (bs n : Nat) : (writeSingles (bs := bs) n).Alike (writeSingles n) := by
  induction n with
  | zero => exact .done _ _
  | succ n ih => exact .block fun _ _ => ih.map _ _

theorem alike_writeChunks (bs par m len : Nat) : (writeChunks (bs := bs) par m len).Alike (writeChunks par m len) := by
  induction m generalizing len with
  | zero => exact .tail _ fun _ _ => .done _ _
  | succ m ih => exact .par fun _ _ => (ih _).map _ _

theorem alike_write (bs len par : Nat) : (writeBlocksClosure (bs := bs) len par).Alike (writeBlocksClosure len par) := by
  rw [writeBlocksClosure]
  split
  · exact alike_writeChunks _ _ _ _
  · exact alike_writeSingles _ _

namespace Rust

variable {bs : Nat} {χ χ' : Type}

/-- `C` on states `f s` is `M` on states `s`, with a record. -/
structure Faithful (M : SeekCore bs χ') (C : SeenCore bs χ) (e : χ → χ') (f : M.σ → C.σ) : Prop where
  process : ∀ {α : Type} (x : χ) (g : Closure bs α) (s : M.σ), (C.process x g (f s)).1 = (M.process (e x) g s).map (Prod.map id f)
  remaining : ∀ s : M.σ, (C.remaining (f s)).1 = .ok (M.remaining s)
  ctrBits : C.ctrBits = M.ctrBits
  getPos : ∀ s : M.σ, (C.getPos (f s)).1 = .ok (M.getPos s)
  setPos : ∀ (s : M.σ) (n : Nat), (C.setPos (f s) n).1 = .ok (f (M.setPos s n))

section
variable {M : SeekCore bs χ'} {C : SeenCore bs χ} {e : χ → χ'} {f : M.σ → C.σ} (H : Faithful M C e f)
include H

theorem Faithful.check (w : Wrapper bs M.σ) (n : Nat) : (C.checkRemaining (w.mapCore f) n).1 = .ok (w.checkRemaining M.toCore n) := by
  simp only [SeenCore.checkRemaining, Wrapper.checkRemaining, Wrapper.mapCore, erase, H.remaining]
  generalize M.remaining w.core = r
  cases r with
  | none => rfl
  | some r =>
    simp only [erase]
    by_cases h1 : n < bs - w.pos
    · simp only [h1, decide_true, ↓reduceIte]
    · by_cases h2 : (n - (bs - w.pos) + bs - 1) / bs > r <;> simp only [h1, h2, decide_true, decide_false, Bool.false_eq_true, ↓reduceIte]

theorem Faithful.uncheckedApply (x : χ) (w : Wrapper bs M.σ) (data : List U8) :
    (C.uncheckedApply x (w.mapCore f) data).1 = (w.uncheckedApply M.toCore (e x) data).map (Prod.map id (Wrapper.mapCore f)) := by
  simp only [SeenCore.uncheckedApply, Wrapper.uncheckedApply, Wrapper.mapCore, erase, H.process]
  cases M.process (e x) (applyBlocksClosure (chunksOf bs ((data.drop (min (bs - w.pos) data.length)).length / bs)
    (data.drop (min (bs - w.pos) data.length)))) w.core with
  | error p => rfl
  | ok r =>
    simp only [Except.map, bind, Except.bind, Prod.map, id]
    by_cases h : ((data.drop (min (bs - w.pos) data.length)).drop ((data.drop (min (bs - w.pos) data.length)).length / bs * bs)).length = 0
    · simp only [h, decide_true, ↓reduceIte]; rfl
    · simp only [h, decide_false, Bool.false_eq_true, ↓reduceIte, H.process]
      cases M.process (e x) (writeBlockClosure bs) r.2 <;> rfl

theorem Faithful.uncheckedWrite (x : χ) (w : Wrapper bs M.σ) (len : Nat) :
    (C.uncheckedWrite x (w.mapCore f) len).1 = (w.uncheckedWrite M.toCore (e x) len).map (Prod.map id (Wrapper.mapCore f)) := by
  simp only [SeenCore.uncheckedWrite, Wrapper.uncheckedWrite, Wrapper.mapCore, erase, H.process]
  cases M.process (e x) (writeBlocksClosure ((len - min (bs - w.pos) len) / bs)) w.core with
  | error p => rfl
  | ok r =>
    simp only [Except.map, bind, Except.bind, Prod.map, id]
    by_cases h : len - min (bs - w.pos) len - (len - min (bs - w.pos) len) / bs * bs = 0
    · simp only [h, decide_true, ↓reduceIte]; rfl
    · simp only [h, decide_false, Bool.false_eq_true, ↓reduceIte, H.process]
      cases M.process (e x) (writeBlockClosure bs) r.2 <;> rfl

theorem Faithful.seek (x : χ) (w : Wrapper bs M.σ) (q : Nat) :
    (C.trySeek x (w.mapCore f) q).1 = (w.trySeek M (e x) q).map (Prod.map id (Wrapper.mapCore f)) := by
  simp only [SeenCore.trySeek, Wrapper.trySeek, erase, H.ctrBits]
  by_cases h : q / bs ≥ 2 ^ M.ctrBits
  · simp only [h, decide_true, ↓reduceIte]; rfl
  · simp only [Wrapper.mapCore, H.setPos, erase, h, decide_false, Bool.false_eq_true, ↓reduceIte]
    by_cases h : q % bs = 0
    · simp only [h, decide_true, ↓reduceIte]; rfl
    · simp only [h, decide_false, Bool.false_eq_true, ↓reduceIte, H.process]
      cases M.process (e x) (writeBlockClosure bs) (M.setPos w.core (q / bs)) <;> rfl

theorem Faithful.pos (w : Wrapper bs M.σ) (n : Nat) : (C.tryCurrentPos (w.mapCore f) n).1 = .ok (w.tryCurrentPos M n) := by
  simp only [SeenCore.tryCurrentPos, Wrapper.tryCurrentPos, Wrapper.mapCore, H.getPos, erase]
  by_cases h1 : M.getPos w.core > n <;> by_cases h2 : M.getPos w.core * bs > n <;> by_cases h3 : M.getPos w.core * bs < bs - w.pos <;>
    simp only [h1, h2, h3, decide_true, decide_false, Bool.false_eq_true, ↓reduceIte]

theorem Faithful.seekStep (x : χ) (w : Wrapper bs M.σ) (op : SeekOp) :
    (C.seekStep x (w.mapCore f) op).1 = (Wrapper.seekStep M (e x) w op).map (Prod.map id (Wrapper.mapCore f)) := by
  cases op with
  | io op =>
    cases op with
    | apply data =>
      simp only [SeenCore.seekStep, SeenCore.tryApply, Wrapper.seekStep, Wrapper.step, Wrapper.tryApply, erase, H.check]
      cases w.checkRemaining M.toCore data.length with
      | error p => rfl
      | ok u =>
        simp only [erase, H.uncheckedApply]
        cases w.uncheckedApply M.toCore (e x) data <;> rfl
    | write buf =>
      simp only [SeenCore.seekStep, SeenCore.tryWrite, Wrapper.seekStep, Wrapper.step, Wrapper.tryWrite, erase, H.check]
      cases w.checkRemaining M.toCore buf.length with
      | error p => rfl
      | ok u =>
        simp only [erase, H.uncheckedWrite]
        cases w.uncheckedWrite M.toCore (e x) buf.length <;> rfl
  | seek q =>
    simp only [SeenCore.seekStep, Wrapper.seekStep, erase, H.seek]
    cases w.trySeek M (e x) q <;> rfl
  | pos n =>
    simp only [SeenCore.seekStep, Wrapper.seekStep, erase, H.pos]
    rfl

/-- A history, without the record. -/
theorem Faithful.run (h : List (χ × SeekOp)) (w : Wrapper bs M.σ) :
    (C.run h (w.mapCore f)).1 = (runHistory (fun x w op => Wrapper.seekStep M x w op) (h.map fun c => (e c.1, c.2)) w).map (Prod.map id (Wrapper.mapCore f)) := by
  induction h generalizing w with
  | nil => rfl
  | cons c h ih =>
    obtain ⟨x, op⟩ := c
    simp only [SeenCore.run, List.map_cons, runHistory, erase, H.seekStep]
    cases Wrapper.seekStep M (e x) w op with
    | error p => rfl
    | ok r =>
      simp only [Except.map, okBind, Prod.map, ih]
      cases runHistory (fun x w op => Wrapper.seekStep M x w op) (h.map fun c => (e c.1, c.2)) r.2 <;> rfl

end

/-- The same call, up to the data. -/
inductive SameOp : SeekOp → SeekOp → Prop
  | apply (data data' : List U8) (h : data.length = data'.length) : SameOp (.io (.apply data)) (.io (.apply data'))
  | write (buf buf' : List U8) (h : buf.length = buf'.length) : SameOp (.io (.write buf)) (.io (.write buf'))
  | seek (q : Nat) : SameOp (.seek q) (.seek q)
  | pos (snMax : Nat) : SameOp (.pos snMax) (.pos snMax)

/-- The same calls under the same conditions, up to the data. -/
inductive SameOps : List (χ × SeekOp) → List (χ × SeekOp) → Prop
  | nil : SameOps [] []
  | cons (x : χ) {op op' : SeekOp} {h h' : List (χ × SeekOp)} (ho : SameOp op op') (hh : SameOps h h') : SameOps ((x, op) :: h) ((x, op') :: h')

/-- Nothing secret is seen of the core; `K` are the states that agree in what may be seen. -/
structure BlindCore (M : SeekCore bs χ') (C : SeenCore bs χ) (f : M.σ → C.σ) (K : M.σ → M.σ → Prop) (used : χ → List String) : Prop where
  process : ∀ {α : Type} (x : χ) (g g' : Closure bs α), (∀ n, (g n).Alike (g' n)) → ∀ s s', K s s' →
    Obl (used x) (fun r r' => ∃ t t', r.2 = f t ∧ r'.2 = f t' ∧ K t t') (C.process x g (f s)) (C.process x g' (f s'))
  remaining : ∀ s s', K s s' → Obl [] Eq (C.remaining (f s)) (C.remaining (f s'))
  getPos : ∀ s s', K s s' → Obl [] Eq (C.getPos (f s)) (C.getPos (f s'))
  setPos : ∀ s s' n, K s s' → Obl [] (fun t t' => ∃ u u', t = f u ∧ t' = f u' ∧ K u u') (C.setPos (f s) n) (C.setPos (f s') n)

/-- Two ciphers that agree in what may be seen. -/
def SameSeenState {σ τ : Type} (f : σ → τ) (K : σ → σ → Prop) (w w' : Wrapper bs τ) : Prop :=
  w.pos = w'.pos ∧ ∃ s s', w.core = f s ∧ w'.core = f s' ∧ K s s'

section
variable {M : SeekCore bs χ'} {C : SeenCore bs χ} {f : M.σ → C.σ} {K : M.σ → M.σ → Prop} {used : χ → List String} (B : BlindCore M C f K used)

theorem Obl.seen {α β γ δ : Type} {I : List String} {S : γ → δ → Prop} (e : Event) (he : Allowed I e) {a : α} {b : β} {k : α → Tr γ} {k' : β → Tr δ}
    (h : Obl I S (k a) (k' b)) : Obl I S (Tr.see e (.ok a) >>= k) (Tr.see e (.ok b) >>= k') :=
  .bind (Q := fun x y => x = a ∧ y = b) (fun x y hx hy => by
    cases hx; cases hy
    exact ⟨rfl, fun e' h' => by cases List.mem_singleton.1 h'; exact he, rfl, rfl⟩) fun x y hxy => by
    obtain ⟨rfl, rfl⟩ := hxy
    exact h

/-- A condition that is public. -/
theorem Obl.asked {γ δ : Type} {I : List String} {S : γ → δ → Prop} (b : Bool) {k : Bool → Tr γ} {k' : Bool → Tr δ}
    (h : Obl I S (k b) (k' b)) : Obl I S (Tr.branch b >>= k) (Tr.branch b >>= k') := Obl.seen (.branch b) trivial h

include B

theorem BlindCore.check {w w' : Wrapper bs C.σ} (hw : SameSeenState f K w w') {n n' : Nat} (hn : n = n') :
    Obl [] Eq (C.checkRemaining w n) (C.checkRemaining w' n') := by
  subst hn
  obtain ⟨core, buf, pos⟩ := w
  obtain ⟨core', buf', pos'⟩ := w'
  obtain ⟨hp, s, s', h1, h2, hk⟩ := hw
  dsimp only at hp h1 h2
  subst hp h1 h2
  refine .bind (B.remaining s s' hk) fun r r' hr => ?_
  subst hr
  refine .asked _ ?_
  cases r with
  | none => exact .pure rfl
  | some r =>
    dsimp only
    refine .asked _ ?_
    refine .ite (fun _ => .pure rfl) fun _ => .seen _ (by exact trivial) (.asked _ (.ite (fun _ => .pure rfl) fun _ => .pure rfl))

theorem BlindCore.uncheckedApply (x : χ) {w w' : Wrapper bs C.σ} (hw : SameSeenState f K w w') {data data' : List U8} (hd : data.length = data'.length) :
    Obl (used x) (fun r r' => SameSeenState f K r.2 r'.2) (C.uncheckedApply x w data) (C.uncheckedApply x w' data') := by
  obtain ⟨core, buf, pos⟩ := w
  obtain ⟨core', buf', pos'⟩ := w'
  obtain ⟨hp, s, s', h1, h2, hk⟩ := hw
  dsimp only at hp h1 h2
  subst hp h1 h2
  unfold SeenCore.uncheckedApply
  dsimp only
  simp only [List.length_drop, hd]
  refine .seen _ (by exact trivial) (.seen _ (by exact trivial) (.bind (B.process x _ _ (alike_apply (by simp [chunksOf])) _ _ hk) fun r r' hr => ?_))
  obtain ⟨t, t', e1, e2, hk⟩ := hr
  rw [e1, e2]
  refine .asked _ (.ite (fun _ => .pure ⟨rfl, t, t', rfl, rfl, hk⟩) fun _ => .bind (B.process x _ _ (alike_block bs) _ _ hk) fun r r' hr => ?_)
  obtain ⟨t, t', e1, e2, hk⟩ := hr
  exact .seen _ (by exact trivial) (.pure ⟨rfl, t, t', e1, e2, hk⟩)

theorem BlindCore.uncheckedWrite (x : χ) {w w' : Wrapper bs C.σ} (hw : SameSeenState f K w w') (len : Nat) :
    Obl (used x) (fun r r' => SameSeenState f K r.2 r'.2) (C.uncheckedWrite x w len) (C.uncheckedWrite x w' len) := by
  obtain ⟨core, buf, pos⟩ := w
  obtain ⟨core', buf', pos'⟩ := w'
  obtain ⟨hp, s, s', h1, h2, hk⟩ := hw
  dsimp only at hp h1 h2
  subst hp h1 h2
  unfold SeenCore.uncheckedWrite
  dsimp only
  refine .seen _ (by exact trivial) (.seen _ (by exact trivial) (.bind (B.process x _ _ (alike_write bs _) _ _ hk) fun r r' hr => ?_))
  obtain ⟨t, t', e1, e2, hk⟩ := hr
  rw [e1, e2]
  refine .asked _ (.ite (fun _ => .pure ⟨rfl, t, t', rfl, rfl, hk⟩) fun _ => .bind (B.process x _ _ (alike_block bs) _ _ hk) fun r r' hr => ?_)
  obtain ⟨t, t', e1, e2, hk⟩ := hr
  exact .seen _ (by exact trivial) (.pure ⟨rfl, t, t', e1, e2, hk⟩)

theorem BlindCore.seek (x : χ) {w w' : Wrapper bs C.σ} (hw : SameSeenState f K w w') (q : Nat) :
    Obl (used x) (fun r r' => SameSeenState f K r.2 r'.2) (C.trySeek x w q) (C.trySeek x w' q) := by
  obtain ⟨core, buf, pos⟩ := w
  obtain ⟨core', buf', pos'⟩ := w'
  obtain ⟨hp, s, s', h1, h2, hk⟩ := hw
  dsimp only at hp h1 h2
  subst hp h1 h2
  unfold SeenCore.trySeek
  dsimp only
  refine .seen _ (by exact trivial) (.seen _ (by exact trivial) (.asked _ (.ite (fun _ => .pure ⟨rfl, s, s', rfl, rfl, hk⟩) fun _ => .bind ((B.setPos s s' _ hk).weaken (fun _ h => nomatch h)) fun t t' ht => ?_)))
  obtain ⟨u, u', rfl, rfl, hk⟩ := ht
  refine .asked _ (.ite (fun _ => .pure ⟨rfl, u, u', rfl, rfl, hk⟩) fun _ => .bind (B.process x _ _ (alike_block bs) _ _ hk) fun r r' hr => ?_)
  obtain ⟨t, t', e1, e2, hk⟩ := hr
  exact .pure ⟨rfl, t, t', e1, e2, hk⟩

theorem BlindCore.pos {w w' : Wrapper bs C.σ} (hw : SameSeenState f K w w') (n : Nat) : Obl [] Eq (C.tryCurrentPos w n) (C.tryCurrentPos w' n) := by
  obtain ⟨core, buf, pos⟩ := w
  obtain ⟨core', buf', pos'⟩ := w'
  obtain ⟨hp, s, s', h1, h2, hk⟩ := hw
  dsimp only at hp h1 h2
  subst hp h1 h2
  unfold SeenCore.tryCurrentPos
  refine .bind (B.getPos s s' hk) fun r r' hr => ?_
  subst hr
  exact .asked _ (.ite (fun _ => .pure rfl) fun _ => .asked _ (.ite (fun _ => .pure rfl) fun _ => .asked _ (.ite (fun _ => .pure rfl) fun _ => .pure rfl)))

theorem BlindCore.seekStep (x : χ) {w w' : Wrapper bs C.σ} (hw : SameSeenState f K w w') {op op' : SeekOp} (ho : SameOp op op') :
    Obl (used x) (fun r r' => SameSeenState f K r.2 r'.2) (C.seekStep x w op) (C.seekStep x w' op') := by
  cases ho with
  | apply data data' h =>
    refine .bind (.bind ((B.check hw h).weaken (fun _ h => nomatch h)) fun r r' hr => ?_) (Q := fun r r' => SameSeenState f K r.2.2 r'.2.2) fun r r' hr => .pure hr
    subst hr
    refine .asked _ ?_
    cases r with
    | error e => exact .pure hw
    | ok u => exact .bind (B.uncheckedApply x hw h) fun r r' hr => .pure hr
  | write buf buf' h =>
    refine .bind (.bind ((B.check hw h).weaken (fun _ h => nomatch h)) fun r r' hr => ?_) (Q := fun r r' => SameSeenState f K r.2.2 r'.2.2) fun r r' hr => .pure hr
    subst hr
    refine .asked _ ?_
    cases r with
    | error e => exact .pure hw
    | ok u => exact .bind (h ▸ B.uncheckedWrite x hw _) fun r r' hr => .pure hr
  | seek q => exact .bind (B.seek x hw q) fun r r' hr => .pure hr
  | pos n => exact .bind ((B.pos hw n).weaken (fun _ h => nomatch h)) fun r r' _ => .pure hw

/-- Nothing secret is seen of a history of calls on the wrapper. -/
theorem BlindCore.run {I : List String} {h h' : List (χ × SeekOp)} (hh : SameOps h h') (hI : ∀ c ∈ h, ∀ s ∈ used c.1, s ∈ I)
    {w w' : Wrapper bs C.σ} (hw : SameSeenState f K w w') :
    Obl I (fun r r' => SameSeenState f K r.2 r'.2) (C.run h w) (C.run h' w') := by
  induction hh generalizing w w' with
  | nil => exact .pure hw
  | cons x ho hh ih =>
    exact .bind ((B.seekStep x hw ho).weaken (hI _ (List.mem_cons_self ..))) fun r r' hr =>
      .bind (ih (fun c hc => hI c (List.mem_cons_of_mem _ hc)) hr) fun r r' hr => .pure hr

end

end Rust
end Verif
