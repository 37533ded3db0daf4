import Verif.Model.CoreApi
/-!
# Cores that are the same machine

`f` maps the states of `C` to states of `C'` and `e` the circumstances of a call on `C'` to those of the call on `C`; everything a core does commutes with them,
panics included.  Then everything the wrapper does commutes with them.
-/
namespace Verif

variable {bs : Nat} {χ χ' : Type}

/-- `C'` on states `f s` is `C` on states `s`. -/
structure CoreHom (C : Core bs χ) (C' : Core bs χ') (e : χ' → χ) (f : C.σ → C'.σ) : Prop where
  process : ∀ {α : Type} (x : χ') (g : Closure bs α) (s : C.σ), C'.process x g (f s) = (C.process (e x) g s).map (Prod.map id f)
  remaining : ∀ s : C.σ, C'.remaining (f s) = C.remaining s

/-- The same for seekable cores. -/
structure SeekHom (C : SeekCore bs χ) (C' : SeekCore bs χ') (e : χ' → χ) (f : C.σ → C'.σ) : Prop extends CoreHom C.toCore C'.toCore e f where
  ctrBits : C'.ctrBits = C.ctrBits
  getPos : ∀ s : C.σ, C'.getPos (f s) = C.getPos s
  setPos : ∀ (s : C.σ) (n : Nat), C'.setPos (f s) n = f (C.setPos s n)

/-- The wrapper around the other state. -/
def Wrapper.mapCore {σ τ : Type} (f : σ → τ) (w : Wrapper bs σ) : Wrapper bs τ := ⟨f w.core, w.buf, w.pos⟩

theorem Wrapper.mapCore_fromCore {σ τ : Type} (f : σ → τ) (s : σ) : (Wrapper.fromCore s : Wrapper bs σ).mapCore f = Wrapper.fromCore (f s) := rfl

section
variable {C : Core bs χ} {C' : Core bs χ'} {e : χ' → χ} {f : C.σ → C'.σ}

theorem CoreHom.check (H : CoreHom C C' e f) (w : Wrapper bs C.σ) (n : Nat) : (w.mapCore f).checkRemaining C' n = w.checkRemaining C n := by
  simp only [Wrapper.checkRemaining, Wrapper.mapCore, H.remaining]
  rfl

theorem CoreHom.uncheckedApply (H : CoreHom C C' e f) (x : χ') (w : Wrapper bs C.σ) (data : List U8) :
    (w.mapCore f).uncheckedApply C' x data = (w.uncheckedApply C (e x) data).map (Prod.map id (Wrapper.mapCore f)) := by
  simp only [Wrapper.uncheckedApply, Wrapper.mapCore, H.process]
  cases C.process (e x) (applyBlocksClosure (chunksOf bs ((data.drop (min (bs - w.pos) data.length)).length / bs)
    (data.drop (min (bs - w.pos) data.length)))) w.core with
  | error p => rfl
  | ok r =>
    simp only [Except.map, bind, Except.bind, Prod.map, id]
    by_cases h : ((data.drop (min (bs - w.pos) data.length)).drop ((data.drop (min (bs - w.pos) data.length)).length / bs * bs)).length = 0
    · simp only [h, ↓reduceIte]; rfl
    · simp only [h, ↓reduceIte, H.process]
      cases C.process (e x) (writeBlockClosure bs) r.2 <;> rfl

theorem CoreHom.uncheckedWrite (H : CoreHom C C' e f) (x : χ') (w : Wrapper bs C.σ) (len : Nat) :
    (w.mapCore f).uncheckedWrite C' x len = (w.uncheckedWrite C (e x) len).map (Prod.map id (Wrapper.mapCore f)) := by
  simp only [Wrapper.uncheckedWrite, Wrapper.mapCore, H.process]
  cases C.process (e x) (writeBlocksClosure ((len - min (bs - w.pos) len) / bs)) w.core with
  | error p => rfl
  | ok r =>
    simp only [Except.map, bind, Except.bind, Prod.map, id]
    by_cases h : len - min (bs - w.pos) len - (len - min (bs - w.pos) len) / bs * bs = 0
    · simp only [h, ↓reduceIte]; rfl
    · simp only [h, ↓reduceIte, H.process]
      cases C.process (e x) (writeBlockClosure bs) r.2 <;> rfl

theorem CoreHom.step (H : CoreHom C C' e f) (x : χ') (w : Wrapper bs C.σ) (op : Op) :
    Wrapper.step C' x (w.mapCore f) op = (Wrapper.step C (e x) w op).map (Prod.map id (Wrapper.mapCore f)) := by
  cases op with
  | apply data =>
    simp only [Wrapper.step, Wrapper.tryApply, H.check]
    cases w.checkRemaining C data.length with
    | error p => rfl
    | ok u =>
      simp only [H.uncheckedApply]
      cases w.uncheckedApply C (e x) data <;> rfl
  | write buf =>
    simp only [Wrapper.step, Wrapper.tryWrite, H.check]
    cases w.checkRemaining C buf.length with
    | error p => rfl
    | ok u =>
      simp only [H.uncheckedWrite]
      cases w.uncheckedWrite C (e x) buf.length <;> rfl

theorem CoreHom.call (H : CoreHom C C' e f) (x : χ') (s : C.σ) (op : CoreOp bs) :
    C'.call x (f s) op = (C.call (e x) s op).map (Prod.map id f) := by
  cases op with
  | remaining => simp only [Core.call, H.remaining]; rfl
  | writeBlock => simp only [Core.call, H.process]; cases C.process (e x) (writeBlockClosure bs) s <;> rfl
  | writeBlocks n => simp only [Core.call, H.process]; cases C.process (e x) (writeBlocksClosure n) s <;> rfl
  | applyBlock d => simp only [Core.call, H.process]; cases C.process (e x) (applyBlockClosure d.toList) s <;> rfl
  | applyBlocks l => simp only [Core.call, H.process]; cases C.process (e x) (applyBlocksClosure (l.map (·.toList))) s <;> rfl

theorem CoreHom.tryApplyPartial (H : CoreHom C C' e f) (x : χ') (s : C.σ) (buf : List U8) :
    C'.tryApplyPartial x (f s) buf = C.tryApplyPartial (e x) s buf := by
  have hr : C'.partialRefused (f s) buf.length = C.partialRefused s buf.length := by
    simp only [Core.partialRefused, H.remaining]
  have last : ∀ (done rest : List U8) (s : C.σ), (if rest.length = 0 then (pure (.ok (), done) : Except Panic (Except CipherError Unit × List U8)) else do
        let (l, _) ← C'.process x (applyBlocksClosure [rest ++ List.replicate (bs - rest.length) 0]) (f s)
        return (.ok (), done ++ l.flatten.take rest.length)) =
      if rest.length = 0 then (pure (.ok (), done) : Except Panic (Except CipherError Unit × List U8)) else do
        let (l, _) ← C.process (e x) (applyBlocksClosure [rest ++ List.replicate (bs - rest.length) 0]) s
        return (.ok (), done ++ l.flatten.take rest.length) := by
    intro done rest s
    rw [H.process]
    cases C.process (e x) (applyBlocksClosure [rest ++ List.replicate (bs - rest.length) 0]) s <;> rfl
  simp only [Core.tryApplyPartial, hr]
  by_cases h : C.partialRefused s buf.length = true
  · simp only [h, ↓reduceIte]
  · simp only [h, Bool.false_eq_true, ↓reduceIte]
    by_cases hb : buf.length > bs
    · simp only [hb, ↓reduceIte, H.process]
      cases C.process (e x) (applyBlocksClosure (chunksOf bs (buf.length / bs) buf)) s with
      | error p => rfl
      | ok r => exact last r.1.flatten (buf.drop (buf.length / bs * bs)) r.2
    · simp only [hb, ↓reduceIte]
      exact last [] buf s

end

section
variable {C : SeekCore bs χ} {C' : SeekCore bs χ'} {e : χ' → χ} {f : C.σ → C'.σ}

theorem SeekHom.seek (H : SeekHom C C' e f) (x : χ') (w : Wrapper bs C.σ) (q : Nat) :
    (w.mapCore f).trySeek C' x q = (w.trySeek C (e x) q).map (Prod.map id (Wrapper.mapCore f)) := by
  simp only [Wrapper.trySeek, H.ctrBits]
  split
  · rfl
  · simp only [Wrapper.mapCore, H.setPos]
    split
    · rfl
    · rw [H.process]
      cases C.process (e x) (writeBlockClosure bs) (C.setPos w.core (q / bs)) <;> rfl

theorem SeekHom.pos (H : SeekHom C C' e f) (w : Wrapper bs C.σ) (n : Nat) : (w.mapCore f).tryCurrentPos C' n = w.tryCurrentPos C n := by
  simp only [Wrapper.tryCurrentPos, Wrapper.mapCore, H.getPos]

theorem SeekHom.seekStep (H : SeekHom C C' e f) (x : χ') (w : Wrapper bs C.σ) (op : SeekOp) :
    Wrapper.seekStep C' x (w.mapCore f) op = (Wrapper.seekStep C (e x) w op).map (Prod.map id (Wrapper.mapCore f)) := by
  cases op with
  | io op => exact H.toCoreHom.step x w op
  | seek q =>
    simp only [Wrapper.seekStep, H.seek]
    cases w.trySeek C (e x) q <;> rfl
  | pos n =>
    simp only [Wrapper.seekStep, H.pos]
    rfl

theorem SeekHom.call (H : SeekHom C C' e f) (x : χ') (s : C.σ) (op : SeekCoreOp bs) :
    C'.call x (f s) op = (C.call (e x) s op).map (Prod.map id f) := by
  cases op with
  | io op => exact H.toCoreHom.call x s op
  | getPos => simp only [SeekCore.call, H.getPos]; rfl
  | setPos b => simp only [SeekCore.call, H.setPos]; rfl

end

/-- Machines whose calls correspond have histories that correspond. -/
theorem runHistory_hom {σ τ ι : Type} {step : χ → σ → ι → Except Panic (Obs × σ)} {step' : χ' → τ → ι → Except Panic (Obs × τ)} (e : χ' → χ) (f : σ → τ)
    (H : ∀ x w op, step' x (f w) op = (step (e x) w op).map (Prod.map id f)) (h : List (χ' × ι)) (w : σ) :
    runHistory step' h (f w) = (runHistory step (h.map (Prod.map e id)) w).map (Prod.map id f) := by
  induction h generalizing w with
  | nil => rfl
  | cons a h ih =>
    obtain ⟨x, op⟩ := a
    simp only [List.map_cons, Prod.map, id, runHistory, H]
    cases step (e x) w op with
    | error p => rfl
    | ok r =>
      simp only [Except.map, bind, Except.bind, ih, Prod.map]
      cases runHistory step (List.map (Prod.map e id) h) r.2 <;> rfl

/-- The same for calls on the core. -/
theorem runCalls_hom {σ τ ι ω : Type} {step : χ → σ → ι → Except Panic (ω × σ)} {step' : χ' → τ → ι → Except Panic (ω × τ)} (e : χ' → χ) (f : σ → τ)
    (H : ∀ x w op, step' x (f w) op = (step (e x) w op).map (Prod.map id f)) (h : List (χ' × ι)) (w : σ) :
    runCalls step' h (f w) = (runCalls step (h.map (Prod.map e id)) w).map (Prod.map id f) := by
  induction h generalizing w with
  | nil => rfl
  | cons a h ih =>
    obtain ⟨x, op⟩ := a
    simp only [List.map_cons, Prod.map, id, runCalls, H]
    cases step (e x) w op with
    | error p => rfl
    | ok r =>
      simp only [Except.map, bind, Except.bind, ih, Prod.map]
      cases runCalls step (List.map (Prod.map e id) h) r.2 <;> rfl

end Verif
