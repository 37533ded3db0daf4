import Verif.Proof.ChaChaSetup
/-!
# The wrapper's calls do not depend on the selected backend, in any state whatsoever
-/
namespace Verif

theorem runHistory_congr {χ σ ι : Type} (step : χ → σ → ι → Except Panic (Obs × σ))
    (hstep : ∀ x y w op, step x w op = step y w op) (h₁ : List (χ × ι)) : ∀ (h₂ : List (χ × ι)),
    h₁.map (·.2) = h₂.map (·.2) → ∀ w : σ, runHistory step h₁ w = runHistory step h₂ w := by
  induction h₁ with
  | nil =>
    intro h₂ h w
    cases h₂ with
    | nil => rfl
    | cons a l => simp at h
  | cons a l ih =>
    intro h₂ h w
    cases h₂ with
    | nil => simp at h
    | cons b l₂ =>
      obtain ⟨e₁, o₁⟩ := a
      obtain ⟨e₂, o₂⟩ := b
      simp only [List.map_cons, List.cons.injEq] at h
      obtain ⟨rfl, hl⟩ := h
      simp only [runHistory, hstep e₁ e₂ w o₁, ih l₂ hl]

end Verif

namespace Verif.ChaCha
open Spec

/-- A client whose result does not depend on the width gives the same answer and state whatever is selected. -/
theorem process_of_ref {α : Type} (dr : Nat) (V : Variant) (e : Env) (f : Closure 64 α) (s : State) (a : α) (k : Nat)
    (h : ∀ par, 1 ≤ par → (f par).ref (ksOf dr V s) par (getBlockPos V s).toNat = .ok (a, (getBlockPos V s).toNat + k)) :
    process dr V e f s = .ok (a, advance V k s) := by
  have hs : s = at' V s (getBlockPos V s).toNat := by
    simp only [at', BitVec.ofNat_toNat, BitVec.setWidth_eq, setBlockPos_getBlockPos]
  obtain ⟨s', h1, h2⟩ := run_ofBlock_ref (Config.select e.build e.detected).par (softGenBlock dr V) (ksOf dr V s) (Rel V s)
      none (by
        intro t n hr _
        refine ⟨_, ?_, rfl⟩
        rw [hr]; exact softGenBlock_at' dr V s n) _ s _ a _ hs (h _ (Config.Impl.par_pos _)) (by intro L h; cases h)
  rw [process_eq]
  refine h1.trans ?_
  rw [h2]
  conv => rhs; rw [hs]
  rw [← advance_at']

theorem process_applyBlocks (dr : Nat) (V : Variant) (e : Env) (data : List (List U8)) (s : State) :
    process dr V e (applyBlocksClosure data) s =
      .ok (List.zipWith (fun d k => xorBytes d k.toList) data (blocksFrom (ksOf dr V s) (getBlockPos V s).toNat data.length),
        advance V data.length s) :=
  process_of_ref dr V e _ s _ _ fun par hpar => applyBlocks_ref _ par hpar data _

theorem process_writeBlocks (dr : Nat) (V : Variant) (e : Env) (len : Nat) (s : State) :
    process dr V e (writeBlocksClosure len) s =
      .ok ((blocksFrom (ksOf dr V s) (getBlockPos V s).toNat len).map (·.toList), advance V len s) :=
  process_of_ref dr V e _ s _ _ fun par hpar => writeBlocks_ref _ par hpar len _

theorem process_writeBlock (dr : Nat) (V : Variant) (e : Env) (s : State) :
    process dr V e (writeBlockClosure 64) s = .ok (leBytes (runRounds dr s), advance V 1 s) := by
  have hs : at' V s (getBlockPos V s).toNat = s := by
    simp only [at', BitVec.ofNat_toNat, BitVec.setWidth_eq, setBlockPos_getBlockPos]
  refine process_of_ref dr V e _ s _ _ fun par hpar => ?_
  simp only [writeBlockClosure, Prog.ref, ksOf, hs]

theorem seekStep_env (u dr : Nat) (V : Variant) (e₁ e₂ : Env) (w : Wrapper 64 State) (op : SeekOp) :
    w.seekStep (core u dr V) e₁ op = w.seekStep (core u dr V) e₂ op := by
  have ha : ∀ data s, (core u dr V).process e₁ (applyBlocksClosure data) s =
      (core u dr V).process e₂ (applyBlocksClosure data) s := fun data s =>
    (process_applyBlocks dr V e₁ data s).trans (process_applyBlocks dr V e₂ data s).symm
  have hw : ∀ len s, (core u dr V).process e₁ (writeBlocksClosure len) s =
      (core u dr V).process e₂ (writeBlocksClosure len) s := fun len s =>
    (process_writeBlocks dr V e₁ len s).trans (process_writeBlocks dr V e₂ len s).symm
  have h1 : ∀ s, (core u dr V).process e₁ (writeBlockClosure 64) s =
      (core u dr V).process e₂ (writeBlockClosure 64) s := fun s =>
    (process_writeBlock dr V e₁ s).trans (process_writeBlock dr V e₂ s).symm
  cases op with
  | io op =>
    cases op with
    | apply data => simp only [Wrapper.seekStep, Wrapper.step, Wrapper.tryApply, Wrapper.uncheckedApply, ha, h1]
    | write buf => simp only [Wrapper.seekStep, Wrapper.step, Wrapper.tryWrite, Wrapper.uncheckedWrite, hw, h1]
  | seek q => simp only [Wrapper.seekStep, Wrapper.trySeek, h1]
  | pos m => rfl

theorem history_env (u dr : Nat) (V : Variant) (h₁ h₂ : List (Env × SeekOp))
    (h : h₁.map (·.2) = h₂.map (·.2)) (w : Wrapper 64 State) :
    runHistory (fun x w op => Wrapper.seekStep (core u dr V) x w op) h₁ w =
      runHistory (fun x w op => Wrapper.seekStep (core u dr V) x w op) h₂ w :=
  runHistory_congr _ (fun e₁ e₂ w op => seekStep_env u dr V e₁ e₂ w op) h₁ h₂ h w

end Verif.ChaCha
