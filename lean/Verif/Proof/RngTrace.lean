import Verif.Model.RngTrace
import Verif.Proof.Rng
import Verif.Proof.Requests
/-!
# The record of a generator depends on public information only
-/
namespace Verif.ChaCha.Rng
open Spec (leByte leNat)
open Verif.Spec.Rng (St RngOp RngObs)

/-! ## Dropping the events -/

theorem resetAndSkipL_eq (dr : Nat) (e : Env) (n : Nat) (r : Rng) : (resetAndSkipL dr e n r).2 = resetAndSkip dr e n r := by
  unfold resetAndSkipL resetAndSkip
  split
  · rfl
  · split <;> rfl

theorem nextWordL_eq (dr : Nat) (e : Env) (r : Rng) : (nextWordL dr e r).2 = nextWord dr e r := by
  unfold nextWordL nextWord
  split <;> rfl

theorem nextU64L_eq (dr : Nat) (e : Env) (r : Rng) : (nextU64L dr e r).2 = nextU64 dr e r := by
  unfold nextU64L nextU64
  dsimp only
  split
  · rfl
  · split <;> rfl

theorem chunk_length (r : Rng) (n : Nat) : (fillViaChunks (r.results.toList.drop r.index) n).2.length = min ((64 - r.index) * 4) n := by
  rw [fillViaChunks, List.length_take, length_flatMap_toLe32, List.length_drop, Vector.length_toList]
  omega

theorem chunk_words (r : Rng) (n : Nat) : (fillViaChunks (r.results.toList.drop r.index) n).1 = (min ((64 - r.index) * 4) n + 3) / 4 := by
  rw [fillViaChunks, List.length_drop, Vector.length_toList]

/-- The generator with something in its buffer. -/
def ready (dr : Nat) (e : Env) (r : Rng) : Rng := if r.index ≥ 64 then { refill dr e r with index := 0 } else r

theorem ready_lt (dr : Nat) (e : Env) (r : Rng) : (ready dr e r).index < 64 := by
  unfold ready
  split
  · exact (by decide : 0 < 64)
  · omega

theorem fillLoopL_eq (dr : Nat) (e : Env) (n : Nat) : ∀ r : Rng, (fillLoopL dr e n r).2 = fillLoop dr e n r := by
  induction n using Nat.strongRecOn with
  | ind n ih =>
  intro r
  rw [fillLoopL, fillLoop]
  split
  · rfl
  · rename_i hn
    dsimp only
    rw [show (if r.index ≥ 64 then { refill dr e r with index := 0 } else r) = ready dr e r from rfl]
    rw [ih _ (by rw [chunk_length]; have := ready_lt dr e r; omega)]

theorem setWordPosL_eq (dr : Nat) (e : Env) (p : U128) (r : Rng) : (setWordPosL dr e p r).2 = setWordPos dr e p r :=
  resetAndSkipL_eq ..

theorem setBlockPosL_eq (dr : Nat) (e : Env) (p : U64) (r : Rng) : (setBlockPosL dr e p r).2 = setBlockPos dr e p r := by
  unfold setBlockPosL setBlockPos
  dsimp only
  rw [resetAndSkipL_eq]

theorem setStreamL_eq (dr : Nat) (e : Env) (p : U64) (r : Rng) : (setStreamL dr e p r).2 = setStream dr e p r :=
  setBlockPosL_eq ..

theorem deserializeL_eq (dr : Nat) (e : Env) (b : Vector U8 49) : (deserializeL dr e b).2 = deserialize dr e b := by
  unfold deserializeL deserialize
  dsimp only
  cases newInternal .legacy (Vector.ofFn fun i : Fin 32 => b[i.val]) ((b.toList.drop 32).take 8) with
  | error p => rfl
  | ok c => exact setWordPosL_eq ..

theorem stepL_eq (m : Mode) (dr : Nat) (e : Env) (r : Rng) (op : RngOp) : (stepL m dr e r op).2 = step m dr e r op := by
  cases op with
  | nextU32 => simp only [stepL, step, nextWordL_eq]
  | nextU64 => simp only [stepL, step, nextU64L_eq]
  | fill n => simp only [stepL, step, fillLoopL_eq, fillBytes]
  | setWordPos p => simp only [stepL, step, setWordPosL_eq]
  | setBlockPos p => simp only [stepL, step, setBlockPosL_eq]
  | setStream p => simp only [stepL, step, setStreamL_eq]
  | getWordPos => rfl
  | getBlockPos => rfl
  | getStream => rfl
  | getSeed => rfl
  | serialize => rfl
  | load b => simp only [stepL, step, deserializeL_eq]
  | reload =>
    simp only [stepL, step]
    cases r.serialize m with
    | error p => rfl
    | ok b => dsimp only; rw [deserializeL_eq]; rfl

theorem runL_eq (m : Mode) (dr : Nat) (h : List (Env × RngOp)) : ∀ r : Rng, (runL m dr h r).2 = run m dr h r := by
  induction h with
  | nil => exact fun r => rfl
  | cons x h ih =>
    intro r
    obtain ⟨e, op⟩ := x
    rw [runL, run, ← stepL_eq]
    generalize stepL m dr e r op = y
    obtain ⟨t, y⟩ := y
    cases y with
    | error p => rfl
    | ok q =>
      show (runL m dr h q.2).2 >>= _ = run m dr h q.2 >>= _
      rw [ih]

/-! ## Public information -/

/-- Equal index and equal block counter. -/
def PubEq (r r' : Rng) : Prop := r.index = r'.index ∧ r.core[12] = r'.core[12] ∧ r.core[13] = r'.core[13]

theorem PubEq.mk' {c c' : State} {b b' : Vector U32 64} {i i' : Nat} (h : i = i') (h12 : c[12] = c'[12]) (h13 : c[13] = c'[13]) :
    PubEq ⟨c, b, i⟩ ⟨c', b', i'⟩ := ⟨h, h12, h13⟩

theorem PubEq.counter {r r' : Rng} (h : PubEq r r') : Legacy.getBlockPos r.core = Legacy.getBlockPos r'.core := by
  unfold Legacy.getBlockPos
  rw [h.2.1, h.2.2]

theorem setBlockPos_words (s : State) (p : U64) :
    (Legacy.setBlockPos s p)[12] = (p &&& 0xFFFFFFFF#64).setWidth 32 ∧ (Legacy.setBlockPos s p)[13] = (p >>> 32).setWidth 32 := by
  constructor <;> simp [Legacy.setBlockPos]

theorem PubEq.refill {r r' : Rng} (h : PubEq r r') (dr dr' : Nat) (e e' : Env) (i : Nat) :
    PubEq { refill dr e r with index := i } { refill dr' e' r' with index := i } := by
  refine ⟨rfl, ?_, ?_⟩
  · show (Rng.refill dr e r).core[12] = (Rng.refill dr' e' r').core[12]
    rw [refill_core, refill_core, advance_legacy, advance_legacy, (setBlockPos_words _ _).1, (setBlockPos_words _ _).1, h.counter]
  · show (Rng.refill dr e r).core[13] = (Rng.refill dr' e' r').core[13]
    rw [refill_core, refill_core, advance_legacy, advance_legacy, (setBlockPos_words _ _).2, (setBlockPos_words _ _).2, h.counter]

theorem PubEq.wordOffset {r r' : Rng} (h : PubEq r r') : r.wordOffset = r'.wordOffset := by
  unfold Rng.wordOffset
  rw [h.1]

theorem PubEq.wordPos {r r' : Rng} (h : PubEq r r') : r.getWordPos = r'.getWordPos := by
  unfold getWordPos
  rw [h.wordOffset, h.2.1, h.2.2]

theorem PubEq.blockPos {r r' : Rng} (h : PubEq r r') (m : Mode) : r.getBlockPos m = r'.getBlockPos m := by
  unfold getBlockPos
  rw [h.wordOffset, h.counter]

/-- The same events, and the same panic or generators with equal public parts. -/
def Blind {α : Type} (f : α → Rng) (x y : List Ev × Except Panic α) : Prop :=
  x.1 = y.1 ∧ ExRel (fun a b => PubEq (f a) (f b)) x.2 y.2

theorem resetAndSkip_blind {r r' : Rng} (h : PubEq r r') (dr : Nat) (e : Env) (n : Nat) :
    Blind id (resetAndSkipL dr e n r) (resetAndSkipL dr e n r') := by
  unfold resetAndSkipL
  split
  · exact ⟨rfl, .ok ⟨rfl, h.2⟩⟩
  · split
    · exact ⟨rfl, .ok (h.refill dr dr e e n)⟩
    · exact ⟨rfl, .error _⟩

theorem nextWord_blind {r r' : Rng} (h : PubEq r r') (dr : Nat) (e : Env) :
    (nextWordL dr e r).1 = (nextWordL dr e r').1 ∧ PubEq (nextWordL dr e r).2.2 (nextWordL dr e r').2.2 := by
  have hi := h.1
  unfold nextWordL
  by_cases h1 : r.index < 64
  · rw [dif_pos h1, dif_pos (hi ▸ h1)]
    exact ⟨by dsimp only; rw [hi], by show r.index + 1 = r'.index + 1; rw [hi], h.2⟩
  · rw [dif_neg h1, dif_neg (hi ▸ h1)]
    exact ⟨rfl, h.refill dr dr e e 1⟩

theorem nextU64_blind {r r' : Rng} (h : PubEq r r') (dr : Nat) (e : Env) :
    (nextU64L dr e r).1 = (nextU64L dr e r').1 ∧ PubEq (nextU64L dr e r).2.2 (nextU64L dr e r').2.2 := by
  have hi := h.1
  unfold nextU64L
  dsimp only
  by_cases h1 : r.index < 63
  · rw [dif_pos h1, dif_pos (hi ▸ h1)]
    exact ⟨by dsimp only; rw [hi], by show r.index + 2 = r'.index + 2; rw [hi], h.2⟩
  · rw [dif_neg h1, dif_neg (hi ▸ h1)]
    by_cases h2 : r.index ≥ 64
    · rw [if_pos h2, if_pos (hi ▸ h2)]
      exact ⟨rfl, h.refill dr dr e e 2⟩
    · rw [if_neg h2, if_neg (hi ▸ h2)]
      exact ⟨rfl, h.refill dr dr e e 1⟩

theorem ready_blind {r r' : Rng} (h : PubEq r r') (dr : Nat) (e : Env) : PubEq (ready dr e r) (ready dr e r') := by
  unfold ready
  by_cases h2 : r.index ≥ 64
  · rw [if_pos h2, if_pos (h.1 ▸ h2)]
    exact h.refill dr dr e e 0
  · rw [if_neg h2, if_neg (h.1 ▸ h2)]
    exact h

theorem fillLoop_blind (dr : Nat) (e : Env) (n : Nat) : ∀ {r r' : Rng}, PubEq r r' →
    (fillLoopL dr e n r).1 = (fillLoopL dr e n r').1 ∧ PubEq (fillLoopL dr e n r).2.2 (fillLoopL dr e n r').2.2 := by
  induction n using Nat.strongRecOn with
  | ind n ih =>
  intro r r' h
  rw [fillLoopL.eq_def dr e n r, fillLoopL.eq_def dr e n r']
  split
  · exact ⟨rfl, h⟩
  · rename_i hn
    dsimp only
    rw [show (if r.index ≥ 64 then { Rng.refill dr e r with index := 0 } else r) = ready dr e r from rfl,
      show (if r'.index ≥ 64 then { Rng.refill dr e r' with index := 0 } else r') = ready dr e r' from rfl]
    have hb := ready_blind h dr e
    simp only [chunk_length, chunk_words]
    have hlt := ready_lt dr e r
    have := ih (n - min ((64 - (ready dr e r).index) * 4) n) (by omega)
      (r := { ready dr e r with index := (ready dr e r).index + (min ((64 - (ready dr e r).index) * 4) n + 3) / 4 })
      (r' := { ready dr e r' with index := (ready dr e r).index + (min ((64 - (ready dr e r).index) * 4) n + 3) / 4 }) ⟨rfl, hb.2⟩
    rw [hb.1] at this ⊢
    rw [h.1, this.1]
    exact ⟨rfl, this.2⟩

theorem setWordPos_blind {r r' : Rng} (h : r.index = r'.index) (dr : Nat) (e : Env) (p : U128) :
    Blind id (setWordPosL dr e p r) (setWordPosL dr e p r') := by
  unfold setWordPosL
  dsimp only
  refine resetAndSkip_blind (PubEq.mk' h ?_ ?_) dr e _
  · simp only [Vector.getElem_set, Nat.reduceEqDiff, if_false, if_true]
  · simp only [Vector.getElem_set, Nat.reduceEqDiff, if_true]

theorem setBlockPos_blind {r r' : Rng} (h : PubEq r r') (dr : Nat) (e : Env) (p : U64) :
    Blind id (setBlockPosL dr e p r) (setBlockPosL dr e p r') := by
  obtain ⟨h1, h2⟩ := resetAndSkip_blind h dr e 0
  refine ⟨h1, h2.bind fun a b hab => .ok ⟨hab.1, ?_, ?_⟩⟩
  · exact (setBlockPos_words a.core p).1.trans (setBlockPos_words b.core p).1.symm
  · exact (setBlockPos_words a.core p).2.trans (setBlockPos_words b.core p).2.symm

theorem setStream_blind {r r' : Rng} (h : PubEq r r') (dr : Nat) (e : Env) (s s' : U64) :
    Blind id (setStreamL dr e s r) (setStreamL dr e s' r') := by
  unfold setStreamL
  dsimp only
  refine setBlockPos_blind (PubEq.mk' h.1 ?_ ?_) dr e 0
  · simpa using h.2.1
  · simpa using h.2.2

theorem deserialize_blind (dr : Nat) (e : Env) (b b' : Vector U8 49) (h : b.toList.drop 40 = b'.toList.drop 40) :
    Blind id (deserializeL dr e b) (deserializeL dr e b') := by
  have key : ∀ (x y : Except Panic State) (p : U128), (∃ s s', x = .ok s ∧ y = .ok s') →
      Blind id (match x with | .error p => ([], .error p) | .ok core => setWordPosL dr e p (ofCore core))
        (match y with | .error p => ([], .error p) | .ok core => setWordPosL dr e p (ofCore core)) := by
    rintro _ _ p ⟨s, s', rfl, rfl⟩
    exact setWordPos_blind (r := ofCore s) (r' := ofCore s') rfl dr e p
  unfold deserializeL
  dsimp only
  rw [h]
  exact key _ _ _ ⟨_, _, newInternal_legacy _ _ (by simp), newInternal_legacy _ _ (by simp)⟩

/-- The same call, up to stream numbers and the seed and stream in a serialised generator. -/
inductive OpLike : RngOp → RngOp → Prop
  | refl (op : RngOp) : OpLike op op
  | stream (s s' : U64) : OpLike (.setStream s) (.setStream s')
  | load (b b' : Vector U8 49) (h : b.toList.drop 40 = b'.toList.drop 40) : OpLike (.load b) (.load b')

theorem Blind.wrap {x y : List Ev × Except Panic Rng} (h : Blind id x y) :
    Blind (α := RngObs × Rng) (·.2) (x.1, do return (.none, ← x.2)) (y.1, do return (.none, ← y.2)) :=
  ⟨h.1, h.2.bind fun _ _ hab => .ok hab⟩

theorem serialize_blind {r r' : Rng} (h : PubEq r r') (m : Mode) :
    ExRel (fun b b' => b.toList.drop 40 = b'.toList.drop 40) (r.serialize m) (r'.serialize m) := by
  unfold serialize
  dsimp only
  rw [h.wordPos]
  split
  · exact .error _
  · refine .ok ?_
    apply List.ext_getElem
    · simp
    · intro i h1 h2
      simp only [List.getElem_drop, Vector.getElem_toList, Vector.getElem_ofFn]
      rw [dif_neg (by omega), dif_neg (by omega), dif_neg (by omega), dif_neg (by omega)]

theorem step_blind {r r' : Rng} (h : PubEq r r') (m : Mode) (dr : Nat) (e : Env) {op op' : RngOp} (ho : OpLike op op') :
    Blind (·.2) (stepL m dr e r op) (stepL m dr e r' op') := by
  cases ho with
  | stream s s' => exact (setStream_blind h dr e s s').wrap
  | load b b' hb => exact (deserialize_blind dr e b b' hb).wrap
  | refl =>
    cases op with
    | nextU32 => have := nextWord_blind h dr e; exact ⟨this.1, .ok this.2⟩
    | nextU64 => have := nextU64_blind h dr e; exact ⟨this.1, .ok this.2⟩
    | fill n => have := fillLoop_blind dr e n h; exact ⟨this.1, .ok this.2⟩
    | setWordPos p => exact (setWordPos_blind h.1 dr e p).wrap
    | setBlockPos p => exact (setBlockPos_blind h dr e p).wrap
    | setStream p => exact (setStream_blind h dr e p p).wrap
    | getWordPos => exact ⟨rfl, .ok h⟩
    | getBlockPos =>
      refine ⟨rfl, ?_⟩
      show ExRel _ (r.getBlockPos m >>= _) (r'.getBlockPos m >>= _)
      rw [h.blockPos m]
      cases r'.getBlockPos m with
      | error p => exact .error p
      | ok p => exact .ok h
    | getStream => exact ⟨rfl, .ok h⟩
    | getSeed => exact ⟨rfl, .ok h⟩
    | serialize => exact ⟨rfl, (serialize_blind h m).bind fun _ _ _ => .ok h⟩
    | load b => exact (deserialize_blind dr e b b rfl).wrap
    | reload =>
      have hs := serialize_blind h m
      simp only [stepL]
      generalize r.serialize m = x at hs
      generalize r'.serialize m = y at hs
      cases hs with
      | error p => exact ⟨rfl, .error p⟩
      | ok hb => exact (deserialize_blind dr e _ _ hb).wrap

/-- Two histories of the same calls in the same circumstances, up to `OpLike`. -/
inductive CallsLike : List (Env × RngOp) → List (Env × RngOp) → Prop
  | nil : CallsLike [] []
  | cons (e : Env) {op op' : RngOp} {h h' : List (Env × RngOp)} (ho : OpLike op op') (hh : CallsLike h h') :
      CallsLike ((e, op) :: h) ((e, op') :: h')

theorem run_blind (m : Mode) (dr : Nat) {h h' : List (Env × RngOp)} (hh : CallsLike h h') : ∀ {r r' : Rng}, PubEq r r' →
    (runL m dr h r).1 = (runL m dr h' r').1 ∧ ExRel (fun a b => PubEq a.2 b.2) (runL m dr h r).2 (runL m dr h' r').2 := by
  induction hh with
  | nil => exact fun h => ⟨rfl, .ok h⟩
  | cons e ho hh ih =>
    intro r r' hr
    have hs := step_blind hr m dr e ho
    rw [runL, runL]
    generalize stepL m dr e r _ = x at hs
    generalize stepL m dr e r' _ = y at hs
    obtain ⟨t, x⟩ := x
    obtain ⟨t', y⟩ := y
    obtain ⟨h1, h2⟩ := hs
    have h1 : t = t' := h1
    subst h1
    have h2 : ExRel _ x y := h2
    cases h2 with
    | error p => exact ⟨rfl, .error p⟩
    | ok hq =>
      rename_i a b
      obtain ⟨o, a⟩ := a
      obtain ⟨o', b⟩ := b
      obtain ⟨h3, h4⟩ := ih (show PubEq a b from hq)
      refine ⟨?_, ?_⟩
      · dsimp only; rw [h3]
      · exact ExRel.bind h4 fun _ _ hab => .ok hab

end Verif.ChaCha.Rng
