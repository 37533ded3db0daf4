import Verif.Model.Hygiene
import Verif.Proof.TraceOthers
/-!
# C44 - C46: what dropped objects, Debug texts and access patterns reveal
-/
namespace Verif

/-! ## C44: drop clears secrets -/

/-- All elements are zero. -/
def AllZero {w n : Nat} (v : Vector (BitVec w) n) : Prop := ∀ i, (h : i < n) → v[i] = 0#w

theorem zeroizeArray_allZero {w n : Nat} (v : Vector (BitVec w) n) : AllZero (zeroizeArray v) := by
  intro i h
  unfold zeroizeArray
  rw [Vector.getElem_map]

theorem zeroizeArray_eq {w n : Nat} (v : Vector (BitVec w) n) : zeroizeArray v = Vector.replicate n 0#w := by
  apply Vector.ext
  intro i h
  rw [zeroizeArray_allZero v i h, Vector.getElem_replicate]

theorem AllZero.unique {w n : Nat} {v v' : Vector (BitVec w) n} (h : AllZero v) (h' : AllZero v') : v = v' := by
  apply Vector.ext
  intro i hi
  rw [h i hi, h' i hi]

/-- **C44**, ChaCha and XChaCha: the whole state is zero after drop; the only other field is untouched and is a record of the CPU's
features. -/
theorem C44_chacha (c : ChaCha.CoreObj) : AllZero (c.drop true).state ∧ (c.drop true).tokens = c.tokens :=
  ⟨zeroizeArray_allZero _, rfl⟩

example : ((ChaCha.CoreObj.mk (Vector.replicate 16 3) ⟨true, true, false⟩).drop true).state[7] = 0 :=
  (C44_chacha _).1 7 (by decide)

/-- **C44**, Salsa and XSalsa. -/
theorem C44_salsa (s : Salsa.State) : AllZero (Salsa.drop true s) := zeroizeArray_allZero _

example : (Salsa.drop true (Salsa.new (Vector.replicate 32 7) (Vector.replicate 8 9)))[3] = 0 := C44_salsa _ 3 (by decide)

/-- A Salsa state that is not zero before drop. -/
example : Salsa.new (Vector.replicate 32 7) (Vector.replicate 8 9) ≠ Vector.replicate 16 0 ∧
    Salsa.drop true (Salsa.new (Vector.replicate 32 7) (Vector.replicate 8 9)) = Vector.replicate 16 0 := by
  exact ⟨by decide, zeroizeArray_eq _⟩

/-- **C44**, Rabbit. -/
theorem C44_rabbit (s : Rabbit.State) :
    AllZero (Rabbit.drop true s).x ∧ AllZero (Rabbit.drop true s).c ∧ (Rabbit.drop true s).carry = 0 :=
  ⟨zeroizeArray_allZero _, zeroizeArray_allZero _, rfl⟩

example : (Rabbit.drop true ⟨Vector.replicate 8 1, Vector.replicate 8 2, 1⟩).c[3] = 0 := (C44_rabbit _).2.1 3 (by decide)

/-- **C44**, RC4. -/
theorem C44_rc4 (s : Rc4.State) : AllZero (Rc4.drop true s).state ∧ (Rc4.drop true s).i = 0 ∧ (Rc4.drop true s).j = 0 :=
  ⟨zeroizeArray_allZero _, rfl, rfl⟩

example : (Rc4.drop true ⟨Vector.replicate 256 1, 2, 3⟩).j = 0 := (C44_rc4 _).2.2

/-- **C44**, HC-256. -/
theorem C44_hc256 (s : Hc256.State) :
    AllZero (Hc256.drop true s).ptable ∧ AllZero (Hc256.drop true s).qtable ∧ (Hc256.drop true s).idx = 0 :=
  ⟨zeroizeArray_allZero _, zeroizeArray_allZero _, rfl⟩

example : (Hc256.drop true ⟨Vector.replicate 1024 1, Vector.replicate 1024 2, 3⟩).qtable[1000] = 0 :=
  (C44_hc256 _).2.1 1000 (by decide)

/-- **C44**, random number generators: core, buffer and index. -/
theorem C44_rng (r : ChaCha.Rng) : AllZero (r.drop true).core ∧ AllZero (r.drop true).results ∧ (r.drop true).index = 0 :=
  ⟨zeroizeArray_allZero _, zeroizeArray_allZero _, rfl⟩

/-- An RNG with output in its buffer. -/
example : (ChaCha.Rng.mk (Vector.replicate 16 3) (Vector.replicate 64 5) 17).drop true =
    ⟨Vector.replicate 16 0, Vector.replicate 64 0, 0⟩ := by
  unfold ChaCha.Rng.drop
  rw [zeroizeArray_eq, zeroizeArray_eq]
  rfl

/-- **C44**: the memory of a dropped object says nothing about what it was: any two objects (any keys, nonces, positions) leave the same
memory behind. -/
theorem C44_indistinguishable :
    (∀ c c' : ChaCha.CoreObj, c.tokens = c'.tokens → c.drop true = c'.drop true) ∧
    (∀ s s', Salsa.drop true s = Salsa.drop true s') ∧
    (∀ s s', Rabbit.drop true s = Rabbit.drop true s') ∧
    (∀ s s', Rc4.drop true s = Rc4.drop true s') ∧
    (∀ s s', Hc256.drop true s = Hc256.drop true s') ∧
    (∀ r r' : ChaCha.Rng, r.drop true = r'.drop true) := by
  refine ⟨fun c c' h => ?_, fun s s' => ?_, fun s s' => ?_, fun s s' => ?_, fun s s' => ?_, fun r r' => ?_⟩
  · show ChaCha.CoreObj.mk (zeroizeArray c.state) c.tokens = ChaCha.CoreObj.mk (zeroizeArray c'.state) c'.tokens
    rw [zeroizeArray_eq, zeroizeArray_eq, h]
  · exact (C44_salsa s).unique (C44_salsa s')
  · show Rabbit.State.mk (zeroizeArray s.x) (zeroizeArray s.c) 0 = Rabbit.State.mk (zeroizeArray s'.x) (zeroizeArray s'.c) 0
    rw [zeroizeArray_eq, zeroizeArray_eq, zeroizeArray_eq, zeroizeArray_eq]
  · show Rc4.State.mk (zeroizeArray s.state) 0 0 = Rc4.State.mk (zeroizeArray s'.state) 0 0
    rw [zeroizeArray_eq, zeroizeArray_eq]
  · show Hc256.State.mk (zeroizeArray s.ptable) (zeroizeArray s.qtable) 0 = Hc256.State.mk (zeroizeArray s'.ptable) (zeroizeArray s'.qtable) 0
    rw [zeroizeArray_eq, zeroizeArray_eq, zeroizeArray_eq, zeroizeArray_eq]
  · show ChaCha.Rng.mk (zeroizeArray r.core) (zeroizeArray r.results) 0 = ChaCha.Rng.mk (zeroizeArray r'.core) (zeroizeArray r'.results) 0
    rw [zeroizeArray_eq, zeroizeArray_eq, zeroizeArray_eq, zeroizeArray_eq]

example : Rabbit.drop true ⟨Vector.replicate 8 1, Vector.replicate 8 2, 1⟩ =
    Rabbit.drop true ⟨Vector.replicate 8 3, Vector.replicate 8 4, 0⟩ := C44_indistinguishable.2.2.1 _ _

/-- Without the feature nothing is cleared: the hypothesis "with zeroisation enabled" is needed.  (Every fresh ChaCha state, for
instance, contains the constants.) -/
theorem C44_without (c : ChaCha.CoreObj) (s : Salsa.State) (b : Rabbit.State) (r : Rc4.State) (h : Hc256.State) (g : ChaCha.Rng) :
    c.drop false = c ∧ Salsa.drop false s = s ∧ Rabbit.drop false b = b ∧ Rc4.drop false r = r ∧ Hc256.drop false h = h ∧
    g.drop false = g := ⟨rfl, rfl, rfl, rfl, rfl, rfl⟩

/-! ## C45: Debug texts -/

/-- **C45**: the texts depend only on the type (round count and variant). -/
theorem C45_debug :
    (∀ R V, ∀ c c' : ChaCha.CoreObj, c.debug R V = c'.debug R V) ∧
    (∀ R, ∀ c c' : ChaCha.CoreObj, c.debugX R = c'.debugX R) ∧
    (∀ R, ∀ r r' : ChaCha.Rng, r.debug R = r'.debug R) ∧
    (∀ s s', Hc256.debug s = Hc256.debug s') :=
  ⟨fun _ _ _ _ => rfl, fun _ _ _ => rfl, fun _ _ _ => rfl, fun _ _ => rfl⟩

/-- Two cores with different secrets. -/
example : (ChaCha.CoreObj.mk (Vector.replicate 16 1) ⟨true, true, false⟩).debug .r20 .ietf =
    (ChaCha.CoreObj.mk (Vector.replicate 16 2) ⟨true, true, false⟩).debug .r20 .ietf := C45_debug.1 _ _ _ _

/-- **C45**: the complete list of texts.  (The number after `R:` is the number of double rounds.) -/
theorem C45_texts (c : ChaCha.CoreObj) (r : ChaCha.Rng) (s : Hc256.State) :
    c.debug .r8 .ietf = "ChaChaCore<R: 4, V: 32-bit)> { ... }" ∧
    c.debug .r12 .ietf = "ChaChaCore<R: 6, V: 32-bit)> { ... }" ∧
    c.debug .r20 .ietf = "ChaChaCore<R: 10, V: 32-bit)> { ... }" ∧
    c.debug .r8 .legacy = "ChaChaCore<R: 4, V: 64-bit)> { ... }" ∧
    c.debug .r12 .legacy = "ChaChaCore<R: 6, V: 64-bit)> { ... }" ∧
    c.debug .r20 .legacy = "ChaChaCore<R: 10, V: 64-bit)> { ... }" ∧
    c.debugX .r8 = "XChaChaCore(ChaChaCore<R: 4, V: 32-bit)> { ... })" ∧
    c.debugX .r12 = "XChaChaCore(ChaChaCore<R: 6, V: 32-bit)> { ... })" ∧
    c.debugX .r20 = "XChaChaCore(ChaChaCore<R: 10, V: 32-bit)> { ... })" ∧
    r.debug .r8 = "ChaCha8Rng { ... }" ∧ r.debug .r12 = "ChaCha12Rng { ... }" ∧ r.debug .r20 = "ChaCha20Rng { ... }" ∧
    Hc256.debug s = "Hc256Core { ... }" ∧ Hc256.algName = "Hc256" ∧ Hc256.debug s = Hc256.algName ++ "Core { ... }" := by
  refine ⟨?_, ?_, ?_, ?_, ?_, ?_, ?_, ?_, ?_, ?_, ?_, ?_, ?_, ?_, ?_⟩
  all_goals first | rfl | (simp only [ChaCha.CoreObj.debug, ChaCha.CoreObj.debugX]; decide)

/-! ## C46: access patterns -/

open Trace in
/-- **C46**, ChaCha: the recording block function computes the model's block function (block and next state), never panics, and for any
number of blocks and any two memories - keys, nonces, counters - makes the same accesses. -/
theorem C46_chacha (dr : Nat) (V : ChaCha.Variant) :
    (∀ s : BlockMem, ∃ t, (Trace.ChaCha.genBlock dr V).result s =
      (ChaCha.softGenBlock dr V s.state).map fun p => ((), ⟨p.2, t, p.1⟩)) ∧
    ∀ (n : Nat) (s s' : BlockMem), (rep n (Trace.ChaCha.genBlock dr V)).trace s = (rep n (Trace.ChaCha.genBlock dr V)).trace s' := by
  refine ⟨fun s => ⟨ChaCha.runRounds dr s.state, ?_⟩, fun n s s' => ?_⟩
  · rw [Trace.ChaCha.genBlock_result]
    rfl
  · exact ((Trace.ChaCha.genBlock_const dr V).rep n).same s s' _ _ (rep_result (Trace.ChaCha.genBlock_result dr V) n s)
      (rep_result (Trace.ChaCha.genBlock_result dr V) n s')

/-- The accesses of one ChaCha20 block are not an empty list, and the state they leave behind does depend on the memory. -/
example : ((Trace.ChaCha.genBlock 10 .ietf).trace ⟨Vector.replicate 16 0, Vector.replicate 16 0, Vector.replicate 64 0⟩).length = 2723 := by
  decide +kernel

open Trace in
/-- **C46**, HChaCha. -/
theorem C46_hchacha (dr : Nat) :
    (∀ s : HashMem, ∃ t, (Trace.ChaCha.hchacha dr).result s = .ok ((), ⟨s.key, s.input, t, ChaCha.hchacha dr s.key s.input⟩)) ∧
    ∀ s s' : HashMem, (Trace.ChaCha.hchacha dr).trace s = (Trace.ChaCha.hchacha dr).trace s' :=
  ⟨fun s => ⟨_, Trace.ChaCha.hchacha_result dr s⟩,
   fun s s' => (Trace.ChaCha.hchacha_const dr).same s s' _ _ (Trace.ChaCha.hchacha_result dr s) (Trace.ChaCha.hchacha_result dr s')⟩

example : (Trace.ChaCha.hchacha 10).trace ⟨Vector.replicate 32 0, Vector.replicate 16 0, Vector.replicate 16 0, Vector.replicate 32 0⟩ =
    (Trace.ChaCha.hchacha 10).trace ⟨Vector.replicate 32 1, Vector.replicate 16 2, Vector.replicate 16 3, Vector.replicate 32 4⟩ :=
  (C46_hchacha 10).2 _ _

open Trace in
/-- **C46**, Salsa: the recording block function computes the model's block function, and any two runs of any number of blocks that do not
panic (with overflow checks on, the block with counter `2^64 - 1` panics) make the same accesses. -/
theorem C46_salsa (m : Mode) (dr : Nat) :
    (∀ s : BlockMem, ∃ t, (Trace.Salsa.genBlock m dr).result s = (Salsa.genBlock m dr s.state).map fun p => ((), ⟨p.2, t, p.1⟩)) ∧
    (∀ (n : Nat) (s s' : BlockMem) (r r' : Unit × BlockMem), (rep n (Trace.Salsa.genBlock m dr)).result s = .ok r →
      (rep n (Trace.Salsa.genBlock m dr)).result s' = .ok r' →
      (rep n (Trace.Salsa.genBlock m dr)).trace s = (rep n (Trace.Salsa.genBlock m dr)).trace s') :=
  ⟨fun s => ⟨_, Trace.Salsa.genBlock_result m dr s⟩, fun n s s' r r' h h' => ((Trace.Salsa.genBlock_const m dr).rep n).same s s' r r' h h'⟩

/-- Salsa runs that do not panic exist, also with overflow checks. -/
example : ∃ r, (Trace.rep 2 (Trace.Salsa.genBlock .debug 10)).result
    ⟨Vector.replicate 16 0, Vector.replicate 16 0, Vector.replicate 64 0⟩ = .ok r := by
  have h : ((Trace.rep 2 (Trace.Salsa.genBlock .debug 10)).result
    ⟨Vector.replicate 16 0, Vector.replicate 16 0, Vector.replicate 64 0⟩).isOk = true := by decide +kernel
  revert h
  generalize (Trace.rep 2 (Trace.Salsa.genBlock .debug 10)).result _ = x
  intro h
  cases x with
  | error e => exact nomatch h
  | ok r => exact ⟨r, rfl⟩

open Trace in
/-- **C46**, HSalsa. -/
theorem C46_hsalsa (dr : Nat) :
    (∀ s : HashMem, ∃ t, (Trace.Salsa.hsalsa dr).result s = .ok ((), ⟨s.key, s.input, t, Salsa.hsalsa dr s.key s.input⟩)) ∧
    ∀ s s' : HashMem, (Trace.Salsa.hsalsa dr).trace s = (Trace.Salsa.hsalsa dr).trace s' :=
  ⟨fun s => ⟨_, Trace.Salsa.hsalsa_result dr s⟩,
   fun s s' => (Trace.Salsa.hsalsa_const dr).same s s' _ _ (Trace.Salsa.hsalsa_result dr s) (Trace.Salsa.hsalsa_result dr s')⟩

example : (Trace.Salsa.hsalsa 10).trace ⟨Vector.replicate 32 0, Vector.replicate 16 0, Vector.replicate 16 0, Vector.replicate 32 0⟩ =
    (Trace.Salsa.hsalsa 10).trace ⟨Vector.replicate 32 1, Vector.replicate 16 2, Vector.replicate 16 3, Vector.replicate 32 4⟩ :=
  (C46_hsalsa 10).2 _ _

open Trace in
/-- **C46**: Rabbit has the property as well. -/
theorem C46_rabbit (m : Mode) :
    (∀ s : Trace.Rabbit.Mem, ∃ g tmp, (Trace.Rabbit.nextBlock m).result s =
      (Rabbit.genBlock m ⟨s.x, s.c, s.carry⟩).map fun p => ((), ⟨p.2.x, p.2.c, p.2.carry, g, tmp, p.1⟩)) ∧
    ∀ s s' : Trace.Rabbit.Mem, (Trace.Rabbit.nextBlock m).trace s = (Trace.Rabbit.nextBlock m).trace s' := by
  refine ⟨fun s => Trace.Rabbit.nextBlock_result m s, fun s s' => ?_⟩
  obtain ⟨_, _, h⟩ := Trace.Rabbit.nextBlock_result m s
  obtain ⟨_, _, h'⟩ := Trace.Rabbit.nextBlock_result m s'
  rw [Rabbit.genBlock_eq] at h h'
  exact (Trace.Rabbit.nextBlock_const m).same s s' _ _ h h'

example : (Trace.Rabbit.nextBlock .debug).trace
      ⟨Vector.replicate 8 0, Vector.replicate 8 0, 0, Vector.replicate 8 0, Vector.replicate 8 0, Vector.replicate 16 0⟩ =
    (Trace.Rabbit.nextBlock .debug).trace
      ⟨Vector.replicate 8 1, Vector.replicate 8 2, 1, Vector.replicate 8 3, Vector.replicate 8 4, Vector.replicate 16 5⟩ :=
  (C46_rabbit .debug).2 _ _

/-- The accesses for the first byte of RC4 output under a key. -/
def Sample.rc4Trace (key : List U8) : Option (List Trace.Acc) :=
  match Rc4.newFromSlice key with
  | .ok (.ok s) => some (Trace.Rc4.prga.trace s)
  | _ => none

theorem Sample.rc4Trace_ne (key key' : List U8)
    (h : Sample.rc4Trace key ≠ Sample.rc4Trace key' ∧ (Sample.rc4Trace key).isSome ∧ (Sample.rc4Trace key').isSome) :
    ∃ s s', Rc4.newFromSlice key = .ok (.ok s) ∧ Rc4.newFromSlice key' = .ok (.ok s') ∧
      Trace.Rc4.prga.trace s ≠ Trace.Rc4.prga.trace s' := by
  obtain ⟨h, h1, h2⟩ := h
  unfold Sample.rc4Trace at h h1 h2
  rcases e1 : Rc4.newFromSlice key with p | p | s
  · rw [e1] at h1; exact nomatch h1
  · rw [e1] at h1; exact nomatch h1
  rcases e2 : Rc4.newFromSlice key' with p | p | s'
  · rw [e2] at h2; exact nomatch h2
  · rw [e2] at h2; exact nomatch h2
  rw [e1, e2] at h
  exact ⟨s, s', rfl, rfl, fun e => h (congrArg some e)⟩

theorem Sample.rc4_differ : Sample.rc4Trace [1] ≠ Sample.rc4Trace [2] ∧ (Sample.rc4Trace [1]).isSome ∧ (Sample.rc4Trace [2]).isSome := by
  decide +kernel

/-- **C46**: RC4 does not have the property: the recording program computes `prga`, and the first output byte under two one-byte keys
touches different entries. -/
theorem C46_rc4 : (∀ s, Trace.Rc4.prga.result s = .ok (Rc4.prga s)) ∧
    ∃ key key' s s', Rc4.newFromSlice key = .ok (.ok s) ∧ Rc4.newFromSlice key' = .ok (.ok s') ∧
      Trace.Rc4.prga.trace s ≠ Trace.Rc4.prga.trace s' :=
  ⟨Trace.Rc4.prga_result, [1], [2], Sample.rc4Trace_ne [1] [2] Sample.rc4_differ⟩

/-- Under the keys `1` and `2` the first output byte is computed with different accesses. -/
example : Sample.rc4Trace [1] ≠ Sample.rc4Trace [2] := Sample.rc4_differ.1

/-- A table with a one at entry 1021. -/
def Sample.table : Vector U32 1024 := (Vector.replicate 1024 0).set 1021 1

/-- **C46**: HC-256 does not have the property. -/
theorem C46_hc256 (m : Mode) (u : Nat) (hu : 16 ≤ u) : (∀ s, (Trace.Hc256.genWord m u).result s = Hc256.genWord m u s) ∧
    ∃ s s' : Hc256.State, (Trace.Hc256.genWord m u).trace s ≠ (Trace.Hc256.genWord m u).trace s' := by
  refine ⟨Trace.Hc256.genWord_result m u, ⟨Vector.replicate 1024 0, Vector.replicate 1024 0, 0⟩,
    ⟨Sample.table, Vector.replicate 1024 0, 0⟩, fun e => ?_⟩
  rw [Trace.Hc256.genWord_trace m u _ rfl, Trace.Hc256.genWord_trace m u _ rfl] at e
  have e := congrArg (·[4]?) e
  dsimp only at e
  rw [Trace.Hc256.half_trace m u hu, Trace.Hc256.half_trace m u hu] at e
  have h1 : Sample.table[1021] = 1#32 := by unfold Sample.table; rw [Vector.getElem_set]; rfl
  have h2 : Sample.table[1] = 0#32 := by unfold Sample.table; rw [Vector.getElem_set, if_neg (by decide), Vector.getElem_replicate]; rfl
  dsimp only at e
  rw [h1, h2, Vector.getElem_replicate, Vector.getElem_replicate] at e
  have hp : 2 ^ 16 ≤ 2 ^ u := Nat.pow_le_pow_right (by decide) hu
  have e1 : Hc256.toUsize u (1#32 ^^^ 0#32) = 1 := Nat.mod_eq_of_lt (by show 1 < 2 ^ u; omega)
  have e0 : Hc256.toUsize u (0#32 ^^^ 0#32) = 0 := Nat.zero_mod _
  rw [e1] at e
  erw [e0] at e
  exact absurd e (by decide)

example : ∃ s s' : Hc256.State, (Trace.Hc256.genWord .debug 32).trace s ≠ (Trace.Hc256.genWord .debug 32).trace s' :=
  (C46_hc256 .debug 32 (by decide)).2

end Verif
