import Verif.Rust.ChaChaRngTrace
import Verif.Proof.TraceRng
import Verif.Props.SrcTraceDispatch
import Verif.Props.SrcRngMachine
/-!
# C94: what can be seen of a run of the text of the generators
-/
namespace Verif.Rust.ChaCha
open Verif.Spec.Rng (RngOp RngObs)
open Verif.ChaCha (Config.Build Config.Detected Config.Impl Config.selectRng)

variable (tgt : Target) {R : Type} [Rounds R]

/-- One call of a generator, as it is compiled and run there, recording - chacha20/src/rng.rs:150-166, 193-338. -/
def Rng.stepIn_tr (x : Circumstances) (r : Rng R) (op : RngOp) : Tr (RngObs × Rng R) :=
  letI := Build.dispatch x.build x.detected
  r.step_tr tgt op

/-- Calls, each in its own circumstances, recording - chacha20/src/rng.rs:150-166, 193-338. -/
def Rng.runIn_tr : List (Circumstances × RngOp) → Rng R → Tr (List RngObs × Rng R)
  | [], r => pure ([], r)
  | (x, op) :: h, r => do
    let (o, r) ← r.stepIn_tr tgt x op
    let (os, r) ← Rng.runIn_tr h r
    return (o :: os, r)

/-- `from_seed`, recording - chacha20/src/rng.rs:142-147. -/
def Rng.startIn_tr (x : Circumstances) (seed : Vector U8 32) : Tr (Rng R) :=
  letI := Build.dispatch x.build x.detected
  Rng.from_seed_tr tgt seed.toList

/-- `==`, in some circumstances, recording - chacha20/src/rng.rs:177-181. -/
def Rng.eqIn_tr (x : Circumstances) (r r' : Rng R) : Tr Bool :=
  letI := Build.dispatch x.build x.detected
  r.eq_tr tgt r'

variable {tgt}

/-! ### Refills -/

theorem dispatch_erases (b : Config.Build) (d : Config.Detected) : letI := Build.dispatch b d; Generator.Erases (ChaChaCore R Legacy) := by
  let _ := Build.dispatch b d
  refine ⟨fun tgt c buffer => ?_⟩
  show (generateTr b d tgt c buffer).1 = (Build.dispatch b d).generate R Legacy tgt c buffer
  rw [generateTr_eq, dispatch_generate]
  cases Config.selectRng b d
  · exact erase_then (Backend_gen_ks_blocks_erase _ _) _
  · exact (erase_then (sse2.rng_inner_erase _ _) _).trans (bind_same _)
  · exact (erase_then (avx2.rng_inner_erase _ _) _).trans (bind_same _)
  · exact erase_then (Backend_gen_ks_blocks_erase _ _) _
  · exact (erase_then (neon.rng_inner_erase _ _) _).trans (bind_same _)

/-- The instructions in the text of the module. -/
def rngUsed : Config.Impl → List String
  | .sse2 => sse2.used41
  | .avx2 => avx2.used
  | .neon => neon.used
  | _ => []

theorem obl_after {α β : Type} {I : List String} {Q : α → β → Prop} {p : List Event} (hp : Conditions p) {m : Tr α} {m' : Tr β} (h : Obl I Q m m') :
    Obl I Q (Tr.after p m) (Tr.after p m') := by
  intro a b ha hb
  obtain ⟨h1, h2, h3⟩ := h a b ha hb
  refine ⟨congrArg (p ++ ·) h1, fun e he => ?_, h3⟩
  rcases List.mem_append.1 he with he | he
  · obtain ⟨x, rfl⟩ := hp e he
    trivial
  · exact h2 e he

theorem dispatch_blind (b : Config.Build) (d : Config.Detected) {I : List String} (hI : ∀ s ∈ rngUsed (Config.selectRng b d), s ∈ I) :
    letI := Build.dispatch b d; Generator.Blind I (ChaChaCore R Legacy) := by
  let _ := Build.dispatch b d
  refine ⟨fun tgt c c' hc buffer buffer' hb => ?_⟩
  show Obl I like (generateTr b d tgt c buffer) (generateTr b d tgt c' buffer')
  rw [generateTr_eq, generateTr_eq]
  refine obl_after (asked_conditions b d).2 ?_
  generalize Config.selectRng b d = i at hI
  have soft : Obl I like (genArmTr (tgt := tgt) .soft c buffer) (genArmTr (tgt := tgt) .soft c' buffer') :=
    .bind (Backend_gen_ks_blocks_obl ⟨c⟩ ⟨c'⟩ hc _ _ hb) fun _ _ h => .pure ⟨trivial, h.2.1, h.2.2⟩
  cases i
  · exact soft
  · exact .bind ((sse2.rng_inner_obl _ _ hc _ _ hb).weaken hI) fun _ _ h => .pure ⟨trivial, h.2.1, h.2.2⟩
  · exact .bind ((avx2.rng_inner_obl _ _ hc _ _ hb).weaken hI) fun _ _ h => .pure ⟨trivial, h.2.1, h.2.2⟩
  · exact soft
  · exact .bind ((neon.rng_inner_obl _ _ hc _ _ hb).weaken hI) fun _ _ h => .pure ⟨trivial, h.2.1, h.2.2⟩

/-! ### Without the record -/

theorem step_erase [Build] [Generator.Erases (ChaChaCore R Legacy)] (r : Rng R) (op : RngOp) : (r.step_tr tgt op).1 = r.step tgt op := by
  cases op <;> simp only [erase, Rng.step_tr, Rng.step]

theorem stepIn_erase (x : Circumstances) (r : Rng R) (op : RngOp) : (r.stepIn_tr tgt x op).1 = r.stepIn tgt x op :=
  letI := Build.dispatch x.build x.detected
  haveI := dispatch_erases (R := R) x.build x.detected
  step_erase r op

theorem runIn_erase (h : List (Circumstances × RngOp)) (r : Rng R) : (Rng.runIn_tr tgt h r).1 = Rng.runIn tgt h r := by
  induction h generalizing r with
  | nil => rfl
  | cons c h ih => simp only [Rng.runIn_tr, Rng.runIn, erase, stepIn_erase, ih]

theorem startIn_erase (x : Circumstances) (seed : Vector U8 32) : (Rng.startIn_tr (R := R) tgt x seed).1 = Rng.startIn tgt x seed :=
  letI := Build.dispatch x.build x.detected
  haveI := dispatch_erases (R := R) x.build x.detected
  Rng_from_seed_erase _

theorem eqIn_erase (x : Circumstances) (r r' : Rng R) : (r.eqIn_tr tgt x r').1 = r.eqIn tgt x r' :=
  letI := Build.dispatch x.build x.detected
  haveI := dispatch_erases (R := R) x.build x.detected
  Rng_eq_erase _ _

/-! ### What is public -/

/-- Two generators that have read as much of their buffers. -/
def Alike (r r' : Rng R) : Prop := ∃ m m' : Verif.ChaCha.Rng, r = reprR R m ∧ r' = reprR R m' ∧ m.index = m'.index

theorem Alike.like {r r' : Rng R} (h : Alike r r') : like r r' := by
  obtain ⟨m, m', rfl, rfl, hi⟩ := h
  exact ⟨like_toList m.core m'.core, like_toList m.results m'.results, hi⟩

/-- A byte of a saved generator that can be seen when it is restored. -/
theorem serialize_nibble {m : Verif.ChaCha.Rng} {mode : Mode} {b : Vector U8 49} (h : m.serialize mode = .ok b) : nibble (b.toList.drop 40) = m.wordOffset % 16 := by
  have hb (v : Vector U8 49) : nibble (v.toList.drop 40) = v[40].toNat % 16 := by
    have h0 : v.toList.drop 40 = v.toList[40]'(by simp) :: v.toList.drop 41 := List.drop_eq_getElem_cons ..
    rw [h0]
    rfl
  rw [hb]
  unfold Verif.ChaCha.Rng.serialize at h
  dsimp only at h
  split at h
  · cases h
  · obtain rfl := Except.ok.inj h
    rw [Vector.getElem_ofFn, dif_neg (by decide), dif_neg (by decide)]
    show BitVec.toNat (Verif.ChaCha.toLeBytes 16 m.getWordPos)[0] % 16 = _
    rw [Verif.ChaCha.toLeBytes_getElem 16 m.getWordPos 0 (by decide), Spec.leByte, BitVec.toNat_ofNat, Verif.ChaCha.Rng.getWordPos]
    generalize (if m.wordOffset ≠ 0 then _ else _ : U64) = c
    rw [BitVec.toNat_and, show ((1#128 <<< 68) - 1#128).toNat = 2 ^ 68 - 1 from rfl, Nat.and_two_pow_sub_one_eq_mod, BitVec.toNat_add, BitVec.toNat_mul,
      BitVec.toNat_ofNat, BitVec.toNat_ofNat]
    omega

/-- The same call, up to what is secret: seeds, streams, and positions but for the word in the block. -/
inductive SameCall : RngOp → RngOp → Prop
  | same (op : RngOp) : SameCall op op
  | wordPos (p p' : U128) (h : p.toNat % 16 = p'.toNat % 16) : SameCall (.setWordPos p) (.setWordPos p')
  | blockPos (p p' : U64) : SameCall (.setBlockPos p) (.setBlockPos p')
  | stream (s s' : U64) : SameCall (.setStream s) (.setStream s')
  | load (b b' : Vector U8 49) (h : b[40].toNat % 16 = b'[40].toNat % 16) : SameCall (.load b) (.load b')

/-- The same calls in the same circumstances. -/
inductive SameCalls : List (Circumstances × RngOp) → List (Circumstances × RngOp) → Prop
  | nil : SameCalls [] []
  | cons (x : Circumstances) {op op' : RngOp} {h h' : List (Circumstances × RngOp)} (ho : SameCall op op') (hh : SameCalls h h') :
      SameCalls ((x, op) :: h) ((x, op') :: h')

theorem Obl.and {α β : Type} {I : List String} {Q P : α → β → Prop} {m : Tr α} {m' : Tr β} (h : Obl I Q m m')
    (hp : ∀ a b, m.1 = .ok a → m'.1 = .ok b → P a b) : Obl I (fun a b => Q a b ∧ P a b) m m' :=
  fun a b ha hb => ⟨(h a b ha hb).1, (h a b ha hb).2.1, (h a b ha hb).2.2, hp a b ha hb⟩

theorem step_obl [Build] [Generator.Erases (ChaChaCore R Legacy)] {I : List String} [Generator.Blind I (ChaChaCore R Legacy)] {r r' : Rng R} (hr : Alike r r') {op op' : RngOp}
    (ho : SameCall op op') : Obl I (fun a b => like a.2 b.2) (r.step_tr tgt op) (r'.step_tr tgt op') := by
  have hl := hr.like
  have nib (b b' : Vector U8 49) (h : b[40].toNat % 16 = b'[40].toNat % 16) : nibble (b.toList.drop 40) = nibble (b'.toList.drop 40) := by
    have h0 (v : Vector U8 49) : v.toList.drop 40 = v.toList[40]'(by simp) :: v.toList.drop 41 := List.drop_eq_getElem_cons ..
    rw [h0, h0]
    exact h
  have word (p p' : U128) (h : p.toNat % 16 = p'.toNat % 16) : Obl I (fun a b => like a.2 b.2) (r.step_tr tgt (.setWordPos p)) (r'.step_tr tgt (.setWordPos p')) :=
    .bind (Rng_set_word_pos_obl p p' h _ _ hl) fun _ _ h => .pure h.2
  have block (p p' : U64) : Obl I (fun a b => like a.2 b.2) (r.step_tr tgt (.setBlockPos p)) (r'.step_tr tgt (.setBlockPos p')) :=
    .bind (Rng_set_block_pos_obl p p' _ _ hl) fun _ _ h => .pure h.2
  have stream (p p' : U64) : Obl I (fun a b => like a.2 b.2) (r.step_tr tgt (.setStream p)) (r'.step_tr tgt (.setStream p')) :=
    .bind (Rng_set_stream_obl p p' _ _ hl) fun _ _ h => .pure h.2
  have load (b b' : Vector U8 49) (h : b[40].toNat % 16 = b'[40].toNat % 16) : Obl I (fun a b => like a.2 b.2) (r.step_tr tgt (.load b)) (r'.step_tr tgt (.load b')) :=
    .bind (Rng_deserialize_state_obl _ _ (like_toList b b') (nib b b' h)) fun _ _ h => .pure h
  cases ho with
  | wordPos p p' h => exact word p p' h
  | blockPos p p' => exact block p p'
  | stream p p' => exact stream p p'
  | load b b' h => exact load b b' h
  | same =>
    cases op with
    | nextU32 => exact .bind (Rng_try_next_u32_obl _ _ hl) fun _ _ h => .pure h.2
    | nextU64 => exact .bind (Rng_try_next_u64_obl _ _ hl) fun _ _ h => .pure h.2
    | fill n => exact .bind (Rng_try_fill_bytes_obl _ _ hl _ _ like.rfl') fun _ _ h => .pure h.2.1
    | setWordPos p => exact word p p rfl
    | setBlockPos p => exact block p p
    | setStream p => exact stream p p
    | getWordPos => exact .bind (Rng_get_word_pos_obl _ _ hl) fun _ _ _ => .pure hl
    | getBlockPos => exact .bind (Rng_get_block_pos_obl _ _ hl) fun _ _ _ => .pure hl
    | getStream => exact .bind (Rng_get_stream_obl _ _ hl) fun _ _ _ => .pure hl
    | getSeed => exact .bind (Rng_get_seed_obl _ _ hl) fun _ _ _ => .pure hl
    | serialize => exact .bind (Rng_serialize_state_obl _ _ hl) fun _ _ _ => .pure hl
    | load b => exact load b b rfl
    | reload =>
      refine .bind (Obl.and (P := fun a b => nibble (a.drop 40) = nibble (b.drop 40)) (Rng_serialize_state_obl _ _ hl) fun a b ha hb => ?_) fun a b hab =>
        .bind (Rng_deserialize_state_obl _ _ hab.1 hab.2) fun _ _ h => .pure h
      obtain ⟨m, m', rfl, rfl, hi⟩ := hr
      rw [Rng_serialize_state_erase, serialize_eq] at ha hb
      cases hm : m.serialize tgt.mode with
      | error p => rw [hm] at ha; exact nomatch ha
      | ok v =>
        cases hm' : m'.serialize tgt.mode with
        | error p => rw [hm'] at hb; exact nomatch hb
        | ok v' =>
          rw [hm] at ha
          rw [hm'] at hb
          obtain rfl := Except.ok.inj ha
          obtain rfl := Except.ok.inj hb
          rw [serialize_nibble hm, serialize_nibble hm', Verif.ChaCha.Rng.wordOffset, Verif.ChaCha.Rng.wordOffset, hi]

theorem stepIn_obl (ht : 16 ≤ tgt.bits) (x : Circumstances) {I : List String} (hI : ∀ s ∈ rngUsed (Config.selectRng x.build x.detected), s ∈ I) {r r' : Rng R} (hr : Alike r r')
    {op op' : RngOp} (ho : SameCall op op') : Obl I (fun a b => Alike a.2 b.2) (r.stepIn_tr tgt x op) (r'.stepIn_tr tgt x op') := by
  have h1 : Obl I (fun a b => like a.2 b.2) (r.stepIn_tr tgt x op) (r'.stepIn_tr tgt x op') := by
    let _ := Build.dispatch x.build x.detected
    have _ := dispatch_erases (R := R) x.build x.detected
    have _ := dispatch_blind (R := R) x.build x.detected hI
    exact step_obl hr ho
  refine (Obl.and (P := fun a b => ∃ m m' : Verif.ChaCha.Rng, a.2 = reprR R m ∧ b.2 = reprR R m') h1 fun a b ha hb => ?_).mono fun a b hab => ?_
  · obtain ⟨m, m', rfl, rfl, hi⟩ := hr
    rw [stepIn_erase, stepIn_eq ht x x.env] at ha hb
    cases hm : Verif.ChaCha.Rng.step tgt.mode (Rounds.count R) x.env m op with
    | error p => rw [hm] at ha; exact nomatch ha
    | ok v =>
      cases hm' : Verif.ChaCha.Rng.step tgt.mode (Rounds.count R) x.env m' op' with
      | error p => rw [hm'] at hb; exact nomatch hb
      | ok v' =>
        rw [hm] at ha
        rw [hm'] at hb
        obtain rfl := Except.ok.inj ha
        obtain rfl := Except.ok.inj hb
        exact ⟨_, _, rfl, rfl⟩
  · obtain ⟨hl, m, m', hm, hm'⟩ := hab
    refine ⟨m, m', hm, hm', ?_⟩
    rw [hm, hm'] at hl
    exact hl.2.2

theorem runIn_obl (ht : 16 ≤ tgt.bits) {I : List String} {h h' : List (Circumstances × RngOp)} (hh : SameCalls h h')
    (hI : ∀ c ∈ h, ∀ s ∈ rngUsed (Config.selectRng c.1.build c.1.detected), s ∈ I) {r r' : Rng R} (hr : Alike r r') :
    Obl I (fun a b => Alike a.2 b.2) (Rng.runIn_tr tgt h r) (Rng.runIn_tr tgt h' r') := by
  induction hh generalizing r r' with
  | nil => exact .pure hr
  | cons x ho hh ih =>
    exact .bind (stepIn_obl ht x (hI _ (List.mem_cons_self ..)) hr ho) fun a b hab =>
      .bind (ih (fun c hc => hI c (List.mem_cons_of_mem _ hc)) hab) fun a b hab => .pure hab

theorem startIn_obl (x : Circumstances) {I : List String} (seed seed' : Vector U8 32) :
    Obl I Alike (Rng.startIn_tr (R := R) tgt x seed) (Rng.startIn_tr (R := R) tgt x seed') := by
  have h1 : Obl I like (Rng.startIn_tr (R := R) tgt x seed) (Rng.startIn_tr (R := R) tgt x seed') := by
    let _ := Build.dispatch x.build x.detected
    exact Rng_from_seed_obl _ _ (like_toList _ _)
  refine (Obl.and (P := fun a b => ∃ m m' : Verif.ChaCha.Rng, a = reprR R m ∧ b = reprR R m') h1 fun a b ha hb => ?_).mono fun a b hab => ?_
  · rw [startIn_erase, startIn_eq] at ha hb
    cases hm : Verif.ChaCha.Rng.fromSeed seed with
    | error p => rw [hm] at ha; exact nomatch ha
    | ok v =>
      cases hm' : Verif.ChaCha.Rng.fromSeed seed' with
      | error p => rw [hm'] at hb; exact nomatch hb
      | ok v' =>
        rw [hm] at ha
        rw [hm'] at hb
        obtain rfl := Except.ok.inj ha
        obtain rfl := Except.ok.inj hb
        exact ⟨_, _, rfl, rfl⟩
  · obtain ⟨hl, m, m', rfl, rfl⟩ := hab
    exact ⟨m, m', rfl, rfl, hl.2.2⟩

/-! ### Comparison -/

/-- What is seen of a comparison: that of the two seeds; whether they agree; if so, that of the two streams; whether both agree; if so, that of the two positions. -/
theorem eq_seen [Build] [Generator.Erases (ChaChaCore R Legacy)] (m m' : Verif.ChaCha.Rng) : ((reprR R m).eq_tr tgt (reprR R m')).2 =
    ((reprR R m).get_seed_tr tgt).2 ++ (((reprR R m').get_seed_tr tgt).2 ++ (.branch (m.getSeed = m'.getSeed) ::
      ((if m.getSeed = m'.getSeed then ((reprR R m).get_stream_tr tgt).2 ++ ((reprR R m').get_stream_tr tgt).2 else []) ++
        (.branch (m.getSeed = m'.getSeed ∧ m.getStream = m'.getStream) ::
          if m.getSeed = m'.getSeed ∧ m.getStream = m'.getStream then ((reprR R m).get_word_pos_tr tgt).2 ++ ((reprR R m').get_word_pos_tr tgt).2 else [])))) := by
  have then_eq {α β : Type} (x : Tr α) (a : α) (h : x.1 = .ok a) (k : α → Tr β) : (x >>= k) = Tr.after x.2 (k a) := by
    obtain ⟨r, t⟩ := x
    cases h
    rfl
  have after_bind {α β : Type} (p : List Event) (x : Tr α) (k : α → Tr β) : (Tr.after p x >>= k) = Tr.after p (x >>= k) := by
    obtain ⟨r, t⟩ := x
    cases r with
    | error e => rfl
    | ok a => exact congrArg (Prod.mk _) (List.append_assoc ..)
  have s1 := (Rng_get_seed_erase (reprR R m)).trans (get_seed_eq (tgt := tgt) m)
  have s2 := (Rng_get_seed_erase (reprR R m')).trans (get_seed_eq (tgt := tgt) m')
  have t1 := (Rng_get_stream_erase (reprR R m)).trans (get_stream_eq (tgt := tgt) m)
  have t2 := (Rng_get_stream_erase (reprR R m')).trans (get_stream_eq (tgt := tgt) m')
  have w1 := (Rng_get_word_pos_erase (reprR R m)).trans (get_word_pos_eq (tgt := tgt) m)
  have w2 := (Rng_get_word_pos_erase (reprR R m')).trans (get_word_pos_eq (tgt := tgt) m')
  have hb : (m.getSeed.toList == m'.getSeed.toList) = decide (m.getSeed = m'.getSeed) := by
    by_cases h : m.getSeed = m'.getSeed
    · rw [h, decide_eq_true rfl]; simp
    · rw [decide_eq_false h]
      exact beq_eq_false_iff_ne.2 fun h' => h (Vector.toList_inj.1 h')
  rw [Rng.eq_tr, then_eq _ _ s1, then_eq _ _ s2, hb, Tr.branch_then]
  by_cases h : m.getSeed = m'.getSeed
  · simp only [h, decide_true, if_true, true_and]
    rw [then_eq _ _ t1, then_eq _ _ t2, after_bind, after_bind, pure_bind, Tr.branch_then]
    have hc : (m.getStream == m'.getStream) = decide (m.getStream = m'.getStream) := rfl
    rw [hc]
    by_cases h' : m.getStream = m'.getStream
    · simp only [h', decide_true, if_true]
      rw [then_eq _ _ w1, then_eq _ _ w2]
      simp [Tr.after, Pure.pure]
      rfl
    · simp only [h', decide_false, if_false]
      simp [Tr.after, Pure.pure]
      rfl
  · simp only [h, decide_false, if_false, false_and]
    rfl

end Verif.Rust.ChaCha

namespace Verif
open Spec Rust
open Verif.Spec.Rng (RngOp RngObs)
open Verif.ChaCha (Config.Build Config.Detected Config.Features)
open Verif.ChaCha.Config (selectRng detect)

/-- All of a run: `from_seed` and then calls, each in its own circumstances, with what is seen of it. -/
def seenOf (tgt : Target) (R : Type) [Rust.ChaCha.Rounds R] (x : Circumstances) (seed : Vector U8 32) (h : List (Circumstances × RngOp)) :
    Tr (List RngObs × Rust.ChaCha.Rng R) := Rust.ChaCha.Rng.startIn_tr tgt x seed >>= Rust.ChaCha.Rng.runIn_tr tgt h

/-- **C94**, the record: without it, the runs are those of C93. -/
theorem C94_erase (tgt : Target) (R : Type) [Rust.ChaCha.Rounds R] (x : Circumstances) (seed : Vector U8 32) (h : List (Circumstances × RngOp)) :
    (seenOf tgt R x seed h).1 = Rust.ChaCha.Rng.startIn (R := R) tgt x seed >>= Rust.ChaCha.Rng.runIn tgt h := by
  rw [seenOf, Tr.bind_fst, Rust.ChaCha.startIn_erase]
  exact congrArg _ (funext fun r => Rust.ChaCha.runIn_erase h r)

theorem seen_obl {tgt : Target} (ht : 16 ≤ tgt.bits) {R : Type} [Rust.ChaCha.Rounds R] (x : Circumstances) (seed seed' : Vector U8 32) {I : List String}
    {h h' : List (Circumstances × RngOp)} (hh : Rust.ChaCha.SameCalls h h')
    (hI : ∀ c ∈ h, ∀ s ∈ Rust.ChaCha.rngUsed (selectRng c.1.build c.1.detected), s ∈ I) :
    Obl I (fun a b => Rust.ChaCha.Alike a.2 b.2) (seenOf tgt R x seed h) (seenOf tgt R x seed' h') :=
  .bind (Rust.ChaCha.startIn_obl x seed seed') fun _ _ hr => Rust.ChaCha.runIn_obl ht hh hI hr

/-- The instructions of all modules for the generators. -/
def rngNames : List String := Rust.ChaCha.sse2.used41 ++ Rust.ChaCha.avx2.used ++ Rust.ChaCha.neon.used

theorem mem_rngNames (i : ChaCha.Config.Impl) : ∀ s ∈ Rust.ChaCha.rngUsed i, s ∈ rngNames := by
  intro s hs
  cases i <;> simp only [Rust.ChaCha.rngUsed, rngNames, List.mem_append, List.not_mem_nil] at hs ⊢
  · exact .inl (.inl hs)
  · exact .inl (.inr hs)
  · exact .inr hs

/-- **C94**.  Nothing secret can be seen of the text of the generators: two histories of the same calls in the same circumstances, on generators of any two seeds, with any
streams, any block positions, any saved seeds and streams, and word positions that agree modulo 16, have the same conditions, places and instructions, unless one of them
panics. -/
theorem C94_blind (tgt : Target) (ht : 16 ≤ tgt.bits) (R : Type) [Rust.ChaCha.Rounds R] (x : Circumstances) (seed seed' : Vector U8 32)
    (h h' : List (Circumstances × RngOp)) (hh : Rust.ChaCha.SameCalls h h') (hok : (seenOf tgt R x seed h).1.isOk) (hok' : (seenOf tgt R x seed' h').1.isOk) :
    (seenOf tgt R x seed h).2 = (seenOf tgt R x seed' h').2 := by
  have ho := seen_obl ht (R := R) x seed seed' hh (I := rngNames) fun c _ => mem_rngNames _
  cases h1 : (seenOf tgt R x seed h).1 with
  | error p => rw [h1] at hok; cases hok
  | ok a =>
    cases h2 : (seenOf tgt R x seed' h').1 with
    | error p => rw [h2] at hok'; cases hok'
    | ok b => exact (ho a b h1 h2).1

theorem SameCalls.no_get {h h' : List (Circumstances × RngOp)} (hh : Rust.ChaCha.SameCalls h h') (hq : ∀ c ∈ h, c.2 ≠ .getBlockPos) : ∀ c ∈ h', c.2 ≠ .getBlockPos := by
  induction hh with
  | nil => exact fun _ hc => nomatch hc
  | cons x ho hh ih =>
    intro c hc
    rcases List.mem_cons.1 hc with rfl | hc
    · have := hq _ (List.mem_cons_self ..)
      cases ho <;> first | exact this | nofun
    · exact ih (fun c hc => hq c (List.mem_cons_of_mem _ hc)) c hc

/-- **C94**, no panics: with overflow checks off, or without `get_block_pos`, neither run panics, so the same is seen of both. -/
theorem C94_same (tgt : Target) (ht : 16 ≤ tgt.bits) (R : Type) [Rust.ChaCha.Rounds R] (x : Circumstances) (seed seed' : Vector U8 32)
    (h h' : List (Circumstances × RngOp)) (hh : Rust.ChaCha.SameCalls h h') (hq : tgt.mode = .debug → ∀ c ∈ h, c.2 ≠ .getBlockPos) :
    SameEvents (seenOf tgt R x seed h) (seenOf tgt R x seed' h') := by
  have ok (seed : Vector U8 32) (h : List (Circumstances × RngOp)) (hq : tgt.mode = .debug → ∀ c ∈ h, c.2 ≠ .getBlockPos) : ∃ a, (seenOf tgt R x seed h).1 = .ok a := by
    obtain ⟨os, r, r₀, h1, h2⟩ := (C93_cursor tgt ht R x seed h).2 hq
    exact ⟨(os, r), (C94_erase tgt R x seed h).trans (by rw [h1]; exact h2)⟩
  obtain ⟨a, ha⟩ := ok seed h hq
  obtain ⟨b, hb⟩ := ok seed' h' fun hm => SameCalls.no_get hh (hq hm)
  exact ⟨C94_blind tgt ht R x seed seed' h h' hh (by rw [ha]; rfl) (by rw [hb]; rfl), ⟨a, ha⟩, ⟨b, hb⟩⟩

/-- The instructions that may be executed on a processor. -/
def rngAllowed (cpu : Config.Features) : List String :=
  rngNames.filter fun s => decide (Spec.Isa.Has (featureNames cpu) s ∨ s = "_mm_extract_epi32" ∧ cpu.sse41 = false)

theorem rngUsed_allowed (b : Config.Build) (cpu : Config.Features) (hl : ChaCha.Isa.Lawful cpu) (hr : TextRuns b cpu) :
    ∀ s ∈ Rust.ChaCha.rngUsed (selectRng b (detect cpu)), s ∈ rngAllowed cpu := by
  obtain ⟨h1, h2, h4⟩ := ChaCha.selectRng_has b cpu hl hr.runs
  generalize selectRng b (detect cpu) = i at *
  intro s hs
  refine List.mem_filter.2 ⟨mem_rngNames i s hs, decide_eq_true ?_⟩
  cases i with
  | soft => cases hs
  | avx512 => cases hs
  | sse2 =>
    have k1 := h1 rfl
    have hh : Spec.Isa.Has Spec.Isa.sse41 s := (by decide : ∀ s ∈ Rust.ChaCha.sse2.used41, Spec.Isa.Has Spec.Isa.sse41 s) s hs
    cases h41 : cpu.sse41
    · rcases has_sse41 hh with hx | hx
      · exact .inl (has_mono (by simp [mem_featureNames, Spec.Isa.sse2, k1]) hx)
      · exact .inr ⟨hx, rfl⟩
    · exact .inl (has_mono (by simp [mem_featureNames, Spec.Isa.sse41, Spec.Isa.sse2, k1, h41]) hh)
  | avx2 =>
    have hh : Spec.Isa.Has Spec.Isa.avx2 s := (by decide : ∀ s ∈ Rust.ChaCha.avx2.used, Spec.Isa.Has Spec.Isa.avx2 s) s hs
    have k2 := h2 rfl
    have k1 := hl.avx2 k2
    exact .inl (has_mono (by simp [mem_featureNames, Spec.Isa.avx2, Spec.Isa.sse41, Spec.Isa.sse2, k2, k1, hl.avx k1, hl.sse41 (hl.avx k1)]) hh)
  | neon =>
    have hh : Spec.Isa.Has Spec.Isa.neon s := (by decide : ∀ s ∈ Rust.ChaCha.neon.used, Spec.Isa.Has Spec.Isa.neon s) s hs
    exact .inl (has_mono (by simp [mem_featureNames, Spec.Isa.neon, h4 rfl]) hh)

/-- **C94**, instructions: on a processor that has what the targets of the builds promise, every instruction executed by a run that does not panic is one of that
processor, except that `_mm_extract_epi32` may be executed without SSE4.1. -/
theorem C94_instructions (cpu : Config.Features) (hl : ChaCha.Isa.Lawful cpu) (tgt : Target) (ht : 16 ≤ tgt.bits) (R : Type) [Rust.ChaCha.Rounds R] (x : Circumstances)
    (seed : Vector U8 32) (h : List (Circumstances × RngOp)) (hc : ∀ c ∈ h, c.1.detected = detect cpu ∧ TextRuns c.1.build cpu) (hok : (seenOf tgt R x seed h).1.isOk)
    (s : String) (hs : Event.instr s ∈ (seenOf tgt R x seed h).2) : Spec.Isa.Has (featureNames cpu) s ∨ s = "_mm_extract_epi32" ∧ cpu.sse41 = false := by
  have refl : ∀ h : List (Circumstances × RngOp), Rust.ChaCha.SameCalls h h := fun h => by
    induction h with
    | nil => exact .nil
    | cons c h ih => exact .cons c.1 (.same _) ih
  have ho := seen_obl ht (R := R) x seed seed (refl h) (I := rngAllowed cpu) fun c hm => by
    obtain ⟨h1, h2⟩ := hc c hm
    rw [h1]
    exact rngUsed_allowed c.1.build cpu hl h2
  cases h1 : (seenOf tgt R x seed h).1 with
  | error p => rw [h1] at hok; cases hok
  | ok a => exact of_decide_eq_true (List.mem_filter.1 ((ho a a h1 h1).2.1 _ hs)).2

/-- A generator that some calls, compiled and run in some way, can lead to. -/
def Reachable (tgt : Target) (R : Type) [Rust.ChaCha.Rounds R] (r : Rust.ChaCha.Rng R) : Prop := ∃ x seed h os, DrawnIn tgt R x seed h os r

/-- **C94**, comparison: `==` is an exception.  Of two comparisons of generators that have read as much of their buffers the same is seen exactly if the seeds agree in both or in
neither, and, if they agree, the streams agree in both or in neither. -/
theorem C94_eq (tgt : Target) (ht : 16 ≤ tgt.bits) (R : Type) [Rust.ChaCha.Rounds R] (x : Circumstances) (a a' b b' : Rust.ChaCha.Rng R) (ha : Reachable tgt R a)
    (ha' : Reachable tgt R a') (hb : Reachable tgt R b) (hb' : Reachable tgt R b') (hi : a.core.index = b.core.index) (hi' : a'.core.index = b'.core.index) :
    (a.eqIn_tr tgt x a').2 = (b.eqIn_tr tgt x b').2 ↔
      (a.get_seed tgt = a'.get_seed tgt ↔ b.get_seed tgt = b'.get_seed tgt) ∧
      (a.get_seed tgt = a'.get_seed tgt → (a.get_stream tgt = a'.get_stream tgt ↔ b.get_stream tgt = b'.get_stream tgt)) := by
  obtain ⟨_, _, _, _, ha⟩ := ha
  obtain ⟨_, _, _, _, ha'⟩ := ha'
  obtain ⟨_, _, _, _, hb⟩ := hb
  obtain ⟨_, _, _, _, hb'⟩ := hb'
  obtain ⟨a, rfl, -⟩ := ha.reach ht
  obtain ⟨a', rfl, -⟩ := ha'.reach ht
  obtain ⟨b, rfl, -⟩ := hb.reach ht
  obtain ⟨b', rfl, -⟩ := hb'.reach ht
  let _ := Rust.ChaCha.Build.dispatch x.build x.detected
  have _ := Rust.ChaCha.dispatch_erases (R := R) x.build x.detected
  have _ := Rust.ChaCha.dispatch_blind (R := R) x.build x.detected (mem_rngNames _)
  have seen (a b : ChaCha.Rng) (hi : a.index = b.index) :
      ((Rust.ChaCha.reprR R a).get_seed_tr tgt).2 = ((Rust.ChaCha.reprR R b).get_seed_tr tgt).2 ∧
      ((Rust.ChaCha.reprR R a).get_stream_tr tgt).2 = ((Rust.ChaCha.reprR R b).get_stream_tr tgt).2 ∧
      ((Rust.ChaCha.reprR R a).get_word_pos_tr tgt).2 = ((Rust.ChaCha.reprR R b).get_word_pos_tr tgt).2 := by
    have hl := Rust.ChaCha.Alike.like (R := R) ⟨a, b, rfl, rfl, hi⟩
    refine ⟨?_, ?_, ?_⟩
    · exact (Rust.ChaCha.Rng_get_seed_obl (I := rngNames) _ _ hl _ _ ((Rust.ChaCha.Rng_get_seed_erase _).trans (Rust.ChaCha.get_seed_eq a))
        ((Rust.ChaCha.Rng_get_seed_erase _).trans (Rust.ChaCha.get_seed_eq b))).1
    · exact (Rust.ChaCha.Rng_get_stream_obl (I := rngNames) _ _ hl _ _ ((Rust.ChaCha.Rng_get_stream_erase _).trans (Rust.ChaCha.get_stream_eq a))
        ((Rust.ChaCha.Rng_get_stream_erase _).trans (Rust.ChaCha.get_stream_eq b))).1
    · exact (Rust.ChaCha.Rng_get_word_pos_obl (I := rngNames) _ _ hl _ _ ((Rust.ChaCha.Rng_get_word_pos_erase _).trans (Rust.ChaCha.get_word_pos_eq a))
        ((Rust.ChaCha.Rng_get_word_pos_erase _).trans (Rust.ChaCha.get_word_pos_eq b))).1
  obtain ⟨s1, t1, w1⟩ := seen a b hi
  obtain ⟨s2, t2, w2⟩ := seen a' b' hi'
  have seed (a a' : ChaCha.Rng) : (Rust.ChaCha.reprR R a).get_seed tgt = (Rust.ChaCha.reprR R a').get_seed tgt ↔ a.getSeed = a'.getSeed := by
    rw [Rust.ChaCha.get_seed_eq, Rust.ChaCha.get_seed_eq, Except.ok.injEq, Vector.toList_inj]
  have stream (a a' : ChaCha.Rng) : (Rust.ChaCha.reprR R a).get_stream tgt = (Rust.ChaCha.reprR R a').get_stream tgt ↔ a.getStream = a'.getStream := by
    rw [Rust.ChaCha.get_stream_eq, Rust.ChaCha.get_stream_eq, Except.ok.injEq]
  show ((Rust.ChaCha.reprR R a).eq_tr tgt (Rust.ChaCha.reprR R a')).2 = ((Rust.ChaCha.reprR R b).eq_tr tgt (Rust.ChaCha.reprR R b')).2 ↔ _
  rw [Rust.ChaCha.eq_seen, Rust.ChaCha.eq_seen, s1, t1, w1, s2, t2, w2, seed, seed, stream, stream]
  by_cases h1 : a.getSeed = a'.getSeed <;> by_cases h2 : b.getSeed = b'.getSeed <;> by_cases h3 : a.getStream = a'.getStream <;>
    by_cases h4 : b.getStream = b'.getStream <;> simp [h1, h2, h3, h4]

/-- Two seeds, two streams, two positions: the same is seen on any machine. -/
example (x y : Circumstances) (seed seed' : Vector U8 32) (s s' : U64) (p : U64) : SameEvents
    (seenOf ⟨.debug, 64⟩ Rust.ChaCha.R20 x seed [(x, .setStream s), (y, .setWordPos 35), (y, .nextU64), (x, .setBlockPos p), (x, .fill 100), (y, .reload), (x, .nextU32)])
    (seenOf ⟨.debug, 64⟩ Rust.ChaCha.R20 x seed' [(x, .setStream s'), (y, .setWordPos 0x700000003), (y, .nextU64), (x, .setBlockPos 0), (x, .fill 100), (y, .reload), (x, .nextU32)]) :=
  C94_same _ (by decide) _ _ _ _ _ _ (.cons _ (.stream _ _) <| .cons _ (.wordPos _ _ rfl) <| .cons _ (.same _) <| .cons _ (.blockPos _ _) <| .cons _ (.same _) <|
    .cons _ (.same _) <| .cons _ (.same _) .nil) (by simp)

/-- The condition on word positions is needed: the word in the block can be seen. -/
example : let t (p : U128) := (seenOf ⟨.release, 32⟩ Rust.ChaCha.R8 Sample.portable (Sample.bytes 32 0) [(Sample.portable, .setWordPos p), (Sample.portable, .nextU32)]).2
    t 35 = t 3 ∧ t 35 ≠ t 36 := by
  refine ⟨(C94_same ⟨.release, 32⟩ (by decide) _ _ _ _ _ _ (.cons _ (.wordPos 35 3 rfl) <| .cons _ (.same .nextU32) .nil) nofun).1, fun h => ?_⟩
  have h1 : (seenOf ⟨.release, 32⟩ Rust.ChaCha.R8 Sample.portable (Sample.bytes 32 0) [(Sample.portable, .setWordPos 35), (Sample.portable, .nextU32)]).2.getLast? =
    some (.index 3) := by decide +kernel
  have h2 : (seenOf ⟨.release, 32⟩ Rust.ChaCha.R8 Sample.portable (Sample.bytes 32 0) [(Sample.portable, .setWordPos 36), (Sample.portable, .nextU32)]).2.getLast? =
    some (.index 4) := by decide +kernel
  exact absurd (h1.symm.trans ((congrArg List.getLast? h).trans h2)) (by simp)

/-- A comparison with a generator of another seed can be told from a comparison with a generator of the same seed. -/
example (x : Circumstances) (a b : Rust.ChaCha.Rng Rust.ChaCha.R20) (ha : Reachable ⟨.debug, 64⟩ _ a) (hb : Reachable ⟨.debug, 64⟩ _ b) (hi : a.core.index = b.core.index)
    (hs : a.get_seed ⟨.debug, 64⟩ ≠ b.get_seed ⟨.debug, 64⟩) : (a.eqIn_tr ⟨.debug, 64⟩ x a).2 ≠ (a.eqIn_tr ⟨.debug, 64⟩ x b).2 := by
  rw [Ne, C94_eq _ (by decide) _ x a a a b ha ha ha hb rfl hi]
  exact fun h => hs (h.1.1 rfl)

end Verif
