import Verif.Proof.TraceDispatch
import Verif.Props.SrcTrace
/-!
# C91: what can be seen of a run of the text of the dispatchers, in every build on every processor
-/
namespace Verif
open Rust
open Verif.ChaCha (Config.Build Config.Detected Config.Impl Config.Forgotten Config.Features)
open Verif.ChaCha.Config (select selectRng detect)

/-- The names of the features of a processor. -/
def featureNames (c : Config.Features) : List String :=
  (if c.sse2 then ["sse2"] else []) ++ (if c.sse41 then ["sse4.1"] else []) ++ (if c.avx then ["avx"] else []) ++ (if c.avx2 then ["avx2"] else []) ++
    (if c.avx512f then ["avx512f"] else []) ++ (if c.avx512vl then ["avx512vl"] else []) ++ (if c.neon then ["neon"] else [])

/-- The processor has what the target promises, the compiler does not stop with a message, and the text is coherent. -/
structure TextRuns (b : Config.Build) (cpu : Config.Features) : Prop where
  compiles : Item.compileError ∉ Rust.ChaCha.dispatch.tokensType b
  coherent : TextCoherent b
  target : ∀ n ∈ featureNames b.target, n ∈ featureNames cpu

/-- Neither run panics, and the same things are seen of both. -/
def SameEvents {α β : Type} (m : Tr α) (m' : Tr β) : Prop := m.2 = m'.2 ∧ (∃ a, m.1 = .ok a) ∧ ∃ a, m'.1 = .ok a

theorem has_mono {l l' : List String} (h : ∀ n ∈ l, n ∈ l') {s : String} (hs : Spec.Isa.Has l s) : Spec.Isa.Has l' s :=
  let ⟨row, h1, h2, h3⟩ := hs
  ⟨row, h1, h _ h2, h3⟩

theorem has_sse41 {s : String} (h : Spec.Isa.Has Spec.Isa.sse41 s) : Spec.Isa.Has Spec.Isa.sse2 s ∨ s = "_mm_extract_epi32" := by
  simp only [Spec.Isa.Has, Spec.Isa.table, Spec.Isa.sse41, Spec.Isa.sse2] at h ⊢
  simp at h ⊢
  exact h

theorem mem_featureNames {c : Config.Features} {n : String} : n ∈ featureNames c ↔
    c.sse2 = true ∧ n = "sse2" ∨ c.sse41 = true ∧ n = "sse4.1" ∨ c.avx = true ∧ n = "avx" ∨ c.avx2 = true ∧ n = "avx2" ∨
      c.avx512f = true ∧ n = "avx512f" ∨ c.avx512vl = true ∧ n = "avx512vl" ∨ c.neon = true ∧ n = "neon" := by
  simp only [featureNames, List.mem_append, List.mem_ite_nil_right, List.mem_singleton, or_assoc]

theorem TextRuns.runs {b : Config.Build} {cpu : Config.Features} (h : TextRuns b cpu) : ChaCha.Isa.Runs b cpu := by
  have hc := (C88_error b).not.1 h.compiles
  refine ⟨?_, (ChaCha.C42_coherent b).2 ((C88_coherent b).1 h.coherent), fun f hf => ?_⟩
  · obtain ⟨backend, cfg512, arch, ⟨f1, f2, f3, f4, f5, f6, neon⟩, rng⟩ := b
    dsimp only at hc
    rcases backend with _ | (_ | _ | _ | _) <;> cases cfg512 <;> cases arch <;>
      simp_all [ChaCha.Config.compileError, ChaCha.Config.Build.isX86, ChaCha.Config.Build.forced512]
  · have ht := h.target
    simp only [mem_featureNames] at ht
    cases f
    · show cpu.sse2 = true
      simpa using ht "sse2" (by simpa using (show b.target.sse2 = true from hf))
    · show cpu.sse41 = true
      simpa using ht "sse4.1" (by simpa using (show b.target.sse41 = true from hf))
    · show cpu.avx = true
      simpa using ht "avx" (by simpa using (show b.target.avx = true from hf))
    · show cpu.avx2 = true
      simpa using ht "avx2" (by simpa using (show b.target.avx2 = true from hf))
    · show cpu.avx512f = true
      simpa using ht "avx512f" (by simpa using (show b.target.avx512f = true from hf))
    · show cpu.avx512vl = true
      simpa using ht "avx512vl" (by simpa using (show b.target.avx512vl = true from hf))
    · show cpu.neon = true
      simpa using ht "neon" (by simpa using (show b.target.neon = true from hf))

/-- What is seen after a step that only puts the result together. -/
theorem same_then {α β γ δ : Type} {p : List Event} (hp : Rust.ChaCha.Conditions p) {features : List String} {m : Tr α} {m' : Tr β} (h : SameSeen features m m')
    (k : α → γ) (k' : β → δ) : SameEvents (Tr.after p (m >>= fun a => pure (k a))) (Tr.after p (m' >>= fun a => pure (k' a))) ∧
      ∀ s, Event.instr s ∈ (Tr.after p (m >>= fun a => pure (k a))).2 → Spec.Isa.Has features s := by
  obtain ⟨r, t⟩ := m
  obtain ⟨r', t'⟩ := m'
  obtain ⟨h1, ⟨a, h2⟩, ⟨a', h3⟩, h4⟩ := h
  dsimp only at h1 h2 h3 h4
  subst h1 h2 h3
  refine ⟨⟨rfl, ⟨_, rfl⟩, ⟨_, rfl⟩⟩, fun s hs => ?_⟩
  rcases List.mem_append.1 hs with hs | hs
  · obtain ⟨x, hx⟩ := hp _ hs
    cases hx
  · exact h4 s (by simpa using (show Event.instr s ∈ t ++ [] from hs))

theorem erase_then {α γ : Type} {p : List Event} {m : Tr α} {r : Except Panic α} (h : m.1 = r) (k : α → γ) :
    (Tr.after p (m >>= fun a => pure (k a))).1 = r >>= fun a => pure (k a) := by
  obtain ⟨x, t⟩ := m
  cases h
  cases x <;> rfl

/-- **C91**.  The Rust text of `process_with_backend`, in every build that compiles, on every processor that has what the build's target promises: for all keys, nonces and
counters, and all clients that make the same requests, the same conditions, places and instructions are seen; and the processor has every instruction that is executed,
except that with a 64-bit counter `_mm_extract_epi32` may be executed on a processor without SSE4.1. -/
theorem C91_process (b : Config.Build) (cpu : Config.Features) (hl : ChaCha.Isa.Lawful cpu) (hr : TextRuns b cpu) (tgt : Target) (ht : 16 ≤ tgt.bits) (R V : Type)
    [Rust.ChaCha.Rounds R] [Rust.ChaCha.Variant V]
    (hV : RInt.width (Rust.ChaCha.Variant.Counter V) = 32 ∨ RInt.width (Rust.ChaCha.Variant.Counter V) = 64) (α : Type) (f f' : Closure 64 α)
    (hf : ∀ n, SameRequests n (f n) (f' n)) (s s' : Vector U32 16) :
    SameEvents (Rust.ChaCha.processTr b (detect cpu) tgt (⟨s.toList, ()⟩ : Rust.ChaCha.ChaChaCore R V) (Callee.ready f))
      (Rust.ChaCha.processTr b (detect cpu) tgt (⟨s'.toList, ()⟩ : Rust.ChaCha.ChaChaCore R V) (Callee.ready f')) ∧
    (∀ x, Event.instr x ∈ (Rust.ChaCha.processTr b (detect cpu) tgt (⟨s.toList, ()⟩ : Rust.ChaCha.ChaChaCore R V) (Callee.ready f)).2 →
      Spec.Isa.Has (featureNames cpu) x ∨ x = "_mm_extract_epi32" ∧ RInt.width (Rust.ChaCha.Variant.Counter V) = 64 ∧ cpu.sse41 = false) ∧
    (Rust.ChaCha.processTr b (detect cpu) tgt (⟨s.toList, ()⟩ : Rust.ChaCha.ChaChaCore R V) (Callee.ready f)).1 =
      (Rust.ChaCha.Process.dispatch b (detect cpu)).run R V tgt ⟨s.toList, ()⟩ (Callee.ready f) := by
  obtain ⟨h1, h2, h3, h4⟩ := ChaCha.select_has b cpu hr.runs
  have hp := (Rust.ChaCha.asked_conditions b (detect cpu)).1
  rw [Rust.ChaCha.processTr_eq, Rust.ChaCha.processTr_eq, Rust.ChaCha.dispatch_run]
  generalize select b (detect cpu) = i at *
  have hm (l : List String) (hh : ∀ n ∈ l, n ∈ featureNames cpu) (x : String) (h : Spec.Isa.Has l x) :
      Spec.Isa.Has (featureNames cpu) x ∨ x = "_mm_extract_epi32" ∧ RInt.width (Rust.ChaCha.Variant.Counter V) = 64 ∧ cpu.sse41 = false := .inl (has_mono hh h)
  cases i with
  | soft =>
    obtain ⟨ha, he⟩ := C90_soft tgt R V hV α f f' hf s s'
    obtain ⟨hs, hi⟩ := same_then hp ha (fun r => ((), r.2.2.f0, r.2.1)) (fun r => ((), r.2.2.f0, r.2.1))
    exact ⟨hs, fun x hx => hm [] nofun x (hi x hx), erase_then he _⟩
  | sse2 =>
    have k1 := h1 rfl
    rcases hV with h32 | h64
    · obtain ⟨ha, he⟩ := C90_sse2_ietf tgt ht R V h32 α f f' hf s s'
      obtain ⟨hs, hi⟩ := same_then hp ha (fun r => ((), (⟨r.2.1, ()⟩ : Rust.ChaCha.ChaChaCore R V), r.2.2)) (fun r => ((), (⟨r.2.1, ()⟩ : Rust.ChaCha.ChaChaCore R V), r.2.2))
      exact ⟨hs, fun x hx => hm _ (by simp [mem_featureNames, Spec.Isa.sse2, k1]) x (hi x hx), erase_then he _⟩
    · obtain ⟨ha, he⟩ := C90_sse2 tgt ht R V (.inr h64) α f f' hf s s'
      obtain ⟨hs, hi⟩ := same_then hp ha (fun r => ((), (⟨r.2.1, ()⟩ : Rust.ChaCha.ChaChaCore R V), r.2.2)) (fun r => ((), (⟨r.2.1, ()⟩ : Rust.ChaCha.ChaChaCore R V), r.2.2))
      refine ⟨hs, fun x hx => ?_, erase_then he _⟩
      cases h41 : cpu.sse41
      · rcases has_sse41 (hi x hx) with hx | hx
        · exact .inl (has_mono (by simp [mem_featureNames, Spec.Isa.sse2, k1]) hx)
        · exact .inr ⟨hx, h64, rfl⟩
      · exact .inl (has_mono (by simp [mem_featureNames, Spec.Isa.sse41, Spec.Isa.sse2, k1, h41]) (hi x hx))
  | avx2 =>
    obtain ⟨ha, he⟩ := C90_avx2 tgt ht R V hV α f f' hf s s'
    obtain ⟨hs, hi⟩ := same_then hp ha (fun r => ((), (⟨r.2.1, ()⟩ : Rust.ChaCha.ChaChaCore R V), r.2.2)) (fun r => ((), (⟨r.2.1, ()⟩ : Rust.ChaCha.ChaChaCore R V), r.2.2))
    exact ⟨hs, fun x hx => hm _ (by
      have k2 := h2 rfl
      have k1 := hl.avx2 k2
      simp [mem_featureNames, Spec.Isa.avx2, Spec.Isa.sse41, Spec.Isa.sse2, k2, k1, hl.avx k1, hl.sse41 (hl.avx k1)]) x (hi x hx), erase_then he _⟩
  | avx512 =>
    obtain ⟨ha, he⟩ := C90_avx512 tgt ht R V hV α f f' hf s s'
    obtain ⟨hs, hi⟩ := same_then hp ha (fun r => ((), (⟨r.2.1, ()⟩ : Rust.ChaCha.ChaChaCore R V), r.2.2)) (fun r => ((), (⟨r.2.1, ()⟩ : Rust.ChaCha.ChaChaCore R V), r.2.2))
    exact ⟨hs, fun x hx => hm _ (by
      have k5 := h3 rfl
      have k2 := hl.f k5.1
      have k1 := hl.avx2 k2
      simp [mem_featureNames, Spec.Isa.avx512, Spec.Isa.avx2, Spec.Isa.sse41, Spec.Isa.sse2, k5, k2, k1, hl.avx k1, hl.sse41 (hl.avx k1)]) x (hi x hx),
      erase_then he _⟩
  | neon =>
    obtain ⟨ha, he⟩ := C90_neon tgt ht R V hV α f f' hf s s'
    obtain ⟨hs, hi⟩ := same_then hp ha (fun r => ((), (⟨r.2.1, ()⟩ : Rust.ChaCha.ChaChaCore R V), r.2.2)) (fun r => ((), (⟨r.2.1, ()⟩ : Rust.ChaCha.ChaChaCore R V), r.2.2))
    exact ⟨hs, fun x hx => hm _ (by simp [mem_featureNames, Spec.Isa.neon, h4 rfl]) x (hi x hx), erase_then he _⟩

/-- **C91**, the text of `generate`: the same, except that `_mm_extract_epi32` may be executed on a processor without SSE4.1 whatever the counter. -/
theorem C91_generate (b : Config.Build) (cpu : Config.Features) (hl : ChaCha.Isa.Lawful cpu) (hr : TextRuns b cpu) (tgt : Target) (ht : 16 ≤ tgt.bits) (R V : Type)
    [Rust.ChaCha.Rounds R] [Rust.ChaCha.Variant V]
    (hV : RInt.width (Rust.ChaCha.Variant.Counter V) = 32 ∨ RInt.width (Rust.ChaCha.Variant.Counter V) = 64) (s s' : Vector U32 16) (buffer buffer' : Vector U32 64) :
    SameEvents (Rust.ChaCha.generateTr b (detect cpu) tgt (⟨s.toList, ()⟩ : Rust.ChaCha.ChaChaCore R V) buffer.toList)
      (Rust.ChaCha.generateTr b (detect cpu) tgt (⟨s'.toList, ()⟩ : Rust.ChaCha.ChaChaCore R V) buffer'.toList) ∧
    (∀ x, Event.instr x ∈ (Rust.ChaCha.generateTr b (detect cpu) tgt (⟨s.toList, ()⟩ : Rust.ChaCha.ChaChaCore R V) buffer.toList).2 →
      Spec.Isa.Has (featureNames cpu) x ∨ x = "_mm_extract_epi32" ∧ cpu.sse41 = false) ∧
    (Rust.ChaCha.generateTr b (detect cpu) tgt (⟨s.toList, ()⟩ : Rust.ChaCha.ChaChaCore R V) buffer.toList).1 =
      (Rust.ChaCha.Build.dispatch b (detect cpu)).generate R V tgt ⟨s.toList, ()⟩ buffer.toList := by
  obtain ⟨h1, h2, h4⟩ := ChaCha.selectRng_has b cpu hl hr.runs
  have hp := (Rust.ChaCha.asked_conditions b (detect cpu)).2
  rw [Rust.ChaCha.generateTr_eq, Rust.ChaCha.generateTr_eq, Rust.ChaCha.dispatch_generate]
  generalize selectRng b (detect cpu) = i at *
  have soft : SameEvents (Tr.after (Rust.ChaCha.askedRng b (detect cpu)) (Rust.ChaCha.genArmTr (tgt := tgt) .soft (⟨s.toList, ()⟩ : Rust.ChaCha.ChaChaCore R V) buffer.toList))
      (Tr.after (Rust.ChaCha.askedRng b (detect cpu)) (Rust.ChaCha.genArmTr (tgt := tgt) .soft (⟨s'.toList, ()⟩ : Rust.ChaCha.ChaChaCore R V) buffer'.toList)) ∧
      (∀ x, Event.instr x ∈ (Tr.after (Rust.ChaCha.askedRng b (detect cpu)) (Rust.ChaCha.genArmTr (tgt := tgt) .soft (⟨s.toList, ()⟩ : Rust.ChaCha.ChaChaCore R V)
        buffer.toList)).2 → Spec.Isa.Has (featureNames cpu) x ∨ x = "_mm_extract_epi32" ∧ cpu.sse41 = false) ∧
      (Tr.after (Rust.ChaCha.askedRng b (detect cpu)) (Rust.ChaCha.genArmTr (tgt := tgt) .soft (⟨s.toList, ()⟩ : Rust.ChaCha.ChaChaCore R V) buffer.toList)).1 =
        Rust.ChaCha.Build.soft.generate R V tgt ⟨s.toList, ()⟩ buffer.toList := by
    obtain ⟨ha, he⟩ := C90_soft_refill tgt ht R V s s' buffer buffer'
    obtain ⟨hs, hi⟩ := same_then hp ha (fun r => ((), r.2.1.f0, r.2.2)) (fun r => ((), r.2.1.f0, r.2.2))
    exact ⟨hs, fun x hx => .inl (has_mono (l := []) (by simp) (hi x hx)), erase_then he _⟩
  cases i with
  | soft => exact soft
  | avx512 => exact soft
  | sse2 =>
    have k1 := h1 rfl
    obtain ⟨ha, he⟩ := C90_sse2_refill tgt ht R V hV s s' buffer buffer'
    obtain ⟨hs, hi⟩ := same_then hp ha (fun r => ((), r.2.1, r.2.2)) (fun r => ((), r.2.1, r.2.2))
    refine ⟨hs, fun x hx => ?_, (erase_then he _).trans (Rust.ChaCha.bind_same _)⟩
    cases h41 : cpu.sse41
    · rcases has_sse41 (hi x hx) with hx | hx
      · exact .inl (has_mono (by simp [mem_featureNames, Spec.Isa.sse2, k1]) hx)
      · exact .inr ⟨hx, rfl⟩
    · exact .inl (has_mono (by simp [mem_featureNames, Spec.Isa.sse41, Spec.Isa.sse2, k1, h41]) (hi x hx))
  | avx2 =>
    obtain ⟨ha, he⟩ := C90_avx2_refill tgt ht R V s s' buffer buffer'
    obtain ⟨hs, hi⟩ := same_then hp ha (fun r => ((), r.2.1, r.2.2)) (fun r => ((), r.2.1, r.2.2))
    exact ⟨hs, fun x hx => .inl (has_mono (by
      have k2 := h2 rfl
      have k1 := hl.avx2 k2
      simp [mem_featureNames, Spec.Isa.avx2, Spec.Isa.sse41, Spec.Isa.sse2, k2, k1, hl.avx k1, hl.sse41 (hl.avx k1)]) (hi x hx)),
      (erase_then he _).trans (Rust.ChaCha.bind_same _)⟩
  | neon =>
    obtain ⟨ha, he⟩ := C90_neon_refill tgt ht R V hV s s' buffer buffer'
    obtain ⟨hs, hi⟩ := same_then hp ha (fun r => ((), r.2.1, r.2.2)) (fun r => ((), r.2.1, r.2.2))
    exact ⟨hs, fun x hx => .inl (has_mono (by simp [mem_featureNames, Spec.Isa.neon, h4 rfl]) (hi x hx)), (erase_then he _).trans (Rust.ChaCha.bind_same _)⟩

/-- **C91**, the exceptions are real: on every x86 processor with SSE2 and without SSE4.1, and so without AVX, a program built without flags executes
`_mm_extract_epi32`, which the processor does not have, in every call of the cipher with a 64-bit counter and in every refill of a generator. -/
theorem C91_sse41 (b : Config.Build) (cpu : Config.Features) (hl : ChaCha.Isa.Lawful cpu) (harch : b.arch = .x86 ∨ b.arch = .x86_64) (hb : b.backend = none)
    (h2 : cpu.sse2 = true) (h41 : cpu.sse41 = false) (tgt : Target) (ht : 16 ≤ tgt.bits) (R V : Type) [Rust.ChaCha.Rounds R] [Rust.ChaCha.Variant V] :
    (RInt.width (Rust.ChaCha.Variant.Counter V) = 64 → ∀ (α : Type) (f : Closure 64 α), (∀ n, SameRequests n (f n) (f n)) → ∀ s : Vector U32 16,
      Event.instr "_mm_extract_epi32" ∈ (Rust.ChaCha.processTr b (detect cpu) tgt (⟨s.toList, ()⟩ : Rust.ChaCha.ChaChaCore R V) (Callee.ready f)).2) ∧
    (RInt.width (Rust.ChaCha.Variant.Counter V) = 32 ∨ RInt.width (Rust.ChaCha.Variant.Counter V) = 64 → ∀ (s : Vector U32 16) (buffer : Vector U32 64),
      Event.instr "_mm_extract_epi32" ∈ (Rust.ChaCha.generateTr b (detect cpu) tgt (⟨s.toList, ()⟩ : Rust.ChaCha.ChaChaCore R V) buffer.toList).2) ∧
    ¬Spec.Isa.Has (featureNames cpu) "_mm_extract_epi32" := by
  have ha : cpu.avx2 = false := by
    cases h : cpu.avx2 with
    | false => rfl
    | true => rw [hl.avx (hl.avx2 h)] at h41; cases h41
  have h5 : cpu.avx512f = false := by
    cases h : cpu.avx512f with
    | false => rfl
    | true => rw [hl.f h] at ha; cases ha
  have hx : b.isX86 = true := by
    rcases harch with h | h <;> simp [ChaCha.Config.Build.isX86, h]
  have e1 : select b (detect cpu) = .sse2 := by
    simp [select, detect, hb, hx, h2, ha, h5, ChaCha.Config.Build.forced512]
  have e2 : selectRng b (detect cpu) = .sse2 := by
    simp [selectRng, detect, hb, hx, h2, ha]
  obtain ⟨h6, h7, -⟩ := C90_sse41 tgt ht R V
  have later {α β : Type} (p : List Event) (m : Tr α) (k : α → β) (x : Event) (h : x ∈ m.2) (hm : ∃ a, m.1 = .ok a) :
      x ∈ (Tr.after p (m >>= fun a => pure (k a))).2 := by
    obtain ⟨r, t⟩ := m
    obtain ⟨a, rfl⟩ := hm
    exact List.mem_append_right _ (List.mem_append_left _ h)
  refine ⟨fun hV α f hf s => ?_, fun hV s buffer => ?_, ?_⟩
  · rw [Rust.ChaCha.processTr_eq, e1]
    exact later _ _ _ _ (h6 hV α f hf s) (C90_sse2 tgt ht R V (.inr hV) α f f hf s s).1.2.1
  · rw [Rust.ChaCha.generateTr_eq, e2]
    exact later _ _ _ _ (h7 hV s buffer) (C90_sse2_refill tgt ht R V hV s s buffer buffer).1.2.1
  · simp [Spec.Isa.Has, Spec.Isa.table, mem_featureNames, h41]

/-- A build without flags for x86-64 runs on a processor with SSE2 and nothing else. -/
theorem Sample.x86_64_runs : TextRuns Sample.x86_64 ⟨true, false, false, false, false, false, false⟩ :=
  ⟨by rw [C88_error]; decide, (C88_coherent _).2 (by rintro ⟨-, h, -⟩; cases h), by decide⟩

/-- On that processor the ciphers with a 32-bit counter run, without a trace of the key, and on instructions that it has. -/
example (s s' : Vector U32 16) (text text' : List (List U8)) (h : text.length = text'.length) :
    SameEvents (Rust.ChaCha.processTr Sample.x86_64 ⟨false, false, true⟩ ⟨.debug, 64⟩ (⟨s.toList, ()⟩ : Rust.ChaCha.ChaChaCore Rust.ChaCha.R20 Rust.ChaCha.Ietf)
      (Callee.ready (applyBlocksClosure text)))
    (Rust.ChaCha.processTr Sample.x86_64 ⟨false, false, true⟩ ⟨.debug, 64⟩ (⟨s'.toList, ()⟩ : Rust.ChaCha.ChaChaCore Rust.ChaCha.R20 Rust.ChaCha.Ietf)
      (Callee.ready (applyBlocksClosure text'))) ∧
    ∀ x, Event.instr x ∈ (Rust.ChaCha.processTr Sample.x86_64 ⟨false, false, true⟩ ⟨.debug, 64⟩ (⟨s.toList, ()⟩ : Rust.ChaCha.ChaChaCore Rust.ChaCha.R20 Rust.ChaCha.Ietf)
      (Callee.ready (applyBlocksClosure text))).2 → Spec.Isa.Has ["sse2"] x := by
  obtain ⟨h1, h2, -⟩ := C91_process Sample.x86_64 ⟨true, false, false, false, false, false, false⟩ (by constructor <;> decide) Sample.x86_64_runs ⟨.debug, 64⟩ (by decide)
    Rust.ChaCha.R20 Rust.ChaCha.Ietf (.inl rfl) _ _ _ (C90_messages.1 _ _ h) s s'
  exact ⟨h1, fun x hx => (h2 x hx).resolve_right fun h => absurd h.2.1 (by decide)⟩

/-- The generators do not run on it. -/
example (s : Vector U32 16) (buffer : Vector U32 64) : ∃ x, Event.instr x ∈ (Rust.ChaCha.generateTr Sample.x86_64 ⟨false, false, true⟩ ⟨.release, 64⟩
    (⟨s.toList, ()⟩ : Rust.ChaCha.ChaChaCore Rust.ChaCha.R20 Rust.ChaCha.Legacy) buffer.toList).2 ∧ ¬Spec.Isa.Has ["sse2"] x :=
  have h := C91_sse41 Sample.x86_64 ⟨true, false, false, false, false, false, false⟩ (by constructor <;> decide) (.inr rfl) rfl rfl rfl ⟨.release, 64⟩ (by decide)
    Rust.ChaCha.R20 Rust.ChaCha.Legacy
  ⟨_, h.2.1 (.inr rfl) s buffer, h.2.2⟩

/-- With `chacha20_avx512` the dispatcher asks for AVX-512 first, then for AVX2, then for SSE2. -/
example : Rust.ChaCha.asked { Sample.x86_64 with avx512Cfg := true } ⟨false, false, true⟩ = [.branch false, .branch false, .branch true] := by decide

end Verif
