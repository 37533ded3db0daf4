import Verif.Model.Isa
/-!
# Configuration and CPU features (C42, C43)
-/
namespace Verif.ChaCha
open Config Isa

/-! ## C42: configuration coherence -/

/-- What the compiler needs of a configuration: the value stored in the `tokens` field has the field's type, each function that takes
the field apart expects that type, and the modules named by the functions exist. -/
structure Config.Coherent (b : Build) : Prop where
  init : tokensInit b = tokensType b
  use : ∀ t, tokensUse b = some t → t = tokensType b
  useRng : b.rng = true → ∀ t, tokensUseRng b = some t → t = tokensType b
  modules : ∀ i ∈ referenced b, i ∈ compiled b
  modulesRng : b.rng = true → ∀ i ∈ referencedRng b, i ∈ compiled b

/-- The one bad combination: x86, `chacha20_backend="avx512"`, no `chacha20_avx512`. -/
def Config.Forgotten (b : Build) : Prop :=
  (b.arch = .x86 ∨ b.arch = .x86_64) ∧ b.backend = some .avx512 ∧ b.avx512Cfg = false

/-- **C42** Every combination of flags, target and features is coherent except the forgotten opt-in. -/
theorem C42_coherent (b : Build) : Coherent b ↔ ¬Forgotten b := by
  obtain ⟨backend, cfg512, arch, target, rng⟩ := b
  obtain ⟨f1, f2, f3, f4, f5, f6, neon⟩ := target
  constructor
  · rintro ⟨h1, -, -, -, -⟩ ⟨h2, h3, h4⟩
    dsimp only at h2 h3 h4
    subst h3 h4
    rcases h2 with rfl | rfl <;> exact absurd h1 (by simp [tokensInit, tokensType, Build.isX86, Build.forced512])
  · intro h
    replace h : ¬((arch = .x86 ∨ arch = .x86_64) ∧ backend = some .avx512 ∧ cfg512 = false) := h
    rcases backend with _ | (_ | _ | _ | _) <;> cases cfg512 <;> cases arch <;> cases rng <;> cases neon <;>
      first
        | exact absurd h (by decide)
        | (constructor <;>
            simp [tokensInit, tokensType, tokensUse, tokensUseRng, referenced, referencedRng, compiled, Build.isX86,
              Build.isNeon, Build.forced512])

/-- The incoherent one. -/
example : ¬Coherent ⟨some .avx512, false, .x86_64, ⟨true, true, true, true, true, true, false⟩, true⟩ :=
  fun h => (C42_coherent _).1 h ⟨.inr rfl, rfl, rfl⟩

/-- In the forgotten combination the initialiser has the type `()` where a pair is wanted. -/
theorem C42_forgotten (b : Build) (h : Forgotten b) : tokensType b = .pair ∧ tokensInit b = .unit := by
  obtain ⟨backend, cfg512, arch, target, rng⟩ := b
  obtain ⟨h2, h3, h4⟩ := h
  dsimp only at h2 h3 h4
  subst h3 h4
  rcases h2 with rfl | rfl <;> simp [tokensInit, tokensType, Build.isX86, Build.forced512]

example : Forgotten ⟨some .avx512, false, .x86_64, ⟨true, true, true, true, true, true, false⟩, true⟩ :=
  ⟨Or.inr rfl, rfl, rfl⟩

/-- **C42** Whatever CPU detection says, both dispatchers pick a backend that was compiled (the RNG dispatcher: if the `rng`
feature, which brings it into existence, is on). -/
theorem C42_dispatch (b : Build) (d : Detected) :
    select b d ∈ compiled b ∧ (b.rng = true → selectRng b d ∈ compiled b) := by
  obtain ⟨backend, cfg512, arch, ⟨f1, f2, f3, f4, f5, f6, neon⟩, rng⟩ := b
  obtain ⟨d1, d2, d3⟩ := d
  rcases backend with _ | (_ | _ | _ | _) <;> cases cfg512 <;> cases arch <;> cases rng <;> cases neon <;> cases d1 <;>
    cases d2 <;> cases d3 <;>
    simp [select, selectRng, compiled, Build.isX86, Build.isNeon, Build.forced512]

/-- A coherent combination in which all the branches matter: AVX-512 compiled in and chosen at run time. -/
example : let b : Build := ⟨none, true, .x86_64, ⟨true, false, false, false, false, false, false⟩, true⟩
    Coherent b ∧ select b ⟨true, true, true⟩ = .avx512 ∧ selectRng b ⟨true, true, true⟩ = .avx2 :=
  ⟨(C42_coherent _).2 (by rintro ⟨-, h, -⟩; cases h), by decide, by decide⟩

/-! ## C43: only detected CPU features are executed -/

/-- Feature sets that exist: each extension comes with the ones it builds on (Intel SDM vol. 1, ch. 14-15; the same
implications hold between Rust's target features). -/
structure Isa.Lawful (c : Features) : Prop where
  vl : c.avx512vl = true → c.avx512f = true
  f : c.avx512f = true → c.avx2 = true
  avx2 : c.avx2 = true → c.avx = true
  avx : c.avx = true → c.sse41 = true
  sse41 : c.sse41 = true → c.sse2 = true

/-- The program was compiled without error for a target of which the CPU is an instance. -/
structure Isa.Runs (b : Build) (cpu : Features) : Prop where
  compiles : compileError b = false
  coherent : Coherent b
  target : ∀ f, has b.target f = true → has cpu f = true

/-- The CPU can execute the instruction. -/
def Isa.Supported (cpu : Features) (x : Intr) : Prop := ∀ f ∈ x.needs, has cpu f = true

theorem mem_times {n : Nat} {l : List Intr} {x : Intr} (h : x ∈ times n l) : x ∈ l := by
  induction n with
  | zero => simp [times] at h
  | succ n ih =>
    rw [times, List.replicate_succ, List.flatten_cons, List.mem_append] at h
    rcases h with h | h
    · exact h
    · exact ih h

/-- All instructions of a list satisfy a predicate. -/
def AllIn (P : Intr → Prop) (l : List Intr) : Prop := ∀ x ∈ l, P x

theorem AllIn.append {P : Intr → Prop} {l l' : List Intr} : AllIn P l → AllIn P l' → AllIn P (l ++ l') := by
  intro h h' x hx
  rcases List.mem_append.1 hx with hx | hx
  · exact h x hx
  · exact h' x hx

theorem AllIn.times {P : Intr → Prop} {l : List Intr} (n : Nat) (h : AllIn P l) : AllIn P (Isa.times n l) :=
  fun x hx => h x (mem_times hx)

theorem AllIn.flatMap {P : Intr → Prop} {rs : List Req} {f : Req → List Intr} (h : ∀ r, AllIn P (f r)) :
    AllIn P (rs.flatMap f) := by
  intro x hx
  obtain ⟨r, _, hx⟩ := List.mem_flatMap.1 hx
  exact h r x hx

theorem AllIn.nil {P : Intr → Prop} : AllIn P [] := fun x hx => by cases hx

theorem AllIn.cons {P : Intr → Prop} {x : Intr} {l : List Intr} (h : P x) (h' : AllIn P l) : AllIn P (x :: l) := by
  intro y hy
  rcases List.mem_cons.1 hy with rfl | hy
  · exact h
  · exact h' y hy

attribute [local irreducible] Isa.times

/-- Decide `AllIn` for concatenations, repetitions and literal lists. -/
macro "all_in" : tactic => `(tactic|
  (repeat' first
    | with_reducible apply AllIn.nil
    | with_reducible apply AllIn.times
    | with_reducible apply AllIn.append
    | with_reducible apply AllIn.cons))

theorem one {cpu : Features} {x : Intr} {f : Feature} (hf : has cpu f = true) (h : x.needs = [f]) : Supported cpu x := by
  intro g hg
  rw [h, List.mem_singleton] at hg
  exact hg ▸ hf

theorem two {cpu : Features} {x : Intr} {f g : Feature} (hf : has cpu f = true) (hg : has cpu g = true)
    (h : x.needs = [f, g]) : Supported cpu x := by
  intro k hk
  rw [h, List.mem_cons, List.mem_singleton] at hk
  rcases hk with hk | hk
  · exact hk ▸ hf
  · exact hk ▸ hg

theorem sse2_ietf (cpu : Features) (h : cpu.sse2 = true) (dr : Nat) (rs : List Req) :
    AllIn (Supported cpu) (Isa.Sse2.inner dr .ietf rs) := by
  have hb : AllIn (Supported cpu) (Isa.Sse2.block dr .ietf) := by
    simp only [Isa.Sse2.block, Isa.Sse2.rounds, Isa.Sse2.addCtr, Isa.Sse2.doubleQuarterRound, Isa.Sse2.addXorRot]
    all_in <;> exact one (f := .sse2) h rfl
  have hr : ∀ r, AllIn (Supported cpu) (Isa.Sse2.req dr .ietf r) := by
    intro r
    cases r with
    | block => exact hb
    | par =>
      simp only [Isa.Sse2.req, Isa.Sse2.par, Isa.Sse2.rounds, Isa.Sse2.addCtr, Isa.Sse2.doubleQuarterRound, Isa.Sse2.addXorRot]
      all_in <;> exact one (f := .sse2) h rfl
    | tail n => exact hb.times n
  simp only [Isa.Sse2.inner]
  refine ((AllIn.append ?_ (AllIn.flatMap hr)).append ?_).append ?_
  · all_in; exact one (f := .sse2) h rfl
  · all_in; exact one (f := .sse2) h rfl
  · rw [if_neg (by decide)]; exact AllIn.nil

theorem avx2_all (cpu : Features) (h0 : cpu.sse2 = true) (h1 : cpu.avx = true) (h2 : cpu.avx2 = true) (dr : Nat)
    (V : Variant) (rs : List Req) : AllIn (Supported cpu) (Isa.Avx2.inner dr V rs) := by
  have hb : AllIn (Supported cpu) (Isa.Avx2.block dr V) := by
    cases V <;> simp only [Isa.Avx2.block, Isa.Avx2.rounds, Isa.Avx2.addCtr, Isa.Avx2.doubleQuarterRound, Isa.Avx2.addXorRot] <;>
      all_in <;> first | exact one (f := .sse2) h0 rfl | exact one (f := .avx) h1 rfl | exact one (f := .avx2) h2 rfl
  have hr : ∀ r, AllIn (Supported cpu) (Isa.Avx2.req dr V r) := by
    intro r
    cases r with
    | block => exact hb
    | par =>
      cases V <;> simp only [Isa.Avx2.req, Isa.Avx2.par, Isa.Avx2.rounds, Isa.Avx2.addCtr, Isa.Avx2.doubleQuarterRound, Isa.Avx2.addXorRot] <;>
        all_in <;> first | exact one (f := .sse2) h0 rfl | exact one (f := .avx) h1 rfl | exact one (f := .avx2) h2 rfl
    | tail n => exact hb.times n
  simp only [Isa.Avx2.inner]
  refine (((AllIn.append ?_ ?_).append (AllIn.flatMap hr)).append ?_).append ?_
  · all_in <;> first | exact one (f := .sse2) h0 rfl | exact one (f := .avx) h1 rfl | exact one (f := .avx2) h2 rfl
  · cases V <;> simp only [Isa.Avx2.addCtr] <;> all_in <;> first | exact one (f := .sse2) h0 rfl | exact one (f := .avx) h1 rfl | exact one (f := .avx2) h2 rfl
  · all_in; exact one (f := .avx) h1 rfl
  · split
    · all_in; exact one (f := .avx) h1 rfl
    · exact AllIn.nil

theorem avx2_rng_all (cpu : Features) (h0 : cpu.sse2 = true) (h1 : cpu.avx = true) (h2 : cpu.avx2 = true) (dr : Nat) :
    AllIn (Supported cpu) (Isa.Avx2.rngInner dr) := by
  simp only [Isa.Avx2.rngInner, Isa.Avx2.rounds, Isa.Avx2.doubleQuarterRound, Isa.Avx2.addXorRot]
  all_in <;> first | exact one (f := .sse2) h0 rfl | exact one (f := .avx) h1 rfl | exact one (f := .avx2) h2 rfl

theorem avx512_full (cpu : Features) (hs : cpu.sse2 = true) (hF : cpu.avx512f = true)
    (dr N : Nat) (V : Variant) (n : Nat) : AllIn (Supported cpu) (Isa.Avx512.fullwidth dr N V n) := by
  cases V <;> simp only [Isa.Avx512.fullwidth, Isa.Avx512.incrementCtr, Isa.Avx512.rounds, Isa.Avx512.doubleQuarterRound] <;>
    all_in <;> first | exact one (f := .sse2) hs rfl | exact one (f := .avx512f) hF rfl

theorem avx512_all (cpu : Features) (h : Lawful cpu) (hv : cpu.avx512vl = true) (dr : Nat)
    (V : Variant) (rs : List Req) : AllIn (Supported cpu) (Isa.Avx512.inner dr V rs) := by
  have hF := h.vl hv
  have h2 := h.f hF
  have h1 := h.avx2 h2
  have h4 := h.avx h1
  have h0 := h.sse41 h4
  have hb : AllIn (Supported cpu) (Isa.Avx512.block dr V) := by
    cases V <;> simp only [Isa.Avx512.block, Isa.Avx512.incrementCtr, Isa.Avx512.roundsQuarterwide] <;>
      all_in <;> (first | exact one (f := .sse2) h0 rfl | exact two (f := .avx512f) (g := .avx512vl) hF hv rfl)
  have hh : ∀ n, AllIn (Supported cpu) (Isa.Avx512.halfwidth dr V n) := by
    intro n
    cases V <;> simp only [Isa.Avx512.halfwidth, Isa.Avx512.incrementCtr, Isa.Avx512.roundsHalfwide] <;>
      all_in <;> (first | first | exact one (f := .sse2) h0 rfl | exact one (f := .avx) h1 rfl | exact one (f := .avx2) h2 rfl | exact two (f := .avx512f) (g := .avx512vl) hF hv rfl)
  have hr : ∀ r, AllIn (Supported cpu) (Isa.Avx512.req dr V r) := by
    intro r
    cases r with
    | block => exact hb
    | par => exact avx512_full cpu h0 hF dr 4 V 16
    | tail n =>
      simp only [Isa.Avx512.req, Isa.Avx512.tail]
      repeat' split
      · exact AllIn.nil
      · exact hb
      · exact hh n
      · exact avx512_full cpu h0 hF dr 1 V n
      · exact avx512_full cpu h0 hF dr 2 V n
      · exact avx512_full cpu h0 hF dr 4 V n
  simp only [Isa.Avx512.inner]
  refine ((AllIn.append ?_ (AllIn.flatMap hr)).append ?_).append ?_
  · all_in; exact two (f := .avx512f) (g := .avx512vl) hF hv rfl
  · all_in; exact one (f := .sse41) h4 rfl
  · split
    · all_in; exact one (f := .sse41) h4 rfl
    · exact AllIn.nil

theorem neon_blocks (cpu : Features) (h : cpu.neon = true) (dr N : Nat) (V : Variant) :
    AllIn (Supported cpu) (Isa.Neon.blocks dr N V) := by
  cases V <;> simp only [Isa.Neon.blocks, Isa.Neon.addCounter, Isa.Neon.doubleQuarterRound, Isa.Neon.addXorRot] <;>
    all_in <;> exact one (f := .neon) h rfl

theorem neon_all (cpu : Features) (h : cpu.neon = true) (dr : Nat) (V : Variant) (rs : List Req) :
    AllIn (Supported cpu) (Isa.Neon.inner dr V rs) := by
  have hb : AllIn (Supported cpu) (Isa.Neon.block dr V) := by
    refine AllIn.append (AllIn.append (neon_blocks cpu h dr 8 V) ?_) ?_
    · all_in; exact one (f := .neon) h rfl
    · cases V <;> simp only [Isa.Neon.addCounter] <;> all_in <;> exact one (f := .neon) h rfl
  have hr : ∀ r, AllIn (Supported cpu) (Isa.Neon.req dr V r) := by
    intro r
    cases r with
    | block => exact hb
    | par => exact neon_blocks cpu h dr 8 V
    | tail n => exact hb.times n
  simp only [Isa.Neon.inner]
  refine (AllIn.append ?_ (AllIn.flatMap hr)).append ?_
  · simp only [Isa.Neon.new]; all_in; exact one (f := .neon) h rfl
  · cases V <;> (dsimp only; all_in; exact one (f := .neon) h rfl)

theorem neon_rng_all (cpu : Features) (h : cpu.neon = true) (dr : Nat) (V : Variant) :
    AllIn (Supported cpu) (Isa.Neon.rngInner dr V) := by
  refine AllIn.append (AllIn.append ?_ (neon_blocks cpu h dr 4 V)) ?_
  · simp only [Isa.Neon.new]; all_in; exact one (f := .neon) h rfl
  · all_in; exact one (f := .neon) h rfl

/-- What the dispatcher's choice says about the CPU. -/
theorem select_has (b : Build) (cpu : Features) (h : Runs b cpu) :
    (select b (detect cpu) = .sse2 → cpu.sse2 = true) ∧ (select b (detect cpu) = .avx2 → cpu.avx2 = true) ∧
      (select b (detect cpu) = .avx512 → cpu.avx512f = true ∧ cpu.avx512vl = true) ∧
      (select b (detect cpu) = .neon → cpu.neon = true) := by
  obtain ⟨hc, -, ht⟩ := h
  have t1 := ht .sse2
  have t2 := ht .avx2
  have t3 := ht .avx512f
  have t4 := ht .avx512vl
  have t5 := ht .neon
  clear ht
  simp only [has] at t1 t2 t3 t4 t5
  have d1 : (detect cpu).avx512 = true → cpu.avx512f = true ∧ cpu.avx512vl = true := by simp [detect]
  have d2 : (detect cpu).avx2 = cpu.avx2 := rfl
  have d3 : (detect cpu).sse2 = cpu.sse2 := rfl
  unfold select
  unfold compileError at hc
  generalize detect cpu = d at *
  refine ⟨?_, ?_, ?_, ?_⟩ <;> intro hs <;> (repeat' split at hs) <;>
    first
      | (cases hs; done)
      | simp_all [Build.isNeon]

theorem selectRng_has (b : Build) (cpu : Features) (hl : Lawful cpu) (h : Runs b cpu) :
    (selectRng b (detect cpu) = .sse2 → cpu.sse2 = true) ∧ (selectRng b (detect cpu) = .avx2 → cpu.avx2 = true) ∧
      (selectRng b (detect cpu) = .neon → cpu.neon = true) := by
  obtain ⟨hc, hcoh, ht⟩ := h
  have hco := (C42_coherent b).1 hcoh
  have t1 := ht .sse2
  have t2 := ht .avx2
  have t3 := ht .avx512f
  have t5 := ht .neon
  have l := hl.f
  clear ht hl hcoh
  simp only [has] at t1 t2 t3 t5
  obtain ⟨backend, cfg512, arch, ⟨f1, f2, f3, f4, f5, f6, neon⟩, rng⟩ := b
  simp only [Forgotten] at hco
  have d2 : (detect cpu).avx2 = cpu.avx2 := rfl
  have d3 : (detect cpu).sse2 = cpu.sse2 := rfl
  unfold selectRng
  unfold compileError at hc
  generalize detect cpu = d at *
  refine ⟨?_, ?_, ?_⟩ <;> intro hs <;> (repeat' split at hs) <;>
    first
      | (cases hs; done)
      | (dsimp only [Build.isNeon, Build.isX86, Build.forced512] at *; simp_all; done)
      | (rcases backend with _ | (_ | _ | _ | _) <;> cases cfg512 <;> cases arch <;>
          dsimp only [Build.isNeon, Build.isX86, Build.forced512] at * <;> simp_all)

/-- The default build for x86-64. -/
def Sample.plain : Build := ⟨none, false, .x86_64, ⟨true, false, false, false, false, false, false⟩, true⟩

/-- A CPU with SSE2 and nothing newer, such as the first x86-64 processors. -/
def Sample.oldCpu : Features := ⟨true, false, false, false, false, false, false⟩

theorem Sample.plain_runs (cpu : Features) (h : cpu.sse2 = true) : Runs Sample.plain cpu where
  compiles := by decide
  coherent := (C42_coherent _).2 (by rintro ⟨-, h, -⟩; cases h)
  target := by intro f hf; cases f <;> first | exact h | cases hf

/-- **C43** In a program that compiled for a target the CPU meets, whatever backend the build flags and CPU detection choose and
whatever blocks the caller asks for, `process_with_backend` executes only vector instructions that the CPU has - unless the
choice is SSE2 and the counter has 64 bits. -/
theorem C43_cipher (b : Build) (cpu : Features) (hl : Lawful cpu) (h : Runs b cpu) (dr : Nat) (V : Variant)
    (hx : ¬(select b (detect cpu) = .sse2 ∧ V = .legacy)) (rs : List Req) :
    ∀ x ∈ executed b (detect cpu) dr V rs, Supported cpu x := by
  obtain ⟨h1, h2, h3, h4⟩ := select_has b cpu h
  unfold executed
  generalize select b (detect cpu) = i at *
  cases i with
  | soft => exact AllIn.nil
  | sse2 =>
    cases V with
    | ietf => exact sse2_ietf cpu (h1 rfl) dr rs
    | legacy => exact absurd ⟨rfl, rfl⟩ hx
  | avx2 =>
    have h2 := h2 rfl
    exact avx2_all cpu (hl.sse41 (hl.avx (hl.avx2 h2))) (hl.avx2 h2) h2 dr V rs
  | avx512 => exact avx512_all cpu hl (h3 rfl).2 dr V rs
  | neon => exact neon_all cpu (h4 rfl) dr V rs

/-- On that CPU the 32-bit-counter cipher runs. -/
example : ∀ x ∈ executed Sample.plain (detect Sample.oldCpu) 10 .ietf [.par, .block, .tail 3], Supported Sample.oldCpu x :=
  C43_cipher _ _ (by constructor <;> decide) (Sample.plain_runs _ rfl) 10 .ietf (by decide) _

/-- **C43** The same for the RNG's refill, unless the choice is SSE2. -/
theorem C43_rng (b : Build) (cpu : Features) (hl : Lawful cpu) (h : Runs b cpu) (dr : Nat) (V : Variant)
    (hx : selectRng b (detect cpu) ≠ .sse2) :
    ∀ x ∈ executedRng b (detect cpu) dr V, Supported cpu x := by
  obtain ⟨h1, h2, h4⟩ := selectRng_has b cpu hl h
  unfold executedRng
  generalize selectRng b (detect cpu) = i at *
  cases i with
  | soft => exact AllIn.nil
  | sse2 => exact absurd rfl hx
  | avx2 =>
    have h2 := h2 rfl
    exact avx2_rng_all cpu (hl.sse41 (hl.avx (hl.avx2 h2))) (hl.avx2 h2) h2 dr
  | avx512 => exact AllIn.nil
  | neon => exact neon_rng_all cpu (h4 rfl) dr V

/-- A program compiled with the AVX-512 backend forced runs on a CPU with AVX-512, RNG included. -/
example : let b : Build := ⟨some .avx512, true, .x86_64, ⟨true, true, true, true, true, true, false⟩, true⟩
    let cpu : Features := ⟨true, true, true, true, true, true, false⟩
    (∀ x ∈ executed b (detect cpu) 10 .legacy [.par, .tail 9, .tail 2, .tail 1], Supported cpu x) ∧
      ∀ x ∈ executedRng b (detect cpu) 10 .legacy, Supported cpu x := by
  intro b cpu
  have hl : Lawful cpu := by constructor <;> decide
  have hr : Runs b cpu := ⟨by decide, (C42_coherent _).2 (by rintro ⟨-, -, h⟩; cases h), fun f hf => hf⟩
  exact ⟨C43_cipher _ _ hl hr 10 .legacy (by decide) _, C43_rng _ _ hl hr 10 .legacy (by decide)⟩

/-- **C43** The exceptions are real: with SSE2 chosen, every call with a 64-bit counter and every RNG refill executes an SSE4.1
instruction, so it is supported only if the CPU happens to have SSE4.1. -/
theorem C43_sse41 (b : Build) (cpu : Features) (dr : Nat) :
    (select b (detect cpu) = .sse2 → ∀ rs, (∀ x ∈ executed b (detect cpu) dr .legacy rs, Supported cpu x) → cpu.sse41 = true) ∧
    (selectRng b (detect cpu) = .sse2 → ∀ V, (∀ x ∈ executedRng b (detect cpu) dr V, Supported cpu x) → cpu.sse41 = true) := by
  constructor
  · intro hs rs h
    refine h .mm_extract_epi32 ?_ .sse41 (List.mem_singleton.2 rfl)
    rw [executed, hs]
    exact List.mem_append_right _ (List.mem_singleton.2 rfl)
  · intro hs V h
    refine h .mm_extract_epi32 ?_ .sse41 (List.mem_singleton.2 rfl)
    rw [executedRng, hs]
    exact List.mem_append_right _ (List.mem_cons_of_mem _ (List.mem_singleton.2 rfl))

/-- The premises hold for the default build on a CPU with SSE2 and nothing newer. -/
example : select Sample.plain (detect Sample.oldCpu) = .sse2 ∧ selectRng Sample.plain (detect Sample.oldCpu) = .sse2 := by decide

/-- **C43** On such a CPU the default build picks SSE2 for the 64-bit-counter cipher and for the RNG, and hits an instruction the CPU does
not have, whatever is asked for. -/
theorem C43_illegal (dr : Nat) (rs : List Req) (V : Variant) :
    Lawful Sample.oldCpu ∧ Runs Sample.plain Sample.oldCpu ∧
    (∃ x ∈ executed Sample.plain (detect Sample.oldCpu) dr .legacy rs, ¬Supported Sample.oldCpu x) ∧
    (∃ x ∈ executedRng Sample.plain (detect Sample.oldCpu) dr V, ¬Supported Sample.oldCpu x) := by
  have hn : ¬Supported Sample.oldCpu .mm_extract_epi32 := fun h => Bool.noConfusion (h .sse41 (List.mem_singleton.2 rfl))
  refine ⟨by constructor <;> decide, Sample.plain_runs _ rfl, ⟨.mm_extract_epi32, ?_, hn⟩, ⟨.mm_extract_epi32, ?_, hn⟩⟩
  · exact List.mem_append_right _ (List.mem_singleton.2 rfl)
  · exact List.mem_append_right _ (List.mem_cons_of_mem _ (List.mem_singleton.2 rfl))

end Verif.ChaCha
