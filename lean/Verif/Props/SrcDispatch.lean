import Verif.Proof.SrcChaChaDispatch
import Verif.Props.Config
/-!
# C88: the text of the dispatchers of `chacha20`
-/
namespace Verif.Rust.ChaCha
open Verif.ChaCha (Config.Detected Config.select)

/-- The circumstances of the model for a build and a processor. -/
def envOf (b : Verif.ChaCha.Config.Build) (d : Config.Detected) : Verif.ChaCha.Env :=
  { build := b, detected := d, old := avx512.zeros, old_length := fun _ => List.length_replicate }

theorem runs_dispatch_env {tgt : Target} (ht : 16 ≤ tgt.bits) (b : Verif.ChaCha.Config.Build) (d : Config.Detected) {R V : Type} [Rounds R] [Variant V]
    {v : Verif.ChaCha.Variant} (hV : Is V v) {α : Type} (f : Closure 64 α) (s : Verif.ChaCha.State) :
    (Process.dispatch b d).run R V tgt (repr R V s) (Callee.ready f) =
      (Verif.ChaCha.process (Rounds.count R) v (envOf b d) f s).map fun x => ((), repr R V x.2, Callee.done x.1) := by
  rw [dispatch_run, Verif.ChaCha.process]
  show _ = Except.map _ (match Config.select b d with | .soft => _ | .sse2 => _ | .avx2 => _ | .avx512 => _ | .neon => _)
  cases Config.select b d
  · exact runs_soft_env hV f s
  · exact runs_sse2_env ht hV f s
  · exact runs_avx2_env ht hV f s
  · exact runs_avx512_env ht hV f s
  · exact runs_neon_env ht hV f s

theorem runs_dispatch {tgt : Target} (ht : 16 ≤ tgt.bits) (b : Verif.ChaCha.Config.Build) (d : Config.Detected) : Runs (Process.dispatch b d) tgt :=
  fun _ _ _ _ _ hV => ⟨envOf b d, fun _ f s => runs_dispatch_env ht b d hV f s⟩

end Verif.Rust.ChaCha

namespace Verif
open Spec Rust
open Verif.ChaCha (Config.Build Config.Detected Config.Impl Config.Forgotten)

/-- **C88**.  The Rust text of `process_with_backend`, with its conditional compilation and its tokens: under every combination of flags, target and features and
whatever the processor reports, the ciphers are the published ones, under every history of calls and seeks. -/
theorem C88_ciphers (b : Config.Build) (d : Config.Detected) (tgt : Target) (ht : 16 ≤ tgt.bits) : ChaChaStreams (Rust.ChaCha.Process.dispatch b d) tgt :=
  (Rust.ChaCha.runs_dispatch ht b d).streams

/-- **C88**, the generators: under every combination of flags, target and features and whatever the processor reports, a refill is four blocks of ChaCha, so that
everything in C83 holds of the text of `generate`. -/
theorem C88_refill (b : Config.Build) (d : Config.Detected) (tgt : Target) (ht : 16 ≤ tgt.bits) : FourBlocks (Rust.ChaCha.Build.dispatch b d) tgt := by
  intro R _ s buffer hb
  have h (m : Config.Impl) : FourBlocks (Rust.ChaCha.Build.of m) tgt := by
    cases m
    · exact C83_soft tgt ht
    · exact C84_refill tgt ht
    · exact C85_refill tgt ht
    · exact C83_soft tgt ht
    · exact C86_refill tgt ht
  obtain ⟨ws, h1, h2⟩ := h (ChaCha.Config.selectRng b d) R s buffer hb
  exact ⟨ws, h1, (Rust.ChaCha.dispatch_generate b d _ _).trans h2⟩

/-- **C88**, client code: in every build, on every processor, whatever a closure asks, also out of range, it gets the blocks, the panics and the counter that it gets
from the portable backend one, four, eight or sixteen blocks at a time. -/
theorem C88_portable (b : Config.Build) (d : Config.Detected) (tgt : Target) (ht : 16 ≤ tgt.bits) : ∃ n, (n = 1 ∨ n = 4 ∨ n = 8 ∨ n = 16) ∧
    ∀ (R V : Type) [Rust.ChaCha.Rounds R] [Rust.ChaCha.Variant V],
      (RInt.width (Rust.ChaCha.Variant.Counter V) = 32 ∨ RInt.width (Rust.ChaCha.Variant.Counter V) = 64) → ∀ (α : Type) (f : Closure 64 α) (s : Vector U32 16),
        (Rust.ChaCha.Process.dispatch b d).call R V tgt f ⟨s.toList, ()⟩ = (Verif.Backend.ofBlock n (Rust.ChaCha.genBlock R V tgt)).call f ⟨s.toList, ()⟩ := by
  have hd (R V : Type) [Rust.ChaCha.Rounds R] [Rust.ChaCha.Variant V] (α : Type) (f : Closure 64 α) (s : Vector U32 16) :
      (Rust.ChaCha.Process.dispatch b d).call R V tgt f ⟨s.toList, ()⟩ =
        (Rust.ChaCha.Process.of (ChaCha.Config.select b d)).call R V tgt f ⟨s.toList, ()⟩ := by
    rw [Rust.ChaCha.Process.call, Rust.ChaCha.Process.call, Rust.ChaCha.dispatch_run]
  cases hm : ChaCha.Config.select b d <;> rw [hm] at hd
  · refine ⟨1, .inl rfl, fun R V _ _ hV α f s => (hd R V α f s).trans ?_⟩
    obtain ⟨v, hv⟩ := Rust.ChaCha.is_of_width hV
    refine Eq.trans ?_ (Rust.ChaCha.portable_call hv 1 f s).symm
    exact Rust.ChaCha.call_of (P := .soft) (e := Sample.soft) (Rust.ChaCha.runs_soft_env hv f s)
  · exact ⟨4, .inr (.inl rfl), fun R V _ _ hV α f s => (hd R V α f s).trans (C84_portable tgt ht R V hV α f s)⟩
  · exact ⟨4, .inr (.inl rfl), fun R V _ _ hV α f s => (hd R V α f s).trans (C85_portable tgt ht R V hV α f s)⟩
  · exact ⟨16, .inr (.inr (.inr rfl)), fun R V _ _ hV α f s => (hd R V α f s).trans (C87_portable tgt ht R V hV α f s)⟩
  · exact ⟨8, .inr (.inr (.inl rfl)), fun R V _ _ hV α f s => (hd R V α f s).trans (C86_portable tgt ht R V hV α f s)⟩

/-- **C88**, the choice: the text of the two dispatchers hands over to the module that the model says, so that C42 and C43 are about the text. -/
theorem C88_chosen (b : Config.Build) (d : Config.Detected) (tgt : Target) (R V : Type) [Rust.ChaCha.Rounds R] [Rust.ChaCha.Variant V]
    (c : Rust.ChaCha.ChaChaCore R V) :
    (∀ (F : Type) [StreamCipherClosure F] (f : F), (Rust.ChaCha.Process.dispatch b d).run R V tgt c f =
      (Rust.ChaCha.Process.of (ChaCha.Config.select b d)).run R V tgt c f) ∧
    ∀ buffer, (Rust.ChaCha.Build.dispatch b d).generate R V tgt c buffer =
      (Rust.ChaCha.Build.of (ChaCha.Config.selectRng b d)).generate R V tgt c buffer :=
  ⟨fun _ _ f => Rust.ChaCha.dispatch_run b d c f, fun buffer => Rust.ChaCha.dispatch_generate b d c buffer⟩

/-- What the compiler needs of the text in a configuration: one type of the tokens and one initialiser, which agree; each pattern that takes the tokens apart has as
many places as the type; the modules that are named exist. -/
structure TextCoherent (b : Config.Build) : Prop where
  type : ∃ ts, (Rust.ChaCha.dispatch.tokensType b).filter (fun i => i matches .tokens ..) = [.tokens "Tokens" ts] ∧
    Rust.ChaCha.dispatch.tokensInit b = [.tokens "tokens" ts] ∧
    (∀ t ∈ ts, ∃ fs, Item.detect t fs ∈ Rust.ChaCha.dispatch.tokensType b) ∧
    (∀ n ∈ Rust.ChaCha.dispatch.ChaChaCore.process_with_backend.tokens b, n = ts.length) ∧
    (b.rng = true → ∀ n ∈ Rust.ChaCha.dispatch.ChaChaCore.generate.tokens b, n = ts.length)
  modules : ∀ m ∈ Rust.ChaCha.dispatch.ChaChaCore.process_with_backend.modules b, Item.module m ∈ Rust.ChaCha.dispatch.backends b
  modulesRng : b.rng = true → ∀ m ∈ Rust.ChaCha.dispatch.ChaChaCore.generate.modules b, Item.module m ∈ Rust.ChaCha.dispatch.backends b

/-- **C88**, configuration: the text is coherent under every combination of flags, target and features but one, `chacha20_backend = "avx512"` without
`chacha20_avx512` on x86. -/
theorem C88_coherent (b : Config.Build) : TextCoherent b ↔ ¬Config.Forgotten b := by
  obtain ⟨backend, cfg512, arch, target, rng⟩ := b
  obtain ⟨f1, f2, f3, f4, f5, f6, neon⟩ := target
  constructor
  · rintro ⟨⟨ts, h1, h2, -⟩, -, -⟩ ⟨h3, h4, h5⟩
    dsimp only at h3 h4 h5
    subst h4 h5
    rcases h3 with rfl | rfl <;> simp [Rust.ChaCha.dispatch.tokensType, Rust.ChaCha.dispatch.tokensInit] at h1 h2 <;> simp [← h1] at h2
  · intro h
    replace h : ¬((arch = .x86 ∨ arch = .x86_64) ∧ backend = some .avx512 ∧ cfg512 = false) := h
    rcases backend with _ | (_ | _ | _ | _) <;> cases cfg512 <;> cases arch <;> cases rng <;> cases neon <;>
      first
        | exact absurd h (by decide)
        | (refine ⟨⟨_, ?_, rfl, ?_, ?_, ?_⟩, ?_, ?_⟩ <;>
            simp [Rust.ChaCha.dispatch.tokensType, Rust.ChaCha.dispatch.backends, Rust.ChaCha.dispatch.ChaChaCore.process_with_backend.tokens,
              Rust.ChaCha.dispatch.ChaChaCore.generate.tokens, Rust.ChaCha.dispatch.ChaChaCore.process_with_backend.modules,
              Rust.ChaCha.dispatch.ChaChaCore.generate.modules])

/-- **C88**, errors: the compiler stops with a message exactly if a backend with vector instructions is forced on x86 for a target that does not have them. -/
theorem C88_error (b : Config.Build) : Item.compileError ∈ Rust.ChaCha.dispatch.tokensType b ↔ (b.arch = .x86 ∨ b.arch = .x86_64) ∧
    (b.backend = some .avx512 ∧ b.avx512Cfg = true ∧ (b.target.avx512f = false ∨ b.target.avx512vl = false) ∨
      b.backend = some .avx2 ∧ b.target.avx2 = false ∨ b.backend = some .sse2 ∧ b.target.sse2 = false) := by
  obtain ⟨backend, cfg512, arch, ⟨f1, f2, f3, f4, f5, f6, neon⟩, rng⟩ := b
  rcases backend with _ | (_ | _ | _ | _) <;> cases cfg512 <;> cases arch <;> simp [Rust.ChaCha.dispatch.tokensType]

/-- **C88**, detection: a token stands for the features that the model asks the processor for, and the tokens are there exactly if no backend is forced on x86. -/
theorem C88_detect (b : Config.Build) (t : String) (fs : List String) : Item.detect t fs ∈ Rust.ChaCha.dispatch.tokensType b ↔
    (b.arch = .x86 ∨ b.arch = .x86_64) ∧ (b.backend = none ∨ b.backend = some .avx512 ∧ b.avx512Cfg = false) ∧
      (t = "avx512_cpuid" ∧ fs = ["avx512f", "avx512vl"] ∧ b.avx512Cfg = true ∨ t = "avx2_cpuid" ∧ fs = ["avx2"] ∨ t = "sse2_cpuid" ∧ fs = ["sse2"]) := by
  obtain ⟨backend, cfg512, arch, ⟨f1, f2, f3, f4, f5, f6, neon⟩, rng⟩ := b
  rcases backend with _ | (_ | _ | _ | _) <;> cases cfg512 <;> cases arch <;> simp [Rust.ChaCha.dispatch.tokensType] <;> split <;> simp

/-- A build for x86-64 without flags. -/
def Sample.x86_64 : Config.Build := ⟨none, false, .x86_64, ⟨true, false, false, false, false, false, false⟩, true⟩

/-- XChaCha8 in that build, on a processor with AVX2: seeking to byte 1030 and reading three bytes gives bytes 1030 to 1032 of the published keystream. -/
example : ∃ (c : Rust.ChaCha.XChaChaCore Rust.ChaCha.R8) (w : Wrapper 64 (Rust.ChaCha.XChaChaCore Rust.ChaCha.R8)),
    Rust.ChaCha.XChaChaCore.new ⟨.release, 64⟩ (Sample.bytes 32 0).toList (Sample.bytes 24 1).toList = .ok c ∧
    runHistory (fun x w op => Wrapper.seekStep (Rust.ChaCha.coreXIn (Rust.ChaCha.Process.dispatch Sample.x86_64 ⟨true, true, true⟩) Rust.ChaCha.R8 ⟨.release, 64⟩)
      x w op) [((), .seek 1030), ((), .io (.write [9, 9, 9]))] (Wrapper.fromCore c) =
        .ok ([.done (.ok ()), .data (.ok ()) ((List.range 3).map fun i =>
          (Spec.ChaCha.xBlock 4 (Sample.bytes 32 0) (Sample.bytes 24 1) ((1030 + i) / 64))[(1030 + i) % 64]'(Nat.mod_lt _ (by decide)))], w) := by
  obtain ⟨c, h1, h2⟩ := (C88_ciphers Sample.x86_64 ⟨true, true, true⟩ ⟨.release, 64⟩ (by decide)).xchacha Rust.ChaCha.R8 (Sample.bytes 32 0) (Sample.bytes 24 1)
  obtain ⟨w, h3⟩ := h2 [((), .seek 1030), ((), .io (.write [9, 9, 9]))] (by
    intro e he
    simp only [List.mem_cons, List.not_mem_nil, or_false] at he
    rcases he with rfl | rfl
    · exact Or.inl (by decide)
    · exact (by decide : 3 < 2 ^ 64))
  exact ⟨c, w, h1, h3⟩

/-- The first word of `ChaCha20Rng` with the zero seed, in that build on a processor without AVX2. -/
example : letI := Rust.ChaCha.Build.dispatch Sample.x86_64 ⟨false, false, true⟩
    ∃ r, Drawn ⟨.debug, 64⟩ Rust.ChaCha.R20 (Vector.replicate 32 0) [.nextU32] [.u32 0xade0b876] r := by
  letI := Rust.ChaCha.Build.dispatch Sample.x86_64 ⟨false, false, true⟩
  have hc := C83_cursor (R := Rust.ChaCha.R20) (C88_refill Sample.x86_64 ⟨false, false, true⟩ ⟨.debug, 64⟩ (by decide)) (by decide) (Vector.replicate 32 0) [.nextU32]
  obtain ⟨os, r, h⟩ := hc.2 (fun _ hx => nomatch List.mem_singleton.mp hx)
  have ho : os = [.u32 0xade0b876] := (hc.1 os r h).trans (by decide +kernel)
  exact ⟨r, ho ▸ h⟩

/-- A tail of as many blocks as the backend works on at a time is no tail, in any build. -/
example (b : Config.Build) (d : Config.Detected) : (Rust.ChaCha.Process.dispatch b d).call Rust.ChaCha.R20 Rust.ChaCha.Ietf ⟨.release, 64⟩ (fun n => .tail n .done)
    ⟨(Vector.replicate 16 7#32).toList, ()⟩ = .error .assertion := by
  obtain ⟨n, _, h⟩ := C88_portable b d ⟨.release, 64⟩ (by decide)
  refine (h Rust.ChaCha.R20 Rust.ChaCha.Ietf (Or.inl rfl) _ (fun n => .tail n .done) (Vector.replicate 16 7)).trans ?_
  show ((if n < n then _ else Except.error Panic.assertion) >>= _) = _
  rw [if_neg (Nat.lt_irrefl n)]
  rfl

/-- With `chacha20_avx512`, a processor that has AVX-512 gets it; the generators use AVX2. -/
example : ChaCha.Config.select { Sample.x86_64 with avx512Cfg := true } ⟨true, true, true⟩ = .avx512 ∧
    ChaCha.Config.selectRng { Sample.x86_64 with avx512Cfg := true } ⟨true, true, true⟩ = .avx2 := by decide

/-- The text of that build is coherent, and it does not stop the compiler. -/
example : TextCoherent { Sample.x86_64 with avx512Cfg := true } ∧
    Item.compileError ∉ Rust.ChaCha.dispatch.tokensType { Sample.x86_64 with avx512Cfg := true } :=
  ⟨(C88_coherent _).2 (by rintro ⟨-, h, -⟩; cases h), by rw [C88_error]; decide⟩

/-- Forcing AVX2 for a target without it stops the compiler; without flags there is a token for AVX2 and none for AVX-512. -/
example : Item.compileError ∈ Rust.ChaCha.dispatch.tokensType { Sample.x86_64 with backend := some .avx2 } ∧
    Item.detect "avx2_cpuid" ["avx2"] ∈ Rust.ChaCha.dispatch.tokensType Sample.x86_64 ∧
    ∀ fs, Item.detect "avx512_cpuid" fs ∉ Rust.ChaCha.dispatch.tokensType Sample.x86_64 := by
  refine ⟨(C88_error _).2 (by decide), (C88_detect ..).2 (by decide), fun fs h => ?_⟩
  rcases ((C88_detect ..).1 h).2.2 with ⟨-, -, h⟩ | ⟨h, -⟩ | ⟨h, -⟩ <;> revert h <;> decide

end Verif
