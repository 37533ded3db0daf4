import Verif.Proof.SrcChaChaSse2
import Verif.Props.SrcBuild
import Verif.Props.Sample
/-!
# C84: the text of the SSE2 backend of `chacha20` is ChaCha
-/
namespace Verif.Rust.ChaCha

/-- A build with `chacha20_backend = "sse2"` - chacha20/src/lib.rs:256-259. -/
def Process.sse2 : Process := .ofInner fun R V _ _ F _ => @sse2.inner R _ F _ V _

/-- A build with `chacha20_backend = "sse2"` - chacha20/src/rng.rs:60-63. -/
@[instance_reducible] def Build.sse2 : Build := ⟨fun _ _ => sse2.rng_inner, fun _ _ => sse2.rng_inner_tr⟩

/-- An environment of the model in which the SSE2 backend is chosen. -/
def envSse2 : Verif.ChaCha.Env := { Verif.Sample.soft with build := { Verif.Sample.soft.build with backend := some .sse2 } }

theorem runs_sse2_env {tgt : Target} (ht : 16 ≤ tgt.bits) {R V : Type} [Rounds R] [Variant V] {v : Verif.ChaCha.Variant} (hV : Is V v) {α : Type}
    (f : Closure 64 α) (s : Verif.ChaCha.State) : Process.sse2.run R V tgt (repr R V s) (Callee.ready f) =
      (Verif.ChaCha.process (Rounds.count R) v envSse2 f s).map fun x => ((), repr R V x.2, Callee.done x.1) := by
  show (sse2.inner tgt (repr R V s).state (Callee.ready f) >>= _) = (Verif.ChaCha.Sse2.inner (Rounds.count R) v f s).map _
  rw [show (repr R V s).state = s.toList from rfl, sse2.inner_eq hV ht f s]
  cases Verif.ChaCha.Sse2.inner (Rounds.count R) v f s <;> rfl

theorem runs_sse2 {tgt : Target} (ht : 16 ≤ tgt.bits) : Runs Process.sse2 tgt :=
  fun _ _ _ _ _ hV => ⟨envSse2, fun _ f s => runs_sse2_env ht hV f s⟩

end Verif.Rust.ChaCha

namespace Verif
open Spec Rust

/-- **C84**.  The Rust text of the SSE2 backend, read statement by statement, with its raw pointers and intrinsics: the ciphers built on it are the
published ones, under every history of calls and seeks. -/
theorem C84_ciphers (tgt : Target) (ht : 16 ≤ tgt.bits) : ChaChaStreams Rust.ChaCha.Process.sse2 tgt :=
  (Rust.ChaCha.runs_sse2 ht).streams

/-- **C84**, the generators: a refill is four blocks of ChaCha, so that everything in C83 holds of this build. -/
theorem C84_refill (tgt : Target) (ht : 16 ≤ tgt.bits) : FourBlocks Rust.ChaCha.Build.sse2 tgt :=
  fourBlocks_of (g := fun dr s => ChaCha.Sse2.rngInner dr .legacy s) (fun _ _ s buffer hb => Rust.ChaCha.sse2.rng_inner_eq Rust.ChaCha.is_legacy ht s buffer hb)
    fun dr s => by
      obtain ⟨ws, _, h1, h2, _⟩ := C27_refill dr s
      exact h2.trans h1.symm

/-- **C84**, client code: whatever a closure asks of the backend, also out of range, it gets the blocks, the panics and the counter that it gets from the
portable backend four blocks at a time. -/
theorem C84_portable (tgt : Target) (ht : 16 ≤ tgt.bits) (R V : Type) [Rust.ChaCha.Rounds R] [Rust.ChaCha.Variant V]
    (hV : RInt.width (Rust.ChaCha.Variant.Counter V) = 32 ∨ RInt.width (Rust.ChaCha.Variant.Counter V) = 64) (α : Type) (f : Closure 64 α) (s : Vector U32 16) :
    Rust.ChaCha.Process.sse2.call R V tgt f ⟨s.toList, ()⟩ = (Verif.Backend.ofBlock 4 (Rust.ChaCha.genBlock R V tgt)).call f ⟨s.toList, ()⟩ := by
  obtain ⟨v, hv⟩ := Rust.ChaCha.is_of_width hV
  refine Eq.trans ?_ (Rust.ChaCha.portable_call hv 4 f s).symm
  refine (Rust.ChaCha.call_of (Rust.ChaCha.runs_sse2_env ht hv f s)).trans ?_
  show Except.map _ (ChaCha.Sse2.inner _ _ _ _) = _
  rw [ChaCha.Sse2.inner_eq]
  rfl

/-- XChaCha12 with this backend, on a 16-bit target with overflow checks: seeking to byte 70 and reading three bytes gives bytes 70 to 72 of the published
keystream. -/
example : ∃ (c : Rust.ChaCha.XChaChaCore Rust.ChaCha.R12) (w : Wrapper 64 (Rust.ChaCha.XChaChaCore Rust.ChaCha.R12)),
    Rust.ChaCha.XChaChaCore.new ⟨.debug, 16⟩ (Sample.bytes 32 0).toList (Sample.bytes 24 1).toList = .ok c ∧
    runHistory (fun x w op => Wrapper.seekStep (Rust.ChaCha.coreXIn Rust.ChaCha.Process.sse2 Rust.ChaCha.R12 ⟨.debug, 16⟩) x w op)
      [((), .seek 70), ((), .io (.write [9, 9, 9]))] (Wrapper.fromCore c) =
        .ok ([.done (.ok ()), .data (.ok ()) ((List.range 3).map fun i =>
          (Spec.ChaCha.xBlock 6 (Sample.bytes 32 0) (Sample.bytes 24 1) ((70 + i) / 64))[(70 + i) % 64]'(Nat.mod_lt _ (by decide)))], w) := by
  obtain ⟨c, h1, h2⟩ := (C84_ciphers ⟨.debug, 16⟩ (by decide)).xchacha Rust.ChaCha.R12 (Sample.bytes 32 0) (Sample.bytes 24 1)
  obtain ⟨w, h3⟩ := h2 [((), .seek 70), ((), .io (.write [9, 9, 9]))] (by
    intro e he
    simp only [List.mem_cons, List.not_mem_nil, or_false] at he
    rcases he with rfl | rfl
    · exact Or.inl (by decide)
    · exact (by decide : 3 < 2 ^ 16))
  exact ⟨c, w, h1, h3⟩

/-- A tail of four blocks is not a tail: the assertion of the trait fails in this backend too. -/
example : Rust.ChaCha.Process.sse2.call Rust.ChaCha.R20 Rust.ChaCha.Ietf ⟨.release, 64⟩ (fun n => .tail n .done)
    ⟨(Vector.replicate 16 7#32).toList, ()⟩ = .error .assertion :=
  (C84_portable ⟨.release, 64⟩ (by decide) Rust.ChaCha.R20 Rust.ChaCha.Ietf (Or.inl rfl) _ (fun n => .tail n .done) (Vector.replicate 16 7)).trans rfl

/-- The first word of `ChaCha20Rng` with the zero seed, drawn through this backend. -/
example : letI := Rust.ChaCha.Build.sse2
    ∃ r, Drawn ⟨.debug, 64⟩ Rust.ChaCha.R20 (Vector.replicate 32 0) [.nextU32] [.u32 0xade0b876] r := by
  letI := Rust.ChaCha.Build.sse2
  have hc := C83_cursor (R := Rust.ChaCha.R20) (C84_refill ⟨.debug, 64⟩ (by decide)) (by decide) (Vector.replicate 32 0) [.nextU32]
  obtain ⟨os, r, h⟩ := hc.2 (fun _ hx => nomatch List.mem_singleton.mp hx)
  have ho : os = [.u32 0xade0b876] := (hc.1 os r h).trans (by decide +kernel)
  exact ⟨r, ho ▸ h⟩

end Verif
