import Verif.Proof.SrcChaChaAvx2
import Verif.Props.SrcBuild
import Verif.Props.Sample
/-!
# C85: the text of the AVX2 backend of `chacha20` is ChaCha
-/
namespace Verif.Rust.ChaCha

/-- A build with `chacha20_backend = "avx2"` - chacha20/src/lib.rs:252-255. -/
def Process.avx2 : Process := .ofInner fun R V _ _ F _ => @avx2.inner R _ F _ V _

/-- A build with `chacha20_backend = "avx2"` - chacha20/src/rng.rs:56-59. -/
@[instance_reducible] def Build.avx2 : Build := ⟨fun _ _ => avx2.rng_inner, fun _ _ => avx2.rng_inner_tr⟩

/-- An environment of the model in which the AVX2 backend is chosen. -/
def envAvx2 : Verif.ChaCha.Env := { Verif.Sample.soft with build := { Verif.Sample.soft.build with backend := some .avx2 } }

theorem runs_avx2_env {tgt : Target} (ht : 16 ≤ tgt.bits) {R V : Type} [Rounds R] [Variant V] {v : Verif.ChaCha.Variant} (hV : Is V v) {α : Type}
    (f : Closure 64 α) (s : Verif.ChaCha.State) : Process.avx2.run R V tgt (repr R V s) (Callee.ready f) =
      (Verif.ChaCha.process (Rounds.count R) v envAvx2 f s).map fun x => ((), repr R V x.2, Callee.done x.1) := by
  show (avx2.inner tgt (repr R V s).state (Callee.ready f) >>= _) = (Verif.ChaCha.Avx2.inner (Rounds.count R) v f s).map _
  rw [show (repr R V s).state = s.toList from rfl, avx2.inner_eq hV ht f s]
  cases Verif.ChaCha.Avx2.inner (Rounds.count R) v f s <;> rfl

theorem runs_avx2 {tgt : Target} (ht : 16 ≤ tgt.bits) : Runs Process.avx2 tgt :=
  fun _ _ _ _ _ hV => ⟨envAvx2, fun _ f s => runs_avx2_env ht hV f s⟩

end Verif.Rust.ChaCha

namespace Verif
open Spec Rust

/-- **C85**.  The Rust text of the AVX2 backend, read statement by statement, with its raw pointers and intrinsics: the ciphers built on it are the
published ones, under every history of calls and seeks. -/
theorem C85_ciphers (tgt : Target) (ht : 16 ≤ tgt.bits) : ChaChaStreams Rust.ChaCha.Process.avx2 tgt :=
  (Rust.ChaCha.runs_avx2 ht).streams

/-- **C85**, the generators: a refill is four blocks of ChaCha, so that everything in C83 holds of this build. -/
theorem C85_refill (tgt : Target) (ht : 16 ≤ tgt.bits) : FourBlocks Rust.ChaCha.Build.avx2 tgt :=
  fourBlocks_of (g := ChaCha.Avx2.rngInner) (fun _ _ s buffer hb => Rust.ChaCha.avx2.rng_inner_eq ht s buffer hb)
    fun dr s => by
      obtain ⟨ws, _, h1, _, h2, _⟩ := C27_refill dr s
      exact h2.trans h1.symm

/-- **C85**, client code: whatever a closure asks of the backend, also out of range, it gets the blocks, the panics and the counter that it gets from the
portable backend four blocks at a time. -/
theorem C85_portable (tgt : Target) (ht : 16 ≤ tgt.bits) (R V : Type) [Rust.ChaCha.Rounds R] [Rust.ChaCha.Variant V]
    (hV : RInt.width (Rust.ChaCha.Variant.Counter V) = 32 ∨ RInt.width (Rust.ChaCha.Variant.Counter V) = 64) (α : Type) (f : Closure 64 α) (s : Vector U32 16) :
    Rust.ChaCha.Process.avx2.call R V tgt f ⟨s.toList, ()⟩ = (Verif.Backend.ofBlock 4 (Rust.ChaCha.genBlock R V tgt)).call f ⟨s.toList, ()⟩ := by
  obtain ⟨v, hv⟩ := Rust.ChaCha.is_of_width hV
  refine Eq.trans ?_ (Rust.ChaCha.portable_call hv 4 f s).symm
  refine (Rust.ChaCha.call_of (Rust.ChaCha.runs_avx2_env ht hv f s)).trans ?_
  show Except.map _ (ChaCha.Avx2.inner _ _ _ _) = _
  rw [ChaCha.Avx2.inner_eq]
  rfl

/-- XChaCha8 with this backend, on a 32-bit target without overflow checks: seeking to byte 250 and reading three bytes gives bytes 250 to 252 of the published
keystream. -/
example : ∃ (c : Rust.ChaCha.XChaChaCore Rust.ChaCha.R8) (w : Wrapper 64 (Rust.ChaCha.XChaChaCore Rust.ChaCha.R8)),
    Rust.ChaCha.XChaChaCore.new ⟨.release, 32⟩ (Sample.bytes 32 0).toList (Sample.bytes 24 1).toList = .ok c ∧
    runHistory (fun x w op => Wrapper.seekStep (Rust.ChaCha.coreXIn Rust.ChaCha.Process.avx2 Rust.ChaCha.R8 ⟨.release, 32⟩) x w op)
      [((), .seek 250), ((), .io (.write [9, 9, 9]))] (Wrapper.fromCore c) =
        .ok ([.done (.ok ()), .data (.ok ()) ((List.range 3).map fun i =>
          (Spec.ChaCha.xBlock 4 (Sample.bytes 32 0) (Sample.bytes 24 1) ((250 + i) / 64))[(250 + i) % 64]'(Nat.mod_lt _ (by decide)))], w) := by
  obtain ⟨c, h1, h2⟩ := (C85_ciphers ⟨.release, 32⟩ (by decide)).xchacha Rust.ChaCha.R8 (Sample.bytes 32 0) (Sample.bytes 24 1)
  obtain ⟨w, h3⟩ := h2 [((), .seek 250), ((), .io (.write [9, 9, 9]))] (by
    intro e he
    simp only [List.mem_cons, List.not_mem_nil, or_false] at he
    rcases he with rfl | rfl
    · exact Or.inl (by decide)
    · exact (by decide : 3 < 2 ^ 32))
  exact ⟨c, w, h1, h3⟩

/-- A tail of four blocks is not a tail: the assertion of the trait fails in this backend too. -/
example : Rust.ChaCha.Process.avx2.call Rust.ChaCha.R20 Rust.ChaCha.Ietf ⟨.release, 64⟩ (fun n => .tail n .done)
    ⟨(Vector.replicate 16 7#32).toList, ()⟩ = .error .assertion :=
  (C85_portable ⟨.release, 64⟩ (by decide) Rust.ChaCha.R20 Rust.ChaCha.Ietf (Or.inl rfl) _ (fun n => .tail n .done) (Vector.replicate 16 7)).trans rfl

/-- The first word of `ChaCha20Rng` with the zero seed, drawn through this backend. -/
example : letI := Rust.ChaCha.Build.avx2
    ∃ r, Drawn ⟨.debug, 64⟩ Rust.ChaCha.R20 (Vector.replicate 32 0) [.nextU32] [.u32 0xade0b876] r := by
  letI := Rust.ChaCha.Build.avx2
  have hc := C83_cursor (R := Rust.ChaCha.R20) (C85_refill ⟨.debug, 64⟩ (by decide)) (by decide) (Vector.replicate 32 0) [.nextU32]
  obtain ⟨os, r, h⟩ := hc.2 (fun _ hx => nomatch List.mem_singleton.mp hx)
  have ho : os = [.u32 0xade0b876] := (hc.1 os r h).trans (by decide +kernel)
  exact ⟨r, ho ▸ h⟩

end Verif
