import Verif.Proof.SrcChaChaAvx512
import Verif.Props.SrcBuild
import Verif.Props.Sample
/-!
# C87: the text of the AVX-512 backend of `chacha20` is ChaCha
-/
namespace Verif.Rust.ChaCha

/-- A build with `chacha20_backend = "avx512"` - chacha20/src/lib.rs:248-251. -/
def Process.avx512 : Process := .ofInner fun R V _ _ F _ => @avx512.inner R _ F _ V _

/-- An environment of the model in which the AVX-512 backend is chosen. -/
def envAvx512 : Verif.ChaCha.Env :=
  { Verif.Sample.soft with build := { Verif.Sample.soft.build with backend := some .avx512, avx512Cfg := true } }

theorem runs_avx512_env {tgt : Target} (ht : 16 ≤ tgt.bits) {R V : Type} [Rounds R] [Variant V] {v : Verif.ChaCha.Variant} (hV : Is V v) {α : Type}
    (f : Closure 64 α) (s : Verif.ChaCha.State) : Process.avx512.run R V tgt (repr R V s) (Callee.ready f) =
      (Verif.ChaCha.process (Rounds.count R) v envAvx512 f s).map fun x => ((), repr R V x.2, Callee.done x.1) := by
  show (avx512.inner tgt (repr R V s).state (Callee.ready f) >>= _) = (Verif.ChaCha.Avx512.inner (Rounds.count R) v avx512.zeros f s).map _
  rw [show (repr R V s).state = s.toList from rfl, avx512.inner_eq hV ht f s]
  cases Verif.ChaCha.Avx512.inner (Rounds.count R) v avx512.zeros f s <;> rfl

theorem runs_avx512 {tgt : Target} (ht : 16 ≤ tgt.bits) : Runs Process.avx512 tgt :=
  fun _ _ _ _ _ hV => ⟨envAvx512, fun _ f s => runs_avx512_env ht hV f s⟩

end Verif.Rust.ChaCha

namespace Verif
open Spec Rust

/-- **C87**.  The Rust text of the AVX-512 backend, read statement by statement, with its raw pointers and intrinsics: the ciphers built on it are the
published ones, under every history of calls and seeks. -/
theorem C87_ciphers (tgt : Target) (ht : 16 ≤ tgt.bits) : ChaChaStreams Rust.ChaCha.Process.avx512 tgt :=
  (Rust.ChaCha.runs_avx512 ht).streams

/-- **C87**, client code: whatever a closure asks of the backend, also out of range, it gets the blocks, the panics and the counter that it gets from the
portable backend sixteen blocks at a time. -/
theorem C87_portable (tgt : Target) (ht : 16 ≤ tgt.bits) (R V : Type) [Rust.ChaCha.Rounds R] [Rust.ChaCha.Variant V]
    (hV : RInt.width (Rust.ChaCha.Variant.Counter V) = 32 ∨ RInt.width (Rust.ChaCha.Variant.Counter V) = 64) (α : Type) (f : Closure 64 α) (s : Vector U32 16) :
    Rust.ChaCha.Process.avx512.call R V tgt f ⟨s.toList, ()⟩ = (Verif.Backend.ofBlock 16 (Rust.ChaCha.genBlock R V tgt)).call f ⟨s.toList, ()⟩ := by
  obtain ⟨v, hv⟩ := Rust.ChaCha.is_of_width hV
  refine Eq.trans ?_ (Rust.ChaCha.portable_call hv 16 f s).symm
  refine (Rust.ChaCha.call_of (Rust.ChaCha.runs_avx512_env ht hv f s)).trans ?_
  show Except.map _ (ChaCha.Avx512.inner _ _ _ _ _) = _
  rw [ChaCha.Avx512.inner_eq _ _ _ Rust.ChaCha.envAvx512.old_length]
  rfl

/-- XChaCha8 with this backend, on a 32-bit target without overflow checks: seeking to byte 1030 and reading three bytes gives bytes 1030 to 1032 of the published
keystream. -/
example : ∃ (c : Rust.ChaCha.XChaChaCore Rust.ChaCha.R8) (w : Wrapper 64 (Rust.ChaCha.XChaChaCore Rust.ChaCha.R8)),
    Rust.ChaCha.XChaChaCore.new ⟨.release, 32⟩ (Sample.bytes 32 0).toList (Sample.bytes 24 1).toList = .ok c ∧
    runHistory (fun x w op => Wrapper.seekStep (Rust.ChaCha.coreXIn Rust.ChaCha.Process.avx512 Rust.ChaCha.R8 ⟨.release, 32⟩) x w op)
      [((), .seek 1030), ((), .io (.write [9, 9, 9]))] (Wrapper.fromCore c) =
        .ok ([.done (.ok ()), .data (.ok ()) ((List.range 3).map fun i =>
          (Spec.ChaCha.xBlock 4 (Sample.bytes 32 0) (Sample.bytes 24 1) ((1030 + i) / 64))[(1030 + i) % 64]'(Nat.mod_lt _ (by decide)))], w) := by
  obtain ⟨c, h1, h2⟩ := (C87_ciphers ⟨.release, 32⟩ (by decide)).xchacha Rust.ChaCha.R8 (Sample.bytes 32 0) (Sample.bytes 24 1)
  obtain ⟨w, h3⟩ := h2 [((), .seek 1030), ((), .io (.write [9, 9, 9]))] (by
    intro e he
    simp only [List.mem_cons, List.not_mem_nil, or_false] at he
    rcases he with rfl | rfl
    · exact Or.inl (by decide)
    · exact (by decide : 3 < 2 ^ 32))
  exact ⟨c, w, h1, h3⟩

/-- A tail of sixteen blocks is not a tail: the assertion in `gen_tail_blocks` fails, whatever the key. -/
example (s : Vector U32 16) : Rust.ChaCha.Process.avx512.call Rust.ChaCha.R20 Rust.ChaCha.Ietf ⟨.release, 64⟩ (fun n => .tail n .done)
    ⟨s.toList, ()⟩ = .error .assertion :=
  (C87_portable ⟨.release, 64⟩ (by decide) Rust.ChaCha.R20 Rust.ChaCha.Ietf (Or.inl rfl) _ (fun n => .tail n .done) s).trans rfl

end Verif
