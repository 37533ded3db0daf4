import Verif.Proof.SrcChaChaRng
import Verif.Rust.Src.ChaChaDispatch
import Verif.Props.SrcSse2
import Verif.Props.SrcAvx2
import Verif.Props.SrcNeon
import Verif.Props.SrcAvx512
/-!
# The text of the dispatchers of `chacha20`
-/
namespace Verif.Rust.ChaCha
open Verif.ChaCha (State Config.Detected Config.Impl Config.select Config.selectRng)

variable {tgt : Target} {R V : Type} [Rounds R] [Variant V]

/-- A build with `chacha20_backend = "soft"` - chacha20/src/lib.rs:241-243. -/
def Process.soft : Process where
  run R V _ _ _ _ tgt c f := do
    let (_, f, b) ← StreamCipherClosure.call tgt f (⟨c⟩ : Backend R V)
    return ((), b.f0, f)

/-- The text of `process_with_backend`, in a build, on a processor - chacha20/src/lib.rs:239-298. -/
def Process.dispatch (b : Verif.ChaCha.Config.Build) (d : Config.Detected) : Process where
  run _ _ _ _ _ _ := letI : Cpu := ⟨d⟩; ChaCha.dispatch.ChaChaCore.process_with_backend b

/-- The text of `generate`, in a build, on a processor - chacha20/src/rng.rs:49-92. -/
@[instance_reducible] def Build.dispatch (b : Verif.ChaCha.Config.Build) (d : Config.Detected) : Build where
  generate _ _ _ _ := letI : Cpu := ⟨d⟩; ChaCha.dispatch.ChaChaCore.generate b
  generate_tr _ _ _ _ := letI : Cpu := ⟨d⟩; ChaCha.dispatch.ChaChaCore.generate_tr b

/-- The build that uses a module - chacha20/src/lib.rs:239-298. -/
def Process.of : Config.Impl → Process
  | .soft => .soft
  | .sse2 => .sse2
  | .avx2 => .avx2
  | .avx512 => .avx512
  | .neon => .neon

/-- The build that uses a module for the generators - chacha20/src/rng.rs:49-92. -/
@[instance_reducible] def Build.of : Config.Impl → Build
  | .sse2 => .sse2
  | .avx2 => .avx2
  | .neon => .neon
  | _ => .soft

theorem soft_call_eq {α : Type} {v : Verif.ChaCha.Variant} (hV : Is V v) (c : Closure 64 α) (s : State) :
    (asBackend tgt (Backend R V)).call c ⟨repr R V s⟩ =
      ((Verif.ChaCha.soft (Rounds.count R) v).call c s).map (Prod.map id fun s => ⟨repr R V s⟩) := by
  have hb (s : State) (b : List U8) (h : b.length = 64) : Backend.gen_ks_block tgt ⟨repr R V s⟩ b =
      (Verif.ChaCha.softGenBlock (Rounds.count R) v s).map fun r => ((), ⟨repr R V r.2⟩, r.1.toList) :=
    gen_ks_block_eq hV s b h
  refine call_sim (B := Verif.ChaCha.soft (Rounds.count R) v) (fun s => (⟨repr R V s⟩ : Backend R V)) rfl ?_ ?_ ?_ c s
  · exact blockOf_sim _ hb
  · exact blocksOf_sim (g := genMany (Verif.ChaCha.softGenBlock (Rounds.count R) v) 1) _ (fun s b h => genEach_sim _ hb b 1 h s)
  · intro n s
    exact blocksOf_sim (g := (Verif.Backend.ofBlock 1 (Verif.ChaCha.softGenBlock (Rounds.count R) v)).genTail n) _
      (fun s b h => providedTail_sim _ 1 hb n b h s) s

theorem runs_soft_env {v : Verif.ChaCha.Variant} (hV : Is V v) {α : Type} (f : Closure 64 α) (s : State) :
    Process.soft.run R V tgt (repr R V s) (Callee.ready f) =
      ((Verif.ChaCha.soft (Rounds.count R) v).call f s).map fun x => ((), repr R V x.2, Callee.done x.1) := by
  show (((asBackend tgt (Backend R V)).call f ⟨repr R V s⟩ >>= _) >>= _) = _
  rw [soft_call_eq hV]
  cases (Verif.ChaCha.soft (Rounds.count R) v).call f s <;> rfl

/-- Conditional compilation and detection together choose one module. -/
theorem dispatch_run (b : Verif.ChaCha.Config.Build) (d : Config.Detected) {F : Type} [StreamCipherClosure F] (c : ChaChaCore R V) (f : F) :
    (Process.dispatch b d).run R V tgt c f = (Process.of (Config.select b d)).run R V tgt c f := by
  obtain ⟨backend, cfg512, arch, ⟨f1, f2, f3, f4, f5, f6, neon⟩, rng⟩ := b
  obtain ⟨d1, d2, d3⟩ := d
  rcases backend with _ | (_ | _ | _ | _) <;> cases cfg512 <;> cases arch <;> cases neon <;>
    first | rfl | (cases d1 <;> cases d2 <;> cases d3 <;> rfl)

theorem bind_same {α β : Type} (x : Except Panic (Unit × α × β)) : (x >>= fun r => pure ((), r.2.1, r.2.2)) = x := by
  cases x <;> rfl

/-- The call of a module and what is done with its result. -/
def genArm (m : Config.Impl) (tgt : Target) (c : ChaChaCore R V) (buffer : List U32) : Except Panic (Unit × ChaChaCore R V × List U32) :=
  match m with
  | .sse2 => sse2.rng_inner tgt c buffer >>= fun r => pure ((), r.2.1, r.2.2)
  | .avx2 => avx2.rng_inner tgt c buffer >>= fun r => pure ((), r.2.1, r.2.2)
  | .neon => neon.rng_inner tgt c buffer >>= fun r => pure ((), r.2.1, r.2.2)
  | _ => ChaChaCore.generate tgt c buffer

theorem dispatch_generate (b : Verif.ChaCha.Config.Build) (d : Config.Detected) (c : ChaChaCore R V) (buffer : List U32) :
    (Build.dispatch b d).generate R V tgt c buffer = (Build.of (Config.selectRng b d)).generate R V tgt c buffer := by
  have h : (Build.dispatch b d).generate R V tgt c buffer = genArm (Config.selectRng b d) tgt c buffer := by
    obtain ⟨backend, cfg512, arch, ⟨f1, f2, f3, f4, f5, f6, neon⟩, rng⟩ := b
    obtain ⟨d1, d2, d3⟩ := d
    rcases backend with _ | (_ | _ | _ | _) <;> cases cfg512 <;> cases arch <;> cases neon <;> cases d2 <;> cases d3 <;> rfl
  rw [h]
  cases Config.selectRng b d
  · rfl
  · exact bind_same _
  · exact bind_same _
  · rfl
  · exact bind_same _

end Verif.Rust.ChaCha
