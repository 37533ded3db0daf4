import Verif.Rust.ChaChaApi
import Verif.Rust.Closure
import Verif.Rust.Src.ChaChaRng
/-!
# The cores of `chacha20` with a given `process_with_backend`
-/
namespace Verif.Rust.ChaCha

/-- The function `process_with_backend` of a build - chacha20/src/lib.rs:239-298. -/
structure Process where
  run : (R V : Type) → [Rounds R] → [Variant V] → {F : Type} → [StreamCipherClosure F] → Target → ChaChaCore R V → F →
    Except Panic (Unit × ChaChaCore R V × F)

/-- A build that hands the words of the core to a function `inner` - chacha20/src/lib.rs:246-259. -/
def Process.ofInner (inner : (R V : Type) → [Rounds R] → [Variant V] → {F : Type} → [StreamCipherClosure F] → Target → List U32 → F →
    Except Panic (Unit × List U32 × F)) : Process where
  run R V _ _ _ _ tgt c f := do
    let (_, state, f) ← inner R V tgt c.state f
    return ((), { c with state }, f)

variable (P : Process) (R V : Type) [Rounds R] [Variant V] (tgt : Target)

/-- The call of client code, and what it returns. -/
def Process.call {α : Type} (f : Closure 64 α) (c : ChaChaCore R V) : Except Panic (α × ChaChaCore R V) := do
  match ← P.run R V tgt c (Callee.ready f) with
  | (_, c, .done a) => return (a, c)
  | _ => .error .assertion

/-- `ChaChaCore<R, V>` in a build - chacha20/src/lib.rs:217-301. -/
def coreIn : SeekCore 64 Unit := { core R V tgt with process := fun _ f c => P.call R V tgt f c }

/-- `XChaChaCore<R>` in a build - chacha20/src/xchacha.rs:69-93. -/
def coreXIn : SeekCore 64 Unit := { coreX R tgt with
  process := fun _ f c => do
    let (a, c) ← P.call R Ietf tgt f c.f0
    return (a, ⟨c⟩) }

end Verif.Rust.ChaCha
