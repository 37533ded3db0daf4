import Verif.Model.Rng
import Verif.Spec.Family
/-!
# Model of generators seeded from each other

`SeedableRng::from_rng` is a provided method of `rand_core` (external crate, trusted base): it fills a seed from the other generator and
calls `from_seed`.  Used with the generators of /repo/chacha20/src/rng.rs:138-148, as in /repo/chacha20/tests/rng.rs:191.
-/
namespace Verif.ChaCha.Rng
open Verif.Spec.Rng (RngOp RngObs)

/-- `SeedableRng::from_rng`: the new generator, and what is left of the other one - provided by the crate `rand_core` for
chacha20/src/rng.rs:138-148. -/
def fromRng (dr : Nat) (e : Env) (r : Rng) : Except Panic (Rng × Rng) := do
  let (bytes, r) := fillBytes dr e 32 r
  let child ← fromSeed (Vector.ofFn fun k => bytes.getD k.val 0)
  return (child, r)

/-- One call on a family of generators; the number is the double rounds of the type - calls on the types of chacha20/src/rng.rs:342-344. -/
def famStep (m : Mode) (e : Env) (f : List (Nat × Rng)) : Spec.Family.Op → Except Panic (RngObs × List (Nat × Rng))
  | .call i op =>
    match f[i]? with
    | none => .ok (.none, f)
    | some (dr, r) => do
      let (o, r) ← step m dr e r op
      return (o, f.set i (dr, r))
  | .fork i dr' =>
    match f[i]? with
    | none => .ok (.none, f)
    | some (dr, r) => do
      let (child, r) ← fromRng dr e r
      return (.none, f.set i (dr, r) ++ [(dr', child)])

/-- A sequence of calls on a family - calls on the types of chacha20/src/rng.rs:342-344. -/
def famRun (m : Mode) : List (Env × Spec.Family.Op) → List (Nat × Rng) → Except Panic (List RngObs × List (Nat × Rng))
  | [], f => .ok ([], f)
  | (e, op) :: h, f => do
    let (o, f) ← famStep m e f op
    let (os, f) ← famRun m h f
    return (o :: os, f)

end Verif.ChaCha.Rng
