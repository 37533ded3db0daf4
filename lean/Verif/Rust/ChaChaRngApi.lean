import Verif.Rust.Src.ChaChaRng
import Verif.Spec.Rng
/-!
# Calls on the generators of `chacha20`, made of their text
-/
namespace Verif.Rust.ChaCha
open Verif.Spec.Rng (RngOp RngObs)

/-- The value of a result that cannot be an error - chacha20/src/rng.rs:151. -/
def infallible {α : Type} : Except Infallible α → α
  | .ok a => a
  | .error e => nomatch e

variable [Build] {R : Type} [Rounds R] (tgt : Target)

/-- One call - chacha20/src/rng.rs:150-166, 193-338. -/
def Rng.step (r : Rng R) : RngOp → Except Panic (RngObs × Rng R)
  | .nextU32 => do
    let (x, r) ← r.try_next_u32 tgt
    return (.u32 (infallible x), r)
  | .nextU64 => do
    let (x, r) ← r.try_next_u64 tgt
    return (.u64 (infallible x), r)
  | .fill n => do
    let (_, r, bytes) ← r.try_fill_bytes tgt (List.replicate n 0)
    return (.bytes bytes, r)
  | .setWordPos p => do return (.none, (← r.set_word_pos tgt p).2)
  | .setBlockPos b => do return (.none, (← r.set_block_pos tgt b).2)
  | .setStream s => do return (.none, (← r.set_stream tgt s).2)
  | .getWordPos => do return (.u128 (← r.get_word_pos tgt), r)
  | .getBlockPos => do return (.u64 (← r.get_block_pos tgt), r)
  | .getStream => do return (.u64 (← r.get_stream tgt), r)
  | .getSeed => do return (.bytes (← r.get_seed tgt), r)
  | .serialize => do return (.bytes (← r.serialize_state tgt), r)
  | .load b => do return (.none, ← Rng.deserialize_state tgt b.toList)
  | .reload => do return (.none, ← Rng.deserialize_state tgt (← r.serialize_state tgt))

/-- A sequence of calls - chacha20/src/rng.rs:150-166, 193-338. -/
def Rng.run : List RngOp → Rng R → Except Panic (List RngObs × Rng R)
  | [], r => .ok ([], r)
  | op :: h, r => do
    let (o, r) ← r.step tgt op
    let (os, r) ← Rng.run h r
    return (o :: os, r)

end Verif.Rust.ChaCha
