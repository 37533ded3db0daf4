import Verif.Rust.ChaChaRngApi
/-!
# Calls on the generators of `chacha20`, made of their text, recording what can be seen
-/
namespace Verif.Rust.ChaCha
open Verif.Spec.Rng (RngOp RngObs)

variable [Build] {R : Type} [Rounds R] (tgt : Target)

/-- One call, recording - chacha20/src/rng.rs:150-166, 193-338. -/
def Rng.step_tr (r : Rng R) : RngOp → Tr (RngObs × Rng R)
  | .nextU32 => do
    let (x, r) ← r.try_next_u32_tr tgt
    return (.u32 (infallible x), r)
  | .nextU64 => do
    let (x, r) ← r.try_next_u64_tr tgt
    return (.u64 (infallible x), r)
  | .fill n => do
    let (_, r, bytes) ← r.try_fill_bytes_tr tgt (List.replicate n 0)
    return (.bytes bytes, r)
  | .setWordPos p => do return (.none, (← r.set_word_pos_tr tgt p).2)
  | .setBlockPos b => do return (.none, (← r.set_block_pos_tr tgt b).2)
  | .setStream s => do return (.none, (← r.set_stream_tr tgt s).2)
  | .getWordPos => do return (.u128 (← r.get_word_pos_tr tgt), r)
  | .getBlockPos => do return (.u64 (← r.get_block_pos_tr tgt), r)
  | .getStream => do return (.u64 (← r.get_stream_tr tgt), r)
  | .getSeed => do return (.bytes (← r.get_seed_tr tgt), r)
  | .serialize => do return (.bytes (← r.serialize_state_tr tgt), r)
  | .load b => do return (.none, ← Rng.deserialize_state_tr tgt b.toList)
  | .reload => do return (.none, ← Rng.deserialize_state_tr tgt (← r.serialize_state_tr tgt))

end Verif.Rust.ChaCha
