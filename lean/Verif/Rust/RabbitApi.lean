import Verif.Rust.Src.Rabbit
import Verif.Rust.Core
/-!
# The cores of `rabbit`, made of its text
-/
namespace Verif.Rust.Rabbit

/-- `RabbitKeyOnlyCore` as `StreamCipherCore`; `process_with_backend` is `f.call(&mut Backend(&mut self.state))` - rabbit/src/lib.rs:235-247, 291-306. -/
def keyOnlyCore (tgt : Target) : Core 16 Unit where
  σ := RabbitKeyOnlyCore
  process _ f s := (Verif.Backend.ofBlock 1 (blockOf 16 fun s b => do
    let (_, backend, block) ← Backend.gen_ks_block tgt ⟨s.state⟩ b
    return ((), ⟨backend.f0⟩, block))).call f s
  remaining s := match RabbitKeyOnlyCore.remaining_blocks tgt s with
    | .ok r => r.map Usize.val
    | .error _ => some 0

/-- `RabbitCore` as `StreamCipherCore` - rabbit/src/lib.rs:277-289, 291-306. -/
def core (tgt : Target) : Core 16 Unit where
  σ := RabbitCore
  process _ f s := (Verif.Backend.ofBlock 1 (blockOf 16 fun s b => do
    let (_, backend, block) ← Backend.gen_ks_block tgt ⟨s.state⟩ b
    return ((), ⟨backend.f0⟩, block))).call f s
  remaining s := match RabbitCore.remaining_blocks tgt s with
    | .ok r => r.map Usize.val
    | .error _ => some 0

end Verif.Rust.Rabbit
