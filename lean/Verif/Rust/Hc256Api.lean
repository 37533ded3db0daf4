import Verif.Rust.Src.Hc256
import Verif.Rust.Core
/-!
# The core of `hc-256`, made of its text
-/
namespace Verif.Rust.Hc256

/-- `Hc256Core` as `StreamCipherCore`; `process_with_backend` is `f.call(&mut Backend(self))` - hc-256/src/lib.rs:111-120, 203-218. -/
def core (tgt : Target) : Core 4 Unit where
  σ := Hc256Core
  process _ f s := (Verif.Backend.ofBlock 1 (blockOf 4 fun s b => do
    let (_, backend, block) ← Backend.gen_ks_block tgt ⟨s⟩ b
    return ((), backend.f0, block))).call f s
  remaining s := match Hc256Core.remaining_blocks tgt s with
    | .ok r => r.map Usize.val
    | .error _ => some 0

end Verif.Rust.Hc256
