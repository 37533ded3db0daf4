import Verif.Rust.Src.ChaCha
import Verif.Rust.Core
/-!
# The cores of `chacha20`, made of its text
-/
namespace Verif.Rust.ChaCha

variable (R V : Type) [Rounds R] [Variant V] (tgt : Target)

/-- One block; `process_with_backend` is `f.call(&mut backends::soft::Backend(self))` - chacha20/src/lib.rs:240-281, chacha20/src/backends/soft.rs:19-46. -/
def genBlock : ChaChaCore R V → Except Panic (Vector U8 64 × ChaChaCore R V) :=
  blockOf 64 fun s b => do
    let (_, backend, block) ← Backend.gen_ks_block tgt ⟨s⟩ b
    return ((), backend.f0, block)

/-- `ChaChaCore<R, V>` as `StreamCipherSeekCore`.  The interface has no room for a panic of the counter functions; `C82_counter` shows that there is none -
chacha20/src/lib.rs:230-301. -/
def core : SeekCore 64 Unit where
  σ := ChaChaCore R V
  process _ f s := (Verif.Backend.ofBlock 1 (genBlock R V tgt)).call f s
  remaining s := match ChaChaCore.remaining_blocks tgt s with
    | .ok r => r.map Usize.val
    | .error _ => some 0
  ctrBits := RInt.width (Variant.Counter V)
  getPos s := match ChaChaCore.get_block_pos tgt s with
    | .ok p => RInt.toNat p
    | .error _ => 0
  setPos s n := match ChaChaCore.set_block_pos tgt s (RInt.ofNat n) with
    | .ok r => r.2
    | .error _ => s

/-- `XChaChaCore<R>`; its `process_with_backend` is that of the inner core - chacha20/src/xchacha.rs:69-93. -/
def coreX : SeekCore 64 Unit where
  σ := XChaChaCore R
  process _ f s := do
    let (a, s) ← (Verif.Backend.ofBlock 1 (genBlock R Ietf tgt)).call f s.f0
    return (a, ⟨s⟩)
  remaining s := match XChaChaCore.remaining_blocks tgt s with
    | .ok r => r.map Usize.val
    | .error _ => some 0
  ctrBits := 32
  getPos s := match XChaChaCore.get_block_pos tgt s with
    | .ok p => p.toNat
    | .error _ => 0
  setPos s n := match XChaChaCore.set_block_pos tgt s (BitVec.ofNat 32 n) with
    | .ok r => r.2
    | .error _ => s

end Verif.Rust.ChaCha
