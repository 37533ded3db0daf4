import Verif.Rust.Src.Salsa
import Verif.Rust.Core
/-!
# The cores of `salsa20`, made of its text
-/
namespace Verif.Rust.Salsa

variable (R : Type) [Unsigned R] (tgt : Target)

/-- One block; `process_with_backend` is `f.call(&mut Backend(self))` - salsa20/src/lib.rs:126-128, salsa20/src/backends/soft.rs:10-31. -/
def genBlock : SalsaCore R → Except Panic (Vector U8 64 × SalsaCore R) :=
  blockOf 64 fun s b => do
    let (_, backend, block) ← Backend.gen_ks_block tgt ⟨s⟩ b
    return ((), backend.f0, block)

/-- `SalsaCore<R>` as `StreamCipherSeekCore`.  The interface has no room for a panic of the counter functions; `C81_counter` shows that there is none -
salsa20/src/lib.rs:120-144. -/
def core : SeekCore 64 Unit where
  σ := SalsaCore R
  process _ f s := (Verif.Backend.ofBlock 1 (genBlock R tgt)).call f s
  remaining s := match SalsaCore.remaining_blocks tgt s with
    | .ok r => r.map Usize.val
    | .error _ => some 0
  ctrBits := 64
  getPos s := match SalsaCore.get_block_pos tgt s with
    | .ok p => p.toNat
    | .error _ => 0
  setPos s n := match SalsaCore.set_block_pos tgt s (BitVec.ofNat 64 n) with
    | .ok r => r.2
    | .error _ => s

/-- `XSalsaCore<R>`; its `process_with_backend` is that of the inner core - salsa20/src/xsalsa.rs:52-76. -/
def coreX : SeekCore 64 Unit where
  σ := XSalsaCore R
  process _ f s := do
    let (a, s) ← (Verif.Backend.ofBlock 1 (genBlock R tgt)).call f s.f0
    return (a, ⟨s⟩)
  remaining s := match XSalsaCore.remaining_blocks tgt s with
    | .ok r => r.map Usize.val
    | .error _ => some 0
  ctrBits := 64
  getPos s := match XSalsaCore.get_block_pos tgt s with
    | .ok p => p.toNat
    | .error _ => 0
  setPos s n := match XSalsaCore.set_block_pos tgt s (BitVec.ofNat 64 n) with
    | .ok r => r.2
    | .error _ => s

end Verif.Rust.Salsa
