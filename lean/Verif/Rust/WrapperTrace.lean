import Verif.Model.Wrapper
import Verif.Rust.Trace
/-!
# The wrapper of the crate `cipher` around a core that records what it does

The functions are those of `Model/Wrapper.lean` with the conditions, the divisions and the places of the accesses to the buffer recorded.
-/
namespace Verif.Rust

/-- A seekable core whose functions record what can be seen of them - the counterpart of `SeekCore`; chacha20/src/lib.rs:218-299, salsa20/src/lib.rs:120-144. -/
structure SeenCore (bs : Nat) (χ : Type) where
  σ : Type
  /-- `process_with_backend` -/
  process : {α : Type} → χ → Closure bs α → σ → Tr (α × σ)
  /-- `remaining_blocks` -/
  remaining : σ → Tr (Option Nat)
  /-- width of `Self::Counter` -/
  ctrBits : Nat
  /-- `get_block_pos` -/
  getPos : σ → Tr Nat
  /-- `set_block_pos` -/
  setPos : σ → Nat → Tr σ

namespace SeenCore

variable {bs : Nat} {χ : Type} (C : SeenCore bs χ)

/-- `check_remaining`, recording - crate `cipher`, wrapper of chacha20/src/chacha.rs:16-22 and the other cipher types. -/
def checkRemaining (w : Wrapper bs C.σ) (dataLen : Nat) : Tr (Except CipherError Unit) := do
  let r ← C.remaining w.core
  let _ ← Tr.branch r.isSome
  match r with
  | none => return .ok ()
  | some remBlocks =>
    if ← Tr.branch (decide (dataLen < bs - w.pos)) then return .ok () else
    let dataLen := dataLen - (bs - w.pos)
    let blocks ← Tr.see (Tr.divide (dataLen + bs - 1) bs) (.ok ((dataLen + bs - 1) / bs))
    if ← Tr.branch (decide (blocks > remBlocks)) then return .error .streamCipherError else return .ok ()

/-- `unchecked_apply_keystream_inout`, recording - crate `cipher`, wrapper of chacha20/src/chacha.rs:16-22 and the other cipher types. -/
def uncheckedApply (x : χ) (w : Wrapper bs C.σ) (data : List U8) : Tr (List U8 × Wrapper bs C.σ) := do
  let headLen := min (bs - w.pos) data.length
  let head := data.take headLen
  let rest := data.drop headLen
  let keys ← Tr.see (.slice w.pos (w.pos + headLen)) (.ok ((w.buf.toList.drop w.pos).take headLen))
  let headOut := xorBytes head keys
  let w := { w with pos := w.pos + headLen }
  let k ← Tr.see (Tr.divide rest.length bs) (.ok (rest.length / bs))
  let (mid, core) ← C.process x (applyBlocksClosure (chunksOf bs k rest)) w.core
  let w := { w with core := core }
  let tail := rest.drop (k * bs)
  if ← Tr.branch (decide (tail.length = 0)) then return (headOut ++ mid.flatten, w) else
  let (b, core) ← C.process x (writeBlockClosure bs) w.core
  let keys ← Tr.see (.slice 0 tail.length) (.ok (b.toList.take tail.length))
  let tailOut := xorBytes tail keys
  return (headOut ++ mid.flatten ++ tailOut, ⟨core, b, tail.length⟩)

/-- `unchecked_write_keystream`, recording - crate `cipher`, wrapper of chacha20/src/chacha.rs:16-22 and the other cipher types. -/
def uncheckedWrite (x : χ) (w : Wrapper bs C.σ) (len : Nat) : Tr (List U8 × Wrapper bs C.σ) := do
  let headLen := min (bs - w.pos) len
  let headOut ← Tr.see (.slice w.pos (w.pos + headLen)) (.ok ((w.buf.toList.drop w.pos).take headLen))
  let rest := len - headLen
  let w := { w with pos := w.pos + headLen }
  let k ← Tr.see (Tr.divide rest bs) (.ok (rest / bs))
  let (mid, core) ← C.process x (writeBlocksClosure k) w.core
  let w := { w with core := core }
  let tail := rest - k * bs
  if ← Tr.branch (decide (tail = 0)) then return (headOut ++ mid.flatten, w) else
  let (b, core) ← C.process x (writeBlockClosure bs) w.core
  let tailOut ← Tr.see (.slice 0 tail) (.ok (b.toList.take tail))
  return (headOut ++ mid.flatten ++ tailOut, ⟨core, b, tail⟩)

/-- `try_apply_keystream`, recording - crate `cipher`, wrapper of chacha20/src/chacha.rs:16-22 and the other cipher types. -/
def tryApply (x : χ) (w : Wrapper bs C.σ) (data : List U8) : Tr (Except CipherError Unit × List U8 × Wrapper bs C.σ) := do
  let r ← C.checkRemaining w data.length
  let _ ← Tr.branch r.isOk
  match r with
  | .error e => return (.error e, data, w)
  | .ok () =>
    let (out, w) ← C.uncheckedApply x w data
    return (.ok (), out, w)

/-- `try_write_keystream`, recording - crate `cipher`, wrapper of chacha20/src/chacha.rs:16-22 and the other cipher types. -/
def tryWrite (x : χ) (w : Wrapper bs C.σ) (buf : List U8) : Tr (Except CipherError Unit × List U8 × Wrapper bs C.σ) := do
  let r ← C.checkRemaining w buf.length
  let _ ← Tr.branch r.isOk
  match r with
  | .error e => return (.error e, buf, w)
  | .ok () =>
    let (out, w) ← C.uncheckedWrite x w buf.length
    return (.ok (), out, w)

/-- `try_seek`, recording - crate `cipher`, wrapper of chacha20/src/chacha.rs:16-22 and the other seekable types. -/
def trySeek (x : χ) (w : Wrapper bs C.σ) (q : Nat) : Tr (Except CipherError Unit × Wrapper bs C.σ) := do
  let byte ← Tr.see (Tr.divide q bs) (.ok (q % bs))
  let block ← Tr.see (Tr.divide q bs) (.ok (q / bs))
  if ← Tr.branch (decide (block ≥ 2 ^ C.ctrBits)) then return (.error .overflowError, w) else
  let core ← C.setPos w.core block
  if ← Tr.branch (decide (byte = 0)) then return (.ok (), ⟨core, w.buf, bs⟩) else
  let (b, core) ← C.process x (writeBlockClosure bs) core
  return (.ok (), ⟨core, b, byte⟩)

/-- `try_current_pos`, recording - crate `cipher`, wrapper of chacha20/src/chacha.rs:16-22 and the other seekable types. -/
def tryCurrentPos (w : Wrapper bs C.σ) (snMax : Nat) : Tr (Except CipherError Nat) := do
  let block ← C.getPos w.core
  let rem := bs - w.pos
  if ← Tr.branch (decide (block > snMax)) then return .error .overflowError else
  if ← Tr.branch (decide (block * bs > snMax)) then return .error .overflowError else
  if ← Tr.branch (decide (block * bs < rem)) then return .error .overflowError else
  return .ok (block * bs - rem)

/-- One call, recording - crate `cipher`, wrapper of chacha20/src/chacha.rs:16-22 and the other seekable types. -/
def seekStep (x : χ) (w : Wrapper bs C.σ) : SeekOp → Tr (Obs × Wrapper bs C.σ)
  | .io (.apply data) => do
    let (r, out, w) ← C.tryApply x w data
    return (.data r out, w)
  | .io (.write buf) => do
    let (r, out, w) ← C.tryWrite x w buf
    return (.data r out, w)
  | .seek q => do
    let (r, w) ← C.trySeek x w q
    return (.done r, w)
  | .pos snMax => do
    let r ← C.tryCurrentPos w snMax
    return (.num r, w)

/-- A history of calls, recording - crate `cipher`, wrapper of chacha20/src/chacha.rs:16-22 and the other seekable types. -/
def run : List (χ × SeekOp) → Wrapper bs C.σ → Tr (List Obs × Wrapper bs C.σ)
  | [], w => pure ([], w)
  | (x, op) :: h, w => do
    let (o, w) ← C.seekStep x w op
    let (os, w) ← run h w
    return (o :: os, w)

/-- A cipher from its creation on: the core is made, the wrapper is put around it, and calls follow - crate `cipher`, wrapper of chacha20/src/chacha.rs:16-22 and the other
seekable types. -/
def life (create : Tr C.σ) (h : List (χ × SeekOp)) : Tr (List Obs) := do
  let core ← create
  let r ← C.run h (Wrapper.fromCore core)
  return r.1

end SeenCore

end Verif.Rust
