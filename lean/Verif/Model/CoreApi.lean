import Verif.Model.Wrapper
/-!
# The block-level interface of the cores

The core types (`ChaChaCore`, `SalsaCore`, `XSalsaCore`, `Hc256Core`, `RabbitCore`, `RabbitKeyOnlyCore`) are public and can be used without the
byte-oriented wrapper.  /repo implements `process_with_backend`, `remaining_blocks`, `get_block_pos` and `set_block_pos`
(chacha20/src/lib.rs:217-304, salsa20/src/lib.rs:120-144, hc-256/src/lib.rs:111-119, rabbit/src/lib.rs); the other methods are provided by the
traits `StreamCipherCore` and `StreamCipherSeekCore` of the external crate `cipher`, whose published source is followed
here (trusted base, DESIGN.md section 1).
-/
namespace Verif

variable {bs : Nat} {χ : Type}

/-- `ApplyBlock`: one `gen_ks_block` into a temporary, then XOR - crate `cipher`; argument of `process_with_backend`,
chacha20/src/lib.rs:239-242. -/
def applyBlockClosure (d : List U8) : Closure bs (List U8) := fun _ => .block fun k => .done (xorBytes d k.toList)

/-- A call on a core - methods of the trait implemented at chacha20/src/lib.rs:233-299. -/
inductive CoreOp (bs : Nat) where
  /-- `remaining_blocks()` -/
  | remaining
  /-- `write_keystream_block(&mut block)` -/
  | writeBlock
  /-- `write_keystream_blocks(&mut blocks)`, `blocks.len() = n` -/
  | writeBlocks (n : Nat)
  /-- `apply_keystream_block_inout(block)` -/
  | applyBlock (d : Vector U8 bs)
  /-- `apply_keystream_blocks(&mut blocks)`, `apply_keystream_blocks_inout(blocks)` -/
  | applyBlocks (data : List (Vector U8 bs))

/-- A call on a seekable core - methods of the traits implemented at chacha20/src/lib.rs:218-299. -/
inductive SeekCoreOp (bs : Nat) where
  | io (op : CoreOp bs)
  /-- `get_block_pos()` -/
  | getPos
  /-- `set_block_pos(b)` -/
  | setPos (b : Nat)

/-- What the caller of a core observes - chacha20/src/lib.rs:218-299. -/
inductive CoreObs where
  | unit
  | remaining (r : Option Nat)
  | pos (n : Nat)
  | blocks (l : List (List U8))
  deriving DecidableEq

/-- Execute one call - provided methods of the trait implemented at chacha20/src/lib.rs:233-299. -/
def Core.call (C : Core bs χ) (x : χ) (s : C.σ) : CoreOp bs → Except Panic (CoreObs × C.σ)
  | .remaining => .ok (.remaining (C.remaining s), s)
  | .writeBlock => do
    let (b, s) ← C.process x (writeBlockClosure bs) s
    return (.blocks [b.toList], s)
  | .writeBlocks n => do
    let (l, s) ← C.process x (writeBlocksClosure n) s
    return (.blocks l, s)
  | .applyBlock d => do
    let (b, s) ← C.process x (applyBlockClosure d.toList) s
    return (.blocks [b], s)
  | .applyBlocks data => do
    let (l, s) ← C.process x (applyBlocksClosure (data.map (·.toList))) s
    return (.blocks l, s)

/-- Execute one call on a seekable core - chacha20/src/lib.rs:218-230. -/
def SeekCore.call (C : SeekCore bs χ) (x : χ) (s : C.σ) : SeekCoreOp bs → Except Panic (CoreObs × C.σ)
  | .io op => C.toCore.call x s op
  | .getPos => .ok (.pos (C.getPos s), s)
  | .setPos b => .ok (.unit, C.setPos s b)

/-- Run a history of calls, each under its own circumstances - calls on the cores of chacha20/src/lib.rs:119-127. -/
def runCalls {σ ι ω : Type} (step : χ → σ → ι → Except Panic (ω × σ)) : List (χ × ι) → σ → Except Panic (List ω × σ)
  | [], s => .ok ([], s)
  | (x, op) :: h, s => do
    let (o, s) ← step x s op
    let (os, s) ← runCalls step h s
    return (o :: os, s)

/-- The check at the beginning of `try_apply_keystream_partial`: are too few blocks left for `len` bytes? - provided by the crate `cipher` for
chacha20/src/lib.rs:233-299. -/
def Core.partialRefused (C : Core bs χ) (s : C.σ) (len : Nat) : Bool :=
  let blocks := if len % bs = 0 then len / bs else len / bs + 1
  match C.remaining s with
  | none => false
  | some rem => decide (blocks > rem)

/-- `try_apply_keystream_partial(self, buf)`: result and contents of `buf` afterwards (the core is consumed) - provided by the crate `cipher` for
chacha20/src/lib.rs:233-299. -/
def Core.tryApplyPartial (C : Core bs χ) (x : χ) (s : C.σ) (buf : List U8) : Except Panic (Except CipherError Unit × List U8) :=
  if C.partialRefused s buf.length then .ok (.error .streamCipherError, buf) else do
  let (done, rest, s) ←
    if buf.length > bs then do
      let k := buf.length / bs
      let (l, s) ← C.process x (applyBlocksClosure (chunksOf bs k buf)) s
      pure (l.flatten, buf.drop (k * bs), s)
    else pure ([], buf, s)
  let n := rest.length
  if n = 0 then return (.ok (), done)
  let block := rest ++ List.replicate (bs - n) 0
  let (l, _) ← C.process x (applyBlocksClosure [block]) s
  return (.ok (), done ++ l.flatten.take n)

end Verif
