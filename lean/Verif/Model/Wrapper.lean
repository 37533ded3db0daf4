import Verif.Model.Backend
/-!
# Model of `cipher::StreamCipherCoreWrapper`

Every byte-oriented cipher type of the repository (`ChaCha20`, `XChaCha20`, `ChaCha20Legacy`, `Salsa20`, `XSalsa20`,
`Hc256`, `Rabbit`, ...) is `StreamCipherCoreWrapper<Core>`; RC4 implements `StreamCipher` itself.
The wrapper lives in the external crate `cipher` 0.5 (with `block_buffer::ReadBuffer`), which is not part of /repo: this
file follows its published source and belongs to the trusted base (DESIGN.md, section 1).
-/
namespace Verif

/-- Apply a function to the value returned by a client - crate `cipher`; argument of `process_with_backend`, chacha20/src/lib.rs:239-242. -/
def Prog.map {bs : Nat} {α β : Type} (g : α → β) : Prog bs α → Prog bs β
  | .done a => .done (g a)
  | .block k => .block fun b => (k b).map g
  | .par k => .par fun l => (k l).map g
  | .tail n k => .tail n fun l => (k l).map g

/-- `StreamCipherCore`.  `χ` is the set of conditions under which a call may run (which backend the dispatcher picks); it is chosen anew at each
call - implemented at chacha20/src/lib.rs:233-299, salsa20/src/lib.rs:120-129, hc-256/src/lib.rs:111-120, rabbit/src/lib.rs:235-247, 277-289. -/
structure Core (bs : Nat) (χ : Type) where
  σ : Type
  /-- `process_with_backend` -/
  process : {α : Type} → χ → Closure bs α → σ → Except Panic (α × σ)
  /-- `remaining_blocks` -/
  remaining : σ → Option Nat

/-- `StreamCipherSeekCore`; counters are given by their numeric value - implemented at chacha20/src/lib.rs:218-230, salsa20/src/lib.rs:131-144.
-/
structure SeekCore (bs : Nat) (χ : Type) extends Core bs χ where
  /-- width of `Self::Counter` -/
  ctrBits : Nat
  /-- `get_block_pos` -/
  getPos : σ → Nat
  /-- `set_block_pos` -/
  setPos : σ → Nat → σ

/-! ### The closures of `cipher` -/

/-- `WriteBlock`: one `gen_ks_block` - crate `cipher`; run by `process_with_backend`, chacha20/src/lib.rs:239-298. -/
def writeBlockClosure (bs : Nat) : Closure bs (Vector U8 bs) := fun _ => .block .done

/-- Loop of `ApplyBlocks` for `ParBlocksSize > 1`: `m` full chunks, then the tail - crate `cipher`; run by `process_with_backend`,
chacha20/src/lib.rs:239-298. -/
def applyChunks {bs : Nat} (par : Nat) : Nat → List (List U8) → Prog bs (List (List U8))
  | 0, data => .tail data.length fun ks => .done (List.zipWith (fun d k => xorBytes d k.toList) data ks)
  | m + 1, data => .par fun ks =>
      (applyChunks par m (data.drop par)).map
        (List.zipWith (fun d k => xorBytes d k.toList) (data.take par) ks ++ ·)

/-- Loop of `ApplyBlocks` for `ParBlocksSize = 1` - crate `cipher`; run by `process_with_backend`, chacha20/src/lib.rs:239-298. -/
def applySingles {bs : Nat} : List (List U8) → Prog bs (List (List U8))
  | [] => .done []
  | d :: data => .block fun k => (applySingles data).map (xorBytes d k.toList :: ·)

/-- `ApplyBlocks::call` - crate `cipher`; run by `process_with_backend`, chacha20/src/lib.rs:239-298. -/
def applyBlocksClosure {bs : Nat} (data : List (List U8)) : Closure bs (List (List U8)) := fun par =>
  if par > 1 then applyChunks par (data.length / par) data else applySingles data

/-- Loop of `WriteBlocks` for `ParBlocksSize > 1` producing `len` blocks: `m` full chunks, then the tail - crate `cipher`; run by
`process_with_backend`, chacha20/src/lib.rs:239-298. -/
def writeChunks {bs : Nat} (par : Nat) : Nat → Nat → Prog bs (List (List U8))
  | 0, len => .tail len fun ks => .done (ks.map (·.toList))
  | m + 1, len => .par fun ks => (writeChunks par m (len - par)).map (ks.map (·.toList) ++ ·)

/-- Loop of `WriteBlocks` for `ParBlocksSize = 1` - crate `cipher`; run by `process_with_backend`, chacha20/src/lib.rs:239-298. -/
def writeSingles {bs : Nat} : Nat → Prog bs (List (List U8))
  | 0 => .done []
  | n + 1 => .block fun k => (writeSingles n).map (k.toList :: ·)

/-- `WriteBlocks::call` for a buffer of `len` blocks - crate `cipher`; run by `process_with_backend`, chacha20/src/lib.rs:239-298. -/
def writeBlocksClosure {bs : Nat} (len : Nat) : Closure bs (List (List U8)) := fun par =>
  if par > 1 then writeChunks par (len / par) len else writeSingles len

/-! ### The wrapper -/

/-- Contents of a `StreamCipherCoreWrapper<C>`: the core and a `ReadBuffer`.  `ReadBuffer` keeps its read position in the first byte of the block
(which has always been consumed); here it is a field of its own - crate `cipher`, for the types of chacha20/src/chacha.rs:16-22, legacy.rs:14,
xchacha.rs:34-38, salsa20/src/lib.rs:30-38, xsalsa.rs:21-25, hc-256/src/lib.rs:38, rabbit/src/lib.rs:45-47. -/
structure Wrapper (bs : Nat) (σ : Type) where
  core : σ
  buf : Vector U8 bs
  pos : Nat

/-- Errors reported to the caller through `Result` - crate `cipher`, wrapper of chacha20/src/chacha.rs:16-22 and the other cipher types. -/
inductive CipherError where
  | streamCipherError
  | overflowError
  deriving DecidableEq, Repr

variable {bs : Nat} {χ : Type}

/-- `StreamCipherCoreWrapper::from_core`: `ReadBuffer::default()` has its position at the end - crate `cipher`, for the types of
chacha20/src/chacha.rs:16-22, legacy.rs:14, xchacha.rs:34-38, salsa20/src/lib.rs:30-38, xsalsa.rs:21-25, hc-256/src/lib.rs:38,
rabbit/src/lib.rs:45-47. -/
def Wrapper.fromCore {σ : Type} (s : σ) : Wrapper bs σ := ⟨s, Vector.replicate bs 0, bs⟩

/-- `check_remaining` - crate `cipher`, wrapper of chacha20/src/chacha.rs:16-22 and the other cipher types. -/
def Wrapper.checkRemaining (C : Core bs χ) (w : Wrapper bs C.σ) (dataLen : Nat) : Except CipherError Unit :=
  match C.remaining w.core with
  | none => .ok ()
  | some remBlocks =>
    if dataLen < bs - w.pos then .ok () else
    let dataLen := dataLen - (bs - w.pos)
    let blocks := (dataLen + bs - 1) / bs
    if blocks > remBlocks then .error .streamCipherError else .ok ()

/-- Split a byte string into `k` chunks of `bs` bytes (`into_chunks`) - crate `cipher`, wrapper of chacha20/src/chacha.rs:16-22 and the other
cipher types. -/
def chunksOf (bs : Nat) (k : Nat) (l : List U8) : List (List U8) :=
  (List.range k).map fun i => (l.drop (i * bs)).take bs

/-- `unchecked_apply_keystream_inout` - crate `cipher`, wrapper of chacha20/src/chacha.rs:16-22 and the other cipher types. -/
def Wrapper.uncheckedApply (C : Core bs χ) (x : χ) (w : Wrapper bs C.σ) (data : List U8) :
    Except Panic (List U8 × Wrapper bs C.σ) := do
  let headLen := min (bs - w.pos) data.length
  let head := data.take headLen
  let rest := data.drop headLen
  let headOut := xorBytes head ((w.buf.toList.drop w.pos).take headLen)
  let w := { w with pos := w.pos + headLen }
  let k := rest.length / bs
  let (mid, core) ← C.process x (applyBlocksClosure (chunksOf bs k rest)) w.core
  let w := { w with core := core }
  let tail := rest.drop (k * bs)
  if tail.length = 0 then return (headOut ++ mid.flatten, w) else
  let (b, core) ← C.process x (writeBlockClosure bs) w.core
  let tailOut := xorBytes tail (b.toList.take tail.length)
  return (headOut ++ mid.flatten ++ tailOut, ⟨core, b, tail.length⟩)

/-- `unchecked_write_keystream` - crate `cipher`, wrapper of chacha20/src/chacha.rs:16-22 and the other cipher types. -/
def Wrapper.uncheckedWrite (C : Core bs χ) (x : χ) (w : Wrapper bs C.σ) (len : Nat) :
    Except Panic (List U8 × Wrapper bs C.σ) := do
  let headLen := min (bs - w.pos) len
  let headOut := (w.buf.toList.drop w.pos).take headLen
  let rest := len - headLen
  let w := { w with pos := w.pos + headLen }
  let k := rest / bs
  let (mid, core) ← C.process x (writeBlocksClosure k) w.core
  let w := { w with core := core }
  let tail := rest - k * bs
  if tail = 0 then return (headOut ++ mid.flatten, w) else
  let (b, core) ← C.process x (writeBlockClosure bs) w.core
  return (headOut ++ mid.flatten ++ b.toList.take tail, ⟨core, b, tail⟩)

/-- `try_apply_keystream(data)`: result, contents of `data` afterwards, cipher afterwards - crate `cipher`, wrapper of
chacha20/src/chacha.rs:16-22 and the other cipher types. -/
def Wrapper.tryApply (C : Core bs χ) (x : χ) (w : Wrapper bs C.σ) (data : List U8) :
    Except Panic (Except CipherError Unit × List U8 × Wrapper bs C.σ) :=
  match w.checkRemaining C data.length with
  | .error e => .ok (.error e, data, w)
  | .ok () => do
    let (out, w) ← w.uncheckedApply C x data
    return (.ok (), out, w)

/-- `try_write_keystream(buf)`: result, contents of `buf` afterwards, cipher afterwards - crate `cipher`, wrapper of chacha20/src/chacha.rs:16-22
and the other cipher types. -/
def Wrapper.tryWrite (C : Core bs χ) (x : χ) (w : Wrapper bs C.σ) (buf : List U8) :
    Except Panic (Except CipherError Unit × List U8 × Wrapper bs C.σ) :=
  match w.checkRemaining C buf.length with
  | .error e => .ok (.error e, buf, w)
  | .ok () => do
    let (out, w) ← w.uncheckedWrite C x buf.length
    return (.ok (), out, w)

/-- `apply_keystream(data)`: `try_apply_keystream(data).unwrap()` - crate `cipher`, wrapper of chacha20/src/chacha.rs:16-22 and the other cipher
types. -/
def Wrapper.apply (C : Core bs χ) (x : χ) (w : Wrapper bs C.σ) (data : List U8) :
    Except Panic (List U8 × Wrapper bs C.σ) := do
  match ← w.tryApply C x data with
  | (.ok (), out, w) => return (out, w)
  | (.error _, _, _) => .error .unwrap

/-- `try_seek(q)` for an unsigned seek number `q`: `into_block_byte` (the block must fit the counter type), `set_block_pos`, `buffer.reset()`,
and, if the target is inside a block, generation of that block - crate `cipher`, wrapper of chacha20/src/chacha.rs:16-22 and the other seekable
types. -/
def Wrapper.trySeek (C : SeekCore bs χ) (x : χ) (w : Wrapper bs C.σ) (q : Nat) :
    Except Panic (Except CipherError Unit × Wrapper bs C.σ) :=
  let byte := q % bs
  let block := q / bs
  if block ≥ 2 ^ C.ctrBits then .ok (.error .overflowError, w) else
  let core := C.setPos w.core block
  if byte = 0 then .ok (.ok (), ⟨core, w.buf, bs⟩) else do
  let (b, core) ← C.process x (writeBlockClosure bs) core
  return (.ok (), ⟨core, b, byte⟩)

/-- `try_current_pos::<SN>()` where `SN` is an unsigned type with largest value `snMax`: `from_block_byte` with checked arithmetic in `SN` -
crate `cipher`, wrapper of chacha20/src/chacha.rs:16-22 and the other seekable types. -/
def Wrapper.tryCurrentPos (C : SeekCore bs χ) (w : Wrapper bs C.σ) (snMax : Nat) : Except CipherError Nat :=
  let block := C.getPos w.core
  let rem := bs - w.pos
  if block > snMax then .error .overflowError else
  if block * bs > snMax then .error .overflowError else
  if block * bs < rem then .error .overflowError else
  .ok (block * bs - rem)

/-- A call on a byte-level cipher object - crate `cipher`, wrapper of chacha20/src/chacha.rs:16-22 and the other cipher types. -/
inductive Op where
  /-- `try_apply_keystream(data)` -/
  | apply (data : List U8)
  /-- `try_write_keystream(buf)` -/
  | write (buf : List U8)
  deriving Repr

/-- A call on a seekable byte-level cipher object - crate `cipher`, wrapper of chacha20/src/chacha.rs:16-22 and the other seekable types. -/
inductive SeekOp where
  | io (op : Op)
  /-- `try_seek(q)` -/
  | seek (q : Nat)
  /-- `try_current_pos()` in a type with the given maximum -/
  | pos (snMax : Nat)
  deriving Repr

/-- What the caller observes - crate `cipher`, wrapper of chacha20/src/chacha.rs:16-22 and the other cipher types. -/
inductive Obs where
  /-- result and buffer contents -/
  | data (r : Except CipherError Unit) (out : List U8)
  | done (r : Except CipherError Unit)
  | num (r : Except CipherError Nat)

/-- Execute one call - crate `cipher`, wrapper of chacha20/src/chacha.rs:16-22 and the other cipher types. -/
def Wrapper.step (C : Core bs χ) (x : χ) (w : Wrapper bs C.σ) : Op → Except Panic (Obs × Wrapper bs C.σ)
  | .apply data => do
    let (r, out, w) ← w.tryApply C x data
    return (.data r out, w)
  | .write buf => do
    let (r, out, w) ← w.tryWrite C x buf
    return (.data r out, w)

/-- Execute one call on a seekable cipher - crate `cipher`, wrapper of chacha20/src/chacha.rs:16-22 and the other seekable types. -/
def Wrapper.seekStep (C : SeekCore bs χ) (x : χ) (w : Wrapper bs C.σ) :
    SeekOp → Except Panic (Obs × Wrapper bs C.σ)
  | .io op => w.step C.toCore x op
  | .seek q => do
    let (r, w) ← w.trySeek C x q
    return (.done r, w)
  | .pos snMax => .ok (.num (w.tryCurrentPos C snMax), w)

/-- Run a history: each call comes with the condition `χ` it runs under - crate `cipher`, wrapper of chacha20/src/chacha.rs:16-22 and the other
cipher types. -/
def runHistory {σ ι : Type} (step : χ → σ → ι → Except Panic (Obs × σ)) :
    List (χ × ι) → σ → Except Panic (List Obs × σ)
  | [], w => .ok ([], w)
  | (x, op) :: h, w => do
    let (o, w) ← step x w op
    let (os, w) ← runHistory step h w
    return (o :: os, w)

end Verif
