import Verif.Model.Wrapper
import Verif.Model.Rng
/-!
# Buffers with the position inside

`Wrapper` and `Rng` keep the read position in a field of its own.  The crates `block-buffer` (`ReadBuffer`) and `rand_core` (`BlockRng`) keep it in the
first byte, respectively the first word, of the buffer itself.  Here is that representation, after the published source of the two crates.
`ReadBuffer::get_pos` tells the compiler that a position of 0 or beyond the size cannot occur; here it is an error.
-/
namespace Verif

/-- `StreamCipherCoreWrapper<C>` with its `ReadBuffer` as it is in memory - crates `cipher`, `block-buffer`; for the types of
chacha20/src/chacha.rs:16-22, legacy.rs:14, xchacha.rs:34-38, salsa20/src/lib.rs:30-38, xsalsa.rs:21-25, hc-256/src/lib.rs:38,
rabbit/src/lib.rs:45-47. -/
structure Packed (bs : Nat) (σ : Type) where
  core : σ
  buf : Vector U8 bs

namespace Packed
variable {bs : Nat} {χ : Type}

/-- `set_pos_unchecked` - crate `block-buffer`; for the wrapper of chacha20/src/chacha.rs:16-22 and the other cipher types. -/
def setPos (h : 0 < bs) (b : Vector U8 bs) (pos : Nat) : Vector U8 bs := b.set 0 (BitVec.ofNat 8 pos)

/-- `get_pos` - crate `block-buffer`; for the wrapper of chacha20/src/chacha.rs:16-22 and the other cipher types. -/
def getPos (h : 0 < bs) (b : Vector U8 bs) : Except Panic Nat :=
  if b[0].toNat = 0 ∨ b[0].toNat > bs then .error .assertion else .ok b[0].toNat

/-- `from_core` with `ReadBuffer::default` - crates `cipher`, `block-buffer`; for the wrapper of chacha20/src/chacha.rs:16-22 and the other cipher types. -/
def fromCore {σ : Type} (h : 0 < bs) (s : σ) : Packed bs σ := ⟨s, setPos h (Vector.replicate bs 0) bs⟩

/-- `read_cached(len)`: the bytes returned, and the buffer - crate `block-buffer`; for the wrapper of chacha20/src/chacha.rs:16-22 and the other cipher
types. -/
def readCached (h : 0 < bs) (b : Vector U8 bs) (len : Nat) : Except Panic (List U8 × Vector U8 bs) := do
  let pos ← getPos h b
  let n := min (bs - pos) len
  let b := setPos h b (pos + n)
  return ((b.toList.drop pos).take n, b)

/-- `write_block(pos, gen_block, read_fn)`: the bytes shown to `read_fn`, and the buffer - crate `block-buffer`; for the wrapper of
chacha20/src/chacha.rs:16-22 and the other cipher types. -/
def writeBlock (h : 0 < bs) (pos : Nat) (block : Vector U8 bs) : Except Panic (List U8 × Vector U8 bs) :=
  if pos ≠ 0 ∧ pos < bs then .ok (block.toList.take pos, setPos h block pos) else .error .assertion

/-- `check_remaining` - crate `cipher`, wrapper of chacha20/src/chacha.rs:16-22 and the other cipher types. -/
def checkRemaining (h : 0 < bs) (C : Core bs χ) (w : Packed bs C.σ) (dataLen : Nat) : Except Panic (Except CipherError Unit) :=
  match C.remaining w.core with
  | none => .ok (.ok ())
  | some remBlocks => do
    let rem := bs - (← getPos h w.buf)
    if dataLen < rem then return .ok ()
    let blocks := (dataLen - rem + bs - 1) / bs
    return if blocks > remBlocks then .error .streamCipherError else .ok ()

/-- `unchecked_apply_keystream_inout` - crate `cipher`, wrapper of chacha20/src/chacha.rs:16-22 and the other cipher types. -/
def uncheckedApply (h : 0 < bs) (C : Core bs χ) (x : χ) (w : Packed bs C.σ) (data : List U8) :
    Except Panic (List U8 × Packed bs C.σ) := do
  let (ks, buf) ← readCached h w.buf data.length
  let headOut := xorBytes (data.take ks.length) ks
  let rest := data.drop ks.length
  let k := rest.length / bs
  let (mid, core) ← C.process x (applyBlocksClosure (chunksOf bs k rest)) w.core
  let tail := rest.drop (k * bs)
  if tail.length = 0 then return (headOut ++ mid.flatten, ⟨core, buf⟩) else
  let (b, core) ← C.process x (writeBlockClosure bs) core
  let (ks, buf) ← writeBlock h tail.length b
  return (headOut ++ mid.flatten ++ xorBytes tail ks, ⟨core, buf⟩)

/-- `unchecked_write_keystream` - crate `cipher`, wrapper of chacha20/src/chacha.rs:16-22 and the other cipher types. -/
def uncheckedWrite (h : 0 < bs) (C : Core bs χ) (x : χ) (w : Packed bs C.σ) (len : Nat) :
    Except Panic (List U8 × Packed bs C.σ) := do
  let (ks, buf) ← readCached h w.buf len
  let rest := len - ks.length
  let k := rest / bs
  let (mid, core) ← C.process x (writeBlocksClosure k) w.core
  let tail := rest - k * bs
  if tail = 0 then return (ks ++ mid.flatten, ⟨core, buf⟩) else
  let (b, core) ← C.process x (writeBlockClosure bs) core
  let (ks', buf) ← writeBlock h tail b
  return (ks ++ mid.flatten ++ ks', ⟨core, buf⟩)

/-- `try_apply_keystream(data)` - crate `cipher`, wrapper of chacha20/src/chacha.rs:16-22 and the other cipher types. -/
def tryApply (h : 0 < bs) (C : Core bs χ) (x : χ) (w : Packed bs C.σ) (data : List U8) :
    Except Panic (Except CipherError Unit × List U8 × Packed bs C.σ) := do
  match ← w.checkRemaining h C data.length with
  | .error e => return (.error e, data, w)
  | .ok () => do
    let (out, w) ← w.uncheckedApply h C x data
    return (.ok (), out, w)

/-- `try_write_keystream(buf)` - crate `cipher`, wrapper of chacha20/src/chacha.rs:16-22 and the other cipher types. -/
def tryWrite (h : 0 < bs) (C : Core bs χ) (x : χ) (w : Packed bs C.σ) (buf : List U8) :
    Except Panic (Except CipherError Unit × List U8 × Packed bs C.σ) := do
  match ← w.checkRemaining h C buf.length with
  | .error e => return (.error e, buf, w)
  | .ok () => do
    let (out, w) ← w.uncheckedWrite h C x buf.length
    return (.ok (), out, w)

/-- `try_seek(q)` - crate `cipher`, wrapper of chacha20/src/chacha.rs:16-22 and the other seekable types. -/
def trySeek (h : 0 < bs) (C : SeekCore bs χ) (x : χ) (w : Packed bs C.σ) (q : Nat) :
    Except Panic (Except CipherError Unit × Packed bs C.σ) :=
  let byte := q % bs
  let block := q / bs
  if block ≥ 2 ^ C.ctrBits then .ok (.error .overflowError, w) else
  let core := C.setPos w.core block
  let buf := setPos h w.buf bs
  if byte = 0 then .ok (.ok (), ⟨core, buf⟩) else do
  let (b, core) ← C.process x (writeBlockClosure bs) core
  let (_, buf) ← writeBlock h byte b
  return (.ok (), ⟨core, buf⟩)

/-- `try_current_pos::<SN>()` - crate `cipher`, wrapper of chacha20/src/chacha.rs:16-22 and the other seekable types. -/
def tryCurrentPos (h : 0 < bs) (C : SeekCore bs χ) (w : Packed bs C.σ) (snMax : Nat) : Except Panic (Except CipherError Nat) := do
  let block := C.getPos w.core
  let rem := bs - (← getPos h w.buf)
  return if block > snMax then .error .overflowError else
    if block * bs > snMax then .error .overflowError else
    if block * bs < rem then .error .overflowError else
    .ok (block * bs - rem)

/-- Execute one call - crate `cipher`, wrapper of chacha20/src/chacha.rs:16-22 and the other cipher types. -/
def step (h : 0 < bs) (C : Core bs χ) (x : χ) (w : Packed bs C.σ) : Op → Except Panic (Obs × Packed bs C.σ)
  | .apply data => do
    let (r, out, w) ← w.tryApply h C x data
    return (.data r out, w)
  | .write buf => do
    let (r, out, w) ← w.tryWrite h C x buf
    return (.data r out, w)

/-- Execute one call on a seekable cipher - crate `cipher`, wrapper of chacha20/src/chacha.rs:16-22 and the other seekable types. -/
def seekStep (h : 0 < bs) (C : SeekCore bs χ) (x : χ) (w : Packed bs C.σ) : SeekOp → Except Panic (Obs × Packed bs C.σ)
  | .io op => w.step h C.toCore x op
  | .seek q => do
    let (r, w) ← w.trySeek h C x q
    return (.done r, w)
  | .pos snMax => do
    let r ← w.tryCurrentPos h C snMax
    return (.num r, w)

end Packed

namespace ChaCha
open Verif.Spec.Rng (RngOp RngObs)

/-- `BlockRng` as it is in memory - crate `rand_core`; chacha20/src/rng.rs:134-136. -/
structure PackedRng where
  core : State
  results : Vector U32 64

namespace PackedRng

/-- `index()` - crate `rand_core`; called by the methods behind chacha20/src/rng.rs:155-163, 205-209, 230, 243, 253. -/
def index (r : PackedRng) : Nat := r.results[0].toNat

/-- `set_index` - crate `rand_core`; called by the methods behind chacha20/src/rng.rs:155-163, 230, 243. -/
def setIndex (i : Nat) (r : PackedRng) : PackedRng := { r with results := r.results.set 0 (BitVec.ofNat 32 i) }

/-- Core, words and index - read by chacha20/src/rng.rs:202-212, 251-259, 272-313. -/
def view (r : PackedRng) : Rng := ⟨r.core, r.results, r.index⟩

/-- `BlockRng::new` - crate `rand_core`; called at chacha20/src/rng.rs:145, 332. -/
def ofCore (core : State) : PackedRng := setIndex 64 ⟨core, Vector.replicate 64 0⟩

/-- `self.core.generate(&mut self.results)` - crate `rand_core`; runs `generate`, chacha20/src/rng.rs:49-92. -/
def refill (dr : Nat) (e : Env) (r : PackedRng) : PackedRng := ⟨(generate dr .legacy e r.core).2, (generate dr .legacy e r.core).1⟩

/-- `BlockRng::reset_and_skip` - crate `rand_core`; called at chacha20/src/rng.rs:230, 243. -/
def resetAndSkip (dr : Nat) (e : Env) (n : Nat) (r : PackedRng) : Except Panic PackedRng :=
  if n = 0 then .ok (r.setIndex 64)
  else if n < 64 then .ok ((refill dr e r).setIndex n)
  else .error .assertion

/-- `BlockRng::next_word` - crate `rand_core`; called at chacha20/src/rng.rs:155. -/
def nextWord (dr : Nat) (e : Env) (r : PackedRng) : U32 × PackedRng :=
  if h : r.index < 64 then (r.results[r.index], r.setIndex (r.index + 1))
  else
    let r := refill dr e r
    (r.results[0], r.setIndex 1)

/-- `BlockRng::next_u64_from_u32` - crate `rand_core`; called at chacha20/src/rng.rs:159. -/
def nextU64 (dr : Nat) (e : Env) (r : PackedRng) : U64 × PackedRng :=
  let join (lo hi : U32) : U64 := (hi.setWidth 64 <<< 32) ||| lo.setWidth 64
  if h : r.index < 63 then (join r.results[r.index] r.results[r.index + 1], r.setIndex (r.index + 2))
  else if r.index ≥ 64 then
    let r := refill dr e r
    (join r.results[0] r.results[1], r.setIndex 2)
  else
    let lo := r.results[63]
    let r := refill dr e r
    (join lo r.results[0], r.setIndex 1)

/-- `BlockRng::fill_bytes`: the loop keeps the index in a local variable and stores it at the end - crate `rand_core`; called at
chacha20/src/rng.rs:163. -/
def fillBytes (dr : Nat) (e : Env) (n : Nat) (r : PackedRng) : List U8 × PackedRng :=
  let (bytes, r') := Rng.fillLoop dr e n r.view
  (bytes, setIndex r'.index ⟨r'.core, r'.results⟩)

/-- `from_seed` - rng.rs:142-147. -/
def fromSeed (seed : Vector U8 32) : Except Panic PackedRng := do
  let core ← newInternal .legacy seed (List.replicate 8 0)
  return ofCore core

/-- `set_word_pos` - rng.rs:224-231. -/
def setWordPos (dr : Nat) (e : Env) (wordOffset : U128) (r : PackedRng) : Except Panic PackedRng :=
  let index := (wordOffset % 16#128).toNat
  let counter := wordOffset / 16#128
  let core := r.core.set 12 (counter.setWidth 32)
  let core := core.set 13 ((counter >>> 32).setWidth 32)
  resetAndSkip dr e index { r with core := core }

/-- `set_block_pos` - rng.rs:242-245. -/
def setBlockPos (dr : Nat) (e : Env) (pos : U64) (r : PackedRng) : Except Panic PackedRng := do
  let r ← resetAndSkip dr e 0 r
  return { r with core := Legacy.setBlockPos r.core pos }

/-- `set_stream` - rng.rs:263-267. -/
def setStream (dr : Nat) (e : Env) (stream : U64) (r : PackedRng) : Except Panic PackedRng :=
  let core := r.core.set 14 (stream.setWidth 32)
  let core := core.set 15 ((stream >>> 32).setWidth 32)
  setBlockPos dr e 0 { r with core := core }

/-- `deserialize_state` - rng.rs:317-337. -/
def deserialize (dr : Nat) (e : Env) (state : Vector U8 49) : Except Panic PackedRng := do
  let seed : Vector U8 32 := Vector.ofFn fun i => state[i.val]
  let stream := (state.toList.drop 32).take 8
  let wordPosBuf := state.toList.drop 40 ++ List.replicate 7 0
  let wordPos := fromLeBytes 128 wordPosBuf
  let core ← newInternal .legacy seed stream
  setWordPos dr e wordPos (ofCore core)

/-- One call - chacha20/src/rng.rs:150-166, 193-338. -/
def step (m : Mode) (dr : Nat) (e : Env) (r : PackedRng) : RngOp → Except Panic (RngObs × PackedRng)
  | .nextU32 => .ok (.u32 (nextWord dr e r).1, (nextWord dr e r).2)
  | .nextU64 => .ok (.u64 (nextU64 dr e r).1, (nextU64 dr e r).2)
  | .fill n => .ok (.bytes (fillBytes dr e n r).1, (fillBytes dr e n r).2)
  | .setWordPos p => do return (.none, ← setWordPos dr e p r)
  | .setBlockPos b => do return (.none, ← setBlockPos dr e b r)
  | .setStream s => do return (.none, ← setStream dr e s r)
  | .getWordPos => .ok (.u128 r.view.getWordPos, r)
  | .getBlockPos => do return (.u64 (← r.view.getBlockPos m), r)
  | .getStream => .ok (.u64 r.view.getStream, r)
  | .getSeed => .ok (.bytes r.view.getSeed.toList, r)
  | .serialize => do return (.bytes (← r.view.serialize m).toList, r)
  | .load b => do return (.none, ← deserialize dr e b)
  | .reload => do return (.none, ← deserialize dr e (← r.view.serialize m))

/-- A sequence of calls - chacha20/src/rng.rs:150-166, 193-338. -/
def run (m : Mode) (dr : Nat) : List (Env × RngOp) → PackedRng → Except Panic (List RngObs × PackedRng)
  | [], r => .ok ([], r)
  | (e, op) :: h, r => do
    let (o, r) ← step m dr e r op
    let (os, r) ← run m dr h r
    return (o :: os, r)

end PackedRng
end ChaCha
end Verif
