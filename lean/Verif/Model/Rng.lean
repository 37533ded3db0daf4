import Verif.Model.Config
import Verif.Spec.Rng
/-!
# Model of the ChaCha random number generators

Rust source: `/repo/chacha20/src/rng.rs`.  `rand_core::block::BlockRng` (external crate `rand_core` 0.10, not part of /repo) is
modelled from its published source and belongs to the trusted base: a buffer of 64 words and the index of the next unread word, 64
when the buffer is exhausted.  (The crate keeps the index in the slot of word 0, which has always been read when it is overwritten.)
-/
namespace Verif.ChaCha
open Verif.Spec.Rng (RngOp RngObs)

/-- `SeedableRng for ChaChaCore<R, V>` - rng.rs:35-42. -/
def coreFromSeed (V : Variant) (seed : Vector U8 32) : Except Panic State := newInternal V seed (List.replicate 8 0)

/-- `Generator::generate` - rng.rs:49-92.  There is no AVX-512 refill, and `selectRng` never selects it. -/
def generate (dr : Nat) (V : Variant) (e : Env) (s : State) : Vector U32 64 × State :=
  match Config.selectRng e.build e.detected with
  | .soft => softGenKsBlocks dr s
  | .sse2 => Sse2.rngInner dr V s
  | .avx2 => Avx2.rngInner dr s
  | .avx512 => Avx2.rngInner dr s
  | .neon => Neon.rngInner dr V s

/-- `from_le_bytes` for an integer of `w` bits - chacha20/src/rng.rs:276, 328. -/
def fromLeBytes (w : Nat) (bs : List U8) : BitVec w := bs.foldr (fun b acc => (acc <<< 8) ||| b.setWidth w) 0

/-- `to_le_bytes` for an integer of `8 * n` bits - chacha20/src/rng.rs:299-300. -/
def toLeBytes (n : Nat) (x : BitVec (8 * n)) : Vector U8 n := Vector.ofFn fun i => (x >>> (8 * i.val)).setWidth 8

/-- `$Rng`: `BlockRng<ChaChaCore<$rounds, Legacy>>` - rng.rs:134-136. -/
structure Rng where
  core : State
  results : Vector U32 64
  index : Nat

namespace Rng

/-! ### `BlockRng` -/

/-- `BlockRng::new` - crate `rand_core`; called at chacha20/src/rng.rs:145, 332. -/
def ofCore (core : State) : Rng := ⟨core, Vector.replicate 64 0, 64⟩

/-- `self.core.generate(&mut self.results)` - crate `rand_core`; runs `generate`, chacha20/src/rng.rs:49-92. -/
def refill (dr : Nat) (e : Env) (r : Rng) : Rng :=
  { r with core := (generate dr .legacy e r.core).2, results := (generate dr .legacy e r.core).1 }

/-- `BlockRng::reset_and_skip` - crate `rand_core`; called at chacha20/src/rng.rs:230, 243. -/
def resetAndSkip (dr : Nat) (e : Env) (n : Nat) (r : Rng) : Except Panic Rng :=
  if n = 0 then .ok { r with index := 64 }
  else if n < 64 then .ok { refill dr e r with index := n }
  else .error .assertion

/-- `BlockRng::word_offset` - crate `rand_core`; called at chacha20/src/rng.rs:205, 209, 253. -/
def wordOffset (r : Rng) : Nat := if r.index ≥ 64 then 0 else r.index

/-- `BlockRng::next_word` - crate `rand_core`; called at chacha20/src/rng.rs:155. -/
def nextWord (dr : Nat) (e : Env) (r : Rng) : U32 × Rng :=
  if h : r.index < 64 then (r.results[r.index], { r with index := r.index + 1 })
  else
    let r := refill dr e r
    (r.results[0], { r with index := 1 })

/-- `BlockRng::next_u64_from_u32` - crate `rand_core`; called at chacha20/src/rng.rs:159. -/
def nextU64 (dr : Nat) (e : Env) (r : Rng) : U64 × Rng :=
  let join (lo hi : U32) : U64 := (hi.setWidth 64 <<< 32) ||| lo.setWidth 64
  if h : r.index < 63 then (join r.results[r.index] r.results[r.index + 1], { r with index := r.index + 2 })
  else if r.index ≥ 64 then
    let r := refill dr e r
    (join r.results[0] r.results[1], { r with index := 2 })
  else
    let lo := r.results[63]
    let r := refill dr e r
    (join lo r.results[0], { r with index := 1 })

/-- `fill_via_chunks(src, dest)` for `dest.len() = n`: the number of words consumed and the bytes written - crate `rand_core`; part of
`fill_bytes`, chacha20/src/rng.rs:163. -/
def fillViaChunks (src : List U32) (n : Nat) : Nat × List U8 :=
  let size := min (src.length * 4) n
  ((size + 3) / 4, (src.flatMap fun w => (toLe32 w).toList).take size)

theorem length_flatMap_toLe32 (src : List U32) : (src.flatMap fun w => (toLe32 w).toList).length = src.length * 4 := by
  induction src with
  | nil => rfl
  | cons w src ih => simp only [List.flatMap_cons, List.length_append, ih, Vector.length_toList, List.length_cons]; omega

/-- The loop of `BlockRng::fill_bytes` with `n` bytes still to be written - crate `rand_core`; part of `fill_bytes`, chacha20/src/rng.rs:163. -/
def fillLoop (dr : Nat) (e : Env) (n : Nat) (r : Rng) : List U8 × Rng :=
  if _hn : n = 0 then ([], r) else
  let r' := if r.index ≥ 64 then { refill dr e r with index := 0 } else r
  let chunk := fillViaChunks (r'.results.toList.drop r'.index) n
  let next := fillLoop dr e (n - chunk.2.length) { r' with index := r'.index + chunk.1 }
  (chunk.2 ++ next.1, next.2)
termination_by n
decreasing_by
  have hlt : r'.index < 64 := by
    show (if r.index ≥ 64 then { refill dr e r with index := 0 } else r).index < 64
    split
    · exact (by decide : 0 < 64)
    · omega
  have hout : chunk.2.length = min ((64 - r'.index) * 4) n := by
    show (fillViaChunks (r'.results.toList.drop r'.index) n).2.length = _
    rw [fillViaChunks, List.length_take, length_flatMap_toLe32, List.length_drop, Vector.length_toList]
    omega
  show n - chunk.2.length < n
  rw [hout]
  omega

/-- `BlockRng::fill_bytes` - crate `rand_core`; called at chacha20/src/rng.rs:163. -/
def fillBytes (dr : Nat) (e : Env) (n : Nat) (r : Rng) : List U8 × Rng := fillLoop dr e n r

/-! ### rng.rs -/

/-- `from_seed` - rng.rs:142-147. -/
def fromSeed (seed : Vector U8 32) : Except Panic Rng := do
  let core ← newInternal .legacy seed (List.replicate 8 0)
  return ofCore core

/-- `get_word_pos` - rng.rs:202-212.  (The `u128` arithmetic cannot overflow: `getWordPos_no_overflow`.) -/
def getWordPos (r : Rng) : U128 :=
  let blockCounter : U64 := (r.core[13].setWidth 64 <<< 32) ||| r.core[12].setWidth 64
  let blockCounter := if r.wordOffset ≠ 0 then blockCounter - 4#64 else blockCounter
  let wordPos : U128 := blockCounter.setWidth 128 * 16#128 + BitVec.ofNat 128 r.wordOffset
  wordPos &&& ((1#128 <<< 68) - 1#128)

/-- `set_word_pos` - rng.rs:224-231. -/
def setWordPos (dr : Nat) (e : Env) (wordOffset : U128) (r : Rng) : Except Panic Rng :=
  let index := (wordOffset % 16#128).toNat
  let counter := wordOffset / 16#128
  let core := r.core.set 12 (counter.setWidth 32)
  let core := core.set 13 ((counter >>> 32).setWidth 32)
  resetAndSkip dr e index { r with core := core }

/-- `set_block_pos` - rng.rs:242-245. -/
def setBlockPos (dr : Nat) (e : Env) (pos : U64) (r : Rng) : Except Panic Rng := do
  let r ← resetAndSkip dr e 0 r
  return { r with core := Legacy.setBlockPos r.core pos }

/-- `a - b` on `u64` - chacha20/src/rng.rs:255. -/
def sub64 (m : Mode) (a b : U64) : Except Panic U64 :=
  if b.toNat ≤ a.toNat then .ok (a - b) else
  match m with
  | .debug => .error .overflow
  | .release => .ok (a - b)

/-- `a + b` on `u64` - chacha20/src/rng.rs:255. -/
def add64 (m : Mode) (a b : U64) : Except Panic U64 :=
  if a.toNat + b.toNat < 2 ^ 64 then .ok (a + b) else
  match m with
  | .debug => .error .overflow
  | .release => .ok (a + b)

/-- `get_block_pos` - rng.rs:251-259. -/
def getBlockPos (m : Mode) (r : Rng) : Except Panic U64 :=
  let counter := Legacy.getBlockPos r.core
  let offset := r.wordOffset
  if offset ≠ 0 then do
    let c ← sub64 m counter 4#64
    add64 m c (BitVec.ofNat 64 offset / 16#64)
  else .ok counter

/-- `set_stream` - rng.rs:263-267. -/
def setStream (dr : Nat) (e : Env) (stream : U64) (r : Rng) : Except Panic Rng :=
  let core := r.core.set 14 (stream.setWidth 32)
  let core := core.set 15 ((stream >>> 32).setWidth 32)
  setBlockPos dr e 0 { r with core := core }

/-- `get_stream` - rng.rs:272-277. -/
def getStream (r : Rng) : U64 := fromLeBytes 64 ((toLe32 r.core[14]).toList ++ (toLe32 r.core[15]).toList)

/-- `get_seed` - rng.rs:282-289. -/
def getSeed (r : Rng) : Vector U8 32 := leBytes (k := 8) (Vector.ofFn fun i => r.core[4 + i.val])

/-- `serialize_state` - rng.rs:297-313. -/
def serialize (m : Mode) (r : Rng) : Except Panic (Vector U8 49) :=
  let seed := getSeed r
  let stream := toLeBytes 8 (getStream r)
  let wordPos := toLeBytes 16 (getWordPos r)
  let res : Vector U8 49 := Vector.ofFn fun i =>
    if h : i.val < 32 then seed[i.val] else if h : i.val < 40 then stream[i.val - 32] else wordPos[i.val - 40]
  if m = .debug ∧ wordPos.toList.drop 9 ≠ List.replicate 7 0 then .error .assertion else .ok res

/-- `deserialize_state` - rng.rs:317-337. -/
def deserialize (dr : Nat) (e : Env) (state : Vector U8 49) : Except Panic Rng := do
  let seed : Vector U8 32 := Vector.ofFn fun i => state[i.val]
  let stream := (state.toList.drop 32).take 8
  let wordPosBuf := state.toList.drop 40 ++ List.replicate 7 0
  let wordPos := fromLeBytes 128 wordPosBuf
  let core ← newInternal .legacy seed stream
  setWordPos dr e wordPos (ofCore core)

/-- `eq` - rng.rs:177-181. -/
def eq (r r' : Rng) : Bool := getSeed r = getSeed r' ∧ getStream r = getStream r' ∧ getWordPos r = getWordPos r'

end Rng

/-! ### Histories -/

/-- One call - chacha20/src/rng.rs:150-166, 193-338. -/
def Rng.step (m : Mode) (dr : Nat) (e : Env) (r : Rng) : RngOp → Except Panic (RngObs × Rng)
  | .nextU32 => .ok (.u32 (nextWord dr e r).1, (nextWord dr e r).2)
  | .nextU64 => .ok (.u64 (nextU64 dr e r).1, (nextU64 dr e r).2)
  | .fill n => .ok (.bytes (fillBytes dr e n r).1, (fillBytes dr e n r).2)
  | .setWordPos p => do return (.none, ← Rng.setWordPos dr e p r)
  | .setBlockPos b => do return (.none, ← Rng.setBlockPos dr e b r)
  | .setStream s => do return (.none, ← Rng.setStream dr e s r)
  | .getWordPos => .ok (.u128 r.getWordPos, r)
  | .getBlockPos => do return (.u64 (← r.getBlockPos m), r)
  | .getStream => .ok (.u64 r.getStream, r)
  | .getSeed => .ok (.bytes r.getSeed.toList, r)
  | .serialize => do return (.bytes (← r.serialize m).toList, r)
  | .load b => do return (.none, ← deserialize dr e b)
  | .reload => do return (.none, ← deserialize dr e (← r.serialize m))

/-- A sequence of calls - chacha20/src/rng.rs:150-166, 193-338. -/
def Rng.run (m : Mode) (dr : Nat) : List (Env × RngOp) → Rng → Except Panic (List RngObs × Rng)
  | [], r => .ok ([], r)
  | (e, op) :: h, r => do
    let (o, r) ← Rng.step m dr e r op
    let (os, r) ← Rng.run m dr h r
    return (o :: os, r)

end Verif.ChaCha
