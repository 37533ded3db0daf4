import Verif.Model.Rng
/-!
# The ChaCha random number generators with a record of what they do

The functions of `Model/Rng` once more, each also returning a list of events: refills of the buffer (with the backend that serves them) and the
parts of the buffer that are read.  `Proof/RngTrace` shows that dropping the events gives the functions of `Model/Rng`.
-/
namespace Verif.ChaCha.Rng
open Verif.Spec.Rng (RngOp RngObs)

/-- What an observer of the memory accesses and of the control flow sees - chacha20/src/rng.rs:49-92, 150-166. -/
inductive Ev where
  /-- the buffer is refilled by this backend -/
  | refill (b : Config.Impl)
  /-- `n` bytes are copied from the buffer, starting with word `i` -/
  | read (i n : Nat)
  deriving DecidableEq

/-- The event of a refill in the circumstances `e` - chacha20/src/rng.rs:49-92. -/
def evRefill (e : Env) : Ev := .refill (Config.selectRng e.build e.detected)

/-- `reset_and_skip` (see `resetAndSkip`) - called at chacha20/src/rng.rs:230, 243. -/
def resetAndSkipL (dr : Nat) (e : Env) (n : Nat) (r : Rng) : List Ev × Except Panic Rng :=
  if n = 0 then ([], .ok { r with index := 64 })
  else if n < 64 then ([evRefill e], .ok { refill dr e r with index := n })
  else ([], .error .assertion)

/-- `next_word` (see `nextWord`) - called at chacha20/src/rng.rs:155. -/
def nextWordL (dr : Nat) (e : Env) (r : Rng) : List Ev × U32 × Rng :=
  if h : r.index < 64 then ([.read r.index 4], r.results[r.index], { r with index := r.index + 1 })
  else
    let r := refill dr e r
    ([evRefill e, .read 0 4], r.results[0], { r with index := 1 })

/-- `next_u64_from_u32` (see `nextU64`) - called at chacha20/src/rng.rs:159. -/
def nextU64L (dr : Nat) (e : Env) (r : Rng) : List Ev × U64 × Rng :=
  let join (lo hi : U32) : U64 := (hi.setWidth 64 <<< 32) ||| lo.setWidth 64
  if h : r.index < 63 then
    ([.read r.index 4, .read (r.index + 1) 4], join r.results[r.index] r.results[r.index + 1], { r with index := r.index + 2 })
  else if r.index ≥ 64 then
    let r := refill dr e r
    ([evRefill e, .read 0 4, .read 1 4], join r.results[0] r.results[1], { r with index := 2 })
  else
    let lo := r.results[63]
    let r := refill dr e r
    ([.read 63 4, evRefill e, .read 0 4], join lo r.results[0], { r with index := 1 })

/-- The loop of `fill_bytes` (see `fillLoop`) - called at chacha20/src/rng.rs:163. -/
def fillLoopL (dr : Nat) (e : Env) (n : Nat) (r : Rng) : List Ev × List U8 × Rng :=
  if _hn : n = 0 then ([], [], r) else
  let r' := if r.index ≥ 64 then { refill dr e r with index := 0 } else r
  let chunk := fillViaChunks (r'.results.toList.drop r'.index) n
  let next := fillLoopL dr e (n - chunk.2.length) { r' with index := r'.index + chunk.1 }
  ((if r.index ≥ 64 then [evRefill e] else []) ++ .read r'.index chunk.2.length :: next.1, chunk.2 ++ next.2.1, next.2.2)
termination_by n
decreasing_by
  have hlt : r'.index < 64 := by
    show (if r.index ≥ 64 then { refill dr e r with index := 0 } else r).index < 64
    split
    · exact (by decide : 0 < 64)
    · omega
  have hout : chunk.2.length = min ((64 - r'.index) * 4) n := by
    show (fillViaChunks (r'.results.toList.drop r'.index) n).2.length = _
    rw [fillViaChunks, List.length_take, length_flatMap_toLe32, List.length_drop, Vector.length_toList]
    omega
  show n - chunk.2.length < n
  rw [hout]
  omega

/-- `set_word_pos` (see `setWordPos`) - chacha20/src/rng.rs:224-231. -/
def setWordPosL (dr : Nat) (e : Env) (wordOffset : U128) (r : Rng) : List Ev × Except Panic Rng :=
  let index := (wordOffset % 16#128).toNat
  let counter := wordOffset / 16#128
  let core := r.core.set 12 (counter.setWidth 32)
  let core := core.set 13 ((counter >>> 32).setWidth 32)
  resetAndSkipL dr e index { r with core := core }

/-- `set_block_pos` (see `setBlockPos`) - chacha20/src/rng.rs:242-245. -/
def setBlockPosL (dr : Nat) (e : Env) (pos : U64) (r : Rng) : List Ev × Except Panic Rng :=
  let s := resetAndSkipL dr e 0 r
  (s.1, do let r ← s.2; return { r with core := Legacy.setBlockPos r.core pos })

/-- `set_stream` (see `setStream`) - chacha20/src/rng.rs:263-267. -/
def setStreamL (dr : Nat) (e : Env) (stream : U64) (r : Rng) : List Ev × Except Panic Rng :=
  let core := r.core.set 14 (stream.setWidth 32)
  let core := core.set 15 ((stream >>> 32).setWidth 32)
  setBlockPosL dr e 0 { r with core := core }

/-- `deserialize_state` (see `deserialize`) - chacha20/src/rng.rs:317-337. -/
def deserializeL (dr : Nat) (e : Env) (state : Vector U8 49) : List Ev × Except Panic Rng :=
  let seed : Vector U8 32 := Vector.ofFn fun i => state[i.val]
  let stream := (state.toList.drop 32).take 8
  let wordPosBuf := state.toList.drop 40 ++ List.replicate 7 0
  let wordPos := fromLeBytes 128 wordPosBuf
  match newInternal .legacy seed stream with
  | .error p => ([], .error p)
  | .ok core => setWordPosL dr e wordPos (ofCore core)

/-- One call (see `step`) - chacha20/src/rng.rs:150-166, 193-338. -/
def stepL (m : Mode) (dr : Nat) (e : Env) (r : Rng) : RngOp → List Ev × Except Panic (RngObs × Rng)
  | .nextU32 => ((nextWordL dr e r).1, .ok (.u32 (nextWordL dr e r).2.1, (nextWordL dr e r).2.2))
  | .nextU64 => ((nextU64L dr e r).1, .ok (.u64 (nextU64L dr e r).2.1, (nextU64L dr e r).2.2))
  | .fill n => ((fillLoopL dr e n r).1, .ok (.bytes (fillLoopL dr e n r).2.1, (fillLoopL dr e n r).2.2))
  | .setWordPos p => ((setWordPosL dr e p r).1, do return (.none, ← (setWordPosL dr e p r).2))
  | .setBlockPos b => ((setBlockPosL dr e b r).1, do return (.none, ← (setBlockPosL dr e b r).2))
  | .setStream s => ((setStreamL dr e s r).1, do return (.none, ← (setStreamL dr e s r).2))
  | .getWordPos => ([], .ok (.u128 r.getWordPos, r))
  | .getBlockPos => ([], do return (.u64 (← r.getBlockPos m), r))
  | .getStream => ([], .ok (.u64 r.getStream, r))
  | .getSeed => ([], .ok (.bytes r.getSeed.toList, r))
  | .serialize => ([], do return (.bytes (← r.serialize m).toList, r))
  | .load b => ((deserializeL dr e b).1, do return (.none, ← (deserializeL dr e b).2))
  | .reload =>
    match r.serialize m with
    | .error p => ([], .error p)
    | .ok b => ((deserializeL dr e b).1, do return (.none, ← (deserializeL dr e b).2))

/-- A sequence of calls: one list of events for each call made, the last of which may have panicked - chacha20/src/rng.rs:150-166, 193-338. -/
def runL (m : Mode) (dr : Nat) : List (Env × RngOp) → Rng → List (List Ev) × Except Panic (List RngObs × Rng)
  | [], r => ([], .ok ([], r))
  | (e, op) :: h, r =>
    match stepL m dr e r op with
    | (t, .error p) => ([t], .error p)
    | (t, .ok (o, r)) => (t :: (runL m dr h r).1, do let (os, r) ← (runL m dr h r).2; return (o :: os, r))

end Verif.ChaCha.Rng
