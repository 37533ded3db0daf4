import Verif.Spec.ChaCha
/-!
# Specification of the ChaCha RNGs

A generator is a cursor over the words of Bernstein's ChaCha keystream: seed, stream number, position modulo `2^68`.
The types of calls and observations are shared with the model.
-/
namespace Verif.Spec.Rng

/-- Calls on an RNG object. -/
inductive RngOp where
  | nextU32
  | nextU64
  | fill (n : Nat)
  | setWordPos (p : U128)
  | setBlockPos (b : U64)
  | setStream (s : U64)
  | getWordPos
  | getBlockPos
  | getStream
  | getSeed
  | serialize
  /-- `rng = deserialize_state(b)` -/
  | load (b : Vector U8 49)
  /-- `rng = deserialize_state(rng.serialize_state())` -/
  | reload

/-- What a call shows. -/
inductive RngObs where
  | u32 (x : U32)
  | u64 (x : U64)
  | u128 (x : U128)
  | bytes (l : List U8)
  | none
  deriving DecidableEq

/-- The abstract generator. -/
structure St where
  seed : Vector U8 32
  stream : U64
  pos : Nat

/-- The stream number as a nonce. -/
def nonce (stream : U64) : Vector U8 8 := Vector.ofFn fun i => leByte stream.toNat i.val

/-- Word `p` of the keystream: key `seed`, nonce `stream`, block `p / 16` (of which the counter keeps 64 bits). -/
def word (dr : Nat) (seed : Vector U8 32) (stream : U64) (p : Nat) : U32 :=
  (ChaCha.core dr (ChaCha.djbInput seed (nonce stream) (p / 16)))[p / 4 % 4][p % 4]

/-- The next words from the cursor. -/
def St.word (dr : Nat) (a : St) (i : Nat) : U32 := Rng.word dr a.seed a.stream (a.pos + i)

/-- Move by `n` words. -/
def St.move (a : St) (n : Nat) : St := { a with pos := (a.pos + n) % 2 ^ 68 }

/-- The 49 bytes of a serialised generator. -/
def St.bytes (a : St) : List U8 :=
  a.seed.toList ++ (List.range 8).map (leByte a.stream.toNat) ++ (List.range 9).map (leByte a.pos)

/-- The generator that a 49-byte string stands for. -/
def St.ofBytes (b : Vector U8 49) : St where
  seed := Vector.ofFn fun i : Fin 32 => b[i.val]
  stream := BitVec.ofNat 64 (leNat ((b.toList.drop 32).take 8))
  pos := leNat (b.toList.drop 40) % 2 ^ 68

/-- One call. -/
def step (dr : Nat) (a : St) : RngOp → RngObs × St
  | .nextU32 => (.u32 (a.word dr 0), a.move 1)
  | .nextU64 => (.u64 (BitVec.ofNat 64 ((a.word dr 0).toNat + 2 ^ 32 * (a.word dr 1).toNat)), a.move 2)
  | .fill n => (.bytes ((List.range n).map fun i => leByte (a.word dr (i / 4)).toNat (i % 4)), a.move ((n + 3) / 4))
  | .setWordPos p => (.none, { a with pos := p.toNat % 2 ^ 68 })
  | .setBlockPos b => (.none, { a with pos := 16 * b.toNat })
  | .setStream s => (.none, { a with stream := s, pos := 0 })
  | .getWordPos => (.u128 (BitVec.ofNat 128 a.pos), a)
  | .getBlockPos => (.u64 (BitVec.ofNat 64 (a.pos / 16)), a)
  | .getStream => (.u64 a.stream, a)
  | .getSeed => (.bytes a.seed.toList, a)
  | .serialize => (.bytes a.bytes, a)
  | .load b => (.none, St.ofBytes b)
  | .reload => (.none, a)

/-- A sequence of calls. -/
def run (dr : Nat) : List RngOp → St → List RngObs × St
  | [], a => ([], a)
  | op :: h, a =>
    let (o, a) := step dr a op
    let (os, a) := run dr h a
    (o :: os, a)

/-- A fresh generator. -/
def init (seed : Vector U8 32) : St := ⟨seed, 0, 0⟩

end Verif.Spec.Rng
