import Verif.Model.Backend
/-!
# Model of `chacha20`: core, variants, portable backend, HChaCha

Rust sources: `/repo/chacha20/src/{lib.rs, variants.rs, xchacha.rs, backends/soft.rs}`.
-/
namespace Verif.ChaCha

/-- `state: [u32; STATE_WORDS]` - chacha20/src/lib.rs:49-50, 121. -/
abbrev State := Vector U32 16

/-- `chacha::Block` - chacha20/src/chacha.rs (64 bytes). -/
abbrev Block := Vector U8 64

/-- `CONSTANTS` - chacha20/src/lib.rs:47. -/
def constants : Vector U32 4 := #v[0x61707865#32, 0x3320646e#32, 0x79622d32#32, 0x6b206574#32]

/-- The two implementations of the sealed trait `Variant` - chacha20/src/variants.rs:32, 59. -/
inductive Variant where
  | ietf
  | legacy
  deriving DecidableEq, Repr

/-- `size_of::<V::Counter>()` - chacha20/src/variants.rs:37 (`u32`), 65 (`u64`). -/
def Variant.ctrBytes : Variant → Nat
  | .ietf => 4
  | .legacy => 8

/-- `V::Counter` - chacha20/src/variants.rs:37, 66. -/
abbrev Variant.Counter (V : Variant) : Type := BitVec (8 * V.ctrBytes)

/-- `<Ietf as Variant>::get_block_pos` - chacha20/src/variants.rs:40-42. -/
def Ietf.getBlockPos (s : State) : U32 := s[12]

/-- `<Ietf as Variant>::set_block_pos` - chacha20/src/variants.rs:45-47. -/
def Ietf.setBlockPos (s : State) (pos : U32) : State := s.set 12 pos

/-- `<Legacy as Variant>::get_block_pos` - chacha20/src/variants.rs:69-71. -/
def Legacy.getBlockPos (s : State) : U64 := (s[13].setWidth 64 <<< 32) ||| s[12].setWidth 64

/-- `<Legacy as Variant>::set_block_pos` - chacha20/src/variants.rs:74-77. -/
def Legacy.setBlockPos (s : State) (pos : U64) : State :=
  (s.set 12 ((pos &&& 0xFFFFFFFF#64).setWidth 32)).set 13 ((pos >>> 32).setWidth 32)

/-- `get_block_pos` - chacha20/src/lib.rs:195-197. -/
def getBlockPos : (V : Variant) → State → V.Counter
  | .ietf => Ietf.getBlockPos
  | .legacy => Legacy.getBlockPos

/-- `set_block_pos` - chacha20/src/lib.rs:201-203. -/
def setBlockPos : (V : Variant) → State → V.Counter → State
  | .ietf => Ietf.setBlockPos
  | .legacy => Legacy.setBlockPos

/-- `remaining_blocks` - chacha20/src/lib.rs:235-237 with chacha20/src/variants.rs:50-53, 80-83.
`u32::MAX - block_pos` cannot underflow.  `usizeBits` is the width of `usize`; the result is `None` when the number
does not fit. -/
def remainingBlocks (usizeBits : Nat) (V : Variant) (s : State) : Option Nat :=
  let remaining : V.Counter := BitVec.allOnes _ - getBlockPos V s
  if remaining.toNat < 2 ^ usizeBits then some remaining.toNat else none

/-- `quarter_round` - chacha20/src/lib.rs:321-343. -/
def quarterRound (a b c d : Fin 16) (s : State) : State :=
  let s := s.set a (s[a] + s[b])
  let s := s.set d (s[d] ^^^ s[a])
  let s := s.set d (s[d].rotateLeft 16)
  let s := s.set c (s[c] + s[d])
  let s := s.set b (s[b] ^^^ s[c])
  let s := s.set b (s[b].rotateLeft 12)
  let s := s.set a (s[a] + s[b])
  let s := s.set d (s[d] ^^^ s[a])
  let s := s.set d (s[d].rotateLeft 8)
  let s := s.set c (s[c] + s[d])
  let s := s.set b (s[b] ^^^ s[c])
  let s := s.set b (s[b].rotateLeft 7)
  s

/-- One iteration of the round loop - chacha20/src/backends/soft.rs:71-80 and (identically)
chacha20/src/xchacha.rs:130-139. -/
def doubleRound (s : State) : State :=
  let s := quarterRound 0 4 8 12 s
  let s := quarterRound 1 5 9 13 s
  let s := quarterRound 2 6 10 14 s
  let s := quarterRound 3 7 11 15 s
  let s := quarterRound 0 5 10 15 s
  let s := quarterRound 1 6 11 12 s
  let s := quarterRound 2 7 8 13 s
  let s := quarterRound 3 4 9 14 s
  s

/-- `run_rounds` - chacha20/src/backends/soft.rs:66-87.  `dr` is `R::COUNT`. -/
def runRounds (dr : Nat) (s : State) : State :=
  let res := iter dr doubleRound s
  Vector.zipWith (· + ·) res s

/-- The counter update in `gen_ks_block` - chacha20/src/backends/soft.rs:35-40. -/
def softAdvance (V : Variant) (s : State) : State :=
  let ctr : U64 := (s[13].setWidth 64 <<< 32) ||| s[12].setWidth 64
  let ctr := ctr + 1
  let s := s.set 12 (ctr.setWidth 32)
  if V.ctrBytes = 8 then s.set 13 ((ctr >>> 32).setWidth 32) else s

/-- `gen_ks_block` - chacha20/src/backends/soft.rs:33-45. -/
def softGenBlock (dr : Nat) (V : Variant) (s : State) : Except Panic (Block × State) :=
  let res := runRounds dr s
  let s := softAdvance V s
  .ok (leBytes res, s)

/-- The portable backend; `ParBlocksSize = U1`, provided methods otherwise -
chacha20/src/backends/soft.rs:27-46. -/
def soft (dr : Nat) (V : Variant) : Backend 64 State := .ofBlock 1 (softGenBlock dr V)

/-- One iteration of `gen_ks_blocks` - chacha20/src/backends/soft.rs:53-60 (always a 64-bit counter). -/
def softRngStep (dr : Nat) (s : State) : State × State :=
  let res := runRounds dr s
  let ctr : U64 := (s[13].setWidth 64 <<< 32) ||| s[12].setWidth 64
  let ctr := ctr + 1
  let s := s.set 12 (ctr.setWidth 32)
  let s := s.set 13 ((ctr >>> 32).setWidth 32)
  (res, s)

/-- `gen_ks_blocks` - chacha20/src/backends/soft.rs:51-62: four blocks of sixteen words. -/
def softGenKsBlocks (dr : Nat) (s : State) : Vector U32 64 × State :=
  let (r0, s) := softRngStep dr s
  let (r1, s) := softRngStep dr s
  let (r2, s) := softRngStep dr s
  let (r3, s) := softRngStep dr s
  ((r0 ++ r1 ++ r2 ++ r3 : Vector U32 (16 + 16 + 16 + 16)), s)

/-- `new_internal` - chacha20/src/lib.rs:139-190.  The CPU feature tokens are modelled in `Config`. -/
def newInternal (V : Variant) (key : Vector U8 32) (iv : List U8) : Except Panic State :=
  if ¬ (iv.length = 4 ∨ iv.length = 8 ∨ iv.length = 12) then .error .assertion else
  let ctrSize := V.ctrBytes / 4
  if h : 4 * (4 - ctrSize) = iv.length then
    .ok <| Vector.ofFn fun i =>
      if h4 : i.val < 4 then constants[i.val]
      else if h12 : i.val < 12 then wordAt key (i.val - 4) (by omega)
      else if hc : i.val < 12 + ctrSize then 0
      else
        let k := i.val - 12 - ctrSize
        have : 4 * k + 3 < iv.length := by omega
        le32 iv[4*k] iv[4*k+1] iv[4*k+2] iv[4*k+3]
  else .error .assertion

/-- State set-up of `hchacha` - chacha20/src/xchacha.rs:114-126. -/
def hchachaState (key : Vector U8 32) (input : Vector U8 16) : State :=
  Vector.ofFn fun i =>
    if h4 : i.val < 4 then constants[i.val]
    else if h12 : i.val < 12 then wordAt key (i.val - 4) (by omega)
    else wordAt input (i.val - 12) (by omega)

/-- `hchacha` - chacha20/src/xchacha.rs:113-153. -/
def hchacha (dr : Nat) (key : Vector U8 32) (input : Vector U8 16) : Vector U8 32 :=
  let s := iter dr doubleRound (hchachaState key input)
  leBytes (k := 8) #v[s[0], s[1], s[2], s[3], s[12], s[13], s[14], s[15]]

/-- `XChaChaCore::new` - chacha20/src/xchacha.rs:57-66. -/
def newX (dr : Nat) (key : Vector U8 32) (iv : Vector U8 24) : Except Panic State :=
  let subkey := hchacha dr key (Vector.ofFn fun i => iv[i.val])
  let nonce : List U8 := List.replicate 4 0#8 ++ iv.toList.drop 16
  newInternal .ietf subkey nonce

/-- `KeyIvInit::new` for `ChaChaCore<R, Ietf>` - chacha20/src/chacha.rs (12-byte nonce). -/
def newIetf (key : Vector U8 32) (iv : Vector U8 12) : Except Panic State :=
  newInternal .ietf key iv.toList

/-- `KeyIvInit::new` for `ChaChaCore<R20, Legacy>` - chacha20/src/legacy.rs:27-32 (8-byte nonce). -/
def newLegacy (key : Vector U8 32) (iv : Vector U8 8) : Except Panic State :=
  newInternal .legacy key iv.toList

end Verif.ChaCha
