import Verif.Model.Wrapper
/-!
# Model of `salsa20`

Rust sources: `/repo/salsa20/src/{lib.rs, xsalsa.rs, backends/soft.rs}`.
-/
namespace Verif.Salsa

/-- `state: [u32; STATE_WORDS]` - salsa20/src/lib.rs:57-60. -/
abbrev State := Vector U32 16

/-- 64-byte block - salsa20/src/lib.rs:84-86. -/
abbrev Block := Vector U8 64

/-- `CONSTANTS` - salsa20/src/lib.rs:53. -/
def constants : Vector U32 4 := #v[0x61707865#32, 0x3320646e#32, 0x79622d32#32, 0x6b206574#32]

/-- `from_raw_state` - salsa20/src/lib.rs:68-73. -/
def fromRawState (s : State) : State := s

/-- `KeyIvInit::new` - salsa20/src/lib.rs:89-117. -/
def new (key : Vector U8 32) (iv : Vector U8 8) : State :=
  let s : State := Vector.replicate 16 0
  let s := s.set 0 constants[0]
  let s := s.set 1 (wordAt key 0 (by decide))
  let s := s.set 2 (wordAt key 1 (by decide))
  let s := s.set 3 (wordAt key 2 (by decide))
  let s := s.set 4 (wordAt key 3 (by decide))
  let s := s.set 5 constants[1]
  let s := s.set 6 (wordAt iv 0 (by decide))
  let s := s.set 7 (wordAt iv 1 (by decide))
  let s := s.set 8 0
  let s := s.set 9 0
  let s := s.set 10 constants[2]
  let s := s.set 11 (wordAt key 4 (by decide))
  let s := s.set 12 (wordAt key 5 (by decide))
  let s := s.set 13 (wordAt key 6 (by decide))
  let s := s.set 14 (wordAt key 7 (by decide))
  let s := s.set 15 constants[3]
  s

/-- `get_block_pos` - salsa20/src/lib.rs:135-137.  The sum of a 32-bit value and a multiple of `2^32` cannot
overflow (`getBlockPos_no_overflow`). -/
def getBlockPos (s : State) : U64 := s[8].setWidth 64 + (s[9].setWidth 64 <<< 32)

/-- `set_block_pos` - salsa20/src/lib.rs:140-143. -/
def setBlockPos (s : State) (pos : U64) : State :=
  (s.set 8 ((pos &&& 0xFFFFFFFF#64).setWidth 32)).set 9 (((pos >>> 32) &&& 0xFFFFFFFF#64).setWidth 32)

/-- `remaining_blocks` - salsa20/src/lib.rs:122-125. -/
def remainingBlocks (usizeBits : Nat) (s : State) : Option Nat :=
  let rem : U64 := BitVec.allOnes 64 - getBlockPos s
  if rem.toNat < 2 ^ usizeBits then some rem.toNat else none

/-- `quarter_round` - salsa20/src/backends/soft.rs:35-46. -/
def quarterRound (a b c d : Fin 16) (s : State) : State :=
  let s := s.set b (s[b] ^^^ (s[a] + s[d]).rotateLeft 7)
  let s := s.set c (s[c] ^^^ (s[b] + s[a]).rotateLeft 9)
  let s := s.set d (s[d] ^^^ (s[c] + s[b]).rotateLeft 13)
  let s := s.set a (s[a] ^^^ (s[d] + s[c]).rotateLeft 18)
  s

/-- One iteration of the round loop - salsa20/src/backends/soft.rs:54-63 and (identically)
salsa20/src/xsalsa.rs:119-128. -/
def doubleRound (s : State) : State :=
  let s := quarterRound 0 4 8 12 s
  let s := quarterRound 5 9 13 1 s
  let s := quarterRound 10 14 2 6 s
  let s := quarterRound 15 3 7 11 s
  let s := quarterRound 0 1 2 3 s
  let s := quarterRound 5 6 7 4 s
  let s := quarterRound 10 11 8 9 s
  let s := quarterRound 15 12 13 14 s
  s

/-- `run_rounds` - salsa20/src/backends/soft.rs:49-70. -/
def runRounds (dr : Nat) (s : State) : State :=
  let res := iter dr doubleRound s
  Vector.zipWith (· + ·) res s

/-- `self.get_block_pos() + 1` on `u64`: panics on overflow iff overflow checks are on - salsa20/src/backends/soft.rs:25. -/
def incr (m : Mode) (c : U64) : Except Panic U64 :=
  if c = BitVec.allOnes 64 then
    match m with
    | .debug => .error .overflow
    | .release => .ok 0
  else .ok (c + 1)

/-- `gen_ks_block` - salsa20/src/backends/soft.rs:22-30. -/
def genBlock (m : Mode) (dr : Nat) (s : State) : Except Panic (Block × State) := do
  let res := runRounds dr s
  let pos ← incr m (getBlockPos s)
  let s := setBlockPos s pos
  return (leBytes res, s)

/-- The backend; `ParBlocksSize = U1` - salsa20/src/backends/soft.rs:10-31. -/
def soft (m : Mode) (dr : Nat) : Backend 64 State := .ofBlock 1 (genBlock m dr)

/-- `SalsaCore<R>` as a `StreamCipherSeekCore` - salsa20/src/lib.rs:120-144; `XSalsaCore<R>` delegates to it, salsa20/src/xsalsa.rs:28, 52-76.
Nothing depends on the circumstances `χ` of the call. -/
def core (χ : Type) (usizeBits : Nat) (m : Mode) (dr : Nat) : SeekCore 64 χ where
  σ := State
  process _ f s := (soft m dr).call f s
  remaining := remainingBlocks usizeBits
  ctrBits := 64
  getPos s := (getBlockPos s).toNat
  setPos s n := setBlockPos s (BitVec.ofNat 64 n)

/-- State set-up of `hsalsa` - salsa20/src/xsalsa.rs:98-114. -/
def hsalsaState (key : Vector U8 32) (input : Vector U8 16) : State :=
  let s : State := Vector.replicate 16 0
  let s := s.set 0 constants[0]
  let s := s.set 1 (wordAt key 0 (by decide))
  let s := s.set 2 (wordAt key 1 (by decide))
  let s := s.set 3 (wordAt key 2 (by decide))
  let s := s.set 4 (wordAt key 3 (by decide))
  let s := s.set 5 constants[1]
  let s := s.set 6 (wordAt input 0 (by decide))
  let s := s.set 7 (wordAt input 1 (by decide))
  let s := s.set 8 (wordAt input 2 (by decide))
  let s := s.set 9 (wordAt input 3 (by decide))
  let s := s.set 10 constants[2]
  let s := s.set 11 (wordAt key 4 (by decide))
  let s := s.set 12 (wordAt key 5 (by decide))
  let s := s.set 13 (wordAt key 6 (by decide))
  let s := s.set 14 (wordAt key 7 (by decide))
  let s := s.set 15 constants[3]
  s

/-- `hsalsa` - salsa20/src/xsalsa.rs:92-139. -/
def hsalsa (dr : Nat) (key : Vector U8 32) (input : Vector U8 16) : Vector U8 32 :=
  let s := iter dr doubleRound (hsalsaState key input)
  leBytes (k := 8) #v[s[0], s[5], s[10], s[15], s[6], s[7], s[8], s[9]]

/-- `XSalsaCore::new` - salsa20/src/xsalsa.rs:44-49.  The subslices have the right lengths, so the
`unwrap` and `copy_from_slice` cannot panic. -/
def newX (dr : Nat) (key : Vector U8 32) (iv : Vector U8 24) : State :=
  let subkey := hsalsa dr key (Vector.ofFn fun i => iv[i.val])
  let paddedIv : Vector U8 8 := Vector.ofFn fun i => iv[16 + i.val]
  new subkey paddedIv

/-- `Salsa8/12/20::new(key, nonce)` - salsa20/src/lib.rs:30-38, 88-118. -/
def cipher (key : Vector U8 32) (iv : Vector U8 8) : Wrapper 64 State := Wrapper.fromCore (new key iv)

/-- `XSalsa8/12/20::new(key, nonce)` - salsa20/src/xsalsa.rs:21-25, 42-50. -/
def cipherX (dr : Nat) (key : Vector U8 32) (iv : Vector U8 24) : Wrapper 64 State := Wrapper.fromCore (newX dr key iv)

end Verif.Salsa
