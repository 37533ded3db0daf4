import Verif.Model.Wrapper
/-!
# Model of `rabbit`

Rust source: `/repo/rabbit/src/lib.rs`.  The unsuffixed `+` and `*` on `u64` are checked operations: they panic with
overflow checks on, and wrap with overflow checks off.
-/
namespace Verif.Rabbit

/-- `State` - rabbit/src/lib.rs:50-56. -/
structure State where
  x : Vector U32 8
  c : Vector U32 8
  carry : U8
  deriving DecidableEq

/-- `a + b` on `u64` - rabbit/src/lib.rs:127, 141. -/
def add64 (m : Mode) (a b : U64) : Except Panic U64 :=
  if a.toNat + b.toNat < 2 ^ 64 then .ok (a + b) else
  match m with
  | .debug => .error .overflow
  | .release => .ok (a + b)

/-- `a * b` on `u64` - rabbit/src/lib.rs:142. -/
def mul64 (m : Mode) (a b : U64) : Except Panic U64 :=
  if a.toNat * b.toNat < 2 ^ 64 then .ok (a * b) else
  match m with
  | .debug => .error .overflow
  | .release => .ok (a * b)

/-- `WORDSIZE` - rabbit/src/lib.rs:29. -/
def wordsize : U64 := 1#64 <<< 32

/-- `A` - rabbit/src/lib.rs:32-34. -/
def A : Vector U32 8 :=
  #v[0x4D34D34D#32, 0xD34D34D3#32, 0x34D34D34#32, 0x4D34D34D#32, 0xD34D34D3#32, 0x34D34D34#32, 0x4D34D34D#32, 0xD34D34D3#32]

/-- Body of the loop in `counter_update` - rabbit/src/lib.rs:127-129. -/
def counterStep (m : Mode) (j : Fin 8) (s : State) : Except Panic State := do
  let t ← add64 m (s.c[j].setWidth 64) (A[j].setWidth 64)
  let t ← add64 m t (s.carry.setWidth 64)
  let carry : U8 := (t / wordsize).setWidth 8 &&& 1
  return { s with carry := carry, c := s.c.set j ((t % wordsize).setWidth 32) }

/-- `counter_update` - rabbit/src/lib.rs:124-131. -/
def counterUpdate (m : Mode) (s : State) : Except Panic State := do
  let s ← counterStep m 0 s
  let s ← counterStep m 1 s
  let s ← counterStep m 2 s
  let s ← counterStep m 3 s
  let s ← counterStep m 4 s
  let s ← counterStep m 5 s
  let s ← counterStep m 6 s
  counterStep m 7 s

/-- Body of the first loop in `next_state` - rabbit/src/lib.rs:141-143. -/
def gWord (m : Mode) (x c : U32) : Except Panic U32 := do
  let uPlusV ← add64 m (x.setWidth 64) (c.setWidth 64)
  let squareUv ← mul64 m (uPlusV % wordsize) (uPlusV % wordsize)
  return (squareUv ^^^ (squareUv >>> 32)).setWidth 32

/-- `next_state` - rabbit/src/lib.rs:134-162. -/
def nextState (m : Mode) (s : State) : Except Panic State := do
  let s ← counterUpdate m s
  let g0 ← gWord m s.x[0] s.c[0]
  let g1 ← gWord m s.x[1] s.c[1]
  let g2 ← gWord m s.x[2] s.c[2]
  let g3 ← gWord m s.x[3] s.c[3]
  let g4 ← gWord m s.x[4] s.c[4]
  let g5 ← gWord m s.x[5] s.c[5]
  let g6 ← gWord m s.x[6] s.c[6]
  let g7 ← gWord m s.x[7] s.c[7]
  return { s with x := #v[
    g0 + g7.rotateLeft 16 + g6.rotateLeft 16,
    g1 + g0.rotateLeft 8 + g7,
    g2 + g1.rotateLeft 16 + g0.rotateLeft 16,
    g3 + g2.rotateLeft 8 + g1,
    g4 + g3.rotateLeft 16 + g2.rotateLeft 16,
    g5 + g4.rotateLeft 8 + g3,
    g6 + g5.rotateLeft 16 + g4.rotateLeft 16,
    g7 + g6.rotateLeft 8 + g5] }

/-- `for _ in 0..4 { state.next_state() }` - rabbit/src/lib.rs:87-89, 118-120. -/
def nextState4 (m : Mode) (s : State) : Except Panic State := do
  let s ← nextState m s
  let s ← nextState m s
  let s ← nextState m s
  nextState m s

/-- `k[i]` - rabbit/src/lib.rs:61-70. -/
def keyPart (key : Vector U8 16) (i : Fin 8) : U16 :=
  (key[2 * i.val]'(by omega)).setWidth 16 ||| ((key[2 * i.val + 1]'(by omega)).setWidth 16 <<< 8)

/-- `((hi as u32) << 16) | (lo as u32)` - rabbit/src/lib.rs:76-80. -/
def join16 (hi lo : U16) : U32 := (hi.setWidth 32 <<< 16) ||| lo.setWidth 32

/-- The state before the four iterations of key setup - rabbit/src/lib.rs:72-85.
Indices are taken modulo 8 (`Fin 8` arithmetic). -/
def keyState (key : Vector U8 16) : State where
  x := Vector.ofFn fun j : Fin 8 =>
    if j.val % 2 = 0 then join16 (keyPart key (j + 1)) (keyPart key j)
    else join16 (keyPart key (j + 5)) (keyPart key (j + 4))
  c := Vector.ofFn fun j : Fin 8 =>
    if j.val % 2 = 0 then join16 (keyPart key (j + 4)) (keyPart key (j + 5))
    else join16 (keyPart key j) (keyPart key (j + 1))
  carry := 0

/-- `setup_key` - rabbit/src/lib.rs:60-96. -/
def setupKey (m : Mode) (key : Vector U8 16) : Except Panic State := do
  let s ← nextState4 m (keyState key)
  return { s with c := Vector.ofFn fun j : Fin 8 => s.c[j] ^^^ s.x[j + 4] }

/-- The xors of `setup_iv` - rabbit/src/lib.rs:100-116. -/
def ivXor (iv : Vector U8 8) (s : State) : State :=
  let i0 := le32 iv[0] iv[1] iv[2] iv[3]
  let i2 := le32 iv[4] iv[5] iv[6] iv[7]
  let i1 := (i0 >>> 16) ||| (i2 &&& 0xFFFF0000#32)
  let i3 := (i2 <<< 16) ||| (i0 &&& 0x0000FFFF#32)
  { s with c := #v[s.c[0] ^^^ i0, s.c[1] ^^^ i1, s.c[2] ^^^ i2, s.c[3] ^^^ i3,
                   s.c[4] ^^^ i0, s.c[5] ^^^ i1, s.c[6] ^^^ i2, s.c[7] ^^^ i3] }

/-- `setup_iv` - rabbit/src/lib.rs:99-121. -/
def setupIv (m : Mode) (iv : Vector U8 8) (s : State) : Except Panic State := nextState4 m (ivXor iv s)

/-- `tmp` in `extract` - rabbit/src/lib.rs:168-177. -/
def extract16 (x : Vector U32 8) : Vector U16 8 :=
  #v[(x[0] ^^^ (x[5] >>> 16)).setWidth 16, ((x[0] >>> 16) ^^^ x[3]).setWidth 16,
     (x[2] ^^^ (x[7] >>> 16)).setWidth 16, ((x[2] >>> 16) ^^^ x[5]).setWidth 16,
     (x[4] ^^^ (x[1] >>> 16)).setWidth 16, ((x[4] >>> 16) ^^^ x[7]).setWidth 16,
     (x[6] ^^^ (x[3] >>> 16)).setWidth 16, ((x[6] >>> 16) ^^^ x[1]).setWidth 16]

/-- `extract` - rabbit/src/lib.rs:165-197. -/
def extract (s : State) : Vector U8 16 :=
  Vector.ofFn fun k =>
    let t := (extract16 s.x)[k.val / 2]'(by omega)
    if k.val % 2 = 0 then t.setWidth 8 else (t >>> 8).setWidth 8

/-- `next_block`/`gen_ks_block` - rabbit/src/lib.rs:199-202, 301-306. -/
def genBlock (m : Mode) (s : State) : Except Panic (Vector U8 16 × State) := do
  let s ← nextState m s
  return (extract s, s)

/-- `RabbitKeyOnlyCore`/`RabbitCore` as `StreamCipherCore` - rabbit/src/lib.rs:235-248, 277-307. -/
def core (m : Mode) : Core 16 Unit where
  σ := State
  process _ f s := (Backend.ofBlock 1 (genBlock m)).call f s
  remaining _ := none

/-- `RabbitKeyOnly::new(key)` - rabbit/src/lib.rs:223-229. -/
def cipherKeyOnly (m : Mode) (key : Vector U8 16) : Except Panic (Wrapper 16 State) := do
  return Wrapper.fromCore (← setupKey m key)

/-- `Rabbit::new(key, iv)` - rabbit/src/lib.rs:265-271 (`InnerIvInit`). -/
def cipher (m : Mode) (key : Vector U8 16) (iv : Vector U8 8) : Except Panic (Wrapper 16 State) := do
  return Wrapper.fromCore (← setupIv m iv (← setupKey m key))

end Verif.Rabbit
