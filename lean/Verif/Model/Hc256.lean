import Verif.Model.Wrapper
/-!
# Model of `hc-256`

Rust source: `/repo/hc-256/src/lib.rs`.  Every array access is checked (`get`, `put`), `u` is the width of `usize`.
Conversions `as usize` and `wrapping_sub` on `usize` are modulo `2^u`.
-/
namespace Verif.Hc256

/-- `v[i]` - the reads of hc-256/src/lib.rs:138-186. -/
def get {n : Nat} (v : Vector U32 n) (i : Nat) : Except Panic U32 := if h : i < n then .ok v[i] else .error .bounds

/-- `v[i] = x` - the writes of hc-256/src/lib.rs:77-95, 170, 179. -/
def put {n : Nat} (v : Vector U32 n) (i : Nat) (x : U32) : Except Panic (Vector U32 n) :=
  if h : i < n then .ok (v.set i x) else .error .bounds

/-- `key[i]` for a byte array - hc-256/src/lib.rs:77-80, 84-87. -/
def getByte {n : Nat} (v : Vector U8 n) (i : Nat) : Except Panic U8 := if h : i < n then .ok v[i] else .error .bounds

/-- `for i in a..a+n { s = f(i, s) }` - hc-256/src/lib.rs:76, 83, 90, 103. -/
def forRange {σ : Type} (f : Nat → σ → Except Panic σ) : Nat → Nat → σ → Except Panic σ
  | _, 0, s => .ok s
  | a, n + 1, s => do
    let s ← f a s
    forRange f (a + 1) n s

/-- `a + b` on `u32` - hc-256/src/lib.rs:150-152, 158-160, 167. -/
def add32 (m : Mode) (a b : U32) : Except Panic U32 :=
  if a.toNat + b.toNat < 2 ^ 32 then .ok (a + b) else
  match m with
  | .debug => .error .overflow
  | .release => .ok (a + b)

/-- `Hc256Core` - hc-256/src/lib.rs:41-45. -/
structure State where
  ptable : Vector U32 1024
  qtable : Vector U32 1024
  idx : U32

/-- `f1` - hc-256/src/lib.rs:61-63. -/
def f1 (x : U32) : U32 := x.rotateRight 7 ^^^ x.rotateRight 18 ^^^ (x >>> 3)

/-- `f2` - hc-256/src/lib.rs:65-67. -/
def f2 (x : U32) : U32 := x.rotateRight 17 ^^^ x.rotateRight 19 ^^^ (x >>> 10)

/-- `(self as u32) & 0xff` - hc-256/src/lib.rs:77-80. -/
def byte32 (b : U8) : U32 := b.setWidth 32 &&& 0xff#32

/-- The word expressions of lines 77-80 and 84-87 - hc-256/src/lib.rs:77-80, 84-87. -/
def loadWord (k : Vector U8 32) (i : Nat) : Except Panic U32 := do
  let b0 ← getByte k (4 * i)
  let b1 ← getByte k (4 * i + 1)
  let b2 ← getByte k (4 * i + 2)
  let b3 ← getByte k (4 * i + 3)
  return byte32 b0 ||| (byte32 b1 <<< 8) ||| (byte32 b2 <<< 16) ||| (byte32 b3 <<< 24)

/-- Body of the third loop - hc-256/src/lib.rs:91-95.  (`i - 2` … cannot underflow since `i ≥ 16`.) -/
def expandStep (i : Nat) (data : Vector U32 2660) : Except Panic (Vector U32 2660) := do
  let a ← get data (i - 2)
  let b ← get data (i - 7)
  let c ← get data (i - 15)
  let d ← get data (i - 16)
  put data i (f2 a + b + f1 c + d + BitVec.ofNat 32 i)

/-- `data` - hc-256/src/lib.rs:74-96. -/
def expand (key iv : Vector U8 32) : Except Panic (Vector U32 2660) := do
  let data := Vector.replicate 2660 (0 : U32)
  let data ← forRange (fun i d => do put d i (← loadWord key i)) 0 8 data
  let data ← forRange (fun i d => do put d (i + 8) (← loadWord iv i)) 0 8 data
  forRange expandStep 16 (2660 - 16) data

/-- `x as usize` for a `u32` - hc-256/src/lib.rs:138, 144, 149-152, 157-160, 164-165. -/
def toUsize (u : Nat) (x : U32) : Nat := x.toNat % 2 ^ u

/-- `j.wrapping_sub(k) & TABLE_MASK` - hc-256/src/lib.rs:171-177, 180-186. -/
def back (u : Nat) (j k : Nat) : Nat := ((j + 2 ^ u - k) % 2 ^ u) &&& 1023

/-- `g1`/`g2` with the table they read - hc-256/src/lib.rs:136-145. -/
def g (u : Nat) (t : Vector U32 1024) (x y : U32) : Except Panic U32 := do
  return (x.rotateRight 10 ^^^ y.rotateRight 23) + (← get t (toUsize u (x ^^^ y) &&& 1023))

/-- `h1`/`h2` with the table they read - hc-256/src/lib.rs:148-161. -/
def h (m : Mode) (u : Nat) (t : Vector U32 1024) (x : U32) : Except Panic U32 := do
  let a ← get t (toUsize u (x &&& 0xff#32))
  let b ← get t (toUsize u (← add32 m 256#32 ((x >>> 8) &&& 0xff#32)))
  let c ← get t (toUsize u (← add32 m 512#32 ((x >>> 16) &&& 0xff#32)))
  let d ← get t (toUsize u (← add32 m 768#32 ((x >>> 24) &&& 0xff#32)))
  return a + b + c + d

/-- One half of `gen_word`: update entry `j` of table `t` with the help of table `o`; returns the word and the new `t`.
- hc-256/src/lib.rs:170-177 and 179-186, which are the same code with the tables exchanged. -/
def half (m : Mode) (u : Nat) (t o : Vector U32 1024) (j : Nat) : Except Panic (U32 × Vector U32 1024) := do
  let gv ← g u o (← get t (back u j 3)) (← get t (back u j 1023))
  let v := (← get t j) + (← get t (back u j 10)) + gv
  let t ← put t j v
  let hv ← h m u o (← get t (back u j 12))
  return (hv ^^^ (← get t j), t)

/-- `gen_word` - hc-256/src/lib.rs:163-188. -/
def genWord (m : Mode) (u : Nat) (s : State) : Except Panic (U32 × State) := do
  let i := toUsize u s.idx
  let j := toUsize u s.idx &&& 1023
  let idx := (← add32 m s.idx 1#32) &&& 2047#32
  if i < 1024 then
    let (w, p) ← half m u s.ptable s.qtable j
    return (w, ⟨p, s.qtable, idx⟩)
  else
    let (w, q) ← half m u s.qtable s.ptable j
    return (w, ⟨s.ptable, q, idx⟩)

/-- `data[a..a+1024]` cloned into a table - hc-256/src/lib.rs:98-99. -/
def sliceTable (data : Vector U32 2660) (a : Nat) (h : a + 1024 ≤ 2660 := by decide) : Vector U32 1024 :=
  Vector.ofFn fun i => data[a + i.val]

/-- `Hc256Core::new` - hc-256/src/lib.rs:60-108. -/
def new (m : Mode) (u : Nat) (key iv : Vector U8 32) : Except Panic State := do
  let data ← expand key iv
  let out : State := ⟨sliceTable data 512, sliceTable data 1536, 0⟩
  forRange (fun _ s => do return (← genWord m u s).2) 0 4096 out

/-- `gen_ks_block` - hc-256/src/lib.rs:215-217. -/
def genBlock (m : Mode) (u : Nat) (s : State) : Except Panic (Vector U8 4 × State) := do
  let (w, s) ← genWord m u s
  return (toLe32 w, s)

/-- `Hc256Core` as `StreamCipherCore` - hc-256/src/lib.rs:111-120, 203-218. -/
def core (m : Mode) (u : Nat) : Core 4 Unit where
  σ := State
  process _ f s := (Backend.ofBlock 1 (genBlock m u)).call f s
  remaining _ := none

/-- `Hc256::new(key, iv)` - hc-256/src/lib.rs:38, 59-109. -/
def cipher (m : Mode) (u : Nat) (key iv : Vector U8 32) : Except Panic (Wrapper 4 State) := do
  return Wrapper.fromCore (← new m u key iv)

end Verif.Hc256
