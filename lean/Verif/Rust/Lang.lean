import Verif.Basic
/-!
# Semantics of a subset of Rust

The meaning of the operations to which `Verif.Rust.Syntax` translates Rust text.  A function is a computation in `Except Panic`;
arrays and slices are lists; integers are bit vectors, except `usize`, whose width depends on the target; a `&mut` parameter is an extra
result (the borrow checker excludes aliases, so copying in and out is the same as passing a pointer).  Arithmetic follows the Rust
reference: `+ - *` panic on overflow when overflow checks are on and wrap otherwise, shifts by the width or more likewise, an
index out of bounds panics in every build.
-/
namespace Verif.Rust

/-- What the meaning of a program depends on besides its text: overflow checks, and the width of `usize`. -/
structure Target where
  mode : Mode
  bits : Nat

/-- `usize`. -/
@[ext] structure Usize (tgt : Target) where
  val : Nat
  deriving DecidableEq

/-- Literals of type `usize`.  (`rustc` rejects literals that do not fit.) -/
instance {tgt : Target} {n : Nat} : OfNat (Usize tgt) n := ⟨⟨n⟩⟩

/-- Unsigned integer types. -/
class RInt (α : Type) where
  width : Nat
  toNat : α → Nat
  /-- truncating -/
  ofNat : Nat → α
  wadd : α → α → α
  wsub : α → α → α
  wmul : α → α → α
  div : α → α → α
  rem : α → α → α
  band : α → α → α
  bor : α → α → α
  bxor : α → α → α
  /-- by less than the width -/
  shl : α → Nat → α
  shr : α → Nat → α
  rotl : α → Nat → α
  rotr : α → Nat → α

instance {w : Nat} : RInt (BitVec w) where
  width := w
  toNat := BitVec.toNat
  ofNat := BitVec.ofNat w
  wadd := (· + ·)
  wsub := (· - ·)
  wmul := (· * ·)
  div := (· / ·)
  rem := (· % ·)
  band := (· &&& ·)
  bor := (· ||| ·)
  bxor := (· ^^^ ·)
  shl a n := a <<< n
  shr a n := a >>> n
  rotl := BitVec.rotateLeft
  rotr := BitVec.rotateRight

instance {tgt : Target} : RInt (Usize tgt) where
  width := tgt.bits
  toNat := Usize.val
  ofNat n := ⟨n % 2 ^ tgt.bits⟩
  wadd a b := ⟨(a.val + b.val) % 2 ^ tgt.bits⟩
  wsub a b := ⟨(a.val + 2 ^ tgt.bits - b.val) % 2 ^ tgt.bits⟩
  wmul a b := ⟨(a.val * b.val) % 2 ^ tgt.bits⟩
  div a b := ⟨a.val / b.val⟩
  rem a b := ⟨a.val % b.val⟩
  band a b := ⟨a.val &&& b.val⟩
  bor a b := ⟨a.val ||| b.val⟩
  bxor a b := ⟨a.val ^^^ b.val⟩
  shl a n := ⟨(a.val <<< n) % 2 ^ tgt.bits⟩
  shr a n := ⟨a.val >>> n⟩
  rotl a n := ⟨((a.val <<< n) ||| (a.val >>> (tgt.bits - n))) % 2 ^ tgt.bits⟩
  rotr a n := ⟨((a.val >>> n) ||| (a.val <<< (tgt.bits - n))) % 2 ^ tgt.bits⟩

section
variable {α β : Type} [RInt α] [RInt β]

/-- The result of an operator whose exact value does not fit. -/
def overflowed (tgt : Target) (wrapped : α) : Except Panic α :=
  match tgt.mode with
  | .debug => .error .overflow
  | .release => .ok wrapped

/-- `a + b`. -/
def add (tgt : Target) (a b : α) : Except Panic α :=
  if RInt.toNat a + RInt.toNat b < 2 ^ RInt.width α then .ok (RInt.wadd a b) else overflowed tgt (RInt.wadd a b)

/-- `a - b`. -/
def sub (tgt : Target) (a b : α) : Except Panic α :=
  if RInt.toNat b ≤ RInt.toNat a then .ok (RInt.wsub a b) else overflowed tgt (RInt.wsub a b)

/-- `a * b`. -/
def mul (tgt : Target) (a b : α) : Except Panic α :=
  if RInt.toNat a * RInt.toNat b < 2 ^ RInt.width α then .ok (RInt.wmul a b) else overflowed tgt (RInt.wmul a b)

/-- `a / b`: division by zero panics in every build. -/
def div (_ : Target) (a b : α) : Except Panic α := if RInt.toNat b = 0 then .error .assertion else .ok (RInt.div a b)

/-- `a % b`. -/
def rem (_ : Target) (a b : α) : Except Panic α := if RInt.toNat b = 0 then .error .assertion else .ok (RInt.rem a b)

/-- `a << n`. -/
def shl (tgt : Target) (a : α) (n : Nat) : Except Panic α :=
  if n < RInt.width α then .ok (RInt.shl a n) else overflowed tgt (RInt.shl a (n % RInt.width α))

/-- `a >> n`. -/
def shr (tgt : Target) (a : α) (n : Nat) : Except Panic α :=
  if n < RInt.width α then .ok (RInt.shr a n) else overflowed tgt (RInt.shr a (n % RInt.width α))

/-- `a as T` and, when the target type is at least as wide, `T::from(a)`. -/
def cast (β : Type) [RInt β] (a : α) : β := RInt.ofNat (RInt.toNat a)

/-- `T::MAX`. -/
def maxValue (α : Type) [RInt α] : α := RInt.ofNat (2 ^ RInt.width α - 1)

/-- `a < b`. -/
def lt (a b : α) : Bool := decide (RInt.toNat a < RInt.toNat b)

/-- `a <= b`. -/
def le (a b : α) : Bool := decide (RInt.toNat a ≤ RInt.toNat b)

end

/-- `try_into`/`try_from` between integers; a slice is taken as it is, its length is checked by whoever needs the array. -/
class TryInto (α β : Type) where
  tryInto : α → Option β

instance {α β : Type} [RInt α] [RInt β] : TryInto α β where
  tryInto a := if RInt.toNat a < 2 ^ RInt.width β then some (RInt.ofNat (RInt.toNat a)) else none

instance {α : Type} : TryInto (List α) (List α) where
  tryInto := some

/-- Taking a pair apart. -/
class Tuple2 (τ : Type) (α β : outParam Type) where
  get : τ → α × β

/-- Taking a triple apart. -/
class Tuple3 (τ : Type) (α β γ : outParam Type) where
  get : τ → α × β × γ

instance {α β : Type} : Tuple2 (α × β) α β := ⟨id⟩
instance {α β γ : Type} : Tuple3 (α × β × γ) α β γ := ⟨id⟩

/-- `unwrap`, `expect`. -/
class Unwrap (φ : Type) (α : outParam Type) where
  unwrap : φ → Except Panic α

instance {α : Type} : Unwrap (Option α) α where
  unwrap
    | some a => .ok a
    | none => .error .unwrap

instance {ε α : Type} : Unwrap (Except ε α) α where
  unwrap
    | .ok a => .ok a
    | .error _ => .error .unwrap

/-- `cipher::InvalidLength`. -/
structure InvalidLength

/-- `cipher::StreamCipherError`. -/
structure StreamCipherError

/-- `zeroize()`: the value left behind. -/
class Zeroize (α : Type) where
  zeroize : α → α

instance {w : Nat} : Zeroize (BitVec w) := ⟨fun _ => 0⟩

instance {α : Type} [Zeroize α] : Zeroize (List α) := ⟨List.map Zeroize.zeroize⟩

/-- `InOut`: an input element and the place of the output element. -/
structure InOut (α : Type) where
  get_in : α
  get_out : α

/-- `assert!`, `assert_eq!`. -/
def assert (b : Bool) : Except Panic Unit := if b then .ok () else .error .assertion

/-- `debug_assert!`, `debug_assert_eq!`. -/
def debugAssert (tgt : Target) (b : Bool) : Except Panic Unit :=
  match tgt.mode with
  | .debug => assert b
  | .release => .ok ()

/-! ### Arrays and slices -/

section
variable {α : Type} {tgt : Target}

/-- `l.len()`. -/
def len (tgt : Target) (l : List α) : Usize tgt := ⟨l.length⟩

/-- The element at a position given as a number. -/
def nth (l : List α) (i : Nat) : Except Panic α := if h : i < l.length then .ok l[i] else .error .bounds

/-- `l[i]`. -/
def idx (l : List α) (i : Usize tgt) : Except Panic α := nth l i.val

/-- `l[i] = x`. -/
def upd (l : List α) (i : Usize tgt) (x : α) : Except Panic (List α) :=
  if i.val < l.length then .ok (l.set i.val x) else .error .bounds

/-- `l[a..b]`. -/
def slice (l : List α) (a b : Usize tgt) : Except Panic (List α) :=
  if a.val ≤ b.val ∧ b.val ≤ l.length then .ok ((l.drop a.val).take (b.val - a.val)) else .error .bounds

/-- Writing back the slice `l[a..b]` after its elements were changed. -/
def putSlice (l : List α) (a b : Usize tgt) (x : List α) : List α := l.take a.val ++ x ++ l.drop b.val

/-- `dst.copy_from_slice(src)`, `dst.clone_from_slice(src)`: the new contents of `dst`. -/
def copyFromSlice (dst src : List α) : Except Panic (List α) := if dst.length = src.length then .ok src else .error .assertion

/-- `l.swap(i, j)`. -/
def swap (l : List α) (i j : Usize tgt) : Except Panic (List α) := do
  let x ← idx l i
  let y ← idx l j
  let l ← upd l i y
  upd l j x

/-- `l.split_at(n)`, `l.split_at_mut(n)`. -/
def splitAt (l : List α) (n : Usize tgt) : Except Panic (List α × List α) :=
  if n.val ≤ l.length then .ok (l.take n.val, l.drop n.val) else .error .bounds

/-- The `k`-th item of `l.chunks(n)`, `l.chunks_exact(n)`. -/
def chunk (l : List α) (n k : Nat) : List α := (l.drop (n * k)).take n

/-- Writing back the `k`-th chunk of `n` elements. -/
def putChunk (l : List α) (n k : Nat) (x : List α) : List α := l.take (n * k) ++ x ++ l.drop (n * k + n)

/-- `a..b`. -/
def range (a b : Usize tgt) : List (Usize tgt) := (List.range (b.val - a.val)).map fun k => ⟨a.val + k⟩

/-- The number of items of `it.zip(l.iter().cycle())` when `it` has `n`. -/
def cycleLen (l : List α) (n : Nat) : Nat := if l.length = 0 then 0 else n

/-- `l.try_into().unwrap()` at the type of arrays of `n` elements. -/
def arrayOf (n : Usize tgt) (l : List α) : Except Panic (List α) := if l.length = n.val then .ok l else .error .unwrap

/-- `array::from_fn(f)` for an array of `n` elements. -/
def fromFn (n : Usize tgt) (f : Usize tgt → Except Panic α) : Except Panic (List α) := (range 0 n).mapM f

end

/-- `size_of::<T>()` of an integer type. -/
def sizeOfTy (tgt : Target) (α : Type) [RInt α] : Usize tgt := ⟨RInt.width α / 8⟩

/-- `size_of_val(l)` of a slice of integers. -/
def sizeOfVal (tgt : Target) {α : Type} [RInt α] (l : List α) : Usize tgt := ⟨RInt.width α / 8 * l.length⟩

/-- `typenum::Unsigned`: types that stand for numbers. -/
class Unsigned (R : Type) where
  value : Nat

/-- `R::USIZE`.  (`rustc` rejects a number that does not fit.) -/
def Unsigned.USIZE (R : Type) [Unsigned R] (tgt : Target) : Usize tgt := ⟨Unsigned.value R⟩

/-- `a.0` of an `Array<T, N>`: the Rust array in it. -/
def _root_.List.f0 {α : Type} (l : List α) : List α := l

/-! ### Byte order -/

/-- `T::from_le_bytes`, for an array of as many bytes as `T` has. -/
def fromLeBytes {w : Nat} (bs : List U8) : Except Panic (BitVec w) :=
  if 8 * bs.length = w then .ok (bs.foldr (fun b acc => (acc <<< 8) ||| b.setWidth w) 0) else .error .unwrap

/-- `x.to_le_bytes()`. -/
def toLeBytes {w : Nat} (x : BitVec w) : List U8 := (List.range (w / 8)).map fun i => (x >>> (8 * i)).setWidth 8

end Verif.Rust
