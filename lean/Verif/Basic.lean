/-!
# Words, bytes, panics

Shared vocabulary of the models.  Rust's fixed-width unsigned integers are bit vectors, so `+` on
them is `wrapping_add`, `^^^` is `^`, `<<<`/`>>>` are the logical shifts.
-/

namespace Verif

/-- Rust `u8`. -/
abbrev U8 := BitVec 8
/-- Rust `u16`. -/
abbrev U16 := BitVec 16
/-- Rust `u32`. -/
abbrev U32 := BitVec 32
/-- Rust `u64`. -/
abbrev U64 := BitVec 64
/-- Rust `u128`. -/
abbrev U128 := BitVec 128

/-- Ways in which a modelled Rust function can panic. -/
inductive Panic where
  /-- `assert!`/`assert_eq!`/`debug_assert!` failed -/
  | assertion
  /-- an unsuffixed `+`, `-`, `*` overflowed with overflow checks enabled -/
  | overflow
  /-- slice or array index out of bounds -/
  | bounds
  /-- `unwrap` on `Err`/`None` -/
  | unwrap
  deriving DecidableEq, Repr

/-- Build profile: are `overflow-checks`/`debug_assertions` enabled? -/
inductive Mode where
  | debug
  | release
  deriving DecidableEq, Repr

/-- `u32::from_le_bytes`. -/
def le32 (b0 b1 b2 b3 : U8) : U32 :=
  b0.setWidth 32 ||| (b1.setWidth 32 <<< 8) ||| (b2.setWidth 32 <<< 16) ||| (b3.setWidth 32 <<< 24)

/-- `u32::to_le_bytes`. -/
def toLe32 (w : U32) : Vector U8 4 :=
  #v[w.setWidth 8, (w >>> 8).setWidth 8, (w >>> 16).setWidth 8, (w >>> 24).setWidth 8]

/-- `u64::to_le_bytes`. -/
def toLe64 (w : U64) : Vector U8 8 :=
  #v[w.setWidth 8, (w >>> 8).setWidth 8, (w >>> 16).setWidth 8, (w >>> 24).setWidth 8,
     (w >>> 32).setWidth 8, (w >>> 40).setWidth 8, (w >>> 48).setWidth 8, (w >>> 56).setWidth 8]

/-- Read the `i`-th little-endian 32-bit word of a byte array:
`chunks_exact(4)` followed by `u32::from_le_bytes`. -/
def wordAt {n : Nat} (b : Vector U8 n) (i : Nat) (h : 4 * i + 3 < n) : U32 :=
  le32 b[4*i] b[4*i+1] b[4*i+2] b[4*i+3]

/-- `chunks_exact(4)` of a byte array whose length is `4 * k`, each chunk read little-endian. -/
def leWords {k : Nat} (b : Vector U8 (4 * k)) : Vector U32 k :=
  Vector.ofFn fun i => wordAt b i.val (by have := i.isLt; omega)

/-- Serialise words little-endian: `chunks_exact_mut(4).zip(words)` with `to_le_bytes`. -/
def leBytes {k : Nat} (w : Vector U32 k) : Vector U8 (4 * k) :=
  Vector.ofFn fun i => (toLe32 (w[i.val / 4]'(by have := i.isLt; omega)))[i.val % 4]'(by omega)

/-- XOR two byte lists position by position (`xor_in2out`). -/
def xorBytes (a b : List U8) : List U8 := List.zipWith (· ^^^ ·) a b

/-- `for _ in 0..n { x = f(x) }`. -/
def iter {α : Type u} : Nat → (α → α) → α → α
  | 0, _, x => x
  | n + 1, f, x => iter n f (f x)

end Verif
