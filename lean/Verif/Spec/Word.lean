import Verif.Basic
/-!
# Specification of little-endian coding, in natural numbers

Used by all cipher specifications; deliberately phrased with `Nat` arithmetic rather than with shifts
and bit operations so that it is independent of the model.
-/
namespace Verif.Spec

/-- Little-endian value of a byte string: `b₀ + 256 b₁ + 256² b₂ + …`. -/
def leNat : List U8 → Nat
  | [] => 0
  | b :: bs => b.toNat + 256 * leNat bs

/-- Byte `i` of the little-endian representation of `v`. -/
def leByte (v i : Nat) : U8 := BitVec.ofNat 8 (v / 256 ^ i)

/-- The `i`-th 32-bit little-endian word of a byte string. -/
def leWord (bs : List U8) (i : Nat) : U32 := BitVec.ofNat 32 (leNat ((bs.drop (4 * i)).take 4))

/-- The infinite byte stream obtained by laying blocks of `bs` bytes end to end. -/
def byteStream {bs : Nat} (ks : Nat → Vector U8 bs) (h : 0 < bs) (i : Nat) : U8 :=
  (ks (i / bs))[i % bs]'(Nat.mod_lt _ h)

/-- Sixteen words written as a 4x4 matrix, row by row. -/
def rows (s : Vector U32 16) : Vector (Vector U32 4) 4 :=
  Vector.ofFn fun i : Fin 4 => Vector.ofFn fun j : Fin 4 => s[4 * i.val + j.val]

end Verif.Spec
