import Verif.Spec.Word
/-!
# Salsa20: published definition

Bernstein, *Salsa20 specification* (2005), sections 3-9, and *Extending the Salsa20 nonce* (2011) for HSalsa20.
-/
namespace Verif.Spec.Salsa

/-- 4x4 matrices of words. -/
abbrev Mat := Vector (Vector U32 4) 4

/-- The matrix with entries `f i j`. -/
def mat (f : Fin 4 → Fin 4 → U32) : Mat := Vector.ofFn fun i => Vector.ofFn fun j => f i j

/-- Section 3: the quarterround function. -/
def quarterround (y0 y1 y2 y3 : U32) : Vector U32 4 :=
  let z1 := y1 ^^^ (y0 + y3).rotateLeft 7
  let z2 := y2 ^^^ (z1 + y0).rotateLeft 9
  let z3 := y3 ^^^ (z2 + z1).rotateLeft 13
  let z0 := y0 ^^^ (z3 + z2).rotateLeft 18
  #v[z0, z1, z2, z3]

/-- Section 4: rowround.  Row `i` is read cyclically starting on the diagonal, at column `i`. -/
def rowround (y : Mat) : Mat :=
  mat fun i j => (quarterround y[i][i] y[i][i + 1] y[i][i + 2] y[i][i + 3])[j - i]

/-- Transposition. -/
def transpose (y : Mat) : Mat := mat fun i j => y[j][i]

/-- Section 5: columnround is rowround on the transpose. -/
def columnround (y : Mat) : Mat := transpose (rowround (transpose y))

/-- Section 6. -/
def doubleround (x : Mat) : Mat := rowround (columnround x)

/-- `dr` double rounds. -/
def rounds : Nat → Mat → Mat
  | 0, m => m
  | dr + 1, m => doubleround (rounds dr m)

/-- Section 8: the Salsa20 hash of a 16-word matrix (before serialisation). -/
def hash (dr : Nat) (m : Mat) : Mat :=
  let r := rounds dr m
  mat fun i j => r[i][j] + m[i][j]

/-- "expand 32-byte k". -/
def sigma : List U8 := "expand 32-byte k".toList.map fun c => BitVec.ofNat 8 c.toNat

/-- Section 9: expansion of a 32-byte key and 16 more bytes, here four words: constants on the diagonal. -/
def expand (key : Vector U8 32) (n : Fin 4 → U32) : Mat :=
  #v[#v[leWord sigma 0, leWord key.toList 0, leWord key.toList 1, leWord key.toList 2],
     #v[leWord key.toList 3, leWord sigma 1, n 0, n 1],
     #v[n 2, n 3, leWord sigma 2, leWord key.toList 4],
     #v[leWord key.toList 5, leWord key.toList 6, leWord key.toList 7, leWord sigma 3]]

/-- Section 10: nonce and 64-bit counter. -/
def input (key : Vector U8 32) (nonce : Vector U8 8) (ctr : Nat) : Mat :=
  expand key fun j => match j with
    | 0 => leWord nonce.toList 0
    | 1 => leWord nonce.toList 1
    | 2 => BitVec.ofNat 32 ctr
    | 3 => BitVec.ofNat 32 (ctr / 2 ^ 32)

/-- Row-major little-endian serialisation. -/
def serialize (m : Mat) : Vector U8 64 :=
  Vector.ofFn fun k => leByte (m[k.val / 16]'(by omega))[k.val / 4 % 4].toNat (k.val % 4)

/-- Keystream block `n`. -/
def block (dr : Nat) (key : Vector U8 32) (nonce : Vector U8 8) (n : Nat) : Vector U8 64 :=
  serialize (hash dr (input key nonce n))

/-- HSalsa20: diagonal words and the four words in the input's place, after the rounds, without feed-forward. -/
def hsalsa (dr : Nat) (key : Vector U8 32) (inp : Vector U8 16) : Vector U8 32 :=
  let z := rounds dr (expand key fun j => leWord inp.toList j)
  let out : Vector U32 8 := #v[z[0][0], z[1][1], z[2][2], z[3][3], z[1][2], z[1][3], z[2][0], z[2][1]]
  Vector.ofFn fun k => leByte (out[k.val / 4]'(by omega)).toNat (k.val % 4)

/-- Keystream block `n` of XSalsa20: Salsa20 under the HSalsa20 subkey of the first 16 nonce bytes, with the last 8 as nonce. -/
def xBlock (dr : Nat) (key : Vector U8 32) (nonce : Vector U8 24) (n : Nat) : Vector U8 64 :=
  block dr (hsalsa dr key (Vector.ofFn fun i : Fin 16 => nonce[i.val])) (Vector.ofFn fun i : Fin 8 => nonce[16 + i.val]) n

end Verif.Spec.Salsa
