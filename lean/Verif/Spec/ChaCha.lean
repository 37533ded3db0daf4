import Verif.Spec.Word
/-!
# ChaCha: published definition

Bernstein, *ChaCha, a variant of Salsa20* (2008) and RFC 8439, section 2.  The state is a 4x4 matrix of
32-bit words.  A column round applies the quarter round to every column; a diagonal round rotates row `i`
left by `i` positions, applies a column round, and rotates back.
-/
namespace Verif.Spec.ChaCha

/-- 4x4 matrices of words. -/
abbrev Mat := Vector (Vector U32 4) 4

/-- The matrix with entries `f i j`. -/
def mat (f : Fin 4 → Fin 4 → U32) : Mat := Vector.ofFn fun i => Vector.ofFn fun j => f i j

/-- RFC 8439, 2.1: the quarter round on four words. -/
def quarterRound (a b c d : U32) : Vector U32 4 :=
  let a := a + b; let d := (d ^^^ a).rotateLeft 16
  let c := c + d; let b := (b ^^^ c).rotateLeft 12
  let a := a + b; let d := (d ^^^ a).rotateLeft 8
  let c := c + d; let b := (b ^^^ c).rotateLeft 7
  #v[a, b, c, d]

/-- Quarter round on each column. -/
def columnRound (m : Mat) : Mat :=
  mat fun i j => (quarterRound m[0][j] m[1][j] m[2][j] m[3][j])[i]

/-- Rotate row `i` left by `i`: diagonals become columns. -/
def toColumns (m : Mat) : Mat := mat fun i j => m[i][j + i]

/-- Rotate row `i` right by `i`. -/
def toDiagonals (m : Mat) : Mat := mat fun i j => m[i][j - i]

/-- Quarter round on each diagonal. -/
def diagonalRound (m : Mat) : Mat := toDiagonals (columnRound (toColumns m))

/-- A column round followed by a diagonal round. -/
def doubleRound (m : Mat) : Mat := diagonalRound (columnRound m)

/-- `dr` double rounds. -/
def rounds : Nat → Mat → Mat
  | 0, m => m
  | dr + 1, m => doubleRound (rounds dr m)

/-- The ChaCha block permutation followed by the feed-forward addition. -/
def core (dr : Nat) (m : Mat) : Mat :=
  let r := rounds dr m
  mat fun i j => r[i][j] + m[i][j]

/-- The four constant words: "expand 32-byte k" in ASCII. -/
def sigma : List U8 := "expand 32-byte k".toList.map fun c => BitVec.ofNat 8 c.toNat

/-- Matrix with constants in row 0, the 32-byte key in rows 1 and 2, and `r` in row 3. -/
def setup (key : Vector U8 32) (r : Fin 4 → U32) : Mat :=
  mat fun i j => match i with
    | 0 => leWord sigma j
    | 1 => leWord key.toList j
    | 2 => leWord key.toList (4 + j)
    | 3 => r j

/-- RFC 8439: 32-bit counter and 96-bit nonce. -/
def ietfInput (key : Vector U8 32) (nonce : Vector U8 12) (ctr : Nat) : Mat :=
  setup key fun j => match j with
    | 0 => BitVec.ofNat 32 ctr
    | 1 => leWord nonce.toList 0
    | 2 => leWord nonce.toList 1
    | 3 => leWord nonce.toList 2

/-- Bernstein: 64-bit counter and 64-bit nonce. -/
def djbInput (key : Vector U8 32) (nonce : Vector U8 8) (ctr : Nat) : Mat :=
  setup key fun j => match j with
    | 0 => BitVec.ofNat 32 ctr
    | 1 => BitVec.ofNat 32 (ctr / 2 ^ 32)
    | 2 => leWord nonce.toList 0
    | 3 => leWord nonce.toList 1

/-- Row-major little-endian serialisation. -/
def serialize (m : Mat) : Vector U8 64 :=
  Vector.ofFn fun k =>
    leByte (m[k.val / 16]'(by omega))[k.val / 4 % 4].toNat (k.val % 4)

/-- Keystream block `n` of RFC 8439 ChaCha with `dr` double rounds. -/
def ietfBlock (dr : Nat) (key : Vector U8 32) (nonce : Vector U8 12) (n : Nat) : Vector U8 64 :=
  serialize (core dr (ietfInput key nonce n))

/-- Keystream block `n` of Bernstein's ChaCha with `dr` double rounds. -/
def djbBlock (dr : Nat) (key : Vector U8 32) (nonce : Vector U8 8) (n : Nat) : Vector U8 64 :=
  serialize (core dr (djbInput key nonce n))

/-- HChaCha (draft-irtf-cfrg-xchacha, 2.2): rounds without feed-forward on constants, key and a 16-byte
input; the output is the first and the last row. -/
def hchacha (dr : Nat) (key : Vector U8 32) (input : Vector U8 16) : Vector U8 32 :=
  let m := rounds dr (setup key fun j => leWord input.toList j)
  Vector.ofFn fun k =>
    let row : Fin 4 := if k.val < 16 then 0 else 3
    leByte m[row][k.val / 4 % 4].toNat (k.val % 4)

/-- XChaCha (draft-irtf-cfrg-xchacha, 2.3): RFC 8439 ChaCha under the HChaCha subkey of the first 16 nonce bytes; the nonce is
four zero bytes and the last 8 nonce bytes. -/
def xSubkey (dr : Nat) (key : Vector U8 32) (nonce : Vector U8 24) : Vector U8 32 :=
  hchacha dr key (Vector.ofFn fun i : Fin 16 => nonce[i.val])

def xNonce (nonce : Vector U8 24) : Vector U8 12 :=
  Vector.ofFn fun i : Fin 12 => if h : i.val < 4 then 0 else nonce[12 + i.val]

/-- Keystream block `n` of XChaCha. -/
def xBlock (dr : Nat) (key : Vector U8 32) (nonce : Vector U8 24) (n : Nat) : Vector U8 64 :=
  ietfBlock dr (xSubkey dr key nonce) (xNonce nonce) n

end Verif.Spec.ChaCha
