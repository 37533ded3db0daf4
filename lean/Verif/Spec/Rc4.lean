import Verif.Spec.Word
/-!
# RC4

Table `S` as a function on the numbers modulo 256 (`Fin 256`, whose `+` is addition modulo 256).
-/
namespace Verif.Spec.Rc4

abbrev Table := Fin 256 → Fin 256

/-- Exchange two entries. -/
def swap (S : Table) (a b : Fin 256) : Table := fun k => if k = a then S b else if k = b then S a else S k

/-- A byte as a number modulo 256, and back. -/
def num (b : U8) : Fin 256 := b.toFin
def byte (n : Fin 256) : U8 := BitVec.ofFin n

/-- Key-scheduling algorithm: `S` and `j` after the first `n` of its 256 rounds. -/
def ksa (key : List U8) : Nat → Table × Fin 256
  | 0 => (fun i => i, 0)
  | n + 1 =>
    let (S, j) := ksa key n
    let i := Fin.ofNat 256 n
    let j := j + S i + num (key[n % key.length]?.getD 0)
    (swap S i j, j)

/-- State of the pseudo-random generation algorithm. -/
structure St where
  S : Table
  i : Fin 256
  j : Fin 256

/-- One round of the PRGA. -/
def next (s : St) : St :=
  let i := s.i + 1
  let j := s.j + s.S i
  ⟨swap s.S i j, i, j⟩

/-- The byte a state shows. -/
def out (s : St) : U8 := byte (s.S (s.S s.i + s.S s.j))

/-- State after `n` rounds. -/
def after (key : List U8) : Nat → St
  | 0 => ⟨(ksa key 256).1, 0, 0⟩
  | n + 1 => next (after key n)

/-- Keystream byte `n`. -/
def stream (key : List U8) (n : Nat) : U8 := out (after key (n + 1))

end Verif.Spec.Rc4
