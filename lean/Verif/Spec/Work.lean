import Verif.Spec.Cursor
/-!
# How many blocks a cursor needs

The bytes of a stream come in blocks of `bs`.  Somebody who keeps the block that he is in needs, to go from position `p` on to
position `q`, the blocks that begin in between.
-/
namespace Verif.Spec

/-- Blocks that have begun before position `p`. -/
def begun (bs p : Nat) : Nat := (p + bs - 1) / bs

/-- Length of the buffer. -/
def opLen : Op → Nat
  | .apply data => data.length
  | .write buf => buf.length

/-- Position after a call. -/
def place (limit : Option Nat) (p : Nat) : SeekOp → Nat
  | .io op => if Within limit (p + opLen op) then p + opLen op else p
  | .seek q => if Within limit q then q else p
  | .pos _ => p

/-- Blocks needed for a call at position `p`: the new ones for a read; for a jump into a block, that block; none for a refused call. -/
def work (bs : Nat) (limit : Option Nat) (p : Nat) : SeekOp → Nat
  | .io op => if Within limit (p + opLen op) then begun bs (p + opLen op) - begun bs p else 0
  | .seek q => if Within limit q ∧ q % bs ≠ 0 then 1 else 0
  | .pos _ => 0

/-- Blocks needed for a history. -/
def totalWork (bs : Nat) (limit : Option Nat) : List SeekOp → Nat → Nat
  | [], _ => 0
  | op :: h, p => work bs limit p op + totalWork bs limit h (place limit p op)

end Verif.Spec
