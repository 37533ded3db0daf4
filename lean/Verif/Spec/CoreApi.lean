import Verif.Model.CoreApi
/-!
# Specification of a core: a block counter

A seekable core is a number `c < 2^k`.  (Only the types of calls and observations are shared with the model.)
-/
namespace Verif.Spec

variable {bs : Nat}

namespace Counter

/-- Blocks `c, c+1, …, c+n-1`, the number taken modulo `2^k`. -/
def blocks (k : Nat) (block : Nat → Vector U8 bs) (c n : Nat) : List (List U8) :=
  (List.range n).map fun i => (block ((c + i) % 2 ^ k)).toList

/-- Move on by `n` blocks.  `checked`: stepping past the last counter value panics instead of wrapping. -/
def move (k : Nat) (checked : Bool) (c n : Nat) : Except Panic Nat :=
  if checked ∧ 2 ^ k ≤ c + n then .error .overflow else .ok ((c + n) % 2 ^ k)

/-- One call. -/
def io (u k : Nat) (checked : Bool) (block : Nat → Vector U8 bs) (c : Nat) : CoreOp bs → Except Panic (CoreObs × Nat)
  | .remaining => .ok (.remaining (if 2 ^ k - 1 - c < 2 ^ u then some (2 ^ k - 1 - c) else none), c)
  | .writeBlock => (move k checked c 1).map fun c' => (.blocks (blocks k block c 1), c')
  | .writeBlocks n => (move k checked c n).map fun c' => (.blocks (blocks k block c n), c')
  | .applyBlock d => (move k checked c 1).map fun c' =>
      (.blocks (List.zipWith (fun d b => List.zipWith (· ^^^ ·) d b) [d.toList] (blocks k block c 1)), c')
  | .applyBlocks data => (move k checked c data.length).map fun c' =>
      (.blocks (List.zipWith (fun d b => List.zipWith (· ^^^ ·) d b) (data.map (·.toList)) (blocks k block c data.length)), c')

/-- One call on a seekable core. -/
def step (u k : Nat) (checked : Bool) (block : Nat → Vector U8 bs) (c : Nat) :
    SeekCoreOp bs → Except Panic (CoreObs × Nat)
  | .io op => io u k checked block c op
  | .getPos => .ok (.pos c, c)
  | .setPos b => .ok (.unit, b)

/-- A history: the observations up to a panic, if any. -/
def run {ι ω : Type} (step : Nat → ι → Except Panic (ω × Nat)) : List ι → Nat → Except Panic (List ω × Nat)
  | [], c => .ok ([], c)
  | op :: h, c =>
    match step c op with
    | .error e => .error e
    | .ok (o, c) => (run step h c).map fun (os, c) => (o :: os, c)

/-- The argument of `set_block_pos` is a value of the counter type. -/
def Fits (k : Nat) : SeekCoreOp bs → Prop
  | .setPos b => b < 2 ^ k
  | _ => True

/-- A core without a position: `n` blocks have been produced, and there is no end. -/
def plain (block : Nat → Vector U8 bs) (n : Nat) : CoreOp bs → Except Panic (CoreObs × Nat)
  | .remaining => .ok (.remaining none, n)
  | .writeBlock => .ok (.blocks [(block n).toList], n + 1)
  | .writeBlocks m => .ok (.blocks ((List.range m).map fun i => (block (n + i)).toList), n + m)
  | .applyBlock d => .ok (.blocks [List.zipWith (· ^^^ ·) d.toList (block n).toList], n + 1)
  | .applyBlocks data => .ok (.blocks (List.zipWith (fun d b => List.zipWith (· ^^^ ·) d b) (data.map (·.toList))
      ((List.range data.length).map fun i => (block (n + i)).toList)), n + data.length)

end Counter
end Verif.Spec
