import Verif.Spec.Rc4
import Verif.Spec.Hc256
/-!
# RC4 and HC-256 backwards
-/
namespace Verif.Spec

namespace Rc4

/-- The round before: exchange again, then take back `j` and `i`. -/
def prev (s : St) : St :=
  let S := swap s.S s.i s.j
  ⟨S, s.i - 1, s.j - S s.i⟩

/-- The `n` bytes shown before and by the state `s`, oldest first. -/
def rewind : Nat → St → List U8
  | 0, _ => []
  | n + 1, s => rewind n (prev s) ++ [out s]

/-- `n` rounds back. -/
def undo : Nat → St → St
  | 0, s => s
  | n + 1, s => undo n (prev s)

end Rc4

namespace Hc256

/-- Step `i` taken back. -/
def unstep (i : Nat) (t : Tables) : Tables :=
  let j := idx i
  if i % 2048 < 1024 then ⟨upd t.P j (t.P j - t.P (j - 10) - g t.Q (t.P (j - 3)) (t.P (j - 1023))), t.Q⟩
  else ⟨t.P, upd t.Q j (t.Q j - t.Q (j - 10) - g t.P (t.Q (j - 3)) (t.Q (j - 1023)))⟩

/-- Steps `n - 1`, …, `0` taken back. -/
def undo : Nat → Tables → Tables
  | 0, t => t
  | n + 1, t => undo n (unstep n t)

/-- Word `i` of the expansion, from the tables it was cut into. -/
def unexpand (t : Tables) (i : Nat) : U32 :=
  if 1536 ≤ i then t.Q (idx (i - 1536))
  else if 512 ≤ i then t.P (idx (i - 512))
  else unexpand t (i + 16) - BitVec.ofNat 32 (i + 16) - f1 (unexpand t (i + 1)) - unexpand t (i + 9) - f2 (unexpand t (i + 14))
termination_by 1536 - i

/-- Key and IV, from the tables after set-up and `n` words. -/
def recover (n : Nat) (t : Tables) : Vector U8 32 × Vector U8 32 :=
  let t := undo 4096 (undo n t)
  (Vector.ofFn fun k => leByte (unexpand t (k.val / 4)).toNat (k.val % 4), Vector.ofFn fun k => leByte (unexpand t (8 + k.val / 4)).toNat (k.val % 4))

end Hc256

end Verif.Spec
