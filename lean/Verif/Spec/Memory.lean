import Verif.Model.Memory
/-!
# Specification: a cursor and a memory
-/
namespace Verif.Spec

/-- Memory in which `n` bytes from `a` on have been replaced by `f 0, f 1, …` at once. -/
def MemCursor.put (m : Mem) (a n : Nat) (f : Nat → U8) : Mem := fun x => if a ≤ x ∧ x < a + n then f (x - a) else m x

/-- A position in the stream, and a memory.  `cstep` tells what the calls without a buffer do. -/
def MemCursor.step {ι : Type} (stream : Nat → U8) (limit : Option Nat) (cstep : Nat → ι → Obs × Nat) (s : Nat × Mem) :
    MemCall ι → Obs × (Nat × Mem)
  | .inout b =>
    if Within limit (s.1 + b.len) then
      (.done (.ok ()), s.1 + b.len, put s.2 b.out b.len fun i => s.2 (b.inp + i) ^^^ stream (s.1 + i))
    else (.done (.error .streamCipherError), s)
  | .b2b inp ilen out olen =>
    if ilen = olen ∧ Within limit (s.1 + ilen) then
      (.done (.ok ()), s.1 + ilen, put s.2 out ilen fun i => s.2 (inp + i) ^^^ stream (s.1 + i))
    else (.done (.error .streamCipherError), s)
  | .fill a n =>
    if Within limit (s.1 + n) then (.done (.ok ()), s.1 + n, put s.2 a n fun i => stream (s.1 + i))
    else (.done (.error .streamCipherError), s)
  | .store a l => (.done (.ok ()), s.1, put s.2 a l.length fun i => l.getD i 0)
  | .other i => ((cstep s.1 i).1, (cstep s.1 i).2, s.2)

/-- Run a history. -/
def MemCursor.run {ι : Type} (step : Nat × Mem → MemCall ι → Obs × (Nat × Mem)) : List (MemCall ι) → Nat × Mem → List Obs × (Nat × Mem)
  | [], s => ([], s)
  | e :: h, s =>
    let (o, s) := step s e
    let (os, s) := MemCursor.run step h s
    (o :: os, s)

/-- What the references in a call guarantee, and lengths that fit a `usize` of `u` bits. -/
def MemCursor.Fits {ι : Type} (u : Nat) (ok : ι → Prop) : MemCall ι → Prop
  | .inout b => b.Ok ∧ b.len < 2 ^ u
  | .b2b inp ilen out olen => (inp + ilen ≤ out ∨ out + olen ≤ inp) ∧ ilen < 2 ^ u ∧ olen < 2 ^ u
  | .fill _ n => n < 2 ^ u
  | .store _ _ => True
  | .other i => ok i

end Verif.Spec
