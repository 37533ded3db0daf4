import Verif.Rust.Lang
import Verif.Model.Simd
/-!
# Memory behind raw pointers

A value that a raw pointer points into is a list of bytes (`Mem.bytes`); writing through the pointer gives the value with other bytes (`Mem.put`).  A
pointer is an offset in bytes into such a value.  Pointer arithmetic that leaves the value and an access
outside the value, which are undefined behaviour in Rust, are errors here: a function that is proved not to fail has neither.
-/
namespace Verif.Rust

/-- A type of values that raw pointers can point into. -/
class Mem (α : Type) where
  /-- size of what `as_ptr` points at -/
  unit : α → Nat
  /-- the bytes of the value -/
  bytes : α → List U8
  /-- the value with these bytes -/
  put : α → List U8 → α

/-- Number of bytes. -/
def Mem.size {α : Type} [Mem α] (a : α) : Nat := (Mem.bytes a).length

/-- A type of values without parts: the number of their bytes, and how they are made of bytes. -/
class Reg (β : Type) where
  size : Nat
  bytes : β → List U8
  ofBytes : List U8 → β

instance : Reg U8 := ⟨1, fun x => [x], fun b => b.headD 0⟩

/-- Little-endian. -/
def leOf (b : List U8) : U32 := le32 (b.getD 0 0) (b.getD 1 0) (b.getD 2 0) (b.getD 3 0)

instance : Reg U32 := ⟨4, fun x => toLeBytes x, leOf⟩

instance : Reg M128 where
  size := 16
  bytes x := toLeBytes x.x0 ++ toLeBytes x.x1 ++ toLeBytes x.x2 ++ toLeBytes x.x3
  ofBytes b := ⟨leOf b, leOf (b.drop 4), leOf (b.drop 8), leOf (b.drop 12)⟩

instance : Reg M256 where
  size := 32
  bytes x := Reg.bytes x.lo ++ Reg.bytes x.hi
  ofBytes b := ⟨Reg.ofBytes b, Reg.ofBytes (b.drop 16)⟩

instance : Reg M512 where
  size := 64
  bytes x := Reg.bytes x.l0 ++ Reg.bytes x.l1 ++ Reg.bytes x.l2 ++ Reg.bytes x.l3
  ofBytes b := ⟨Reg.ofBytes b, Reg.ofBytes (b.drop 16), Reg.ofBytes (b.drop 32), Reg.ofBytes (b.drop 48)⟩

instance (β : Type) [Reg β] : Mem β := ⟨fun _ => Reg.size β, Reg.bytes, fun _ => Reg.ofBytes⟩

/-- The elements with new bytes, one after the other. -/
def puts {α : Type} [Mem α] : List α → List U8 → List α
  | [], _ => []
  | a :: l, b => Mem.put a (b.take (Mem.size a)) :: puts l (b.drop (Mem.size a))

/-- Arrays and slices: the elements one after the other; `as_ptr` points at the first element. -/
instance (α : Type) [Mem α] : Mem (List α) where
  unit l := match l with
    | [] => 0
    | a :: _ => Mem.size a
  bytes l := l.flatMap Mem.bytes
  put := puts

/-- `p.add(i)`, `p.offset(i)` for a pointer at `off` in a value of `size` bytes. -/
def ptrAdd {tgt : Target} (size unit off : Nat) (i : Usize tgt) : Except Panic Nat :=
  if off + i.val * unit ≤ size then .ok (off + i.val * unit) else .error .bounds

/-- Read a register. -/
def load {α β : Type} [Mem α] [Reg β] (a : α) (off : Nat) : Except Panic β :=
  if off + Reg.size β ≤ Mem.size a then .ok (Reg.ofBytes (((Mem.bytes a).drop off).take (Reg.size β))) else .error .bounds

/-- Write a register. -/
def store {α β : Type} [Mem α] [Reg β] (a : α) (off : Nat) (x : β) : Except Panic α :=
  if off + (Reg.bytes x).length ≤ Mem.size a then
    .ok (Mem.put a ((Mem.bytes a).take off ++ Reg.bytes x ++ (Mem.bytes a).drop (off + (Reg.bytes x).length)))
  else .error .bounds

/-- `core::mem::transmute` to an array of `n` registers; both types must have the same size. -/
def transmute {tgt : Target} {α β : Type} [Mem α] [Reg β] (n : Usize tgt) (a : α) : Except Panic (List β) :=
  if Mem.size a = n.val * Reg.size β then .ok ((List.range n.val).map fun i => Reg.ofBytes (((Mem.bytes a).drop (i * Reg.size β)).take (Reg.size β)))
  else .error .assertion

end Verif.Rust
