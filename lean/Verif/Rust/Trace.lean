import Verif.Rust.Mem
/-!
# Text that records what it does

What somebody who watches the machine is assumed to see of a run of the text: the conditions on which the control flow depends, the number of rounds of each
loop, the place of each access to an array or through a pointer, the operands of divisions (whose
time depends on them, except if the divisor is a power of two, when the division is a shift), and the vector instructions executed - but
not the data they work on.
-/
namespace Verif.Rust

/-- One thing to be seen. -/
inductive Event where
  | branch (b : Bool)
  | loop (n : Nat)
  | index (i : Nat)
  | slice (a b : Nat)
  | offset (o : Nat)
  | divide (a b : Nat)
  | instr (name : String)
  deriving DecidableEq, Repr

/-- A computation that records: its outcome, and what is seen until then. -/
def Tr (α : Type) : Type := Except Panic α × List Event

namespace Tr

variable {α β : Type} {tgt : Target}

/-- Nothing is seen. -/
def ret (a : α) : Tr α := (.ok a, [])

/-- One computation after another; a panic ends it. -/
def andThen (m : Tr α) (k : α → Tr β) : Tr β := match m.1 with
  | .ok a => ((k a).1, m.2 ++ (k a).2)
  | .error e => (.error e, m.2)

instance : Monad Tr where
  pure := ret
  bind := andThen

instance : MonadLift (Except Panic) Tr := ⟨fun m => (m, [])⟩

/-- See one thing, then compute. -/
def see (e : Event) (m : Except Panic α) : Tr α := (m, [e])

def branch (b : Bool) : Tr Bool := see (.branch b) (.ok b)
def loop (n : Nat) : Tr Unit := see (.loop n) (.ok ())
def instr (name : String) (a : α) : Tr α := see (.instr name) (.ok a)
def idx (l : List α) (i : Usize tgt) : Tr α := see (.index i.val) (Rust.idx l i)
def upd (l : List α) (i : Usize tgt) (x : α) : Tr (List α) := see (.index i.val) (Rust.upd l i x)
def slice (l : List α) (a b : Usize tgt) : Tr (List α) := see (.slice a.val b.val) (Rust.slice l a b)
def splitAt (l : List α) (n : Usize tgt) : Tr (List α × List α) := see (.index n.val) (Rust.splitAt l n)
def swap (l : List α) (i j : Usize tgt) : Tr (List α) := see (.slice i.val j.val) (Rust.swap l i j)

/-- What is seen of a division: the operands, but only the divisor if that is a power of two. -/
def divide (a b : Nat) : Event := .divide (if b = 2 ^ b.log2 then 0 else a) b

def div [RInt α] (tgt : Target) (a b : α) : Tr α := see (divide (RInt.toNat a) (RInt.toNat b)) (Rust.div tgt a b)
def rem [RInt α] (tgt : Target) (a b : α) : Tr α := see (divide (RInt.toNat a) (RInt.toNat b)) (Rust.rem tgt a b)

/-- A load or store is an instruction and an access. -/
def load [Mem α] [Reg β] (name : String) (a : α) (off : Nat) : Tr β := do
  instr name ()
  see (.offset off) (Rust.load a off)

def store [Mem α] [Reg β] (name : String) (a : α) (off : Nat) (x : β) : Tr α := do
  instr name ()
  see (.offset off) (Rust.store a off x)

def fromFn (n : Usize tgt) (f : Usize tgt → Tr α) : Tr (List α) := do
  loop n.val
  (range 0 n).mapM f

end Tr

end Verif.Rust
