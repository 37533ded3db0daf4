import Verif.Model.CoreApi
import Verif.Rust.CiphersTrace
import Verif.Rust.PlainTrace
/-!
# Any client code on the cores

`process_with_backend` takes any closure.  The wrapper and the provided methods of the traits are a few of them; here a caller may bring any code that asks for
blocks, groups of blocks and tails.
-/
namespace Verif

/-- A call on a core: any client code, whose result the caller looks at through `out`, or a question about the position - chacha20/src/lib.rs:218-299, salsa20/src/lib.rs:120-144. -/
inductive ClientOp (bs : Nat) : Type 1 where
  /-- `process_with_backend(f)` -/
  | run {α : Type} (f : Closure bs α) (out : α → List (List U8))
  /-- `remaining_blocks()` -/
  | remaining
  /-- `get_block_pos()` -/
  | getPos
  /-- `set_block_pos(b)` -/
  | setPos (b : Nat)

/-- The provided methods of the traits as client code - crate `cipher`, for chacha20/src/lib.rs:218-299. -/
def SeekCoreOp.client {bs : Nat} : SeekCoreOp bs → ClientOp bs
  | .io .remaining => .remaining
  | .io .writeBlock => .run (writeBlockClosure bs) fun b => [b.toList]
  | .io (.writeBlocks n) => .run (writeBlocksClosure n) id
  | .io (.applyBlock d) => .run (applyBlockClosure d.toList) fun b => [b]
  | .io (.applyBlocks data) => .run (applyBlocksClosure (data.map (·.toList))) id
  | .getPos => .getPos
  | .setPos b => .setPos b

namespace SeekCore

variable {bs : Nat} {χ : Type} (C : SeekCore bs χ)

/-- Execute one call - chacha20/src/lib.rs:218-299, salsa20/src/lib.rs:120-144. -/
def client (x : χ) (s : C.σ) : ClientOp bs → Except Panic (CoreObs × C.σ)
  | .run f out => do
    let (a, s) ← C.process x f s
    return (.blocks (out a), s)
  | .remaining => .ok (.remaining (C.remaining s), s)
  | .getPos => .ok (.pos (C.getPos s), s)
  | .setPos b => .ok (.unit, C.setPos s b)

/-- A history of calls, each under its own circumstances - chacha20/src/lib.rs:218-299, salsa20/src/lib.rs:120-144. -/
def clients : List (χ × ClientOp bs) → C.σ → Except Panic (List CoreObs × C.σ)
  | [], s => .ok ([], s)
  | (x, op) :: h, s => do
    let (o, s) ← C.client x s op
    let (os, s) ← clients h s
    return (o :: os, s)

end SeekCore

namespace Rust.SeenCore

variable {bs : Nat} {χ : Type} (C : SeenCore bs χ)

/-- One call, recording - chacha20/src/lib.rs:218-299, salsa20/src/lib.rs:120-144, rabbit/src/lib.rs:235-247, 277-289. -/
def client (x : χ) (s : C.σ) : ClientOp bs → Tr (CoreObs × C.σ)
  | .run f out => do
    let (a, s) ← C.process x f s
    return (.blocks (out a), s)
  | .remaining => do return (.remaining (← C.remaining s), s)
  | .getPos => do return (.pos (← C.getPos s), s)
  | .setPos b => do return (.unit, ← C.setPos s b)

/-- A history of calls, recording - chacha20/src/lib.rs:218-299, salsa20/src/lib.rs:120-144, rabbit/src/lib.rs:235-247, 277-289. -/
def clients : List (χ × ClientOp bs) → C.σ → Tr (List CoreObs × C.σ)
  | [], s => pure ([], s)
  | (x, op) :: h, s => do
    let (o, s) ← C.client x s op
    let (os, s) ← clients h s
    return (o :: os, s)

/-- A core from its creation on - chacha20/src/lib.rs:161-299, salsa20/src/lib.rs:82-144, rabbit/src/lib.rs:219-289. -/
def clientLife (create : Tr C.σ) (h : List (χ × ClientOp bs)) : Tr (List CoreObs) := do
  let s ← create
  let r ← C.clients h s
  return r.1

end Rust.SeenCore

namespace Rust

/-- A core from its creation on, without a record - chacha20/src/lib.rs:161-299, salsa20/src/lib.rs:82-144. -/
def SeekText.clients (tgt : Target) (c : SeekText) (h : List (Circumstances × ClientOp 64)) : Except Panic (List CoreObs) :=
  (c.create tgt >>= (c.core tgt).clients h).map (·.1)

/-- A core from its creation on, recording - chacha20/src/lib.rs:161-299, salsa20/src/lib.rs:82-144. -/
def SeekText.clientLife (tgt : Target) (c : SeekText) (h : List (Circumstances × ClientOp 64)) : Tr (List CoreObs) :=
  (c.seen tgt).clientLife (c.create_tr tgt) h

end Rust

end Verif
