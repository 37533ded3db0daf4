import Verif.Model.Requests
import Verif.Rust.ClientTrace
/-!
# The requests of client code

What client code on a core asks for may depend on the blocks it is given.  Here is what it has asked for in a history of calls, and the client code that asks for the same
without looking at anything.
-/
namespace Verif
open ChaCha.Isa (Req)

/-- Client code that makes the requests of a list, and looks at nothing. -/
def Prog.ofReqs {bs : Nat} : List Req → Prog bs Unit
  | [] => .done ()
  | .block :: l => .block fun _ => ofReqs l
  | .par :: l => .par fun _ => ofReqs l
  | .tail n :: l => .tail n fun _ => ofReqs l

/-- What was asked of a core by a call - chacha20/src/lib.rs:218-299, salsa20/src/lib.rs:120-144. -/
inductive Asked where
  /-- `process_with_backend`, with the requests the client code has made -/
  | run (l : List Req)
  /-- `remaining_blocks()` -/
  | remaining
  /-- `get_block_pos()` -/
  | getPos
  /-- `set_block_pos(b)` -/
  | setPos (b : Nat)
deriving DecidableEq

/-- A call that asks for this, and looks at nothing. -/
def Asked.client {bs : Nat} : Asked → ClientOp bs
  | .run l => .run (fun _ => Prog.ofReqs l) fun _ => []
  | .remaining => .remaining
  | .getPos => .getPos
  | .setPos b => .setPos b

namespace SeekCore

variable {bs : Nat} {χ : Type} (C : SeekCore bs χ)

/-- What a call asks for, and the core after it - chacha20/src/lib.rs:218-299, salsa20/src/lib.rs:120-144. -/
def asks (x : χ) (s : C.σ) : ClientOp bs → Except Panic (Asked × C.σ)
  | .run f _ => do
    let (a, s) ← C.process x (fun n => (f n).logged) s
    return (.run a.2, s)
  | .remaining => .ok (.remaining, s)
  | .getPos => .ok (.getPos, s)
  | .setPos b => .ok (.setPos b, C.setPos s b)

/-- What a history of calls asks for - chacha20/src/lib.rs:218-299, salsa20/src/lib.rs:120-144. -/
def asked : List (χ × ClientOp bs) → C.σ → Except Panic (List Asked)
  | [], _ => .ok []
  | (x, op) :: h, s => do
    let (q, s) ← C.asks x s op
    let qs ← asked h s
    return q :: qs

end SeekCore

/-- Calls that ask for this, in the circumstances of a history. -/
def askedIn {bs : Nat} {χ : Type} (h : List (χ × ClientOp bs)) (l : List Asked) : List (χ × ClientOp bs) := List.zipWith (fun e q => (e.1, q.client)) h l

/-- What a history of calls asks of a core of the text, from its creation on - chacha20/src/lib.rs:161-299, salsa20/src/lib.rs:82-144. -/
def Rust.SeekText.asked (tgt : Target) (c : SeekText) (h : List (Circumstances × ClientOp 64)) : Except Panic (List Asked) :=
  c.create tgt >>= (c.core tgt).asked h

end Verif
