import Verif.Model.Isa
import Verif.Spec.Ciphers
/-!
# Recording what the byte-level objects ask of their backends

The wrapper of `Model/Wrapper` is run unchanged on a core that, besides doing its work, writes down the requests made in each call of
`process_with_backend`, together with the circumstances of that call.
-/
namespace Verif
open ChaCha.Isa (Req)

/-- The same client, returning also the list of the requests it made - crate `cipher`; argument of `process_with_backend`,
chacha20/src/lib.rs:239-242. -/
def Prog.logged {bs : Nat} {α : Type} : Prog bs α → Prog bs (α × List Req)
  | .done a => .done (a, [])
  | .block k => .block fun b => (k b).logged.map fun r => (r.1, .block :: r.2)
  | .par k => .par fun l => (k l).logged.map fun r => (r.1, .par :: r.2)
  | .tail n k => .tail n fun l => (k l).logged.map fun r => (r.1, .tail n :: r.2)

/-- A core with a log - the cores of chacha20/src/lib.rs:233-299 and the other crates. -/
def Core.logged {bs : Nat} {χ : Type} (C : Core bs χ) : Core bs χ where
  σ := C.σ × List (χ × List Req)
  process x f s := do
    let (r, t) ← C.process x (fun par => (f par).logged) s.1
    return (r.1, (t, s.2 ++ [(x, r.2)]))
  remaining s := C.remaining s.1

/-- A seekable core with a log - the cores of chacha20/src/lib.rs:218-299 and the other crates. -/
def SeekCore.logged {bs : Nat} {χ : Type} (C : SeekCore bs χ) : SeekCore bs χ where
  toCore := C.toCore.logged
  ctrBits := C.ctrBits
  getPos s := C.getPos s.1
  setPos s n := (C.setPos s.1 n, s.2)

/-- The same object on the core with a log, which is empty - crate `cipher`, wrapper of chacha20/src/chacha.rs:16-22 and the other cipher types.
-/
def Wrapper.withLog {bs : Nat} {σ χ : Type} (w : Wrapper bs σ) : Wrapper bs (σ × List (χ × List Req)) := ⟨(w.core, []), w.buf, w.pos⟩

/-- Run a history on an object just made: observations and log - crate `cipher`, wrapper of chacha20/src/chacha.rs:16-22 and the other cipher
types. -/
def SeekCore.record {bs : Nat} {χ : Type} (C : SeekCore bs χ) (create : Except Panic (Wrapper bs C.σ)) (h : List (χ × SeekOp)) :
    Except Panic (List Obs × List (χ × List Req)) := do
  let w ← create
  let (os, w) ← runHistory (fun x w op => Wrapper.seekStep C.logged x w op) h w.withLog
  return (os, w.core.2)

/-- The same without seeking - crate `cipher`, wrapper of chacha20/src/chacha.rs:16-22 and the other cipher types. -/
def Core.record {bs : Nat} {χ : Type} (C : Core bs χ) (create : Except Panic (Wrapper bs C.σ)) (h : List (χ × Op)) :
    Except Panic (List Obs × List (χ × List Req)) := do
  let w ← create
  let (os, w) ← runHistory (fun x w op => Wrapper.step C.logged x w op) h w.withLog
  return (os, w.core.2)

/-- A history on a fresh object - chacha20/src/chacha.rs:16-22, legacy.rs:14, xchacha.rs:34-38, salsa20/src/lib.rs:30-38, xsalsa.rs:21-25. -/
def SeekCipher.record (u : Nat) (c : SeekCipher) (h : List (ChaCha.Env × SeekOp)) :
    Except Panic (List Obs × List (ChaCha.Env × List Req)) := (c.core u).record (c.create u) h

/-- The instructions that the vector backends of ChaCha execute for a log - chacha20/src/lib.rs:239-298. -/
def ChaCha.Isa.ofLog (dr : Nat) (V : ChaCha.Variant) (log : List (ChaCha.Env × List Req)) : List (List ChaCha.Isa.Intr) :=
  log.map fun e => ChaCha.Isa.executed e.1.build e.1.detected dr V e.2

end Verif
