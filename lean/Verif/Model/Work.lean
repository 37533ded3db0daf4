import Verif.Spec.Ciphers
/-!
# Counting the blocks that are generated

The wrapper of `Model/Wrapper` is run unchanged on a core that, besides doing its work, counts the keystream blocks that its backend
is made to generate.
-/
namespace Verif

/-- The same client, returning also the number of blocks it asked for from a backend with the given `ParBlocksSize` - crate `cipher`;
argument of `process_with_backend`, chacha20/src/lib.rs:239-242. -/
def Prog.metered {bs : Nat} {α : Type} (par : Nat) : Prog bs α → Prog bs (α × Nat)
  | .done a => .done (a, 0)
  | .block k => .block fun b => ((k b).metered par).map fun r => (r.1, 1 + r.2)
  | .par k => .par fun l => ((k l).metered par).map fun r => (r.1, par + r.2)
  | .tail n k => .tail n fun l => ((k l).metered par).map fun r => (r.1, n + r.2)

/-- A core with a meter - the cores of chacha20/src/lib.rs:233-299 and the other crates. -/
def Core.metered {bs : Nat} {χ : Type} (C : Core bs χ) : Core bs χ where
  σ := C.σ × Nat
  process x f s := do
    let (r, t) ← C.process x (fun par => (f par).metered par) s.1
    return (r.1, (t, s.2 + r.2))
  remaining s := C.remaining s.1

/-- A seekable core with a meter - the cores of chacha20/src/lib.rs:218-299 and the other crates. -/
def SeekCore.metered {bs : Nat} {χ : Type} (C : SeekCore bs χ) : SeekCore bs χ where
  toCore := C.toCore.metered
  ctrBits := C.ctrBits
  getPos s := C.getPos s.1
  setPos s n := (C.setPos s.1 n, s.2)

/-- The same object on the core with a meter, which is at zero - crate `cipher`, wrapper of chacha20/src/chacha.rs:16-22 and the other
cipher types. -/
def Wrapper.withMeter {bs : Nat} {σ : Type} (w : Wrapper bs σ) : Wrapper bs (σ × Nat) := ⟨(w.core, 0), w.buf, w.pos⟩

/-- Run a history on an object just made: observations and number of blocks generated - crate `cipher`, wrapper of
chacha20/src/chacha.rs:16-22 and the other cipher types. -/
def SeekCore.meter {bs : Nat} {χ : Type} (C : SeekCore bs χ) (create : Except Panic (Wrapper bs C.σ)) (h : List (χ × SeekOp)) :
    Except Panic (List Obs × Nat) := do
  let w ← create
  let (os, w) ← runHistory (fun x w op => Wrapper.seekStep C.metered x w op) h w.withMeter
  return (os, w.core.2)

/-- The same without seeking - crate `cipher`, wrapper of hc-256/src/lib.rs:38, rabbit/src/lib.rs:45-47. -/
def Core.meter {bs : Nat} {χ : Type} (C : Core bs χ) (create : Except Panic (Wrapper bs C.σ)) (h : List (χ × Op)) :
    Except Panic (List Obs × Nat) := do
  let w ← create
  let (os, w) ← runHistory (fun x w op => Wrapper.step C.metered x w op) h w.withMeter
  return (os, w.core.2)

end Verif
