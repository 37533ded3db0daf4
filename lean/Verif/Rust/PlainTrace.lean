import Verif.Rust.Ciphers
import Verif.Rust.WrapperTrace
/-!
# The ciphers without seeking of the text, recording what can be seen of them

The counterpart of `PlainText.create` and `PlainText.step`; the text is that with the records.
-/
namespace Verif.Rust

/-- What client code returned; it is called once - hc-256/src/lib.rs:117-119, rabbit/src/lib.rs:244-246, 286-288. -/
def blockReturned {n : Nat} {α σ : Type} : Unit × σ × BlockCallee n α → Tr (α × σ)
  | (_, s, .done a) => pure (a, s)
  | _ => liftM (Except.error Panic.assertion)

/-- `RabbitKeyOnlyCore`, recording; there is no counter, and no call that would ask for it - rabbit/src/lib.rs:235-247. -/
def Rabbit.seenKeyOnly (tgt : Target) : SeenCore 16 Unit where
  σ := RabbitKeyOnlyCore
  process _ f s := do blockReturned (← RabbitKeyOnlyCore.process_with_backend_tr tgt s (BlockCallee.ready f))
  remaining s := do return (← RabbitKeyOnlyCore.remaining_blocks_tr tgt s).map Usize.val
  ctrBits := 0
  getPos _ := pure 0
  setPos s _ := pure s

/-- `RabbitCore`, recording; there is no counter, and no call that would ask for it - rabbit/src/lib.rs:277-289. -/
def Rabbit.seenCore (tgt : Target) : SeenCore 16 Unit where
  σ := RabbitCore
  process _ f s := do blockReturned (← RabbitCore.process_with_backend_tr tgt s (BlockCallee.ready f))
  remaining s := do return (← RabbitCore.remaining_blocks_tr tgt s).map Usize.val
  ctrBits := 0
  getPos _ := pure 0
  setPos s _ := pure s

/-- `Hc256Core`, recording; there is no counter, and no call that would ask for it - hc-256/src/lib.rs:111-120. -/
def Hc256.seenCore (tgt : Target) : SeenCore 4 Unit where
  σ := Hc256Core
  process _ f s := do blockReturned (← Hc256Core.process_with_backend_tr tgt s (BlockCallee.ready f))
  remaining s := do return (← Hc256Core.remaining_blocks_tr tgt s).map Usize.val
  ctrBits := 0
  getPos _ := pure 0
  setPos s _ := pure s

namespace Rc4

/-- `try_apply_keystream` (in place) and `try_write_keystream`, recording - rc4/src/lib.rs:83-101. -/
def step_tr (tgt : Target) (c : Rc4) : Op → Tr (Obs × Rc4)
  | .apply data => do
    let r ← Rc4.check_remaining_tr tgt c (len tgt data)
    let _ ← Tr.branch r.isOk
    match r with
    | .error _ => return (.data (.error .streamCipherError) data, c)
    | .ok () =>
      let (_, c, buf) ← Rc4.unchecked_apply_keystream_inout_tr tgt c (data.map fun b => ⟨b, b⟩)
      return (.data (.ok ()) (buf.map InOut.get_out), c)
  | .write data => do
    let r ← Rc4.check_remaining_tr tgt c (len tgt data)
    let _ ← Tr.branch r.isOk
    match r with
    | .error _ => return (.data (.error .streamCipherError) data, c)
    | .ok () =>
      let (_, c, buf) ← Rc4.unchecked_write_keystream_tr tgt c data
      return (.data (.ok ()) buf, c)

/-- A history of calls, recording. -/
def run_tr (tgt : Target) : List (Unit × Op) → Rc4 → Tr (List Obs)
  | [], _ => pure []
  | (_, op) :: h, c => do
    let (o, c) ← step_tr tgt c op
    let os ← run_tr tgt h c
    return o :: os

/-- `new_from_slice(key)` with the `Result` unwrapped, recording - rc4/src/lib.rs:58-76. -/
def create_tr (tgt : Target) (key : List U8) : Tr Rc4 := do
  let r ← Rc4.new_from_slice_tr tgt key
  let _ ← Tr.branch r.isOk
  match r with
  | .ok s => return s
  | .error _ => liftM (Except.error Panic.unwrap)

end Rc4

/-- `new(key, iv)` and a history of calls, recording - hc-256/src/lib.rs:38, rabbit/src/lib.rs:45-47, rc4/src/lib.rs:20-24. -/
def PlainText.life (tgt : Target) (c : PlainText) (h : List (Unit × Op)) : Tr (List Obs) := match c with
  | .hc256 key iv => (Hc256.seenCore tgt).life (Hc256.Hc256Core.new_tr tgt key.toList iv.toList) (h.map fun e => (e.1, .io e.2))
  | .rabbitKeyOnly key => (Rabbit.seenKeyOnly tgt).life (Rabbit.RabbitKeyOnlyCore.new_tr tgt key.toList) (h.map fun e => (e.1, .io e.2))
  | .rabbit key iv => (Rabbit.seenCore tgt).life (do
      Rabbit.RabbitCore.inner_iv_init_tr tgt (← Rabbit.RabbitKeyOnlyCore.new_tr tgt key.toList) iv.toList) (h.map fun e => (e.1, .io e.2))
  | .rc4 key _ => do
    let c ← Rc4.create_tr tgt key
    Rc4.run_tr tgt h c

end Verif.Rust
