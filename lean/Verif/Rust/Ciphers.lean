import Verif.Proof.SrcChaChaDispatch
import Verif.Rust.SalsaApi
import Verif.Rust.RabbitApi
import Verif.Rust.Hc256Api
import Verif.Rust.Rc4Api
/-!
# All cipher types of the repository, made of its text

The counterparts of `SeekCipher` and `PlainCipher`.  The build and what the processor reports may be others at every call.
-/
namespace Verif.Rust
open Verif.ChaCha (Config.Build Config.Detected)

/-- How a call of `chacha20` is compiled and run - chacha20/src/lib.rs:84-116. -/
structure Circumstances where
  build : Config.Build
  detected : Config.Detected

namespace ChaCha

variable (R V : Type) [Rounds R] [Variant V] (tgt : Target)

/-- `ChaChaCore<R, V>`, with the text of the dispatcher - chacha20/src/lib.rs:217-301. -/
def coreOf : SeekCore 64 Circumstances where
  σ := ChaChaCore R V
  process x f c := (Process.dispatch x.build x.detected).call R V tgt f c
  remaining := (core R V tgt).remaining
  ctrBits := (core R V tgt).ctrBits
  getPos := (core R V tgt).getPos
  setPos := (core R V tgt).setPos

/-- `XChaChaCore<R>`, with the text of the dispatcher - chacha20/src/xchacha.rs:69-93. -/
def coreXOf : SeekCore 64 Circumstances where
  σ := XChaChaCore R
  process x f c := do
    let (a, c) ← (Process.dispatch x.build x.detected).call R Ietf tgt f c.f0
    return (a, ⟨c⟩)
  remaining := (coreX R tgt).remaining
  ctrBits := (coreX R tgt).ctrBits
  getPos := (coreX R tgt).getPos
  setPos := (coreX R tgt).setPos

end ChaCha

/-- A seekable cipher of the text with its parameters - chacha20/src/chacha.rs:16-22, legacy.rs:14, xchacha.rs:34-38, salsa20/src/lib.rs:30-38, xsalsa.rs:21-25. -/
inductive SeekText : Type 1 where
  | chacha (R : Type) [ChaCha.Rounds R] (key : Vector U8 32) (nonce : Vector U8 12)
  | chachaLegacy (key : Vector U8 32) (nonce : Vector U8 8)
  | xchacha (R : Type) [ChaCha.Rounds R] (key : Vector U8 32) (nonce : Vector U8 24)
  | salsa (R : Type) [Unsigned R] (key : Vector U8 32) (nonce : Vector U8 8)
  | xsalsa (R : Type) [Unsigned R] (key : Vector U8 32) (nonce : Vector U8 24)

namespace SeekText

/-- The core. -/
def core (tgt : Target) : SeekText → SeekCore 64 Circumstances
  | @chacha R _ _ _ => ChaCha.coreOf R ChaCha.Ietf tgt
  | .chachaLegacy _ _ => ChaCha.coreOf ChaCha.R20 ChaCha.Legacy tgt
  | @xchacha R _ _ _ => ChaCha.coreXOf R tgt
  | @salsa R _ _ _ => { Salsa.core R tgt with process := fun _ f s => (Salsa.core R tgt).process () f s }
  | @xsalsa R _ _ _ => { Salsa.coreX R tgt with process := fun _ f s => (Salsa.coreX R tgt).process () f s }

/-- `new(key, nonce)`. -/
def create (tgt : Target) : (c : SeekText) → Except Panic (c.core tgt).σ
  | @chacha R _ key nonce => ChaCha.ChaChaCore.new (R := R) tgt key.toList nonce.toList
  | .chachaLegacy key nonce => ChaCha.ChaCha20LegacyCore.new tgt key.toList nonce.toList
  | @xchacha R _ key nonce => ChaCha.XChaChaCore.new (R := R) tgt key.toList nonce.toList
  | @salsa R _ key nonce => Salsa.SalsaCore.new (R := R) tgt key.toList nonce.toList
  | @xsalsa R _ key nonce => Salsa.XSalsaCore.new (R := R) tgt key.toList nonce.toList

end SeekText

/-- A cipher of the text without seeking - hc-256/src/lib.rs:38, rabbit/src/lib.rs:45-47, rc4/src/lib.rs:20-24. -/
inductive PlainText where
  | hc256 (key iv : Vector U8 32)
  | rabbitKeyOnly (key : Vector U8 16)
  | rabbit (key : Vector U8 16) (iv : Vector U8 8)
  | rc4 (key : List U8) (hkey : 1 ≤ key.length ∧ key.length ≤ 256)

namespace PlainText

def Obj : PlainText → Type
  | .hc256 .. => Wrapper 4 Hc256.Hc256Core
  | .rabbitKeyOnly .. => Wrapper 16 Rabbit.RabbitKeyOnlyCore
  | .rabbit .. => Wrapper 16 Rabbit.RabbitCore
  | .rc4 .. => Rc4.Rc4

/-- `new(key, iv)`; for RC4 `new_from_slice(key)` with the `Result` unwrapped. -/
def create (tgt : Target) : (c : PlainText) → Except Panic c.Obj
  | .hc256 key iv => do
    return Wrapper.fromCore (← Hc256.Hc256Core.new tgt key.toList iv.toList)
  | .rabbitKeyOnly key => do
    return Wrapper.fromCore (← Rabbit.RabbitKeyOnlyCore.new tgt key.toList)
  | .rabbit key iv => do
    return Wrapper.fromCore (← Rabbit.RabbitCore.inner_iv_init tgt (← Rabbit.RabbitKeyOnlyCore.new tgt key.toList) iv.toList)
  | .rc4 key _ => do
    match ← Rc4.Rc4.new_from_slice tgt key with
    | .ok s => return s
    | .error _ => .error .unwrap

def step (tgt : Target) : (c : PlainText) → Unit → c.Obj → Op → Except Panic (Obs × c.Obj)
  | .hc256 .., x, w, op => Wrapper.step (Hc256.core tgt) x w op
  | .rabbitKeyOnly .., x, w, op => Wrapper.step (Rabbit.keyOnlyCore tgt) x w op
  | .rabbit .., x, w, op => Wrapper.step (Rabbit.core tgt) x w op
  | .rc4 .., x, w, op => Rc4.step tgt x w op

end PlainText

end Verif.Rust
