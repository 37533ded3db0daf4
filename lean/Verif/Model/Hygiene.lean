import Verif.Model.Rng
import Verif.Model.Salsa
import Verif.Model.Rabbit
import Verif.Model.Rc4
import Verif.Model.Hc256
/-!
# Model of `Drop` and `fmt::Debug`

`drop` maps an object to the contents of its memory after its destructor has run.  The Cargo feature `zeroize` is a parameter.
The methods `zeroize` of the crate `zeroize` (external) write zero to every element.
-/
namespace Verif

/-- `<[uN; L] as Zeroize>::zeroize` - crate `zeroize`; called at chacha20/src/lib.rs:309, salsa20/src/lib.rs:149, hc-256/src/lib.rs:194-195,
rabbit/src/lib.rs:208-209, rc4/src/lib.rs:111. -/
def zeroizeArray {w n : Nat} (v : Vector (BitVec w) n) : Vector (BitVec w) n := v.map fun _ => 0#w

/-- `<uN as Zeroize>::zeroize` - crate `zeroize`; called at hc-256/src/lib.rs:196, rabbit/src/lib.rs:210, rc4/src/lib.rs:112-113. -/
def zeroizeWord {w : Nat} (_ : BitVec w) : BitVec w := 0#w

namespace ChaCha

/-- `ChaChaCore` with both fields - chacha20/src/lib.rs:119-127. -/
structure CoreObj where
  state : State
  tokens : Config.Detected

/-- `Drop for ChaChaCore` - chacha20/src/lib.rs:306-311.  `XChaChaCore` (chacha20/src/xchacha.rs:41-42) is a newtype around it, so the
same destructor runs. -/
def CoreObj.drop (zeroize : Bool) (c : CoreObj) : CoreObj :=
  if zeroize then { c with state := zeroizeArray c.state } else c

/-- `Drop for BlockRng<ChaChaCore<..>>`: calls `Generator::drop` - chacha20/src/rng.rs:94-99 - on its buffer, then the fields are dropped.
`BlockRng` keeps its index in the slot of word 0 of the buffer, so that zeroising the buffer also makes the index zero. -/
def Rng.drop (zeroize : Bool) (r : Rng) : Rng :=
  if zeroize then ⟨zeroizeArray r.core, zeroizeArray r.results, 0⟩ else r

/-- `R::COUNT` for `R8`, `R12`, `R20` - chacha20/src/lib.rs:58-80. -/
inductive Rounds where
  | r8 | r12 | r20
  deriving DecidableEq, Repr

/-- `COUNT` - chacha20/src/lib.rs:63, 71, 79. -/
def Rounds.count : Rounds → Nat
  | .r8 => 4
  | .r12 => 6
  | .r20 => 10

/-- `fmt::Debug for ChaChaCore<R, V>` - chacha20/src/lib.rs:206-215. -/
def CoreObj.debug (R : Rounds) (V : Variant) (_ : CoreObj) : String :=
  "ChaChaCore<R: " ++ toString R.count ++ ", V: " ++ toString (V.ctrBytes * 8) ++ "-bit)> { ... }"

/-- `#[derive(Debug)] struct XChaChaCore(ChaChaCore<R, Ietf>)` - chacha20/src/xchacha.rs:41-42, in the form `{:?}`. -/
def CoreObj.debugX (R : Rounds) (c : CoreObj) : String := "XChaChaCore(" ++ c.debug R .ietf ++ ")"

/-- `stringify!($Rng)` - chacha20/src/rng.rs:342-344. -/
def Rng.typeName : Rounds → String
  | .r8 => "ChaCha8Rng"
  | .r12 => "ChaCha12Rng"
  | .r20 => "ChaCha20Rng"

/-- `fmt::Debug for $Rng` - chacha20/src/rng.rs:187-191. -/
def Rng.debug (R : Rounds) (_ : Rng) : String := Rng.typeName R ++ " { ... }"

end ChaCha

/-- `Drop for SalsaCore` - salsa20/src/lib.rs:146-151; `XSalsaCore` is a newtype around it. -/
def Salsa.drop (zeroize : Bool) (s : Salsa.State) : Salsa.State := if zeroize then zeroizeArray s else s

/-- `Drop for State` - rabbit/src/lib.rs:205-212; `RabbitKeyOnlyCore` and `RabbitCore` contain only a `State`. -/
def Rabbit.drop (zeroize : Bool) (s : Rabbit.State) : Rabbit.State :=
  if zeroize then ⟨zeroizeArray s.x, zeroizeArray s.c, zeroizeWord s.carry⟩ else s

/-- `Drop for Rc4` - rc4/src/lib.rs:106-116. -/
def Rc4.drop (zeroize : Bool) (s : Rc4.State) : Rc4.State :=
  if zeroize then ⟨zeroizeArray s.state, zeroizeWord s.i, zeroizeWord s.j⟩ else s

/-- `Drop for Hc256Core` - hc-256/src/lib.rs:191-198. -/
def Hc256.drop (zeroize : Bool) (s : Hc256.State) : Hc256.State :=
  if zeroize then ⟨zeroizeArray s.ptable, zeroizeArray s.qtable, zeroizeWord s.idx⟩ else s

/-- `fmt::Debug for Hc256Core` - hc-256/src/lib.rs:128-132. -/
def Hc256.debug (_ : Hc256.State) : String := "Hc256Core { ... }"

/-- `AlgorithmName::write_alg_name for Hc256Core` - hc-256/src/lib.rs:122-126.  (The only implementation of the trait in the
repository; it takes no `self`.) -/
def Hc256.algName : String := "Hc256"

end Verif
