import Verif.Model.Config
import Verif.Model.Salsa
import Verif.Model.Hc256
import Verif.Model.Rabbit
import Verif.Model.Rc4
import Verif.Spec.Cursor
import Verif.Spec.ChaCha
import Verif.Spec.Salsa
import Verif.Spec.Hc256
import Verif.Spec.Rabbit
import Verif.Spec.Rc4
/-!
# All cipher types of the repository

`SeekCipher` and `PlainCipher` enumerate the public byte-level cipher types with their keys and nonces, and pair each with its
published keystream, so that the properties common to all of them are single theorems.  `u` is the width of `usize`.
-/
namespace Verif
open Spec

/-- A seekable cipher with its parameters: `ChaCha8/12/20`, `ChaCha20Legacy`, `XChaCha8/12/20`, `Salsa8/12/20`, `XSalsa8/12/20`
(`dr` double rounds; `m` is the overflow mode of the build, relevant only for Salsa's `+`). -/
inductive SeekCipher where
  | chacha (dr : Nat) (key : Vector U8 32) (nonce : Vector U8 12)
  | chachaLegacy (dr : Nat) (key : Vector U8 32) (nonce : Vector U8 8)
  | xchacha (dr : Nat) (key : Vector U8 32) (nonce : Vector U8 24)
  | salsa (m : Mode) (dr : Nat) (key : Vector U8 32) (nonce : Vector U8 8)
  | xsalsa (m : Mode) (dr : Nat) (key : Vector U8 32) (nonce : Vector U8 24)

namespace SeekCipher

/-- The core type in the wrapper. -/
def core (u : Nat) : SeekCipher → SeekCore 64 ChaCha.Env
  | .chacha dr _ _ => ChaCha.core u dr .ietf
  | .chachaLegacy dr _ _ => ChaCha.core u dr .legacy
  | .xchacha dr _ _ => ChaCha.core u dr .ietf
  | .salsa m dr _ _ => Salsa.core ChaCha.Env u m dr
  | .xsalsa m dr _ _ => Salsa.core ChaCha.Env u m dr

/-- The object. -/
abbrev Obj (u : Nat) (c : SeekCipher) : Type := Wrapper 64 (c.core u).σ

/-- `new(key, nonce)`. -/
def create (u : Nat) : (c : SeekCipher) → Except Panic (c.Obj u)
  | .chacha _ key nonce => ChaCha.cipherIetf key nonce
  | .chachaLegacy _ key nonce => ChaCha.cipherLegacy key nonce
  | .xchacha dr key nonce => ChaCha.cipherX dr key nonce
  | .salsa _ _ key nonce => .ok (Salsa.cipher key nonce)
  | .xsalsa _ dr key nonce => .ok (Salsa.cipherX dr key nonce)

/-- One call. -/
def step (u : Nat) (c : SeekCipher) (x : ChaCha.Env) (w : c.Obj u) (op : SeekOp) : Except Panic (Obs × c.Obj u) :=
  Wrapper.seekStep (c.core u) x w op

/-- The published keystream. -/
def block : SeekCipher → Nat → Vector U8 64
  | .chacha dr key nonce => Spec.ChaCha.ietfBlock dr key nonce
  | .chachaLegacy dr key nonce => Spec.ChaCha.djbBlock dr key nonce
  | .xchacha dr key nonce => Spec.ChaCha.xBlock dr key nonce
  | .salsa _ dr key nonce => Spec.Salsa.block dr key nonce
  | .xsalsa _ dr key nonce => Spec.Salsa.xBlock dr key nonce

/-- Width of the block counter. -/
def ctrBits : SeekCipher → Nat
  | .chacha .. => 32
  | .chachaLegacy .. => 64
  | .xchacha .. => 32
  | .salsa .. => 64
  | .xsalsa .. => 64

/-- Number of blocks that may be used. -/
def blocks (c : SeekCipher) : Nat := 2 ^ c.ctrBits - 1

/-- Keystream bytes. -/
def stream (c : SeekCipher) : Nat → U8 := byteStream c.block (by decide)

/-- Calls allowed: buffers fit `usize`, seeks are inside the stream or beyond its last block. -/
abbrev Allowed (u : Nat) (c : SeekCipher) : SeekOp → Prop := FitsSeek u 64 c.blocks

/-- `h` is a history of allowed calls on a fresh object; it showed the caller `os` and left the object `w`. -/
structure Reach (u : Nat) (c : SeekCipher) (h : List (ChaCha.Env × SeekOp)) (os : List Obs) (w : c.Obj u) : Prop where
  allowed : ∀ e ∈ h, c.Allowed u e.2
  run : ∃ w₀, c.create u = .ok w₀ ∧ runHistory (c.step u) h w₀ = .ok (os, w)

/-- Position of the object according to the caller's books. -/
def booked (h : List (ChaCha.Env × SeekOp)) (os : List Obs) : Nat := trackAll 0 (h.map (·.2)) os

/-- Matrix that the block function is applied to for block `n`. -/
def input : SeekCipher → Nat → Vector (Vector U32 4) 4
  | .chacha _ key nonce => Spec.ChaCha.ietfInput key nonce
  | .chachaLegacy _ key nonce => Spec.ChaCha.djbInput key nonce
  | .xchacha dr key nonce => Spec.ChaCha.ietfInput (Spec.ChaCha.xSubkey dr key nonce) (Spec.ChaCha.xNonce nonce)
  | .salsa _ _ key nonce => Spec.Salsa.input key nonce
  | .xsalsa _ dr key nonce => Spec.Salsa.input (Spec.Salsa.hsalsa dr key (Vector.ofFn fun i : Fin 16 => nonce[i.val]))
      (Vector.ofFn fun i : Fin 8 => nonce[16 + i.val])

/-- The block function. -/
def blockFn : SeekCipher → Vector (Vector U32 4) 4 → Vector U8 64
  | .chacha dr _ _ => fun m => Spec.ChaCha.serialize (Spec.ChaCha.core dr m)
  | .chachaLegacy dr _ _ => fun m => Spec.ChaCha.serialize (Spec.ChaCha.core dr m)
  | .xchacha dr _ _ => fun m => Spec.ChaCha.serialize (Spec.ChaCha.core dr m)
  | .salsa _ dr _ _ => fun m => Spec.Salsa.serialize (Spec.Salsa.hash dr m)
  | .xsalsa _ dr _ _ => fun m => Spec.Salsa.serialize (Spec.Salsa.hash dr m)

end SeekCipher

/-! ## All ciphers -/

/-- A cipher without seeking. -/
inductive PlainCipher where
  | hc256 (m : Mode) (key iv : Vector U8 32)
  | rabbitKeyOnly (m : Mode) (key : Vector U8 16)
  | rabbit (m : Mode) (key : Vector U8 16) (iv : Vector U8 8)
  | rc4 (key : List U8) (hkey : 1 ≤ key.length ∧ key.length ≤ 256)

namespace PlainCipher

def Obj : PlainCipher → Type
  | .hc256 .. => Wrapper 4 Hc256.State
  | .rabbitKeyOnly .. => Wrapper 16 Rabbit.State
  | .rabbit .. => Wrapper 16 Rabbit.State
  | .rc4 .. => Rc4.State

/-- `new(key, iv)`; for RC4 `new_from_slice(key)` with the `Result` unwrapped. -/
def create (u : Nat) : (c : PlainCipher) → Except Panic c.Obj
  | .hc256 m key iv => Hc256.cipher m u key iv
  | .rabbitKeyOnly m key => Rabbit.cipherKeyOnly m key
  | .rabbit m key iv => Rabbit.cipher m key iv
  | .rc4 key _ => do
    match ← Rc4.newFromSlice key with
    | .ok s => return s
    | .error _ => .error .unwrap

def step (u : Nat) : (c : PlainCipher) → Unit → c.Obj → Op → Except Panic (Obs × c.Obj)
  | .hc256 m _ _, x, w, op => Wrapper.step (Hc256.core m u) x w op
  | .rabbitKeyOnly m _, x, w, op => Wrapper.step (Rabbit.core m) x w op
  | .rabbit m _ _, x, w, op => Wrapper.step (Rabbit.core m) x w op
  | .rc4 _ _, x, w, op => Rc4.step x w op

/-- The published keystream. -/
def stream : PlainCipher → Nat → U8
  | .hc256 _ key iv => byteStream (Spec.Hc256.block key iv) (by decide)
  | .rabbitKeyOnly _ key => byteStream (Spec.Rabbit.block (Spec.Rabbit.keySetup key)) (by decide)
  | .rabbit _ key iv => byteStream (Spec.Rabbit.block (Spec.Rabbit.ivSetup iv (Spec.Rabbit.keySetup key))) (by decide)
  | .rc4 key _ => Spec.Rc4.stream key

/-- `h` is a history of calls on a fresh object; it showed the caller `os` and left the object `w`. -/
structure Reach (u : Nat) (c : PlainCipher) (h : List (Unit × Op)) (os : List Obs) (w : c.Obj) : Prop where
  allowed : ∀ e ∈ h, FitsUsize u e.2
  run : ∃ w₀, c.create u = .ok w₀ ∧ runHistory (c.step u) h w₀ = .ok (os, w)

/-- Position of the object according to the caller's books. -/
def booked (h : List (Unit × Op)) (os : List Obs) : Nat := trackAll 0 (h.map fun e => .io e.2) os

end PlainCipher

end Verif
