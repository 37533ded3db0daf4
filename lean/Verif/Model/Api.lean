import Verif.Spec.Ciphers
import Verif.Model.Rng
/-!
# The exported types and the constructors taking slices

`KeyIvInit::new_from_slices` and `KeyInit::new_from_slice` are provided methods of the `cipher` crate: they convert the slices to
arrays of the associated sizes, return `InvalidLength` if a conversion fails and call `new` otherwise.
-/
namespace Verif

/-- `R8::COUNT` - chacha20/src/lib.rs:62-64. -/
def ChaCha.R8 : Nat := 4
/-- `R12::COUNT` - chacha20/src/lib.rs:70-72. -/
def ChaCha.R12 : Nat := 6
/-- `R20::COUNT` - chacha20/src/lib.rs:78-80. -/
def ChaCha.R20 : Nat := 10

/-- The seekable cipher types - chacha20/src/lib.rs:22-34, salsa20/src/lib.rs:26-38. -/
inductive SeekType where
  | ChaCha8 | ChaCha12 | ChaCha20 | ChaCha20Legacy | XChaCha8 | XChaCha12 | XChaCha20
  | Salsa8 | Salsa12 | Salsa20 | XSalsa8 | XSalsa12 | XSalsa20

/-- `IvSize` - chacha20/src/chacha.rs:30-32, legacy.rs:23-25, xchacha.rs:48-50, salsa20/src/lib.rs:80-82, xsalsa.rs:34-36. -/
def SeekType.ivSize : SeekType → Nat
  | .ChaCha8 | .ChaCha12 | .ChaCha20 => 12
  | .ChaCha20Legacy => 8
  | .XChaCha8 | .XChaCha12 | .XChaCha20 => 24
  | .Salsa8 | .Salsa12 | .Salsa20 => 8
  | .XSalsa8 | .XSalsa12 | .XSalsa20 => 24

/-- `KeySize` - chacha20/src/chacha.rs:26-28, legacy.rs:19-21, xchacha.rs:44-46, salsa20/src/lib.rs:76-78, xsalsa.rs:30-32. -/
def SeekType.keySize (_ : SeekType) : Nat := 32

/-- The type aliases - chacha20/src/chacha.rs:16-22, legacy.rs:14-17, xchacha.rs:34-38, salsa20/src/lib.rs:30-38, xsalsa.rs:21-25. -/
def SeekType.new (m : Mode) : (t : SeekType) → Vector U8 t.keySize → Vector U8 t.ivSize → SeekCipher
  | .ChaCha8 => .chacha ChaCha.R8
  | .ChaCha12 => .chacha ChaCha.R12
  | .ChaCha20 => .chacha ChaCha.R20
  | .ChaCha20Legacy => .chachaLegacy ChaCha.R20
  | .XChaCha8 => .xchacha ChaCha.R8
  | .XChaCha12 => .xchacha ChaCha.R12
  | .XChaCha20 => .xchacha ChaCha.R20
  | .Salsa8 => .salsa m 4
  | .Salsa12 => .salsa m 6
  | .Salsa20 => .salsa m 10
  | .XSalsa8 => .xsalsa m 4
  | .XSalsa12 => .xsalsa m 6
  | .XSalsa20 => .xsalsa m 10

/-- `<&Array<u8, N>>::try_from(slice)` - conversion made by the crate `cipher` for the keys and nonces of chacha20/src/chacha.rs:9-13 and the
other cipher types. -/
def arrayFromSlice (n : Nat) (l : List U8) : Option (Vector U8 n) :=
  if h : l.length = n then some ⟨l.toArray, h⟩ else none

/-- `KeyIvInit::new_from_slices` - provided method of the trait implemented at chacha20/src/chacha.rs:33-38, legacy.rs:27-32, xchacha.rs:56-67,
salsa20/src/lib.rs:88-118, xsalsa.rs:42-50. -/
def SeekType.newFromSlices (u : Nat) (m : Mode) (t : SeekType) (key iv : List U8) :
    Except Panic (Except Unit ((c : SeekCipher) × c.Obj u)) :=
  match arrayFromSlice t.keySize key with
  | none => .ok (.error ())
  | some key =>
    match arrayFromSlice t.ivSize iv with
    | none => .ok (.error ())
    | some iv =>
      match (t.new m key iv).create u with
      | .ok w => .ok (.ok ⟨_, w⟩)
      | .error p => .error p

/-- The types without seeking, apart from `Rc4` (which has a constructor of its own, `Rc4.newFromSlice`) - hc-256/src/lib.rs:38,
rabbit/src/lib.rs:45-47. -/
inductive PlainType where
  | Hc256 | Rabbit | RabbitKeyOnly

/-- `KeySize` - hc-256/src/lib.rs:51-53, rabbit/src/lib.rs:219-221. -/
def PlainType.keySize : PlainType → Nat
  | .Hc256 => 32
  | .Rabbit => 16
  | .RabbitKeyOnly => 16

/-- `IvSize` - hc-256/src/lib.rs:55-57, rabbit/src/lib.rs:261-263.  `RabbitKeyOnly` takes no IV: 0 bytes. -/
def PlainType.ivSize : PlainType → Nat
  | .Hc256 => 32
  | .Rabbit => 8
  | .RabbitKeyOnly => 0

/-- `new` - hc-256/src/lib.rs:59-108, rabbit/src/lib.rs:223-229, 265-271. -/
def PlainType.new (m : Mode) : (t : PlainType) → Vector U8 t.keySize → Vector U8 t.ivSize → PlainCipher
  | .Hc256 => .hc256 m
  | .Rabbit => .rabbit m
  | .RabbitKeyOnly => fun key _ => .rabbitKeyOnly m key

/-- `KeyIvInit::new_from_slices`, and `KeyInit::new_from_slice` for `RabbitKeyOnly` (with `iv = []`) - hc-256/src/lib.rs:59-109,
rabbit/src/lib.rs:223-229, 265-271, rc4/src/lib.rs:58-76. -/
def PlainType.newFromSlices (u : Nat) (m : Mode) (t : PlainType) (key iv : List U8) :
    Except Panic (Except Unit ((c : PlainCipher) × c.Obj)) :=
  match arrayFromSlice t.keySize key with
  | none => .ok (.error ())
  | some key =>
    match arrayFromSlice t.ivSize iv with
    | none => .ok (.error ())
    | some iv =>
      match (t.new m key iv).create u with
      | .ok w => .ok (.ok ⟨_, w⟩)
      | .error p => .error p

/-- The generators - chacha20/src/rng.rs:342-344. -/
inductive RngType where
  | ChaCha8Rng | ChaCha12Rng | ChaCha20Rng

/-- Their round parameters - chacha20/src/rng.rs:342-344. -/
def RngType.doubleRounds : RngType → Nat
  | .ChaCha8Rng => ChaCha.R8
  | .ChaCha12Rng => ChaCha.R12
  | .ChaCha20Rng => ChaCha.R20

end Verif
