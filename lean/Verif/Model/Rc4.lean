import Verif.Model.Wrapper
/-!
# Model of `rc4`

Rust source: `/repo/rc4/src/lib.rs`.  Array indices are `u8`/`usize` below 256, so no access can be out of bounds: the table is
indexed by `BitVec.toNat` of a byte.  (The single conversion that could fail, `u8::try_from(i)` at
line 63, is modelled with its panic path.)
-/
namespace Verif.Rc4

/-- `Rc4` - rc4/src/lib.rs:20-24. -/
structure State where
  state : Vector U8 256
  i : U8
  j : U8
  deriving DecidableEq

/-- `state[k as usize]` - rc4/src/lib.rs:28, 32, 43. -/
def at_ (t : Vector U8 256) (k : U8) : U8 := t[k.toNat]'k.isLt

/-- `state.swap(a as usize, b as usize)` - rc4/src/lib.rs:39, 72. -/
def swap (t : Vector U8 256) (a b : U8) : Vector U8 256 :=
  let x := at_ t a
  let y := at_ t b
  (t.set a.toNat y a.isLt).set b.toNat x b.isLt

/-- `prga` - rc4/src/lib.rs:35-44. -/
def prga (s : State) : U8 × State :=
  let i := s.i + 1
  let j := s.j + at_ s.state i
  let t := swap s.state i j
  let index := at_ t i + at_ t j
  (at_ t index, ⟨t, i, j⟩)

/-- `u8::try_from(i).expect(..)` - rc4/src/lib.rs:63. -/
def tryU8 (i : Nat) : Except Panic U8 := if i < 256 then .ok (BitVec.ofNat 8 i) else .error .unwrap

/-- `array::from_fn(|i| u8::try_from(i).expect(..))` - rc4/src/lib.rs:63. -/
def identity : Except Panic (Vector U8 256) := Vector.ofFnM fun i : Fin 256 => tryU8 i.val

/-- Body of `for_each` - rc4/src/lib.rs:70-73.  `i` comes from `0..256usize`. -/
def ksaStep (s : Vector U8 256 × U8) (e : Fin 256 × U8) : Vector U8 256 × U8 :=
  let j := s.2 + s.1[e.1] + e.2
  (swap s.1 (BitVec.ofFin e.1) j, j)

/-- The first `n` items of `key.iter().cycle()`, for a key that is not empty - rc4/src/lib.rs:66. -/
def cycle (key : List U8) : Nat → List U8 → List U8
  | 0, _ => []
  | n + 1, [] => match key with
    | [] => []
    | k :: ks => k :: cycle key n ks
  | n + 1, k :: ks => k :: cycle key n ks

/-- `InvalidLength` - rc4/src/lib.rs:58-61. -/
inductive NewError where
  | invalidLength
  deriving DecidableEq

/-- `new_from_slice` - rc4/src/lib.rs:58-76 (`MIN_KEY_SIZE`, `MAX_KEY_SIZE`: lines 16-17). -/
def newFromSlice (key : List U8) : Except Panic (Except NewError State) := do
  if key.length < 1 ∨ key.length > 256 then return .error .invalidLength
  let state ← identity
  let pairs := (List.finRange 256).zip (cycle key 256 key)
  let (state, _) := pairs.foldl ksaStep (state, 0)
  return .ok ⟨state, 0, 0⟩

/-- `Rc4::new` for the fixed key size of 32 bytes - rc4/src/lib.rs:53-55. -/
def new (key : Vector U8 32) : Except Panic State := do
  match ← newFromSlice key.toList with
  | .ok s => return s
  | .error _ => .error .unwrap

/-- `unchecked_apply_keystream_inout` - rc4/src/lib.rs:90-95. -/
def applyKeystream : List U8 → State → List U8 × State
  | [], s => ([], s)
  | b :: bs, s =>
    let (k, s) := prga s
    let (out, s) := applyKeystream bs s
    ((k ^^^ b) :: out, s)

/-- `unchecked_write_keystream` - rc4/src/lib.rs:98-100. -/
def writeKeystream : List U8 → State → List U8 × State
  | [], s => ([], s)
  | _ :: bs, s =>
    let (k, s) := prga s
    let (out, s) := writeKeystream bs s
    (k :: out, s)

/-- `check_remaining` - rc4/src/lib.rs:85-87. -/
def checkRemaining (_ : State) (_ : Nat) : Except CipherError Unit := .ok ()

/-- One call of the `StreamCipher` API: the provided methods `try_apply_keystream` and `try_write_keystream` check first, then call the methods
above - rc4/src/lib.rs:83-101. -/
def step (_ : Unit) (s : State) : Op → Except Panic (Obs × State)
  | .apply data =>
    match checkRemaining s data.length with
    | .error e => .ok (.data (.error e) data, s)
    | .ok () => let (out, s) := applyKeystream data s; .ok (.data (.ok ()) out, s)
  | .write buf =>
    match checkRemaining s buf.length with
    | .error e => .ok (.data (.error e) buf, s)
    | .ok () => let (out, s) := writeKeystream buf s; .ok (.data (.ok ()) out, s)

end Verif.Rc4
