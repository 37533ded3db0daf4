import Verif.Rust.Ciphers
import Verif.Rust.WrapperTrace
import Verif.Proof.TraceDispatch
/-!
# The seekable ciphers of the text, recording what can be seen of them

The counterpart of `SeekText.core` and `SeekText.create`; the text is that with the records.
-/
namespace Verif.Rust

/-- What client code returned; it is called once - chacha20/src/lib.rs:239-298. -/
def returned {α σ : Type} : Unit × σ × Callee α → Tr (α × σ)
  | (_, s, .done a) => pure (a, s)
  | _ => liftM (Except.error Panic.assertion)

namespace ChaCha

variable (R V : Type) [Rounds R] [Variant V] (tgt : Target)

/-- `ChaChaCore<R, V>`, recording - chacha20/src/lib.rs:217-301. -/
def seenCore : SeenCore 64 Circumstances where
  σ := ChaChaCore R V
  process x f c := do returned (← processTr x.build x.detected tgt c (Callee.ready f))
  remaining c := do return (← ChaChaCore.remaining_blocks_tr tgt c).map Usize.val
  ctrBits := RInt.width (Variant.Counter V)
  getPos c := do return RInt.toNat (← ChaChaCore.get_block_pos_tr tgt c)
  setPos c n := do return (← ChaChaCore.set_block_pos_tr tgt c (RInt.ofNat n)).2

/-- `XChaChaCore<R>`, recording - chacha20/src/xchacha.rs:69-93. -/
def seenCoreX : SeenCore 64 Circumstances where
  σ := XChaChaCore R
  process x f c :=
    letI : Dispatcher := ⟨Process.dispatch x.build x.detected, processTr x.build x.detected⟩
    XChaChaCore.process_with_backend_tr tgt c (Callee.ready f) >>= returned
  remaining c := do return (← XChaChaCore.remaining_blocks_tr tgt c).map Usize.val
  ctrBits := 32
  getPos c := do return (← XChaChaCore.get_block_pos_tr tgt c).toNat
  setPos c n := do return (← XChaChaCore.set_block_pos_tr tgt c (BitVec.ofNat 32 n)).2

end ChaCha

namespace Salsa

variable (R : Type) [Unsigned R] (tgt : Target)

/-- `SalsaCore<R>`, recording - salsa20/src/lib.rs:114-144. -/
def seenCore : SeenCore 64 Circumstances where
  σ := SalsaCore R
  process _ f s := do returned (← SalsaCore.process_with_backend_tr tgt s (Callee.ready f))
  remaining s := do return (← SalsaCore.remaining_blocks_tr tgt s).map Usize.val
  ctrBits := 64
  getPos s := do return (← SalsaCore.get_block_pos_tr tgt s).toNat
  setPos s n := do return (← SalsaCore.set_block_pos_tr tgt s (BitVec.ofNat 64 n)).2

/-- `XSalsaCore<R>`, recording - salsa20/src/xsalsa.rs:52-76. -/
def seenCoreX : SeenCore 64 Circumstances where
  σ := XSalsaCore R
  process _ f s := do returned (← XSalsaCore.process_with_backend_tr tgt s (Callee.ready f))
  remaining s := do return (← XSalsaCore.remaining_blocks_tr tgt s).map Usize.val
  ctrBits := 64
  getPos s := do return (← XSalsaCore.get_block_pos_tr tgt s).toNat
  setPos s n := do return (← XSalsaCore.set_block_pos_tr tgt s (BitVec.ofNat 64 n)).2

end Salsa

namespace SeekText

/-- The core, recording. -/
def seen (tgt : Target) : SeekText → SeenCore 64 Circumstances
  | @chacha R _ _ _ => ChaCha.seenCore R ChaCha.Ietf tgt
  | .chachaLegacy _ _ => ChaCha.seenCore ChaCha.R20 ChaCha.Legacy tgt
  | @xchacha R _ _ _ => ChaCha.seenCoreX R tgt
  | @salsa R _ _ _ => Salsa.seenCore R tgt
  | @xsalsa R _ _ _ => Salsa.seenCoreX R tgt

/-- `new(key, nonce)`, recording. -/
def create_tr (tgt : Target) : (c : SeekText) → Tr (c.seen tgt).σ
  | @chacha R _ key nonce => ChaCha.ChaChaCore.new_tr (R := R) tgt key.toList nonce.toList
  | .chachaLegacy key nonce => ChaCha.ChaCha20LegacyCore.new_tr tgt key.toList nonce.toList
  | @xchacha R _ key nonce => ChaCha.XChaChaCore.new_tr (R := R) tgt key.toList nonce.toList
  | @salsa R _ key nonce => Salsa.SalsaCore.new_tr (R := R) tgt key.toList nonce.toList
  | @xsalsa R _ key nonce => Salsa.XSalsaCore.new_tr (R := R) tgt key.toList nonce.toList

/-- `new(key, nonce)` and a history of calls, recording. -/
def life (tgt : Target) (c : SeekText) (h : List (Circumstances × SeekOp)) : Tr (List Obs) := (c.seen tgt).life (c.create_tr tgt) h

end SeekText

end Verif.Rust
