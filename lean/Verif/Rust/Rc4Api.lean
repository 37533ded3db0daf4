import Verif.Rust.Src.Rc4
import Verif.Model.Wrapper
/-!
# Calls of the `StreamCipher` API on the text of `rc4`

The provided methods of the trait `cipher::StreamCipher` check first, then call the methods of the text.
-/
namespace Verif.Rust.Rc4

/-- `try_apply_keystream` (in place) and `try_write_keystream` - rc4/src/lib.rs:83-101. -/
def step (tgt : Target) (_ : Unit) (c : Rc4) : Op → Except Panic (Obs × Rc4)
  | .apply data => do
    match ← Rc4.check_remaining tgt c (len tgt data) with
    | .error _ => return (.data (.error .streamCipherError) data, c)
    | .ok () =>
      let (_, c, buf) ← Rc4.unchecked_apply_keystream_inout tgt c (data.map fun b => ⟨b, b⟩)
      return (.data (.ok ()) (buf.map InOut.get_out), c)
  | .write data => do
    match ← Rc4.check_remaining tgt c (len tgt data) with
    | .error _ => return (.data (.error .streamCipherError) data, c)
    | .ok () =>
      let (_, c, buf) ← Rc4.unchecked_write_keystream tgt c data
      return (.data (.ok ()) buf, c)

end Verif.Rust.Rc4
