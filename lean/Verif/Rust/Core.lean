import Verif.Rust.Lang
import Verif.Model.Wrapper
/-!
# A core whose backend is translated Rust text
-/
namespace Verif.Rust

/-- One call of `gen_ks_block` on a block of `bs` zero bytes; a block of another length would not be an `Array<u8, BlockSize>` - hc-256/src/lib.rs:214-217,
rabbit/src/lib.rs:303-305. -/
def blockOf (bs : Nat) {σ : Type} (gen : σ → List U8 → Except Panic (Unit × σ × List U8)) (s : σ) : Except Panic (Vector U8 bs × σ) := do
  let (_, s, block) ← gen s (List.replicate bs 0)
  if h : block.length = bs then return (⟨block.toArray, by rw [List.size_toArray, h]⟩, s) else .error .assertion

theorem blockOf_ok {bs : Nat} {σ : Type} {gen : σ → List U8 → Except Panic (Unit × σ × List U8)} {s s' : σ} {v : Vector U8 bs}
    (h : gen s (List.replicate bs 0) = .ok ((), s', v.toList)) : blockOf bs gen s = .ok (v, s') := by
  rw [blockOf, h]
  show (if h : v.toList.length = bs then _ else _) = _
  rw [dif_pos (Vector.length_toList ..)]
  rfl

end Verif.Rust
