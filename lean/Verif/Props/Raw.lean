import Verif.Props.Sample
import Verif.Proof.Raw
import Verif.Proof.ChaChaIndep
/-!
# The unsafe code of the SIMD backends (C49)
-/
namespace Verif
open ChaCha (Block State Variant)

/-! ## Objects for the examples -/

namespace Sample

/-- A client that asks for a tail of one block. -/
def oneTail : Closure 64 (List Block) := fun _ => .tail 1 .done

def state : State := Vector.ofFn fun i => BitVec.ofNat 32 (i.val * 0x01234567)

/-- How a run ends. -/
def ending {α : Type} (x : Except Raw.Fault α) : Option Raw.Fault :=
  match x with
  | .ok _ => none
  | .error f => some f

end Sample

/-- **C49**.  `process_with_backend` on memory does what it does on values, for every client and every previous contents of the
buffers: each load and store of the selected backend is inside the object its pointer was derived from, and every byte of the
destination gets its value. -/
theorem C49_process {α : Type} (dr : Nat) (V : Variant) (e : ChaCha.Env) (f : Closure 64 α) (s : State) :
    Raw.process dr V e f s = match ChaCha.process dr V e f s with
      | .ok r => .ok r
      | .error p => .error (.panic p) := by
  rw [Raw.process_eq]
  cases ChaCha.process dr V e f s <;> rfl

example : Sample.ending (Raw.process 10 .ietf Sample.avx2 Sample.oneTail Sample.state) = none := by decide +kernel

/-- **C49**, the refill of the random number generators, into any buffer of 64 words. -/
theorem C49_generate (dr : Nat) (V : Variant) (e : ChaCha.Env) (buffer : List U8) (h : buffer.length = 4 * 64) (s : State) :
    Raw.generate dr V e buffer s = .ok ((leBytes (ChaCha.generate dr V e s).1).toList, (ChaCha.generate dr V e s).2) :=
  Raw.generate_eq dr V e buffer h s

example : Sample.ending (Raw.generate 10 .legacy Sample.avx2 (List.replicate 256 0) Sample.state) = none := by decide +kernel

/-- **C49**, the point of it: no access out of bounds. -/
theorem C49_in_bounds (dr : Nat) (V : Variant) (e : ChaCha.Env) (s : State) :
    (∀ (α : Type) (f : Closure 64 α), Raw.process dr V e f s ≠ .error .outOfBounds) ∧
      ∀ buffer : List U8, buffer.length = 4 * 64 → Raw.generate dr V e buffer s ≠ .error .outOfBounds := by
  refine ⟨fun α f h => ?_, fun buffer hb h => ?_⟩
  · rw [C49_process] at h
    cases hp : ChaCha.process dr V e f s with
    | ok r => rw [hp] at h; cases h
    | error p => rw [hp] at h; cases h
  · rw [C49_generate dr V e buffer hb] at h
    cases h

/-- The model does notice accesses outside objects: a buffer one word too short. -/
example : Sample.ending (Raw.generate 10 .legacy Sample.avx2 (List.replicate 252 0) Sample.state) = some .outOfBounds := by decide +kernel
example : Sample.ending (Raw.Sse2.rngInner 10 .legacy (List.replicate 252 0) Sample.state) = some .outOfBounds := by decide +kernel
example : Sample.ending (Raw.Neon.rngInner 10 .legacy (List.replicate 252 0) Sample.state) = some .outOfBounds := by decide +kernel

/-- **C49**, no byte of the previous contents of a buffer survives or has an influence. -/
theorem C49_fresh {α : Type} (dr : Nat) (V : Variant) (b : ChaCha.Config.Build) (d : ChaCha.Config.Detected)
    (old old' : Nat → List Block) (h : ∀ n, (old n).length = n) (h' : ∀ n, (old' n).length = n) (f : Closure 64 α) (s : State) :
    Raw.process dr V ⟨b, d, old, h⟩ f s = Raw.process dr V ⟨b, d, old', h'⟩ f s := by
  rw [Raw.process_eq, Raw.process_eq, ChaCha.process_eq, ChaCha.process_eq]

/-- Buffers of zeros against buffers of ones. -/
example (b : ChaCha.Config.Build) (d : ChaCha.Config.Detected) :
    Raw.process 10 .ietf ⟨b, d, fun n => List.replicate n (Vector.replicate 64 0), fun _ => List.length_replicate⟩ Sample.oneTail Sample.state =
      Raw.process 10 .ietf ⟨b, d, fun n => List.replicate n (Vector.replicate 64 1), fun _ => List.length_replicate⟩ Sample.oneTail
        Sample.state := C49_fresh 10 .ietf b d _ _ _ _ _ _

end Verif
