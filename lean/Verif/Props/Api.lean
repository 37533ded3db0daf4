import Verif.Model.Api
import Verif.Props.Rng
/-!
# The exported types (C55)
-/
namespace Verif
open Spec

/-- What the documentation promises for each type: rounds as in the name, 256-bit keys, the nonce size, the counter width, the stream.
One double round is two rounds. -/
structure Promise (nonceBytes : Nat) where
  ctrBits : Nat
  block : Vector U8 32 → Vector U8 nonceBytes → Nat → Vector U8 64

/-- The promised nonce sizes: 96 bits for ChaCha, 64 for Salsa and the legacy construction, 192 for the X variants. -/
def SeekType.nonceBytes : SeekType → Nat
  | .ChaCha8 => 96 / 8
  | .ChaCha12 => 96 / 8
  | .ChaCha20 => 96 / 8
  | .ChaCha20Legacy => 64 / 8
  | .XChaCha8 => 192 / 8
  | .XChaCha12 => 192 / 8
  | .XChaCha20 => 192 / 8
  | .Salsa8 => 64 / 8
  | .Salsa12 => 64 / 8
  | .Salsa20 => 64 / 8
  | .XSalsa8 => 192 / 8
  | .XSalsa12 => 192 / 8
  | .XSalsa20 => 192 / 8

def SeekType.promise : (t : SeekType) → Promise t.nonceBytes
  | .ChaCha8 => ⟨32, Spec.ChaCha.ietfBlock (8 / 2)⟩
  | .ChaCha12 => ⟨32, Spec.ChaCha.ietfBlock (12 / 2)⟩
  | .ChaCha20 => ⟨32, Spec.ChaCha.ietfBlock (20 / 2)⟩
  | .ChaCha20Legacy => ⟨64, Spec.ChaCha.djbBlock (20 / 2)⟩
  | .XChaCha8 => ⟨32, Spec.ChaCha.xBlock (8 / 2)⟩
  | .XChaCha12 => ⟨32, Spec.ChaCha.xBlock (12 / 2)⟩
  | .XChaCha20 => ⟨32, Spec.ChaCha.xBlock (20 / 2)⟩
  | .Salsa8 => ⟨64, Spec.Salsa.block (8 / 2)⟩
  | .Salsa12 => ⟨64, Spec.Salsa.block (12 / 2)⟩
  | .Salsa20 => ⟨64, Spec.Salsa.block (20 / 2)⟩
  | .XSalsa8 => ⟨64, Spec.Salsa.xBlock (8 / 2)⟩
  | .XSalsa12 => ⟨64, Spec.Salsa.xBlock (12 / 2)⟩
  | .XSalsa20 => ⟨64, Spec.Salsa.xBlock (20 / 2)⟩

theorem arrayFromSlice_toList {n : Nat} (v : Vector U8 n) : arrayFromSlice n v.toList = some v := by
  unfold arrayFromSlice
  rw [dif_pos (Vector.length_toList)]
  rfl

theorem arrayFromSlice_none {n : Nat} {l : List U8} (h : l.length ≠ n) : arrayFromSlice n l = none := by
  unfold arrayFromSlice
  rw [dif_neg h]

/-- **C55**, seekable types.  Construction from slices never panics; it fails exactly when a length is wrong; otherwise the object is a
cursor over the keystream that the name of its type promises, with the promised limit. -/
theorem C55_seekable (u : Nat) (m : Mode) (t : SeekType) :
    (∀ key iv : List U8, ¬(key.length = 32 ∧ iv.length = t.nonceBytes) → t.newFromSlices u m key iv = .ok (.error ())) ∧
    ∀ (key : Vector U8 32) (nonce : Vector U8 t.nonceBytes), ∃ c w, t.newFromSlices u m key.toList nonce.toList = .ok (.ok ⟨c, w⟩) ∧
      Simulates (c.step u) (FitsSeek u 64 (2 ^ t.promise.ctrBits - 1))
        (Cursor.step 64 (byteStream (t.promise.block key nonce) (by decide)) (some (64 * (2 ^ t.promise.ctrBits - 1)))) w 0 := by
  constructor
  · intro key iv h
    unfold SeekType.newFromSlices
    by_cases hk : key.length = 32
    · have hi : iv.length ≠ t.ivSize := by
        intro e
        exact h ⟨hk, by rw [e]; cases t <;> rfl⟩
      rw [arrayFromSlice_none hi]
      cases arrayFromSlice t.keySize key <;> rfl
    · rw [arrayFromSlice_none (n := t.keySize) hk]
  · have run : ∀ (t : SeekType) (key : Vector U8 t.keySize) (iv : Vector U8 t.ivSize),
        ∃ w, t.newFromSlices u m key.toList iv.toList = .ok (.ok ⟨t.new m key iv, w⟩) ∧
          Simulates ((t.new m key iv).step u) (FitsSeek u 64 (t.new m key iv).blocks)
            (Cursor.step 64 (t.new m key iv).stream (some (64 * (t.new m key iv).blocks))) w 0 := by
      intro t key iv
      obtain ⟨w, hc, hs⟩ := (t.new m key iv).isSeekStream u
      refine ⟨w, ?_, hs⟩
      unfold SeekType.newFromSlices
      rw [arrayFromSlice_toList, arrayFromSlice_toList]
      simp only [hc]
    intro key nonce
    cases t with
    | ChaCha8 => exact ⟨_, run .ChaCha8 key nonce⟩
    | ChaCha12 => exact ⟨_, run .ChaCha12 key nonce⟩
    | ChaCha20 => exact ⟨_, run .ChaCha20 key nonce⟩
    | ChaCha20Legacy => exact ⟨_, run .ChaCha20Legacy key nonce⟩
    | XChaCha8 => exact ⟨_, run .XChaCha8 key nonce⟩
    | XChaCha12 => exact ⟨_, run .XChaCha12 key nonce⟩
    | XChaCha20 => exact ⟨_, run .XChaCha20 key nonce⟩
    | Salsa8 => exact ⟨_, run .Salsa8 key nonce⟩
    | Salsa12 => exact ⟨_, run .Salsa12 key nonce⟩
    | Salsa20 => exact ⟨_, run .Salsa20 key nonce⟩
    | XSalsa8 => exact ⟨_, run .XSalsa8 key nonce⟩
    | XSalsa12 => exact ⟨_, run .XSalsa12 key nonce⟩
    | XSalsa20 => exact ⟨_, run .XSalsa20 key nonce⟩

/-- A 31-byte key is refused, a 32-byte key accepted. -/
example : SeekType.newFromSlices 64 .debug .XSalsa12 (List.replicate 31 0) (List.replicate 24 0) = .ok (.error ()) ∧
    ∃ o, SeekType.newFromSlices 64 .debug .XSalsa12 (Sample.bytes 32 0).toList (Sample.bytes 24 0).toList = .ok (.ok o) := by
  refine ⟨(C55_seekable 64 .debug .XSalsa12).1 _ _ (by decide), ?_⟩
  obtain ⟨c, w, h, -⟩ := (C55_seekable 64 .debug .XSalsa12).2 (Sample.bytes 32 0) (Sample.bytes 24 0)
  exact ⟨_, h⟩

/-- The promised parameters of the types without seeking. -/
def PlainType.promise : (t : PlainType) → Vector U8 t.keySize → Vector U8 t.ivSize → Nat → U8
  | .Hc256 => fun key iv => byteStream (Spec.Hc256.block key iv) (by decide)
  | .Rabbit => fun key iv => byteStream (Spec.Rabbit.block (Spec.Rabbit.ivSetup iv (Spec.Rabbit.keySetup key))) (by decide)
  | .RabbitKeyOnly => fun key _ => byteStream (Spec.Rabbit.block (Spec.Rabbit.keySetup key)) (by decide)

/-- **C55**, types without seeking. -/
theorem C55_plain (u : Nat) (hu : 16 ≤ u) (m : Mode) (t : PlainType) :
    (t.keySize, t.ivSize) = (match t with | .Hc256 => (256 / 8, 256 / 8) | .Rabbit => (128 / 8, 64 / 8) | .RabbitKeyOnly => (128 / 8, 0)) ∧
    (∀ key iv : List U8, ¬(key.length = t.keySize ∧ iv.length = t.ivSize) → t.newFromSlices u m key iv = .ok (.error ())) ∧
    ∀ (key : Vector U8 t.keySize) (iv : Vector U8 t.ivSize), ∃ c w, t.newFromSlices u m key.toList iv.toList = .ok (.ok ⟨c, w⟩) ∧
      Simulates (c.step u) (FitsUsize u) (Cursor.io (t.promise key iv) none) w 0 := by
  refine ⟨by cases t <;> rfl, ?_, ?_⟩
  · intro key iv h
    unfold PlainType.newFromSlices
    by_cases hk : key.length = t.keySize
    · rw [arrayFromSlice_none (fun e => h ⟨hk, e⟩)]
      cases arrayFromSlice t.keySize key <;> rfl
    · rw [arrayFromSlice_none hk]
  · intro key iv
    obtain ⟨w, hc, hs⟩ := (t.new m key iv).isStream u hu
    refine ⟨t.new m key iv, w, ?_, ?_⟩
    · unfold PlainType.newFromSlices
      rw [arrayFromSlice_toList, arrayFromSlice_toList]
      simp only [hc]
    · have : (t.new m key iv).stream = t.promise key iv := by cases t <;> rfl
      rw [this] at hs
      exact hs

/-- Rabbit with a 7-byte IV is refused; HC-256 with 32 and 32 bytes is made. -/
example : PlainType.newFromSlices 64 .debug .Rabbit (List.replicate 16 0) (List.replicate 7 0) = .ok (.error ()) ∧
    ∃ o, PlainType.newFromSlices 64 .debug .Hc256 (Sample.bytes 32 0).toList (Sample.bytes 32 7).toList = .ok (.ok o) := by
  refine ⟨(C55_plain 64 (by decide) .debug .Rabbit).2.1 _ _ (by simp [PlainType.ivSize]), ?_⟩
  obtain ⟨c, w, h, _⟩ := (C55_plain 64 (by decide) .debug .Hc256).2.2 (Sample.bytes 32 0) (Sample.bytes 32 7)
  exact ⟨_, h⟩

/-- Rounds promised by the names of the generators. -/
def RngType.rounds : RngType → Nat
  | .ChaCha8Rng => 8
  | .ChaCha12Rng => 12
  | .ChaCha20Rng => 20

/-- **C55**, generators.  Whatever is called on a generator, the caller sees words of ChaCha with the number of rounds in the name. -/
theorem C55_rng (m : Mode) (t : RngType) (seed : Vector U8 32) (h : List (ChaCha.Env × Spec.Rng.RngOp)) (os : List Spec.Rng.RngObs) (r : ChaCha.Rng)
    (hr : ChaCha.Rng.Reach m t.doubleRounds seed h os r) :
    os = (Spec.Rng.run (t.rounds / 2) (h.map (·.2)) (Spec.Rng.init seed)).1 := by
  have e : t.doubleRounds = t.rounds / 2 := by cases t <;> rfl
  rw [e] at hr
  exact (C18_cursor m _ seed h).1 os r hr

example : ∃ os r, ChaCha.Rng.Reach .debug RngType.ChaCha12Rng.doubleRounds (Sample.bytes 32 0) Sample.rngHistory os r :=
  Sample.rng_exists .debug _ _

end Verif
