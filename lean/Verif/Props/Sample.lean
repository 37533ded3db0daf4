import Verif.Spec.Ciphers
/-!
# Concrete objects for the examples beside the property theorems
-/
namespace Verif
open Spec

namespace Sample

/-- Bytes `a, a+1, …`. -/
def bytes (n a : Nat) : Vector U8 n := Vector.ofFn fun i => BitVec.ofNat 8 (a + i.val)

/-- An x86-64 build without flags on a CPU with AVX2. -/
def avx2 : ChaCha.Env where
  build := { backend := none, avx512Cfg := false, arch := .x86_64, target := { sse2 := true, avx := false, avx2 := false, avx512f := false, avx512vl := false, neon := false, sse41 := false }, rng := true }
  detected := ⟨false, true, true⟩
  old n := List.replicate n (Vector.replicate 64 0)
  old_length _ := List.length_replicate

/-- A build with the portable backend forced. -/
def soft : ChaCha.Env where
  build := { backend := some .soft, avx512Cfg := false, arch := .x86_64, target := { sse2 := true, avx := false, avx2 := false, avx512f := false, avx512vl := false, neon := false, sse41 := false }, rng := true }
  detected := ⟨false, true, true⟩
  old n := List.replicate n (Vector.replicate 64 0)
  old_length _ := List.length_replicate

example : ChaCha.Config.select avx2.build avx2.detected = .avx2 := by decide
example : ChaCha.Config.select soft.build soft.detected = .soft := by decide

def chacha20 : SeekCipher := .chacha 10 (bytes 32 0) (bytes 12 100)
def xsalsa20 : SeekCipher := .xsalsa .debug 10 (bytes 32 0) (bytes 24 100)
def rabbit : PlainCipher := .rabbit .debug (bytes 16 0) (bytes 8 100)

/-- Read 70 bytes, seek back into the first block. -/
def history : List (ChaCha.Env × SeekOp) :=
  [(avx2, .io (.write (List.replicate 70 0))), (soft, .seek 5)]

theorem history_allowed (c : SeekCipher) : ∀ e ∈ history, c.Allowed 64 e.2 := by
  intro e he
  simp only [history, List.mem_cons, List.not_mem_nil, or_false] at he
  have hb : 1 ≤ c.blocks := by
    cases c <;> first | exact (by decide : 1 ≤ 2 ^ 32 - 1) | exact (by decide : 1 ≤ 2 ^ 64 - 1)
  rcases he with rfl | rfl
  · show (List.replicate 70 (0 : U8)).length < 2 ^ 64
    rw [List.length_replicate]; omega
  · exact Or.inl (by omega)

end Sample

end Verif
