import Verif.Rust.Mem
/-!
# Intrinsics

The intrinsics of `core::arch` that the ChaCha backends use, under their names, in terms of the registers of `Verif.Model.Simd`.  `U32` and `U64` stand
for the signed integers as well.  Immediate operands, written `f::<imm>(x)` or `f(x, imm)`, are the last arguments.
-/
namespace Verif.Rust

/-- `core::arch::x86_64`, `core::arch::aarch64`. -/
abbrev __m128i := M128
@[inherit_doc __m128i] abbrev __m256i := M256
@[inherit_doc __m128i] abbrev __m512i := M512
@[inherit_doc __m128i] abbrev uint32x4_t := M128

/-- SSE2 - chacha20/src/backends/sse2.rs:52-293. -/
def _mm_set_epi32 (e3 e2 e1 e0 : U32) : M128 := .setEpi32 e3 e2 e1 e0
@[inherit_doc _mm_set_epi32] def _mm_set_epi64x (e1 e0 : U64) : M128 := .setEpi64x e1 e0
@[inherit_doc _mm_set_epi32] def _mm_add_epi32 (a b : M128) : M128 := a.addEpi32 b
@[inherit_doc _mm_set_epi32] def _mm_add_epi64 (a b : M128) : M128 := a.addEpi64 b
@[inherit_doc _mm_set_epi32] def _mm_xor_si128 (a b : M128) : M128 := a.xor b
@[inherit_doc _mm_set_epi32] def _mm_slli_epi32 (a : M128) (imm : Nat) : M128 := a.slliEpi32 imm
@[inherit_doc _mm_set_epi32] def _mm_srli_epi32 (a : M128) (imm : Nat) : M128 := a.srliEpi32 imm
@[inherit_doc _mm_set_epi32] def _mm_shuffle_epi32 (a : M128) (imm : Nat) : M128 := a.shuffleEpi32 imm
@[inherit_doc _mm_set_epi32] def _mm_cvtsi128_si32 (a : M128) : U32 := a.x0
@[inherit_doc _mm_set_epi32] def _mm_extract_epi32 (a : M128) (imm : Nat) : U32 := a.lane imm

/-- AVX2 - chacha20/src/backends/avx2.rs:44-354. -/
def _mm256_broadcastsi128_si256 (a : M128) : M256 := .broadcast a
@[inherit_doc _mm256_broadcastsi128_si256] def _mm256_setzero_si256 : M256 := .setEpi64x 0 0 0 0
@[inherit_doc _mm256_broadcastsi128_si256] def _mm256_set_epi32 (e7 e6 e5 e4 e3 e2 e1 e0 : U32) : M256 := .setEpi32 e7 e6 e5 e4 e3 e2 e1 e0
@[inherit_doc _mm256_broadcastsi128_si256] def _mm256_set_epi64x (e3 e2 e1 e0 : U64) : M256 := .setEpi64x e3 e2 e1 e0
@[inherit_doc _mm256_broadcastsi128_si256] def _mm256_add_epi32 (a b : M256) : M256 := a.addEpi32 b
@[inherit_doc _mm256_broadcastsi128_si256] def _mm256_add_epi64 (a b : M256) : M256 := a.addEpi64 b
@[inherit_doc _mm256_broadcastsi128_si256] def _mm256_xor_si256 (a b : M256) : M256 := a.xor b
@[inherit_doc _mm256_broadcastsi128_si256] def _mm256_slli_epi32 (a : M256) (imm : Nat) : M256 := a.slliEpi32 imm
@[inherit_doc _mm256_broadcastsi128_si256] def _mm256_srli_epi32 (a : M256) (imm : Nat) : M256 := a.srliEpi32 imm
@[inherit_doc _mm256_broadcastsi128_si256] def _mm256_shuffle_epi32 (a : M256) (imm : Nat) : M256 := a.shuffleEpi32 imm
@[inherit_doc _mm256_broadcastsi128_si256] def _mm256_shuffle_epi8 (a b : M256) : M256 := a.shuffleEpi8 b
@[inherit_doc _mm256_broadcastsi128_si256] def _mm256_extract_epi32 (a : M256) (imm : Nat) : U32 := if imm % 8 < 4 then a.lo.lane imm else a.hi.lane imm

/-- NEON on little-endian AArch64 - chacha20/src/backends/neon.rs:30-363. -/
def vaddq_u32 (a b : M128) : M128 := a.addEpi32 b
@[inherit_doc vaddq_u32] def vaddq_u64 (a b : M128) : M128 := a.addEpi64 b
@[inherit_doc vaddq_u32] def veorq_u32 (a b : M128) : M128 := a.xor b
@[inherit_doc vaddq_u32] def vorrq_u32 (a b : M128) : M128 := a.or b
@[inherit_doc vaddq_u32] def vshlq_n_u32 (a : M128) (imm : Nat) : M128 := a.slliEpi32 imm
@[inherit_doc vaddq_u32] def vshrq_n_u32 (a : M128) (imm : Nat) : M128 := a.srliEpi32 imm
@[inherit_doc vaddq_u32] def vextq_u32 (a b : M128) (imm : Nat) : M128 := a.vextq b imm
@[inherit_doc vaddq_u32] def vqtbl1q_u8 (t i : M128) : M128 := t.vqtbl1q i
@[inherit_doc vaddq_u32] def vrev32q_u16 (a : M128) : M128 := a.vrev32q16
@[inherit_doc vaddq_u32] def vgetq_lane_u32 (a : M128) (imm : Nat) : U32 := a.lane imm
@[inherit_doc vaddq_u32] def vreinterpretq_u32_u64 (a : M128) : M128 := a
@[inherit_doc vaddq_u32] def vreinterpretq_u64_u32 (a : M128) : M128 := a
@[inherit_doc vaddq_u32] def vreinterpretq_u8_u32 (a : M128) : M128 := a
@[inherit_doc vaddq_u32] def vreinterpretq_u32_u8 (a : M128) : M128 := a
@[inherit_doc vaddq_u32] def vreinterpretq_u32_u16 (a : M128) : M128 := a
@[inherit_doc vaddq_u32] def vreinterpretq_u16_u32 (a : M128) : M128 := a

/-- AVX-512 - chacha20/src/backends/avx512.rs:40-625. -/
def _mm_rol_epi32 (a : M128) (imm : Nat) : M128 := a.rolEpi32 imm
@[inherit_doc _mm_rol_epi32] def _mm256_rol_epi32 (a : M256) (imm : Nat) : M256 := a.rolEpi32 imm
@[inherit_doc _mm_rol_epi32] def _mm256_broadcast_i32x4 (a : M128) : M256 := .broadcast a
@[inherit_doc _mm_rol_epi32] def _mm256_setr_epi64x (e0 e1 e2 e3 : U64) : M256 := .setEpi64x e3 e2 e1 e0
@[inherit_doc _mm_rol_epi32] def _mm256_permutex2var_epi64 (a i b : M256) : M256 := .permutex2var64 a (Vector.ofFn fun k : Fin 4 => (i.elem64 k.val).1.toNat) b
@[inherit_doc _mm_rol_epi32] def _mm512_setzero_si512 : M512 := .broadcast (.setEpi64x 0 0)
@[inherit_doc _mm_rol_epi32] def _mm512_broadcast_i32x4 (a : M128) : M512 := .broadcast a
@[inherit_doc _mm_rol_epi32] def _mm512_set_epi32 (e15 e14 e13 e12 e11 e10 e9 e8 e7 e6 e5 e4 e3 e2 e1 e0 : U32) : M512 :=
  ⟨.setEpi32 e3 e2 e1 e0, .setEpi32 e7 e6 e5 e4, .setEpi32 e11 e10 e9 e8, .setEpi32 e15 e14 e13 e12⟩
@[inherit_doc _mm_rol_epi32] def _mm512_set_epi64 (e7 e6 e5 e4 e3 e2 e1 e0 : U64) : M512 :=
  ⟨.setEpi64x e1 e0, .setEpi64x e3 e2, .setEpi64x e5 e4, .setEpi64x e7 e6⟩
@[inherit_doc _mm_rol_epi32] def _mm512_setr_epi64 (e0 e1 e2 e3 e4 e5 e6 e7 : U64) : M512 := _mm512_set_epi64 e7 e6 e5 e4 e3 e2 e1 e0
@[inherit_doc _mm_rol_epi32] def _mm512_add_epi32 (a b : M512) : M512 := a.addEpi32 b
@[inherit_doc _mm_rol_epi32] def _mm512_add_epi64 (a b : M512) : M512 := a.addEpi64 b
@[inherit_doc _mm_rol_epi32] def _mm512_xor_si512 (a b : M512) : M512 := a.xor b
@[inherit_doc _mm_rol_epi32] def _mm512_rol_epi32 (a : M512) (imm : Nat) : M512 := a.rolEpi32 imm
@[inherit_doc _mm_rol_epi32] def _mm512_shuffle_epi32 (a : M512) (imm : Nat) : M512 := a.shuffleEpi32 imm
@[inherit_doc _mm_rol_epi32] def _mm512_shuffle_i32x4 (a b : M512) (imm : Nat) : M512 := .shuffleI32x4 a b imm
@[inherit_doc _mm_rol_epi32] def _mm512_permutex2var_epi64 (a i b : M512) : M512 := .permutex2var64 a (Vector.ofFn fun k : Fin 8 => (i.elem64 k.val).1.toNat) b

end Verif.Rust
