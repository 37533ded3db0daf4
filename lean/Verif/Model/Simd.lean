import Verif.Basic
/-!
# SIMD registers and intrinsics

Semantics of the x86 (SSE2, SSSE3, AVX2, AVX-512) and AArch64 NEON intrinsics used by the ChaCha backends, after the vendor
manuals.  Lane 0 is the least significant lane; memory is little-endian.  A 128-bit register is four
32-bit lanes; wider registers are tuples of 128-bit lanes, and the operations used here act on each 128-bit lane
separately (except the AVX-512 permutes, which are given in terms of 64-bit or 128-bit elements).
-/
namespace Verif

/-- A 128-bit register (`__m128i`, `uint32x4_t`) as four 32-bit lanes. -/
@[ext] structure M128 where
  x0 : U32
  x1 : U32
  x2 : U32
  x3 : U32
  deriving DecidableEq, Repr

namespace M128

/-- 32-bit lane `i % 4` - register type of chacha20/src/backends/sse2.rs:59, neon.rs:25. -/
def lane (x : M128) (i : Nat) : U32 :=
  match i % 4 with
  | 0 => x.x0
  | 1 => x.x1
  | 2 => x.x2
  | _ => x.x3

/-- Lane-wise unary operation - register type of chacha20/src/backends/sse2.rs:59, neon.rs:25. -/
def map (f : U32 → U32) (x : M128) : M128 := ⟨f x.x0, f x.x1, f x.x2, f x.x3⟩

/-- Lane-wise binary operation - register type of chacha20/src/backends/sse2.rs:59, neon.rs:25. -/
def map2 (f : U32 → U32 → U32) (x y : M128) : M128 := ⟨f x.x0 y.x0, f x.x1 y.x1, f x.x2 y.x2, f x.x3 y.x3⟩

/-- `_mm_set_epi32(e3, e2, e1, e0)` - chacha20/src/backends/sse2.rs:80, 96, 161, avx512.rs:72. -/
def setEpi32 (e3 e2 e1 e0 : U32) : M128 := ⟨e0, e1, e2, e3⟩

/-- The two 64-bit lanes - register type of chacha20/src/backends/sse2.rs:59, neon.rs:25. -/
def q0 (x : M128) : U64 := (x.x1.setWidth 64 <<< 32) ||| x.x0.setWidth 64
@[inherit_doc q0] def q1 (x : M128) : U64 := (x.x3.setWidth 64 <<< 32) ||| x.x2.setWidth 64

/-- Register with the given 64-bit lanes - register type of chacha20/src/backends/sse2.rs:59, neon.rs:25. -/
def ofQ (q1 q0 : U64) : M128 :=
  ⟨q0.setWidth 32, (q0 >>> 32).setWidth 32, q1.setWidth 32, (q1 >>> 32).setWidth 32⟩

/-- `_mm_set_epi64x(e1, e0)` - chacha20/src/backends/sse2.rs:81, 97, 143, avx512.rs:75. -/
def setEpi64x (e1 e0 : U64) : M128 := ofQ e1 e0

/-- `_mm_add_epi32`, `vaddq_u32` - chacha20/src/backends/sse2.rs:80, 96, 161, avx512.rs:72, 570, 607, neon.rs:33, 125. -/
def addEpi32 (x y : M128) : M128 := map2 (· + ·) x y

/-- `_mm_add_epi64`, `vaddq_u64` - chacha20/src/backends/sse2.rs:81, 97, 143, avx512.rs:75, neon.rs:34. -/
def addEpi64 (x y : M128) : M128 := ofQ (x.q1 + y.q1) (x.q0 + y.q0)

/-- `_mm_xor_si128`, `veorq_u32` - chacha20/src/backends/sse2.rs:275, 276, 280, avx512.rs:608, 613, 618, neon.rs:323. -/
def xor (x y : M128) : M128 := map2 (· ^^^ ·) x y

/-- `vorrq_u32` - chacha20/src/backends/neon.rs:235. -/
def or (x y : M128) : M128 := map2 (· ||| ·) x y

/-- `_mm_slli_epi32`, `vshlq_n_u32` - chacha20/src/backends/sse2.rs:276, 281, 286, neon.rs:235. -/
def slliEpi32 (x : M128) (n : Nat) : M128 := map (· <<< n) x

/-- `_mm_srli_epi32`, `vshrq_n_u32` - chacha20/src/backends/sse2.rs:276, 281, 286, neon.rs:235. -/
def srliEpi32 (x : M128) (n : Nat) : M128 := map (· >>> n) x

/-- `_mm_shuffle_epi32`: result lane `i` is source lane `imm[2i+1:2i]` - chacha20/src/backends/sse2.rs:235, 236, 237, avx512.rs:588, 589, 590. -/
def shuffleEpi32 (x : M128) (imm : Nat) : M128 :=
  ⟨x.lane imm, x.lane (imm / 4), x.lane (imm / 16), x.lane (imm / 64)⟩

/-- Byte `i % 16` of the register - register type of chacha20/src/backends/sse2.rs:59, neon.rs:25. -/
def byte (x : M128) (i : Nat) : U8 := (x.lane (i % 16 / 4) >>> (8 * (i % 4))).setWidth 8

/-- Register from sixteen bytes - register type of chacha20/src/backends/sse2.rs:59, neon.rs:25. -/
def ofBytes (f : Nat → U8) : M128 :=
  ⟨le32 (f 0) (f 1) (f 2) (f 3), le32 (f 4) (f 5) (f 6) (f 7),
   le32 (f 8) (f 9) (f 10) (f 11), le32 (f 12) (f 13) (f 14) (f 15)⟩

/-- `_mm_shuffle_epi8` (`pshufb`): a mask byte with its top bit set gives 0, otherwise its low four
bits select a byte. -/
def shuffleEpi8 (x mask : M128) : M128 :=
  ofBytes fun i => let m := mask.byte i; if m.msb then 0 else x.byte (m.toNat % 16)

/-- `vqtbl1q_u8`: an index of 16 or more gives 0 - chacha20/src/backends/neon.rs:229. -/
def vqtbl1q (x mask : M128) : M128 :=
  ofBytes fun i => let m := mask.byte i; if m.toNat < 16 then x.byte m.toNat else 0

/-- `vrev32q_u16`: swap the 16-bit halves of every 32-bit lane - chacha20/src/backends/neon.rs:232. -/
def vrev32q16 (x : M128) : M128 :=
  map (fun w => ((w.setWidth 16).setWidth 32 <<< 16) ||| ((w >>> 16).setWidth 16).setWidth 32) x

/-- `_mm_rol_epi32` (AVX-512VL) - chacha20/src/backends/avx512.rs:609, 614, 619. -/
def rolEpi32 (x : M128) (n : Nat) : M128 := map (·.rotateLeft n) x

/-- The 64-bit element `i % 2`, as the pair of its low and high 32-bit halves - register type of chacha20/src/backends/sse2.rs:59, neon.rs:25. -/
def elem64 (x : M128) (i : Nat) : U32 × U32 := if i % 2 = 0 then (x.x0, x.x1) else (x.x2, x.x3)

/-- Register from two 64-bit elements - register type of chacha20/src/backends/sse2.rs:59, neon.rs:25. -/
def ofElem64 (a b : U32 × U32) : M128 := ⟨a.1, a.2, b.1, b.2⟩

/-- `vextq_u32(a, b, n)`: lanes `n .. n+3` of the concatenation of `a` (low) and `b` (high) - chacha20/src/backends/neon.rs:241. -/
def vextq (a b : M128) (n : Nat) : M128 :=
  let l (i : Nat) : U32 := if i < 4 then a.lane i else b.lane (i - 4)
  ⟨l n, l (n + 1), l (n + 2), l (n + 3)⟩

end M128

/-- A 256-bit register as two 128-bit lanes. -/
@[ext] structure M256 where
  lo : M128
  hi : M128
  deriving DecidableEq, Repr

namespace M256

/-- Lane by lane, two operands - register type of chacha20/src/backends/avx2.rs:115-116. -/
def map2 (f : M128 → M128 → M128) (x y : M256) : M256 := ⟨f x.lo y.lo, f x.hi y.hi⟩
/-- Lane by lane - register type of chacha20/src/backends/avx2.rs:115-116. -/
def map (f : M128 → M128) (x : M256) : M256 := ⟨f x.lo, f x.hi⟩

/-- `_mm256_broadcastsi128_si256` - chacha20/src/backends/avx2.rs:46, 47, 48. -/
def broadcast (x : M128) : M256 := ⟨x, x⟩

/-- `_mm256_set_epi32(e7, …, e0)` - chacha20/src/backends/avx2.rs:52, 60, 138, avx512.rs:222. -/
def setEpi32 (e7 e6 e5 e4 e3 e2 e1 e0 : U32) : M256 := ⟨.setEpi32 e3 e2 e1 e0, .setEpi32 e7 e6 e5 e4⟩

/-- `_mm256_set_epi64x(e3, e2, e1, e0)` - chacha20/src/backends/avx2.rs:53, 61, 96, avx512.rs:225. -/
def setEpi64x (e3 e2 e1 e0 : U64) : M256 := ⟨.setEpi64x e1 e0, .setEpi64x e3 e2⟩

/-- `_mm256_add_epi32` - chacha20/src/backends/avx2.rs:52, 60, 138, avx512.rs:222, 497, 538. -/
def addEpi32 : M256 → M256 → M256 := map2 .addEpi32
/-- `_mm256_add_epi64` - chacha20/src/backends/avx2.rs:53, 61, 96, avx512.rs:225. -/
def addEpi64 : M256 → M256 → M256 := map2 .addEpi64
/-- `_mm256_xor_si256` - chacha20/src/backends/avx2.rs:330, 337, 338, avx512.rs:539, 544, 549. -/
def xor : M256 → M256 → M256 := map2 .xor
/-- `_mm256_slli_epi32` - chacha20/src/backends/avx2.rs:338, 352. -/
def slliEpi32 (x : M256) (n : Nat) : M256 := x.map (·.slliEpi32 n)
/-- `_mm256_srli_epi32` - chacha20/src/backends/avx2.rs:338, 352. -/
def srliEpi32 (x : M256) (n : Nat) : M256 := x.map (·.srliEpi32 n)
/-- `_mm256_shuffle_epi32`: within each 128-bit lane - chacha20/src/backends/avx2.rs:277, 278, 279, avx512.rs:517, 518, 519. -/
def shuffleEpi32 (x : M256) (imm : Nat) : M256 := x.map (·.shuffleEpi32 imm)
/-- `_mm256_shuffle_epi8`: within each 128-bit lane - chacha20/src/backends/avx2.rs:331, 345. -/
def shuffleEpi8 : M256 → M256 → M256 := map2 .shuffleEpi8
/-- `_mm256_rol_epi32` (AVX-512VL) - chacha20/src/backends/avx512.rs:540, 545, 550. -/
def rolEpi32 (x : M256) (n : Nat) : M256 := x.map (·.rolEpi32 n)

/-- 64-bit element `i % 4` - register type of chacha20/src/backends/avx2.rs:115-116. -/
def elem64 (x : M256) (i : Nat) : U32 × U32 := if i % 4 < 2 then x.lo.elem64 i else x.hi.elem64 i

/-- `_mm256_permutex2var_epi64(a, idx, b)`: result element `i` is element `idx[i] mod 4` of `a`, or of `b` if bit 2 of `idx[i]` is set.  `idx` is
in `setr` order - chacha20/src/backends/avx512.rs:242, 247, 252. -/
def permutex2var64 (a : M256) (idx : Vector Nat 4) (b : M256) : M256 :=
  let e (i : Nat) : U32 × U32 := if i / 4 % 2 = 0 then a.elem64 i else b.elem64 i
  ⟨.ofElem64 (e idx[0]) (e idx[1]), .ofElem64 (e idx[2]) (e idx[3])⟩

end M256

/-- A 512-bit register as four 128-bit lanes. -/
@[ext] structure M512 where
  l0 : M128
  l1 : M128
  l2 : M128
  l3 : M128
  deriving DecidableEq, Repr

namespace M512

/-- Lane by lane, two operands - register type of chacha20/src/backends/avx512.rs:344-347. -/
def map2 (f : M128 → M128 → M128) (x y : M512) : M512 := ⟨f x.l0 y.l0, f x.l1 y.l1, f x.l2 y.l2, f x.l3 y.l3⟩
/-- Lane by lane - register type of chacha20/src/backends/avx512.rs:344-347. -/
def map (f : M128 → M128) (x : M512) : M512 := ⟨f x.l0, f x.l1, f x.l2, f x.l3⟩

/-- 128-bit lane `i % 4` - register type of chacha20/src/backends/avx512.rs:344-347. -/
def lane (x : M512) (i : Nat) : M128 :=
  match i % 4 with
  | 0 => x.l0
  | 1 => x.l1
  | 2 => x.l2
  | _ => x.l3

/-- `_mm512_broadcast_i32x4` - chacha20/src/backends/avx512.rs:90, 137. -/
def broadcast (x : M128) : M512 := ⟨x, x, x, x⟩

/-- `_mm512_set_epi32(0,0,0,e3, 0,0,0,e2, 0,0,0,e1, 0,0,0,e0)` - chacha20/src/backends/avx512.rs:96. -/
def setCtr32 (e3 e2 e1 e0 : U32) : M512 :=
  ⟨.setEpi32 0 0 0 e0, .setEpi32 0 0 0 e1, .setEpi32 0 0 0 e2, .setEpi32 0 0 0 e3⟩

/-- `_mm512_set_epi64(0,e3, 0,e2, 0,e1, 0,e0)` - chacha20/src/backends/avx512.rs:119. -/
def setCtr64 (e3 e2 e1 e0 : U64) : M512 :=
  ⟨.setEpi64x 0 e0, .setEpi64x 0 e1, .setEpi64x 0 e2, .setEpi64x 0 e3⟩

/-- `_mm512_add_epi32` - chacha20/src/backends/avx512.rs:94, 357, 359. -/
def addEpi32 : M512 → M512 → M512 := map2 .addEpi32
/-- `_mm512_add_epi64` - chacha20/src/backends/avx512.rs:117. -/
def addEpi64 : M512 → M512 → M512 := map2 .addEpi64
/-- `_mm512_xor_si512` - chacha20/src/backends/avx512.rs:454, 461, 468. -/
def xor : M512 → M512 → M512 := map2 .xor
/-- `_mm512_rol_epi32` - chacha20/src/backends/avx512.rs:455, 462, 469. -/
def rolEpi32 (x : M512) (n : Nat) : M512 := x.map (·.rolEpi32 n)
/-- `_mm512_shuffle_epi32`: within each 128-bit lane - chacha20/src/backends/avx512.rs:414, 415, 416. -/
def shuffleEpi32 (x : M512) (imm : Nat) : M512 := x.map (·.shuffleEpi32 imm)

/-- 64-bit element `i % 8` - register type of chacha20/src/backends/avx512.rs:344-347. -/
def elem64 (x : M512) (i : Nat) : U32 × U32 := (x.lane (i % 8 / 2)).elem64 i

/-- `_mm512_permutex2var_epi64(a, idx, b)`: result element `i` is element `idx[i] mod 8` of `a`, or of `b` if bit 3 of `idx[i]` is set.  `idx` is
in `setr` order - chacha20/src/backends/avx512.rs:172, 177, 183. -/
def permutex2var64 (a : M512) (idx : Vector Nat 8) (b : M512) : M512 :=
  let e (i : Nat) : U32 × U32 := if i / 8 % 2 = 0 then a.elem64 i else b.elem64 i
  ⟨.ofElem64 (e idx[0]) (e idx[1]), .ofElem64 (e idx[2]) (e idx[3]),
   .ofElem64 (e idx[4]) (e idx[5]), .ofElem64 (e idx[6]) (e idx[7])⟩

/-- `_mm512_shuffle_i32x4::<imm>(a, b)`: two 128-bit lanes of `a` followed by two of `b` - chacha20/src/backends/avx512.rs:195, 197, 199. -/
def shuffleI32x4 (a b : M512) (imm : Nat) : M512 :=
  ⟨a.lane imm, a.lane (imm / 4), b.lane (imm / 16), b.lane (imm / 64)⟩

end M512

/-- Four registers holding the rows `a b c d` of a ChaCha matrix (`[__m128i; 4]` and the like). -/
@[ext] structure Rows (α : Type) where
  a : α
  b : α
  c : α
  d : α

namespace Rows

/-- `_mm_loadu_si128` (or `vld1q_u32`) of the four rows of a 16-word state - chacha20/src/backends/sse2.rs:42, 43, 44, avx2.rs:46, 47, 48,
neon.rs:47, 48, 49. -/
def load (s : Vector U32 16) : Rows M128 :=
  ⟨⟨s[0], s[1], s[2], s[3]⟩, ⟨s[4], s[5], s[6], s[7]⟩, ⟨s[8], s[9], s[10], s[11]⟩, ⟨s[12], s[13], s[14], s[15]⟩⟩

/-- The sixteen words, in memory order, of four stored rows - chacha20/src/backends/sse2.rs:86-88. -/
def words (r : Rows M128) : Vector U32 16 :=
  #v[r.a.x0, r.a.x1, r.a.x2, r.a.x3, r.b.x0, r.b.x1, r.b.x2, r.b.x3,
     r.c.x0, r.c.x1, r.c.x2, r.c.x3, r.d.x0, r.d.x1, r.d.x2, r.d.x3]

/-- Four `_mm_storeu_si128` (`vst1q_u8`) of the rows into a 64-byte block - chacha20/src/backends/sse2.rs:87, 104, 148, avx2.rs:148, 173, 174,
neon.rs:213, 299. -/
def store (r : Rows M128) : Vector U8 64 := leBytes r.words

end Rows

end Verif
