import Verif.Model.Config
/-!
# CPU features of the instructions each `chacha20` backend executes

The vector backends are built from intrinsics, one instruction (or a short fixed sequence) each.  This module lists, for each
backend function, the intrinsics it evaluates in order, and for each intrinsic the CPU feature its instruction belongs to.
Scalar code between them belongs to the base instruction set and is left out.
-/
namespace Verif.ChaCha.Isa
open Config

/-- CPU features the intrinsics belong to - chacha20/src/backends/sse2.rs:31, avx2.rs:35, avx512.rs:30, neon.rs:72. -/
inductive Feature where
  | sse2 | sse41 | avx | avx2 | avx512f | avx512vl | neon
  deriving DecidableEq, Repr

/-- Does the feature set contain a feature? - chacha20/src/lib.rs:88, 93, 98, 289. -/
def has (c : Features) : Feature → Bool
  | .sse2 => c.sse2
  | .sse41 => c.sse41
  | .avx => c.avx
  | .avx2 => c.avx2
  | .avx512f => c.avx512f
  | .avx512vl => c.avx512vl
  | .neon => c.neon

/-- Intrinsics used in chacha20/src/backends/{sse2,avx2,avx512,neon}.rs. -/
inductive Intr where
  -- `core::arch::x86_64`, 128 bits
  | mm_loadu_si128 | mm_storeu_si128 | mm_add_epi32 | mm_add_epi64 | mm_set_epi32 | mm_set_epi64x
  | mm_shuffle_epi32 | mm_slli_epi32 | mm_srli_epi32 | mm_xor_si128 | mm_cvtsi128_si32 | mm_extract_epi32
  | mm_loadu_epi32 | mm_storeu_epi32 | mm_rol_epi32
  -- 256 bits
  | mm256_set_epi32 | mm256_set_epi64x | mm256_setr_epi64x | mm256_setzero_si256 | mm256_extract_epi32
  | mm256_broadcastsi128_si256 | mm256_add_epi32 | mm256_add_epi64 | mm256_shuffle_epi32 | mm256_shuffle_epi8
  | mm256_slli_epi32 | mm256_srli_epi32 | mm256_xor_si256
  | mm256_broadcast_i32x4 | mm256_permutex2var_epi64 | mm256_rol_epi32 | mm256_storeu_epi32
  -- 512 bits
  | mm512_add_epi32 | mm512_add_epi64 | mm512_broadcast_i32x4 | mm512_permutex2var_epi64 | mm512_rol_epi32
  | mm512_set_epi32 | mm512_set_epi64 | mm512_setr_epi64 | mm512_setzero_si512 | mm512_shuffle_epi32
  | mm512_shuffle_i32x4 | mm512_storeu_si512 | mm512_xor_si512
  -- `core::arch::aarch64`
  | vld1q_u32 | vld1q_u8 | vaddq_u32 | vaddq_u64 | veorq_u32 | vorrq_u32 | vshlq_n_u32 | vshrq_n_u32 | vextq_u32
  | vrev32q_u16 | vqtbl1q_u8 | vst1q_u8 | vst1q_u64 | vgetq_lane_u32
  deriving DecidableEq, Repr

/-- The CPU features of each intrinsic (Intel Intrinsics Guide, Arm Intrinsics Reference; the same features stand in `#[target_feature(enable =
…)]` on the intrinsic in Rust's `core::arch`) - for the calls in chacha20/src/backends/sse2.rs:33-293, avx2.rs:38-354, avx512.rs:32-625,
neon.rs:31-364. -/
def Intr.needs : Intr → List Feature
  | .mm_loadu_si128 | .mm_storeu_si128 | .mm_add_epi32 | .mm_add_epi64 | .mm_set_epi32 | .mm_set_epi64x
  | .mm_shuffle_epi32 | .mm_slli_epi32 | .mm_srli_epi32 | .mm_xor_si128 | .mm_cvtsi128_si32 => [.sse2]
  | .mm_extract_epi32 => [.sse41]
  | .mm_loadu_epi32 | .mm_storeu_epi32 | .mm_rol_epi32 => [.avx512f, .avx512vl]
  | .mm256_set_epi32 | .mm256_set_epi64x | .mm256_setr_epi64x | .mm256_setzero_si256 | .mm256_extract_epi32 => [.avx]
  | .mm256_broadcastsi128_si256 | .mm256_add_epi32 | .mm256_add_epi64 | .mm256_shuffle_epi32 | .mm256_shuffle_epi8
  | .mm256_slli_epi32 | .mm256_srli_epi32 | .mm256_xor_si256 => [.avx2]
  | .mm256_broadcast_i32x4 | .mm256_permutex2var_epi64 | .mm256_rol_epi32 | .mm256_storeu_epi32 => [.avx512f, .avx512vl]
  | .mm512_add_epi32 | .mm512_add_epi64 | .mm512_broadcast_i32x4 | .mm512_permutex2var_epi64 | .mm512_rol_epi32
  | .mm512_set_epi32 | .mm512_set_epi64 | .mm512_setr_epi64 | .mm512_setzero_si512 | .mm512_shuffle_epi32
  | .mm512_shuffle_i32x4 | .mm512_storeu_si512 | .mm512_xor_si512 => [.avx512f]
  | .vld1q_u32 | .vld1q_u8 | .vaddq_u32 | .vaddq_u64 | .veorq_u32 | .vorrq_u32 | .vshlq_n_u32 | .vshrq_n_u32 | .vextq_u32
  | .vrev32q_u16 | .vqtbl1q_u8 | .vst1q_u8 | .vst1q_u64 | .vgetq_lane_u32 => [.neon]

/-- One request of a keystream closure to a backend (`StreamCipherBackend`) - crate `cipher`; implemented at chacha20/src/backends/soft.rs:31-46
and by the other backends. -/
inductive Req where
  | block
  | par
  | tail (n : Nat)
  deriving DecidableEq, Repr

/-- `n` repetitions of a loop body - loops of chacha20/src/backends/sse2.rs:86-88, 167-169. -/
def times (n : Nat) (l : List Intr) : List Intr := (List.replicate n l).flatten

/-- The provided `gen_tail_blocks`: `n` single blocks (`cipher` crate) - for chacha20/src/backends/sse2.rs:74-109, avx2.rs:131-180,
neon.rs:130-222. -/
def defaultTail (blk : List Intr) (n : Nat) : List Intr := times n blk

namespace Sse2

/-- `match size_of::<V::Counter>()` adding to the counter row - chacha20/src/backends/sse2.rs:79-83, 95-99, 160-164, 175-179. -/
def addCtr : Variant → List Intr
  | .ietf => [.mm_set_epi32, .mm_add_epi32]
  | .legacy => [.mm_set_epi64x, .mm_add_epi64]

/-- `add_xor_rot` on one block - chacha20/src/backends/sse2.rs:271-293. -/
def addXorRot : List Intr := times 4 [.mm_add_epi32, .mm_xor_si128, .mm_slli_epi32, .mm_srli_epi32, .mm_xor_si128]

/-- `double_quarter_round` on four blocks - chacha20/src/backends/sse2.rs:188-193. -/
def doubleQuarterRound : List Intr :=
  times 4 addXorRot ++ times 12 [.mm_shuffle_epi32] ++ times 4 addXorRot ++ times 12 [.mm_shuffle_epi32]

/-- `rounds` - chacha20/src/backends/sse2.rs:157-184. -/
def rounds (dr : Nat) (V : Variant) : List Intr :=
  times 3 (addCtr V) ++ times dr doubleQuarterRound ++ times 4 (times 3 [.mm_add_epi32] ++ addCtr V ++ [.mm_add_epi32])

/-- `gen_ks_block` - chacha20/src/backends/sse2.rs:76-90. -/
def block (dr : Nat) (V : Variant) : List Intr := rounds dr V ++ addCtr V ++ times 4 [.mm_storeu_si128]

/-- `gen_par_ks_blocks` - chacha20/src/backends/sse2.rs:92-108. -/
def par (dr : Nat) (V : Variant) : List Intr := rounds dr V ++ addCtr V ++ times 16 [.mm_storeu_si128]

/-- A request - chacha20/src/backends/sse2.rs:74-109. -/
def req (dr : Nat) (V : Variant) : Req → List Intr
  | .block => block dr V
  | .par => par dr V
  | .tail n => defaultTail (block dr V) n

/-- `inner`: load, run the closure, store the counter - chacha20/src/backends/sse2.rs:33-56. -/
def inner (dr : Nat) (V : Variant) (rs : List Req) : List Intr :=
  times 4 [.mm_loadu_si128] ++ rs.flatMap (req dr V) ++ [.mm_cvtsi128_si32] ++
    (if V.ctrBytes = 8 then [.mm_extract_epi32] else [])

/-- `rng_inner` - chacha20/src/backends/sse2.rs:114-134, 139-153. -/
def rngInner (dr : Nat) (V : Variant) : List Intr :=
  times 4 [.mm_loadu_si128] ++ rounds dr V ++ [.mm_set_epi64x, .mm_add_epi64] ++ times 16 [.mm_storeu_si128] ++
    [.mm_cvtsi128_si32, .mm_extract_epi32]

end Sse2

namespace Avx2

/-- Adding to a counter register - chacha20/src/backends/avx2.rs:51-63, 137-142, 160-167. -/
def addCtr : Variant → List Intr
  | .ietf => [.mm256_set_epi32, .mm256_add_epi32]
  | .legacy => [.mm256_set_epi64x, .mm256_add_epi64]

/-- `add_xor_rot` - chacha20/src/backends/avx2.rs:313-354. -/
def addXorRot : List Intr :=
  let rotBytes := times 2 [.mm256_add_epi32, .mm256_xor_si256, .mm256_shuffle_epi8]
  let rotShift := times 2 [.mm256_add_epi32, .mm256_xor_si256, .mm256_slli_epi32, .mm256_srli_epi32, .mm256_xor_si256]
  [.mm256_set_epi64x, .mm256_set_epi64x] ++ rotBytes ++ rotShift ++ rotBytes ++ rotShift

/-- `double_quarter_round` - chacha20/src/backends/avx2.rs:230-235. -/
def doubleQuarterRound : List Intr :=
  addXorRot ++ times 6 [.mm256_shuffle_epi32] ++ addXorRot ++ times 6 [.mm256_shuffle_epi32]

/-- `rounds` - chacha20/src/backends/avx2.rs:209-226. -/
def rounds (dr : Nat) : List Intr :=
  [.mm256_setzero_si256] ++ times dr doubleQuarterRound ++ times 8 [.mm256_add_epi32]

/-- `gen_ks_block` - chacha20/src/backends/avx2.rs:133-151. -/
def block (dr : Nat) (V : Variant) : List Intr := rounds dr ++ times 2 (addCtr V) ++ times 4 [.mm_storeu_si128]

/-- `gen_par_ks_blocks` - chacha20/src/backends/avx2.rs:154-179. -/
def par (dr : Nat) (V : Variant) : List Intr := rounds dr ++ times 2 (addCtr V) ++ times 16 [.mm_storeu_si128]

/-- A request - chacha20/src/backends/avx2.rs:131-180. -/
def req (dr : Nat) (V : Variant) : Req → List Intr
  | .block => block dr V
  | .par => par dr V
  | .tail n => defaultTail (block dr V) n

/-- `inner` - chacha20/src/backends/avx2.rs:38-79. -/
def inner (dr : Nat) (V : Variant) (rs : List Req) : List Intr :=
  times 4 [.mm_loadu_si128, .mm256_broadcastsi128_si256] ++ times 3 (addCtr V) ++ rs.flatMap (req dr V) ++
    [.mm256_extract_epi32] ++ (if V.ctrBytes = 8 then [.mm256_extract_epi32] else [])

/-- `rng_inner` - chacha20/src/backends/avx2.rs:84-112, 185-204. -/
def rngInner (dr : Nat) : List Intr :=
  times 4 [.mm_loadu_si128, .mm256_broadcastsi128_si256] ++ times 3 [.mm256_set_epi64x, .mm256_add_epi64] ++
    rounds dr ++ times 2 [.mm256_set_epi64x, .mm256_add_epi64] ++ times 16 [.mm_storeu_si128] ++
    times 2 [.mm256_extract_epi32]

end Avx2

namespace Avx512

/-- `increment_ctr` - chacha20/src/backends/avx512.rs:69-79. -/
def incrementCtr : Variant → List Intr
  | .ietf => [.mm_set_epi32, .mm_add_epi32]
  | .legacy => [.mm_set_epi64x, .mm_add_epi64]

/-- `double_quarter_round::<N>` - chacha20/src/backends/avx512.rs:367-483. -/
def doubleQuarterRound (N : Nat) : List Intr :=
  let addXorRot := times 4 (times N [.mm512_add_epi32, .mm512_xor_si512, .mm512_rol_epi32])
  addXorRot ++ times N (times 3 [.mm512_shuffle_epi32]) ++ addXorRot ++ times N (times 3 [.mm512_shuffle_epi32])

/-- `rounds::<N, R>` - chacha20/src/backends/avx512.rs:343-364. -/
def rounds (dr N : Nat) : List Intr :=
  [.mm512_setzero_si512] ++ times dr (doubleQuarterRound N) ++ times N (times 4 [.mm512_add_epi32])

/-- `gen_blocks_fullwidth::<N>` for `n` blocks - chacha20/src/backends/avx512.rs:86-209. -/
def fullwidth (dr N : Nat) (V : Variant) (n : Nat) : List Intr :=
  [.mm512_broadcast_i32x4] ++
    times N (match V with | .ietf => [.mm512_set_epi32, .mm512_add_epi32] | .legacy => [.mm512_set_epi64, .mm512_add_epi64]) ++
    incrementCtr V ++ times 3 [.mm512_broadcast_i32x4] ++ rounds dr N ++
    times N (times 4 [.mm512_setr_epi64, .mm512_permutex2var_epi64] ++ times 4 [.mm512_shuffle_i32x4]) ++
    times n [.mm512_storeu_si512]

/-- `rounds_halfwide` - chacha20/src/backends/avx512.rs:489-555. -/
def roundsHalfwide (dr : Nat) : List Intr :=
  let addXorRot := times 4 [.mm256_add_epi32, .mm256_xor_si256, .mm256_rol_epi32]
  times dr (addXorRot ++ times 3 [.mm256_shuffle_epi32] ++ addXorRot ++ times 3 [.mm256_shuffle_epi32]) ++
    times 4 [.mm256_add_epi32]

/-- `gen_blocks_halfwidth` for `n` blocks - chacha20/src/backends/avx512.rs:215-276. -/
def halfwidth (dr : Nat) (V : Variant) (n : Nat) : List Intr :=
  [.mm256_broadcast_i32x4] ++
    (match V with | .ietf => [.mm256_set_epi32, .mm256_add_epi32] | .legacy => [.mm256_set_epi64x, .mm256_add_epi64]) ++
    incrementCtr V ++ times 3 [.mm256_broadcast_i32x4] ++ roundsHalfwide dr ++
    times 4 [.mm256_setr_epi64x, .mm256_permutex2var_epi64] ++ times n [.mm256_storeu_epi32, .mm256_storeu_epi32]

/-- `rounds_quarterwide` - chacha20/src/backends/avx512.rs:562-626. -/
def roundsQuarterwide (dr : Nat) : List Intr :=
  let addXorRot := times 4 [.mm_add_epi32, .mm_xor_si128, .mm_rol_epi32]
  times dr (addXorRot ++ times 3 [.mm_shuffle_epi32] ++ addXorRot ++ times 3 [.mm_shuffle_epi32]) ++
    times 4 [.mm_add_epi32]

/-- `gen_ks_block` - chacha20/src/backends/avx512.rs:297-314. -/
def block (dr : Nat) (V : Variant) : List Intr :=
  incrementCtr V ++ roundsQuarterwide dr ++ times 4 [.mm_storeu_epi32]

/-- `gen_tail_blocks` - chacha20/src/backends/avx512.rs:316-339. -/
def tail (dr : Nat) (V : Variant) (n : Nat) : List Intr :=
  if n = 0 then []
  else if n = 1 then block dr V
  else if n = 2 then halfwidth dr V n
  else if n ≤ 4 then fullwidth dr 1 V n
  else if n ≤ 8 then fullwidth dr 2 V n
  else fullwidth dr 4 V n

/-- A request - chacha20/src/backends/avx512.rs:292-339. -/
def req (dr : Nat) (V : Variant) : Req → List Intr
  | .block => block dr V
  | .par => fullwidth dr 4 V 16
  | .tail n => tail dr V n

/-- `inner` - chacha20/src/backends/avx512.rs:32-57. -/
def inner (dr : Nat) (V : Variant) (rs : List Req) : List Intr :=
  times 4 [.mm_loadu_epi32] ++ rs.flatMap (req dr V) ++ [.mm_extract_epi32] ++
    (if V.ctrBytes = 8 then [.mm_extract_epi32] else [])

end Avx512

namespace Neon

/-- `add_counter!` (the `vreinterpretq`s emit nothing) - chacha20/src/backends/neon.rs:30-41. -/
def addCounter : Variant → List Intr
  | .ietf => [.vaddq_u32]
  | .legacy => [.vaddq_u64]

/-- `Backend::new` - chacha20/src/backends/neon.rs:45-67. -/
def new : List Intr := times 12 [.vld1q_u32]

/-- `add_xor_rot` on one block - chacha20/src/backends/neon.rs:319-346. -/
def addXorRot : List Intr :=
  [.vaddq_u32, .veorq_u32, .vrev32q_u16, .vaddq_u32, .veorq_u32, .vshlq_n_u32, .vshrq_n_u32, .vorrq_u32,
   .vaddq_u32, .veorq_u32, .vld1q_u8, .vqtbl1q_u8, .vaddq_u32, .veorq_u32, .vshlq_n_u32, .vshrq_n_u32, .vorrq_u32]

/-- `double_quarter_round::<N>` - chacha20/src/backends/neon.rs:311-364. -/
def doubleQuarterRound (N : Nat) : List Intr :=
  times N addXorRot ++ times N (times 3 [.vextq_u32]) ++ times N addXorRot ++ times N (times 3 [.vextq_u32])

/-- Generating `N` blocks: `gen_par_ks_blocks` (`N = 8`) and `write_par_ks_blocks` (`N = 4`) -
chacha20/src/backends/neon.rs:145-220, 255-307. -/
def blocks (dr N : Nat) (V : Variant) : List Intr :=
  times (N - 1) (addCounter V) ++ times dr (doubleQuarterRound N) ++
    (times 4 [.vaddq_u32] ++ times 4 [.vst1q_u8]) ++
    times (N - 1) (times 3 [.vaddq_u32] ++ addCounter V ++ [.vaddq_u32] ++ times 4 [.vst1q_u8]) ++ addCounter V

/-- `gen_ks_block` - chacha20/src/backends/neon.rs:132-142. -/
def block (dr : Nat) (V : Variant) : List Intr := blocks dr 8 V ++ [.vld1q_u32] ++ addCounter V

/-- A request - chacha20/src/backends/neon.rs:130-222. -/
def req (dr : Nat) (V : Variant) : Req → List Intr
  | .block => block dr V
  | .par => blocks dr 8 V
  | .tail n => defaultTail (block dr V) n

/-- `inner` - chacha20/src/backends/neon.rs:73-91. -/
def inner (dr : Nat) (V : Variant) (rs : List Req) : List Intr :=
  new ++ rs.flatMap (req dr V) ++ (match V with | .ietf => [.vgetq_lane_u32] | .legacy => [.vst1q_u64])

/-- `rng_inner` - chacha20/src/backends/neon.rs:97-110. -/
def rngInner (dr : Nat) (V : Variant) : List Intr := new ++ blocks dr 4 V ++ [.vst1q_u64]

end Neon

/-- Intrinsics executed by `process_with_backend` when the closure makes the requests `rs`
(the portable backend uses none) - chacha20/src/lib.rs:239-298. -/
def executed (b : Build) (d : Detected) (dr : Nat) (V : Variant) (rs : List Req) : List Intr :=
  match select b d with
  | .soft => []
  | .sse2 => Sse2.inner dr V rs
  | .avx2 => Avx2.inner dr V rs
  | .avx512 => Avx512.inner dr V rs
  | .neon => Neon.inner dr V rs

/-- Intrinsics executed by `Generator::generate` - chacha20/src/rng.rs:49-92. -/
def executedRng (b : Build) (d : Detected) (dr : Nat) (V : Variant) : List Intr :=
  match selectRng b d with
  | .soft => []
  | .sse2 => Sse2.rngInner dr V
  | .avx2 => Avx2.rngInner dr
  | .avx512 => []
  | .neon => Neon.rngInner dr V

end Verif.ChaCha.Isa
