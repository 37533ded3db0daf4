/-!
# Which processor feature a vector intrinsic belongs to

From the Intel Intrinsics Guide and the Arm Intrinsics Reference, by name.  Nothing here refers to the model.
-/
namespace Verif.Spec.Isa

/-- Intrinsics of each feature. -/
def table : List (String × List String) :=
  [("sse2", ["_mm_loadu_si128", "_mm_storeu_si128", "_mm_add_epi32", "_mm_add_epi64", "_mm_set_epi32", "_mm_set_epi64x", "_mm_shuffle_epi32",
      "_mm_slli_epi32", "_mm_srli_epi32", "_mm_xor_si128", "_mm_cvtsi128_si32"]),
    ("sse4.1", ["_mm_extract_epi32"]),
    ("avx", ["_mm256_set_epi32", "_mm256_set_epi64x", "_mm256_setr_epi64x", "_mm256_setzero_si256", "_mm256_extract_epi32"]),
    ("avx2", ["_mm256_broadcastsi128_si256", "_mm256_add_epi32", "_mm256_add_epi64", "_mm256_shuffle_epi32", "_mm256_shuffle_epi8",
      "_mm256_slli_epi32", "_mm256_srli_epi32", "_mm256_xor_si256"]),
    ("avx512f", ["_mm512_add_epi32", "_mm512_add_epi64", "_mm512_broadcast_i32x4", "_mm512_permutex2var_epi64", "_mm512_rol_epi32", "_mm512_set_epi32",
      "_mm512_set_epi64", "_mm512_setr_epi64", "_mm512_setzero_si512", "_mm512_shuffle_epi32", "_mm512_shuffle_i32x4", "_mm512_storeu_si512",
      "_mm512_xor_si512"]),
    ("avx512vl", ["_mm_loadu_epi32", "_mm_storeu_epi32", "_mm_rol_epi32", "_mm256_broadcast_i32x4", "_mm256_permutex2var_epi64", "_mm256_rol_epi32",
      "_mm256_storeu_epi32"]),
    ("neon", ["vld1q_u32", "vld1q_u8", "vaddq_u32", "vaddq_u64", "veorq_u32", "vorrq_u32", "vshlq_n_u32", "vshrq_n_u32", "vextq_u32", "vrev32q_u16",
      "vqtbl1q_u8", "vst1q_u8", "vst1q_u64", "vgetq_lane_u32", "vreinterpretq_u16_u32", "vreinterpretq_u32_u16", "vreinterpretq_u32_u64",
      "vreinterpretq_u32_u8", "vreinterpretq_u64_u32", "vreinterpretq_u8_u32"])]

/-- A processor with these features has the intrinsic. -/
def Has (features : List String) (name : String) : Prop := ∃ row ∈ table, row.1 ∈ features ∧ name ∈ row.2

instance (features : List String) (name : String) : Decidable (Has features name) := inferInstanceAs (Decidable (∃ row ∈ table, _))

/-- What a feature implies: each of these extensions contains the ones before it. -/
def sse2 : List String := ["sse2"]
@[inherit_doc sse2] def sse41 : List String := sse2 ++ ["sse4.1"]
@[inherit_doc sse2] def avx2 : List String := sse41 ++ ["avx", "avx2"]
@[inherit_doc sse2] def avx512 : List String := avx2 ++ ["avx512f", "avx512vl"]
def neon : List String := ["neon"]

end Verif.Spec.Isa
