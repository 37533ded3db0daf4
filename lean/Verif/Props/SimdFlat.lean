import Verif.Proof.SimdFlat
import Verif.Proof.Simd
/-!
# The intrinsics on flat registers (C64)

The backends are modelled on registers made of 32-bit lanes.  Here every intrinsic they use is compared with the vendor's description, which is about
strings of 128, 256 or 512 bits.
-/
namespace Verif
open Spec

/-- **C64**.  Descriptions by elements leave no freedom: a register is determined by its elements of any one width. -/
theorem C64_determined (w m : Nat) (hw : 0 < w) (x y : BitVec (w * m)) (h : ∀ j, j < m → elem w x j = elem w y j) : x = y :=
  elem_ext w m hw rfl x y h

example : ∃ x y : BitVec (32 * 4), elem 32 x 3 ≠ elem 32 y 3 ∧ ∀ j < 3, elem 32 x j = elem 32 y j :=
  ⟨1#128 <<< 127, 0, by decide +kernel, by decide +kernel⟩

/-- **C64**, 128 bits: `_mm_set_epi32`, `_mm_set_epi64x`, `_mm_add_epi32`, `_mm_add_epi64`, `_mm_xor_si128`, `_mm_slli_epi32`, `_mm_srli_epi32`, `_mm_rol_epi32`,
`_mm_shuffle_epi32`, `_mm_shuffle_epi8`. -/
theorem C64_m128 (x y : M128) :
    (∀ e3 e2 e1 e0 : U32, (M128.setEpi32 e3 e2 e1 e0).flat = e3 ++ e2 ++ e1 ++ e0) ∧
    (∀ e1 e0 : U64, (M128.setEpi64x e1 e0).flat = e1 ++ e0) ∧
    (∀ j < 4, elem 32 (x.addEpi32 y).flat j = elem 32 x.flat j + elem 32 y.flat j) ∧
    (∀ j < 2, elem 64 (x.addEpi64 y).flat j = elem 64 x.flat j + elem 64 y.flat j) ∧
    (x.xor y).flat = x.flat ^^^ y.flat ∧
    (∀ n, ∀ j < 4, elem 32 (x.slliEpi32 n).flat j = elem 32 x.flat j <<< n) ∧
    (∀ n, ∀ j < 4, elem 32 (x.srliEpi32 n).flat j = elem 32 x.flat j >>> n) ∧
    (∀ n < 32, ∀ j < 4, elem 32 (x.rolEpi32 n).flat j = elem 32 x.flat j <<< n ||| elem 32 x.flat j >>> (32 - n)) ∧
    (∀ imm, ∀ i < 4, elem 32 (x.shuffleEpi32 imm).flat i = elem 32 x.flat (imm / 4 ^ i % 4)) ∧
    (∀ i < 16, elem 8 (x.shuffleEpi8 y).flat i =
      if (elem 8 y.flat i).msb then 0 else elem 8 x.flat ((elem 8 y.flat i).toNat % 16)) := by
  refine ⟨fun _ _ _ _ => rfl, M128.flat_ofQ, fun j hj => M128.flat_map2 _ x y j hj, M128.flat_addEpi64 x y, M128.flat_xor x y,
    fun n j hj => M128.flat_map _ x j hj, fun n j hj => M128.flat_map _ x j hj, fun n hn j hj => ?_, fun imm => M128.flat_shuffle32 x imm,
    M128.flat_shuffle8 x y⟩
  refine (M128.flat_map _ x j hj).trans ?_
  rw [BitVec.rotateLeft_def, Nat.mod_eq_of_lt hn]

/-- A carry stays inside its element: adding 1 to the all-ones register clears every element, 32 bits or 64 bits wide, and shuffling selects as described. -/
example : let x : M128 := M128.setEpi32 0xffffffff 0xffffffff 0xffffffff 0xffffffff
    (x.addEpi32 (M128.setEpi32 0 0 0 1)).flat = 0xffffffffffffffffffffffff00000000#128 ∧
    (x.addEpi64 (M128.setEpi32 0 0 0 1)).flat = 0xffffffffffffffff0000000000000000#128 ∧
    ((M128.setEpi32 3 2 1 0).shuffleEpi32 0x39).flat = 0x00000000000000030000000200000001#128 := by
  decide +kernel

/-- **C64**, 256 bits: `_mm256_broadcastsi128_si256`/`_mm256_broadcast_i32x4`, `_mm256_set_epi32`, `_mm256_set_epi64x`, `_mm256_add_epi32`, `_mm256_add_epi64`,
`_mm256_xor_si256`, `_mm256_slli_epi32`, `_mm256_srli_epi32`, `_mm256_rol_epi32`, `_mm256_shuffle_epi32`, `_mm256_shuffle_epi8` (these two within each
128-bit half `l`), `_mm256_permutex2var_epi64`. -/
theorem C64_m256 (x y : M256) :
    (∀ z : M128, (M256.broadcast z).flat = z.flat ++ z.flat) ∧
    (∀ e7 e6 e5 e4 e3 e2 e1 e0 : U32, ∀ j (hj : j < 8), elem 32 (M256.setEpi32 e7 e6 e5 e4 e3 e2 e1 e0).flat j = #v[e0, e1, e2, e3, e4, e5, e6, e7][j]) ∧
    (∀ e3 e2 e1 e0 : U64, ∀ j (hj : j < 4), elem 64 (M256.setEpi64x e3 e2 e1 e0).flat j = #v[e0, e1, e2, e3][j]) ∧
    (∀ j < 8, elem 32 (x.addEpi32 y).flat j = elem 32 x.flat j + elem 32 y.flat j) ∧
    (∀ j < 4, elem 64 (x.addEpi64 y).flat j = elem 64 x.flat j + elem 64 y.flat j) ∧
    (x.xor y).flat = x.flat ^^^ y.flat ∧
    (∀ n, ∀ j < 8, elem 32 (x.slliEpi32 n).flat j = elem 32 x.flat j <<< n) ∧
    (∀ n, ∀ j < 8, elem 32 (x.srliEpi32 n).flat j = elem 32 x.flat j >>> n) ∧
    (∀ n < 32, ∀ j < 8, elem 32 (x.rolEpi32 n).flat j = elem 32 x.flat j <<< n ||| elem 32 x.flat j >>> (32 - n)) ∧
    (∀ imm, ∀ l < 2, ∀ i < 4, elem 32 (x.shuffleEpi32 imm).flat (4 * l + i) = elem 32 x.flat (4 * l + imm / 4 ^ i % 4)) ∧
    (∀ l < 2, ∀ i < 16, elem 8 (x.shuffleEpi8 y).flat (16 * l + i) =
      if (elem 8 y.flat (16 * l + i)).msb then 0 else elem 8 x.flat (16 * l + (elem 8 y.flat (16 * l + i)).toNat % 16)) ∧
    (∀ (idx : Vector Nat 4) i (hi : i < 4), elem 64 (x.permutex2var64 idx y).flat i =
      if idx[i] / 4 % 2 = 0 then elem 64 x.flat (idx[i] % 4) else elem 64 y.flat (idx[i] % 4)) := by
  refine ⟨fun _ => rfl, ?_, ?_, ?_, ?_, M256.flat_xor x y, ?_, ?_, ?_, ?_, ?_, ?_⟩
  · intro e7 e6 e5 e4 e3 e2 e1 e0 j hj
    have h := M256.flat_half (M256.setEpi32 e7 e6 e5 e4 e3 e2 e1 e0) 32 4 rfl (j / 4) (j % 4) (by omega) (Nat.mod_lt _ (by decide))
    rw [Nat.div_add_mod] at h
    rw [h, M128.flat_lane _ _ (Nat.mod_lt _ (by decide))]
    rcases j with _ | _ | _ | _ | _ | _ | _ | _ | j
    all_goals first | rfl | omega
  · intro e3 e2 e1 e0 j hj
    have h := M256.flat_half (M256.setEpi64x e3 e2 e1 e0) 64 2 rfl (j / 2) (j % 2) (by omega) (Nat.mod_lt _ (by decide))
    rw [Nat.div_add_mod] at h
    rw [h]
    have key : ∀ (q1 q0 : U64) i, i < 2 → elem 64 (M128.ofQ q1 q0).flat i = if i < 1 then q0 else q1 := by
      intro q1 q0 i hi
      rw [M128.flat_ofQ, elem_append 64 1 1 rfl rfl]
      rcases i with _ | _ | i
      · rw [if_pos (by decide), if_pos (by decide), elem_self]
      · rw [if_neg (by decide), if_neg (by decide), Nat.sub_self, elem_self]
      · omega
    rcases j with _ | _ | _ | _ | j
    · exact key e1 e0 0 (by decide)
    · exact key e1 e0 1 (by decide)
    · exact key e3 e2 0 (by decide)
    · exact key e3 e2 1 (by decide)
    · omega
  · exact M256.flat_map2 (f := M128.addEpi32) (k := 4) rfl (by decide) (· + ·) (fun x y j hj => M128.flat_map2 _ x y j hj) x y
  · exact M256.flat_map2 (f := M128.addEpi64) (k := 2) rfl (by decide) (· + ·) (fun x y j hj => M128.flat_addEpi64 x y j hj) x y
  · intro n
    exact M256.flat_map (f := (·.slliEpi32 n)) (k := 4) rfl (by decide) (· <<< n) (fun x => (C64_m128 x x).2.2.2.2.2.1 n) x
  · intro n
    exact M256.flat_map (f := (·.srliEpi32 n)) (k := 4) rfl (by decide) (· >>> n) (fun x => (C64_m128 x x).2.2.2.2.2.2.1 n) x
  · intro n hn
    exact M256.flat_map (f := (·.rolEpi32 n)) (k := 4) rfl (by decide) (fun w => w <<< n ||| w >>> (32 - n))
      (fun x => (C64_m128 x x).2.2.2.2.2.2.2.1 n hn) x
  · exact fun imm l hl i hi => M256.flat_shuffle32 x imm l i hl hi
  · exact fun l hl i hi => M256.flat_shuffle8 x y l i hl hi
  · exact fun idx i hi => M256.flat_permutex x y idx i hi

example : ((M256.setEpi64x 3 2 1 0).permutex2var64 #v[0, 5, 2, 7] (M256.setEpi64x 13 12 11 10)).flat =
    0x000000000000000d_0000000000000002_000000000000000b_0000000000000000#256 := by decide +kernel

/-- **C64**, 512 bits: `_mm512_broadcast_i32x4`, the two uses of `_mm512_set_epi32` and `_mm512_set_epi64`, `_mm512_add_epi32`, `_mm512_add_epi64`,
`_mm512_xor_si512`, `_mm512_rol_epi32`, `_mm512_shuffle_epi32`, `_mm512_permutex2var_epi64`, `_mm512_shuffle_i32x4`. -/
theorem C64_m512 (x y : M512) :
    (∀ z : M128, (M512.broadcast z).flat = z.flat ++ z.flat ++ z.flat ++ z.flat) ∧
    (∀ e3 e2 e1 e0 : U32, ∀ j < 16, elem 32 (M512.setCtr32 e3 e2 e1 e0).flat j =
      if j = 0 then e0 else if j = 4 then e1 else if j = 8 then e2 else if j = 12 then e3 else 0) ∧
    (∀ e3 e2 e1 e0 : U64, ∀ j < 8, elem 64 (M512.setCtr64 e3 e2 e1 e0).flat j =
      if j = 0 then e0 else if j = 2 then e1 else if j = 4 then e2 else if j = 6 then e3 else 0) ∧
    (∀ j < 16, elem 32 (x.addEpi32 y).flat j = elem 32 x.flat j + elem 32 y.flat j) ∧
    (∀ j < 8, elem 64 (x.addEpi64 y).flat j = elem 64 x.flat j + elem 64 y.flat j) ∧
    (x.xor y).flat = x.flat ^^^ y.flat ∧
    (∀ n < 32, ∀ j < 16, elem 32 (x.rolEpi32 n).flat j = elem 32 x.flat j <<< n ||| elem 32 x.flat j >>> (32 - n)) ∧
    (∀ imm, ∀ l < 4, ∀ i < 4, elem 32 (x.shuffleEpi32 imm).flat (4 * l + i) = elem 32 x.flat (4 * l + imm / 4 ^ i % 4)) ∧
    (∀ (idx : Vector Nat 8) i (hi : i < 8), elem 64 (x.permutex2var64 idx y).flat i =
      if idx[i] / 8 % 2 = 0 then elem 64 x.flat (idx[i] % 8) else elem 64 y.flat (idx[i] % 8)) ∧
    (∀ imm, ∀ i < 4, elem 128 (x.shuffleI32x4 y imm).flat i = elem 128 (if i < 2 then x else y).flat (imm / 4 ^ i % 4)) := by
  refine ⟨fun _ => rfl, ?_, ?_, ?_, ?_, M512.flat_xor x y, ?_, ?_, ?_, ?_⟩
  · intro e3 e2 e1 e0 j hj
    have h := M512.flat_half (M512.setCtr32 e3 e2 e1 e0) 32 4 rfl (j / 4) (j % 4) (by omega) (Nat.mod_lt _ (by decide))
    rw [Nat.div_add_mod] at h
    rw [h, M128.flat_lane _ _ (Nat.mod_lt _ (by decide))]
    rcases j with _ | _ | _ | _ | _ | _ | _ | _ | _ | _ | _ | _ | _ | _ | _ | _ | j
    all_goals first | rfl | omega
  · intro e3 e2 e1 e0 j hj
    have h := M512.flat_half (M512.setCtr64 e3 e2 e1 e0) 64 2 rfl (j / 2) (j % 2) (by omega) (Nat.mod_lt _ (by decide))
    rw [Nat.div_add_mod] at h
    rw [h]
    have k0 : ∀ (q0 : U64), elem 64 (M128.setEpi64x 0 q0).flat 0 = q0 := by
      intro q0
      rw [(C64_m128 ⟨0, 0, 0, 0⟩ ⟨0, 0, 0, 0⟩).2.1, elem_append 64 1 1 rfl rfl, if_pos (by decide), elem_self]
    have k1 : ∀ (q0 : U64), elem 64 (M128.setEpi64x 0 q0).flat 1 = 0 := by
      intro q0
      rw [(C64_m128 ⟨0, 0, 0, 0⟩ ⟨0, 0, 0, 0⟩).2.1, elem_append 64 1 1 rfl rfl, if_neg (by decide), Nat.sub_self, elem_self]
    rcases j with _ | _ | _ | _ | _ | _ | _ | _ | j
    · exact k0 e0
    · exact k1 e0
    · exact k0 e1
    · exact k1 e1
    · exact k0 e2
    · exact k1 e2
    · exact k0 e3
    · exact k1 e3
    · omega
  · exact M512.flat_map2 (f := M128.addEpi32) (k := 4) rfl (by decide) (· + ·) (fun x y j hj => M128.flat_map2 _ x y j hj) x y
  · exact M512.flat_map2 (f := M128.addEpi64) (k := 2) rfl (by decide) (· + ·) (fun x y j hj => M128.flat_addEpi64 x y j hj) x y
  · intro n hn
    exact M512.flat_map (f := (·.rolEpi32 n)) (k := 4) rfl (by decide) (fun w => w <<< n ||| w >>> (32 - n))
      (fun x => (C64_m128 x x).2.2.2.2.2.2.2.1 n hn) x
  · exact fun imm l hl i hi => M512.flat_shuffle32 x imm l i hl hi
  · exact fun idx i hi => M512.flat_permutex x y idx i hi
  · exact fun imm i hi => M512.flat_shuffleI32x4 x y imm i hi

example : elem 128 ((M512.setCtr64 3 2 1 0).shuffleI32x4 (M512.setCtr64 13 12 11 10) 0b10001101).flat 2 = 10#128 ∧
    elem 128 ((M512.setCtr64 3 2 1 0).shuffleI32x4 (M512.setCtr64 13 12 11 10) 0b10001101).flat 1 = 3#128 := by decide +kernel

/-- **C64**, NEON: `vaddq_u32`, `vaddq_u64`, `veorq_u32`, `vorrq_u32`, `vshlq_n_u32`, `vshrq_n_u32`, `vextq_u32`, `vqtbl1q_u8`, `vrev32q_u16`. -/
theorem C64_neon (x y : M128) :
    (∀ j < 4, elem 32 (x.addEpi32 y).flat j = elem 32 x.flat j + elem 32 y.flat j) ∧
    (∀ j < 2, elem 64 (x.addEpi64 y).flat j = elem 64 x.flat j + elem 64 y.flat j) ∧
    (x.xor y).flat = x.flat ^^^ y.flat ∧ (x.or y).flat = x.flat ||| y.flat ∧
    (∀ n, ∀ j < 4, elem 32 (x.slliEpi32 n).flat j = elem 32 x.flat j <<< n) ∧
    (∀ n, ∀ j < 4, elem 32 (x.srliEpi32 n).flat j = elem 32 x.flat j >>> n) ∧
    (∀ n ≤ 4, ∀ i < 4, elem 32 (x.vextq y n).flat i = elem 32 (y.flat ++ x.flat : BitVec 256) (n + i)) ∧
    (∀ i < 16, elem 8 (x.vqtbl1q y).flat i = if (elem 8 y.flat i).toNat < 16 then elem 8 x.flat (elem 8 y.flat i).toNat else 0) ∧
    (∀ i < 8, elem 16 x.vrev32q16.flat i = elem 16 x.flat (2 * (i / 2) + (1 - i % 2))) :=
  ⟨fun j hj => M128.flat_map2 _ x y j hj, M128.flat_addEpi64 x y, M128.flat_xor x y, M128.flat_or x y,
    fun _ j hj => M128.flat_map _ x j hj, fun _ j hj => M128.flat_map _ x j hj, fun n hn i hi => M128.flat_vextq x y n i hn hi,
    M128.flat_vqtbl1q x y, M128.flat_vrev32q16 x⟩

example : ((M128.setEpi32 3 2 1 0).vextq (M128.setEpi32 7 6 5 4) 3).flat = 0x00000006000000050000000400000003#128 ∧
    (M128.setEpi32 0x30002 0x10000 0 0xabcd1234).vrev32q16.flat = 0x00020003000000010000000_01234abcd#128 := by decide +kernel

/-- **C64**, memory: loading four words, and storing four registers, is little-endian: element `j` of width 32 (8) of row `r` is word `4r + j` (byte `16r + j`). -/
theorem C64_memory (s : Vector U32 16) (t : Rows M128) :
    (∀ j (hj : j < 4), elem 32 (Rows.load s).a.flat j = s[j] ∧ elem 32 (Rows.load s).b.flat j = s[4 + j] ∧
      elem 32 (Rows.load s).c.flat j = s[8 + j] ∧ elem 32 (Rows.load s).d.flat j = s[12 + j]) ∧
    (∀ j (hj : j < 16), t.store[j] = elem 8 t.a.flat j ∧ t.store[16 + j] = elem 8 t.b.flat j ∧
      t.store[32 + j] = elem 8 t.c.flat j ∧ t.store[48 + j] = elem 8 t.d.flat j) := by
  constructor
  · intro j hj
    simp only [M128.flat_lane _ j hj]
    rcases j with _ | _ | _ | _ | j
    · exact ⟨rfl, rfl, rfl, rfl⟩
    · exact ⟨rfl, rfl, rfl, rfl⟩
    · exact ⟨rfl, rfl, rfl, rfl⟩
    · exact ⟨rfl, rfl, rfl, rfl⟩
    · omega
  · intro j hj
    have h0 : ∀ w : U32, w.setWidth 8 = (w >>> (8 * 0)).setWidth 8 := fun w => by rw [Nat.mul_zero, BitVec.ushiftRight_zero]
    have hw : ∀ (w : U32) k (hk : k < 4), (toLe32 w)[k] = (w >>> (8 * k)).setWidth 8 := by
      intro w k hk
      rcases k with _ | _ | _ | _ | k
      · exact h0 w
      · rfl
      · rfl
      · rfl
      · omega
    have hs : ∀ k (hk : k < 64), t.store[k] = ((t.words[k / 4]'(by omega)) >>> (8 * (k % 4))).setWidth 8 := by
      intro k hk
      exact (Vector.getElem_ofFn hk).trans (hw _ _ (Nat.mod_lt _ (by decide)))
    simp only [hs, M128.flat_byte _ j hj, M128.byte]
    rcases j with _ | _ | _ | _ | _ | _ | _ | _ | _ | _ | _ | _ | _ | _ | _ | _ | j
    all_goals first | exact ⟨rfl, rfl, rfl, rfl⟩ | omega

example : (Rows.load (Vector.ofFn fun i : Fin 16 => BitVec.ofNat 32 (0x01020300 + i))).store[22] = 0x02#8 ∧
    (Rows.load (Vector.ofFn fun i : Fin 16 => BitVec.ofNat 32 (0x01020300 + i))).store[20] = 0x05#8 := by decide +kernel

/-- **C64**, `_mm_cvtsi128_si32`, `_mm_extract_epi32`, `_mm256_extract_epi32` and `vgetq_lane_u32`, with which the counter is read back: the fields of the model's
registers are the elements, and the low half of a wide register holds its low elements. -/
theorem C64_extract (x : M128) (y : M256) :
    (x.x0 = elem 32 x.flat 0 ∧ x.x1 = elem 32 x.flat 1 ∧ x.x2 = elem 32 x.flat 2 ∧ x.x3 = elem 32 x.flat 3) ∧
    y.lo.x0 = elem 32 y.flat 0 ∧ y.lo.x1 = elem 32 y.flat 1 := by
  have h := fun (x : M128) j hj => (M128.flat_lane x j hj).symm
  refine ⟨⟨h x 0 (by decide), h x 1 (by decide), h x 2 (by decide), h x 3 (by decide)⟩, ?_, ?_⟩
  · exact (h y.lo 0 (by decide)).trans (M256.flat_half y 32 4 rfl 0 0 (by decide) (by decide)).symm
  · exact (h y.lo 1 (by decide)).trans (M256.flat_half y 32 4 rfl 0 1 (by decide) (by decide)).symm

example : (M128.setEpi32 3 2 1 7).x0 = elem 32 (0x00000003000000020000000100000007#128) 0 := by decide +kernel

end Verif
