import Verif.Model.Simd
import Verif.Proof.ChaChaCore
/-!
# Register-level lemmas

Rotations built from shifts or byte shuffles, counters in a register, rows versus the 16-word state.
-/
namespace Verif
open Verif.ChaCha

/-! ## Rotations -/

theorem shl_and_shr (w : U32) (n : Nat) : (w <<< n) &&& (w >>> (32 - n)) = 0#32 := by
  ext i hi
  simp only [BitVec.getElem_and, BitVec.getElem_shiftLeft, BitVec.getElem_ushiftRight, BitVec.getElem_zero]
  by_cases h : i < n
  · simp [h]
  · rw [BitVec.getLsbD_of_ge w (32 - n + i) (by omega)]
    simp

theorem shl_or_shr (w : U32) (n : Nat) (h : n < 32) : (w <<< n) ||| (w >>> (32 - n)) = w.rotateLeft n := by
  rw [BitVec.rotateLeft_def, Nat.mod_eq_of_lt h]

theorem shl_xor_shr (w : U32) (n : Nat) (h : n < 32) : (w <<< n) ^^^ (w >>> (32 - n)) = w.rotateLeft n := by
  rw [← shl_or_shr w n h]
  ext i hi
  have := congrArg (fun v : U32 => v[i]) (shl_and_shr w n)
  simp only [BitVec.getElem_and, BitVec.getElem_zero] at this
  simp only [BitVec.getElem_xor, BitVec.getElem_or]
  revert this
  cases (w <<< n)[i] <;> cases (w >>> (32 - n))[i] <;> simp

theorem rotl_toNat (w : U32) (n : Nat) (h : n < 32) :
    (w.rotateLeft n).toNat = w.toNat * 2 ^ n % 2 ^ 32 + w.toNat / 2 ^ (32 - n) := by
  rw [← shl_or_shr w n h, ← BitVec.add_eq_or_of_and_eq_zero _ _ (shl_and_shr w n)]
  simp only [BitVec.toNat_add, BitVec.toNat_shiftLeft, BitVec.toNat_ushiftRight, Nat.shiftLeft_eq,
    Nat.shiftRight_eq_div_pow]
  apply Nat.mod_eq_of_lt
  have hw := w.isLt
  have hpow : 2 ^ (32 - n) * 2 ^ n = 2 ^ 32 := by rw [← Nat.pow_add]; congr 1; omega
  have hdm := Nat.div_add_mod w.toNat (2 ^ (32 - n))
  have hm := Nat.mod_lt w.toNat (Nat.two_pow_pos (32 - n))
  have hq : w.toNat / 2 ^ (32 - n) < 2 ^ n := by
    rw [Nat.div_lt_iff_lt_mul (Nat.two_pow_pos _), Nat.mul_comm, hpow]; exact hw
  have h1 : w.toNat * 2 ^ n % 2 ^ 32 = w.toNat % 2 ^ (32 - n) * 2 ^ n := by
    conv => lhs; rw [← hpow, Nat.mul_mod_mul_right]
  rw [h1]
  have : (w.toNat % 2 ^ (32 - n) + 1) * 2 ^ n ≤ 2 ^ (32 - n) * 2 ^ n := Nat.mul_le_mul_right _ hm
  rw [Nat.add_mul] at this
  omega

/-- Byte `k` of a word. -/
def byteOf (w : U32) (k : Nat) : U8 := (w >>> (8 * k)).setWidth 8

theorem byteOf_toNat (w : U32) (k : Nat) : (byteOf w k).toNat = w.toNat / 2 ^ (8 * k) % 256 := by
  simp [byteOf, Nat.shiftRight_eq_div_pow]

theorem bytes_rol16 (w : U32) : le32 (byteOf w 2) (byteOf w 3) (byteOf w 0) (byteOf w 1) = w.rotateLeft 16 := by
  apply BitVec.eq_of_toNat_eq
  have := w.isLt
  rw [le32_toNat, rotl_toNat _ _ (by decide)]
  simp only [byteOf_toNat]
  omega

theorem bytes_rol8 (w : U32) : le32 (byteOf w 3) (byteOf w 0) (byteOf w 1) (byteOf w 2) = w.rotateLeft 8 := by
  apply BitVec.eq_of_toNat_eq
  have := w.isLt
  rw [le32_toNat, rotl_toNat _ _ (by decide)]
  simp only [byteOf_toNat]
  omega

theorem halves_rol16 (w : U32) :
    ((w.setWidth 16).setWidth 32 <<< 16) ||| ((w >>> 16).setWidth 16).setWidth 32 = w.rotateLeft 16 := by
  rw [← shl_or_shr w 16 (by decide)]
  ext i hi
  simp only [BitVec.getElem_or, BitVec.getElem_shiftLeft, BitVec.getElem_setWidth, BitVec.getLsbD_setWidth,
    BitVec.getElem_ushiftRight, BitVec.getLsbD_ushiftRight]
  by_cases h : i < 16
  · simp [h]
  · simp [h, show i - 16 < 16 by omega, BitVec.getLsbD_of_ge w (16 + i) (by omega)]
    exact BitVec.getLsbD_eq_getElem (by omega)

/-! ## Rows and states -/

theorem Rows.words_load (s : State) : (Rows.load s).words = s := (vec16_eta s).symm

theorem Rows.load_words (r : Rows M128) : Rows.load r.words = r := rfl

/-- Feed-forward. -/
theorem Rows.words_add (r v : Rows M128) :
    (Rows.mk (r.a.addEpi32 v.a) (r.b.addEpi32 v.b) (r.c.addEpi32 v.c) (r.d.addEpi32 v.d)).words =
      Vector.zipWith (· + ·) r.words v.words := by
  apply Vector.ext
  intro i hi
  rw [Vector.getElem_zipWith]
  revert i
  apply forall_lt16 <;> rfl

/-- Quarter round `q` on each of the four columns. -/
def Rows.columns (q : U32 → U32 → U32 → U32 → Vector U32 4) (r : Rows M128) : Rows M128 :=
  let c0 := q r.a.x0 r.b.x0 r.c.x0 r.d.x0
  let c1 := q r.a.x1 r.b.x1 r.c.x1 r.d.x1
  let c2 := q r.a.x2 r.b.x2 r.c.x2 r.d.x2
  let c3 := q r.a.x3 r.b.x3 r.c.x3 r.d.x3
  ⟨⟨c0[0], c1[0], c2[0], c3[0]⟩, ⟨c0[1], c1[1], c2[1], c3[1]⟩, ⟨c0[2], c1[2], c2[2], c3[2]⟩,
   ⟨c0[3], c1[3], c2[3], c3[3]⟩⟩

/-- Double round with the shuffles of the x86 backends (rows `a`, `c`, `d` move). -/
theorem words_doubleRound_acd (r : Rows M128) :
    (let r := r.columns qr
     let r : Rows M128 := ⟨⟨r.a.x3, r.a.x0, r.a.x1, r.a.x2⟩, r.b, ⟨r.c.x1, r.c.x2, r.c.x3, r.c.x0⟩,
        ⟨r.d.x2, r.d.x3, r.d.x0, r.d.x1⟩⟩
     let r := r.columns qr
     (⟨⟨r.a.x1, r.a.x2, r.a.x3, r.a.x0⟩, r.b, ⟨r.c.x3, r.c.x0, r.c.x1, r.c.x2⟩,
        ⟨r.d.x2, r.d.x3, r.d.x0, r.d.x1⟩⟩ : Rows M128).words) = doubleRound r.words := by
  have h := doubleRound_lit r.a.x0 r.a.x1 r.a.x2 r.a.x3 r.b.x0 r.b.x1 r.b.x2 r.b.x3 r.c.x0 r.c.x1 r.c.x2 r.c.x3
    r.d.x0 r.d.x1 r.d.x2 r.d.x3
  exact h.symm

/-- Double round with the shuffles of the NEON backend (rows `b`, `c`, `d` move). -/
theorem words_doubleRound_bcd (r : Rows M128) :
    (let r := r.columns qr
     let r : Rows M128 := ⟨r.a, ⟨r.b.x1, r.b.x2, r.b.x3, r.b.x0⟩, ⟨r.c.x2, r.c.x3, r.c.x0, r.c.x1⟩,
        ⟨r.d.x3, r.d.x0, r.d.x1, r.d.x2⟩⟩
     let r := r.columns qr
     (⟨r.a, ⟨r.b.x3, r.b.x0, r.b.x1, r.b.x2⟩, ⟨r.c.x2, r.c.x3, r.c.x0, r.c.x1⟩,
        ⟨r.d.x1, r.d.x2, r.d.x3, r.d.x0⟩⟩ : Rows M128).words) = doubleRound r.words := by
  have h := doubleRound_lit r.a.x0 r.a.x1 r.a.x2 r.a.x3 r.b.x0 r.b.x1 r.b.x2 r.b.x3 r.c.x0 r.c.x1 r.c.x2 r.c.x3
    r.d.x0 r.d.x1 r.d.x2 r.d.x3
  exact h.symm

/-! ## Counters in a register -/

theorem addEpi32_ctr (v : M128) (k : U32) :
    v.addEpi32 (.setEpi32 0 0 0 k) = ⟨v.x0 + k, v.x1, v.x2, v.x3⟩ := by
  simp [M128.addEpi32, M128.map2, M128.setEpi32]

theorem setWidth_or_shift_lo (hi lo : U32) :
    ((hi.setWidth 64 <<< 32) ||| lo.setWidth 64 : U64).setWidth 32 = lo := by
  apply BitVec.eq_of_toNat_eq
  have := lo.isLt
  rw [BitVec.toNat_setWidth, join_toNat]; omega

theorem setWidth_or_shift_hi (hi lo : U32) :
    (((hi.setWidth 64 <<< 32) ||| lo.setWidth 64 : U64) >>> 32).setWidth 32 = hi := by
  apply BitVec.eq_of_toNat_eq
  have := lo.isLt
  rw [hi_toNat, join_toNat]; omega

theorem q0_ofQ (b a : U64) : (M128.ofQ b a).q0 = a := by
  apply BitVec.eq_of_toNat_eq
  simp only [M128.q0, M128.ofQ]
  rw [join_toNat, hi_toNat, BitVec.toNat_setWidth]
  omega

theorem q1_ofQ (b a : U64) : (M128.ofQ b a).q1 = b := by
  apply BitVec.eq_of_toNat_eq
  simp only [M128.q1, M128.ofQ]
  rw [join_toNat, hi_toNat, BitVec.toNat_setWidth]
  omega

theorem addEpi64_ctr (v : M128) (k : U64) :
    v.addEpi64 (.setEpi64x 0 k) =
      ⟨(v.q0 + k).setWidth 32, ((v.q0 + k) >>> 32).setWidth 32, v.x2, v.x3⟩ := by
  simp only [M128.addEpi64, M128.setEpi64x, q0_ofQ, q1_ofQ, BitVec.add_zero, BitVec.ofNat_eq_ofNat]
  simp only [M128.ofQ, M128.q1, setWidth_or_shift_lo, setWidth_or_shift_hi]

/-- Adding `k` to the counter of row `d` is `advance V k` on the state. -/
theorem words_ctr_ietf (a b c d : M128) (k : Nat) :
    (Rows.mk a b c (d.addEpi32 (.setEpi32 0 0 0 (BitVec.ofNat 32 k)))).words = advance .ietf k (Rows.mk a b c d).words := by
  rw [addEpi32_ctr]; rfl

theorem words_ctr_legacy (a b c d : M128) (k : Nat) :
    (Rows.mk a b c (d.addEpi64 (.setEpi64x 0 (BitVec.ofNat 64 k)))).words =
      advance .legacy k (Rows.mk a b c d).words := by
  rw [addEpi64_ctr, advance_legacy]
  have : ∀ p : U64, ((p &&& 0xFFFFFFFF#64).setWidth 32 : U32) = p.setWidth 32 := by
    intro p
    apply BitVec.eq_of_toNat_eq
    rw [lo_toNat, BitVec.toNat_setWidth]
  simp only [Legacy.setBlockPos, this]
  rfl

end Verif
