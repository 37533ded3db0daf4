import Verif.Proof.Ciphers
import Verif.Proof.Frame
import Verif.Proof.Permutation
/-!
# Counters and input matrices
-/
namespace Verif
open Spec

theorem rows_injective : Function.Injective rows := by
  intro s t h
  apply Vector.ext; intro i hi
  have h1 := congrArg (fun m : Vector (Vector U32 4) 4 => (m[i / 4]'(by omega))[i % 4]'(Nat.mod_lt _ (by decide))) h
  simp only [rows, Vector.getElem_ofFn] at h1
  have e : 4 * (i / 4) + i % 4 = i := by omega
  simpa only [e] using h1

theorem rows_surjective (m : Vector (Vector U32 4) 4) : ∃ s, rows s = m := by
  refine ⟨Vector.ofFn fun k : Fin 16 => (m[k.val / 4]'(by omega))[k.val % 4]'(Nat.mod_lt _ (by decide)), ?_⟩
  apply Vector.ext; intro i hi
  apply Vector.ext; intro j hj
  have e : (4 * i + j) / 4 = i := by omega
  have e' : (4 * i + j) % 4 = j := by omega
  simp only [rows, Vector.getElem_ofFn, e, e']

namespace ChaCha

theorem rows_eq (s : State) : rows s = toMat s := rfl

theorem rows_iter (dr : Nat) (s : State) : rows (iter dr doubleRound s) = Spec.ChaCha.rounds dr (rows s) := toMat_iter dr s

theorem rows_at'_ietf (key : Vector U8 32) (iv : Vector U8 12) (n : Nat) :
    rows (at' .ietf (ietfState key iv) n) = Spec.ChaCha.ietfInput key iv n :=
  toMat_setupState key fun j => match j with
    | 0 => BitVec.ofNat 32 n
    | 1 => leWord iv.toList 0
    | 2 => leWord iv.toList 1
    | 3 => leWord iv.toList 2

theorem rows_at'_legacy (key : Vector U8 32) (iv : Vector U8 8) (n : Nat) :
    rows (at' .legacy (legacyState key iv) n) = Spec.ChaCha.djbInput key iv n := by
  rw [legacyState, at'_legacy]
  exact toMat_setupState key fun j => match j with
    | 0 => BitVec.ofNat 32 n
    | 1 => BitVec.ofNat 32 (n / 2 ^ 32)
    | 2 => leWord iv.toList 0
    | 3 => leWord iv.toList 1

theorem Ietf.same_eq (s s' : State) (h : SameOutside [12] s s') : s' = Ietf.setBlockPos s (Ietf.getBlockPos s') := by
  apply Vector.ext; intro i hi
  by_cases h12 : i = 12
  · subst h12
    simp only [Ietf.setBlockPos, Ietf.getBlockPos, Vector.getElem_set_self]
  · rw [h i hi (by simpa using h12)]
    simp only [Ietf.setBlockPos]
    rw [Vector.getElem_set, if_neg (by omega)]

theorem Legacy.set_12 (s : State) (p : U64) : (Legacy.setBlockPos s p)[12] = (p &&& 0xFFFFFFFF#64).setWidth 32 := by
  simp [Legacy.setBlockPos]

theorem Legacy.set_13 (s : State) (p : U64) : (Legacy.setBlockPos s p)[13] = (p >>> 32).setWidth 32 := by
  simp [Legacy.setBlockPos]

theorem Legacy.same_eq (s s' : State) (h : SameOutside [12, 13] s s') : s' = Legacy.setBlockPos s (Legacy.getBlockPos s') := by
  have e := Legacy.set_get s'
  generalize Legacy.getBlockPos s' = p at e ⊢
  apply Vector.ext; intro i hi
  conv => lhs; rw [← e]
  by_cases h12 : i = 12
  · subst h12; rw [Legacy.set_12, Legacy.set_12]
  by_cases h13 : i = 13
  · subst h13; rw [Legacy.set_13, Legacy.set_13]
  · rw [e, h i hi (by simp [h12, h13]), Legacy.set_same s p i hi (by simp [h12, h13])]

/-- A state that differs from `s` only in the counter stands for some block of the stream of `s`. -/
theorem same_at' (V : Variant) (s s' : State) (h : SameOutside V.ctrWords s s') :
    ∃ n, n < 2 ^ (8 * V.ctrBytes) ∧ s' = at' V s n := by
  refine ⟨(getBlockPos V s').toNat, (getBlockPos V s').isLt, ?_⟩
  simp only [at', BitVec.ofNat_toNat, BitVec.setWidth_eq]
  cases V
  · exact Ietf.same_eq s s' h
  · exact Legacy.same_eq s s' h

/-- The block that the portable code makes of a state. -/
theorem ksOf_rows (dr : Nat) (V : Variant) (s : State) (n : Nat) :
    ksOf dr V s n = Spec.ChaCha.serialize (Spec.ChaCha.core dr (rows (at' V s n))) := leBytes_runRounds dr _

theorem Legacy.set_words (s : State) (n : Nat) : Legacy.setBlockPos s (BitVec.ofNat 64 n) =
    (s.set 12 (BitVec.ofNat 32 n)).set 13 (BitVec.ofNat 32 (n / 2 ^ 32)) := by
  obtain ⟨h1, h2⟩ := legacy_words n
  rw [← h1, ← h2]
  rfl

theorem at'_setBlockPos (V : Variant) (s : State) (b : V.Counter) (n : Nat) : at' V (setBlockPos V s b) n = at' V s n := by
  simp only [at', setBlockPos_setBlockPos]

theorem setBlockPos_toNat (V : Variant) (s : State) (b : V.Counter) : setBlockPos V s b = at' V s b.toNat := by
  simp only [at', BitVec.ofNat_toNat, BitVec.setWidth_eq]

theorem writeBlocks_at (dr : Nat) (V : Variant) (e : Env) (s : State) (b : V.Counter) (k : Nat) :
    process dr V e (writeBlocksClosure k) (setBlockPos V s b) =
      .ok ((List.range k).map fun i => (Spec.ChaCha.serialize (Spec.ChaCha.core dr (rows (at' V s (b.toNat + i))))).toList,
        at' V s (b.toNat + k)) := by
  rw [process_writeBlocks, getBlockPos_setBlockPos]
  simp only [blocksFrom, List.map_map, Function.comp_def, ksOf_rows, at'_setBlockPos]
  rw [setBlockPos_toNat, advance_at']

theorem at'_legacy_words (s : State) (n : Nat) :
    at' .legacy s n = (s.set 12 (BitVec.ofNat 32 n)).set 13 (BitVec.ofNat 32 (n / 2 ^ 32)) := Legacy.set_words s n

end ChaCha

namespace Salsa

theorem rows_eq (s : State) : rows s = toMat s := rfl

theorem rows_iter (dr : Nat) (s : State) : rows (iter dr doubleRound s) = Spec.Salsa.rounds dr (rows s) := toMat_iter dr s

theorem rows_at'_new (key : Vector U8 32) (iv : Vector U8 8) (n : Nat) :
    rows (at' (new key iv) n) = Spec.Salsa.input key iv n := by
  rw [new_eq, at'_setup]
  exact toMat_setupState key fun j => match j with
    | 0 => leWord iv.toList 0
    | 1 => leWord iv.toList 1
    | 2 => BitVec.ofNat 32 n
    | 3 => BitVec.ofNat 32 (n / 2 ^ 32)

theorem same_at' (s s' : State) (h : SameOutside [8, 9] s s') : ∃ n, n < 2 ^ 64 ∧ s' = at' s n := by
  refine ⟨(getBlockPos s').toNat, (getBlockPos s').isLt, ?_⟩
  simp only [at', BitVec.ofNat_toNat, BitVec.setWidth_eq]
  have e := setBlockPos_getBlockPos s'
  apply Vector.ext; intro i hi
  conv => lhs; rw [← e]
  by_cases h8 : i = 8
  · subst h8; rw [setBlockPos_8, setBlockPos_8]
  by_cases h9 : i = 9
  · subst h9; rw [setBlockPos_9, setBlockPos_9]
  · rw [setBlockPos_other _ _ _ hi h8 h9, setBlockPos_other _ _ _ hi h8 h9]
    exact h i hi (by simp [h8, h9])

theorem ksOf_rows (dr : Nat) (s : State) (n : Nat) :
    ksOf dr s n = Spec.Salsa.serialize (Spec.Salsa.hash dr (rows (at' s n))) := leBytes_runRounds dr _

theorem at'_words (s : State) (n : Nat) :
    at' s n = (s.set 8 (BitVec.ofNat 32 n)).set 9 (BitVec.ofNat 32 (n / 2 ^ 32)) := by
  have h1 : ((BitVec.ofNat 64 n &&& 0xFFFFFFFF#64).setWidth 32 : U32) = BitVec.ofNat 32 n := by
    apply BitVec.eq_of_toNat_eq
    rw [lo_toNat]; simp only [BitVec.toNat_ofNat]; omega
  have h2 : (((BitVec.ofNat 64 n >>> 32) &&& 0xFFFFFFFF#64).setWidth 32 : U32) = BitVec.ofNat 32 (n / 2 ^ 32) := by
    apply BitVec.eq_of_toNat_eq
    rw [hi_toNat]; simp only [BitVec.toNat_ofNat]; omega
  rw [← h1, ← h2]
  rfl

end Salsa

/-! ## Rounds on matrices, and set-up, are injective -/

theorem Spec.ChaCha.rounds_injective (dr : Nat) : Function.Injective (Spec.ChaCha.rounds dr) := by
  intro m m' h
  obtain ⟨s, rfl⟩ := rows_surjective m
  obtain ⟨s', rfl⟩ := rows_surjective m'
  rw [← ChaCha.rows_iter, ← ChaCha.rows_iter] at h
  rw [iter_injective _ ChaCha.doubleRound_injective dr (rows_injective h)]

theorem Spec.Salsa.rounds_injective (dr : Nat) : Function.Injective (Spec.Salsa.rounds dr) := by
  intro m m' h
  obtain ⟨s, rfl⟩ := rows_surjective m
  obtain ⟨s', rfl⟩ := rows_surjective m'
  rw [← Salsa.rows_iter, ← Salsa.rows_iter] at h
  rw [iter_injective _ Salsa.doubleRound_injective dr (rows_injective h)]

theorem chacha_setup_inj (key key' : Vector U8 32) (r r' : Fin 4 → U32)
    (h : Spec.ChaCha.setup key r = Spec.ChaCha.setup key' r') : key = key' ∧ r = r' := by
  have hm : ∀ i j : Fin 4, (Spec.ChaCha.setup key r)[i.val][j.val] = (Spec.ChaCha.setup key' r')[i.val][j.val] := by
    intro i j; rw [h]
  unfold Spec.ChaCha.setup at hm
  simp only [ChaCha.mat_getElem] at hm
  constructor
  · apply bytes_of_words (k := 8)
    apply ChaCha.forall_lt8
    · exact hm 1 0
    · exact hm 1 1
    · exact hm 1 2
    · exact hm 1 3
    · exact hm 2 0
    · exact hm 2 1
    · exact hm 2 2
    · exact hm 2 3
  · exact funext fun j => hm 3 j

theorem salsa_expand_inj (key key' : Vector U8 32) (r r' : Fin 4 → U32)
    (h : Spec.Salsa.expand key r = Spec.Salsa.expand key' r') : key = key' ∧ r = r' := by
  have hm : ∀ i j : Fin 4, (Spec.Salsa.expand key r)[i.val][j.val] = (Spec.Salsa.expand key' r')[i.val][j.val] := by
    intro i j; rw [h]
  unfold Spec.Salsa.expand at hm
  constructor
  · apply bytes_of_words (k := 8)
    apply ChaCha.forall_lt8
    · exact hm 0 1
    · exact hm 0 2
    · exact hm 0 3
    · exact hm 1 0
    · exact hm 2 3
    · exact hm 3 0
    · exact hm 3 1
    · exact hm 3 2
  · have a0 := hm 1 2
    have a1 := hm 1 3
    have a2 := hm 2 0
    have a3 := hm 2 1
    funext j
    revert j
    apply ChaCha.fin4_cases
    · exact a0
    · exact a1
    · exact a2
    · exact a3

theorem ofNat32_mod {a b : Nat} (h : BitVec.ofNat 32 a = BitVec.ofNat 32 b) : a % 2 ^ 32 = b % 2 ^ 32 := by
  simpa using congrArg BitVec.toNat h

theorem ietfInput_inj (key key' : Vector U8 32) (iv iv' : Vector U8 12) (n n' : Nat) (hn : n < 2 ^ 32) (hn' : n' < 2 ^ 32)
    (h : Spec.ChaCha.ietfInput key iv n = Spec.ChaCha.ietfInput key' iv' n') : key = key' ∧ iv = iv' ∧ n = n' := by
  obtain ⟨hk, hr⟩ := chacha_setup_inj _ _ _ _ h
  have h0 := congrFun hr 0
  have h1 := congrFun hr 1
  have h2 := congrFun hr 2
  have h3 := congrFun hr 3
  refine ⟨hk, ?_, ?_⟩
  · apply bytes_of_words (k := 3)
    intro j hj
    match j, hj with
    | 0, _ => exact h1
    | 1, _ => exact h2
    | 2, _ => exact h3
  · have := ofNat32_mod h0
    omega

theorem djbInput_inj (key key' : Vector U8 32) (iv iv' : Vector U8 8) (n n' : Nat) (hn : n < 2 ^ 64) (hn' : n' < 2 ^ 64)
    (h : Spec.ChaCha.djbInput key iv n = Spec.ChaCha.djbInput key' iv' n') : key = key' ∧ iv = iv' ∧ n = n' := by
  obtain ⟨hk, hr⟩ := chacha_setup_inj _ _ _ _ h
  have h0 := congrFun hr 0
  have h1 := congrFun hr 1
  have h2 := congrFun hr 2
  have h3 := congrFun hr 3
  refine ⟨hk, ?_, ?_⟩
  · apply bytes_of_words (k := 2)
    intro j hj
    match j, hj with
    | 0, _ => exact h2
    | 1, _ => exact h3
  · have := ofNat32_mod h0
    have := ofNat32_mod h1
    omega

theorem salsaInput_inj (key key' : Vector U8 32) (iv iv' : Vector U8 8) (n n' : Nat) (hn : n < 2 ^ 64) (hn' : n' < 2 ^ 64)
    (h : Spec.Salsa.input key iv n = Spec.Salsa.input key' iv' n') : key = key' ∧ iv = iv' ∧ n = n' := by
  obtain ⟨hk, hr⟩ := salsa_expand_inj _ _ _ _ h
  have h0 := congrFun hr 0
  have h1 := congrFun hr 1
  have h2 := congrFun hr 2
  have h3 := congrFun hr 3
  refine ⟨hk, ?_, ?_⟩
  · apply bytes_of_words (k := 2)
    intro j hj
    match j, hj with
    | 0, _ => exact h0
    | 1, _ => exact h1
  · have := ofNat32_mod h2
    have := ofNat32_mod h3
    omega

end Verif
