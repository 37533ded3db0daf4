import Verif.Props.Sample
import Verif.Proof.Counter
/-!
# The block counter and the rest of the state (C12, C13, C47, C48)
-/
namespace Verif
open Spec

/-- The sixteen state words of the object's core. -/
def SeekCipher.words (u : Nat) : (c : SeekCipher) → c.Obj u → Vector U32 16
  | .chacha .., w => w.core
  | .chachaLegacy .., w => w.core
  | .xchacha .., w => w.core
  | .salsa .., w => w.core
  | .xsalsa .., w => w.core

/-- Positions of the block counter in the state. -/
def SeekCipher.ctrWords : SeekCipher → List Nat
  | .chacha .. => [12]
  | .chachaLegacy .. => [12, 13]
  | .xchacha .. => [12]
  | .salsa .. => [8, 9]
  | .xsalsa .. => [8, 9]

/-! ## C12 -/

/-- **C12**.  Whatever object one starts from and whatever calls are made on it - no restriction on buffers, seeks, positions or
backends - state words other than the counter keep their values. -/
theorem C12_frame (u : Nat) (c : SeekCipher) (h : List (ChaCha.Env × SeekOp)) (w : c.Obj u) (os : List Obs) (w' : c.Obj u)
    (hr : runHistory (c.step u) h w = .ok (os, w')) (i : Nat) (hi : i < 16) (hc : i ∉ c.ctrWords) :
    (c.words u w')[i] = (c.words u w)[i] := by
  cases c with
  | chacha dr key nonce => exact (ChaCha.frame u dr .ietf).history h w os w' hr i hi hc
  | chachaLegacy dr key nonce => exact (ChaCha.frame u dr .legacy).history h w os w' hr i hi hc
  | xchacha dr key nonce => exact (ChaCha.frame u dr .ietf).history h w os w' hr i hi hc
  | salsa m dr key nonce => exact (Salsa.frame ChaCha.Env u m dr).history h w os w' hr i hi hc
  | xsalsa m dr key nonce => exact (Salsa.frame ChaCha.Env u m dr).history h w os w' hr i hi hc

/-- Key word 4 after the sample history. -/
example : ∃ w₀ os w, Sample.chacha20.create 64 = .ok w₀ ∧ runHistory (Sample.chacha20.step 64) Sample.history w₀ = .ok (os, w) ∧
    (Sample.chacha20.words 64 w)[4] = (Sample.chacha20.words 64 w₀)[4] := by
  obtain ⟨w, hr⟩ := Sample.chacha20.reach_exists 64 Sample.history (Sample.history_allowed _)
  obtain ⟨w₀, hc, hrun⟩ := hr.run
  exact ⟨w₀, _, w, hc, hrun, C12_frame 64 Sample.chacha20 _ w₀ _ w hrun 4 (by decide) (by decide)⟩

/-- **C12**, for an object made by `new`: after any calls whatsoever its state is the published input matrix of some block of the
stream of its key and nonce - constants, key and nonce are where they were put. -/
theorem C12_input (u : Nat) (c : SeekCipher) (h : List (ChaCha.Env × SeekOp)) (w₀ : c.Obj u) (os : List Obs) (w : c.Obj u)
    (hc : c.create u = .ok w₀) (hr : runHistory (c.step u) h w₀ = .ok (os, w)) :
    ∃ n, n < 2 ^ c.ctrBits ∧ rows (c.words u w) = c.input n := by
  cases c with
  | chacha dr key nonce =>
    have h0 : w₀ = Wrapper.fromCore (ChaCha.ietfState key nonce) := by
      have : ChaCha.cipherIetf key nonce = .ok w₀ := hc
      rw [ChaCha.cipherIetf, ChaCha.newIetf_eq] at this
      exact (Except.ok.inj this).symm
    obtain ⟨n, hn, e⟩ := ChaCha.same_at' .ietf _ _ ((ChaCha.frame u dr .ietf).history h w₀ os w hr)
    refine ⟨n, hn, ?_⟩
    rw [h0] at e
    exact (congrArg rows e).trans (ChaCha.rows_at'_ietf key nonce n)
  | chachaLegacy dr key nonce =>
    have h0 : w₀ = Wrapper.fromCore (ChaCha.legacyState key nonce) := by
      have : ChaCha.cipherLegacy key nonce = .ok w₀ := hc
      rw [ChaCha.cipherLegacy, ChaCha.newLegacy_eq] at this
      exact (Except.ok.inj this).symm
    obtain ⟨n, hn, e⟩ := ChaCha.same_at' .legacy _ _ ((ChaCha.frame u dr .legacy).history h w₀ os w hr)
    refine ⟨n, hn, ?_⟩
    rw [h0] at e
    exact (congrArg rows e).trans (ChaCha.rows_at'_legacy key nonce n)
  | xchacha dr key nonce =>
    have h0 : w₀ = Wrapper.fromCore (ChaCha.ietfState (Spec.ChaCha.xSubkey dr key nonce) (Spec.ChaCha.xNonce nonce)) := by
      have : ChaCha.cipherX dr key nonce = .ok w₀ := hc
      simp only [ChaCha.cipherX, ChaCha.newX_eq, ChaCha.hchacha_eq] at this
      rw [ChaCha.newIetf_eq] at this
      exact (Except.ok.inj this).symm
    obtain ⟨n, hn, e⟩ := ChaCha.same_at' .ietf _ _ ((ChaCha.frame u dr .ietf).history h w₀ os w hr)
    refine ⟨n, hn, ?_⟩
    rw [h0] at e
    exact (congrArg rows e).trans (ChaCha.rows_at'_ietf _ _ n)
  | salsa m dr key nonce =>
    have h0 : w₀ = Wrapper.fromCore (Salsa.new key nonce) := (Except.ok.inj hc).symm
    obtain ⟨n, hn, e⟩ := Salsa.same_at' _ _ ((Salsa.frame ChaCha.Env u m dr).history h w₀ os w hr)
    refine ⟨n, hn, ?_⟩
    rw [h0] at e
    exact (congrArg rows e).trans (Salsa.rows_at'_new key nonce n)
  | xsalsa m dr key nonce =>
    have h0 : w₀ = Wrapper.fromCore (Salsa.newX dr key nonce) := (Except.ok.inj hc).symm
    obtain ⟨n, hn, e⟩ := Salsa.same_at' _ _ ((Salsa.frame ChaCha.Env u m dr).history h w₀ os w hr)
    refine ⟨n, hn, ?_⟩
    rw [h0] at e
    refine (congrArg rows e).trans ?_
    show rows (Salsa.at' (Salsa.newX dr key nonce) n) = _
    rw [Salsa.newX, Salsa.rows_at'_new, Salsa.hsalsa_eq]
    rfl

/-- The hypotheses are satisfiable: a read over a block boundary on AVX2, then a seek on the portable backend. -/
example : ∃ w₀ os w, Sample.chacha20.create 64 = .ok w₀ ∧
    runHistory (Sample.chacha20.step 64) Sample.history w₀ = .ok (os, w) := by
  obtain ⟨w, hr⟩ := Sample.chacha20.reach_exists 64 Sample.history (Sample.history_allowed _)
  obtain ⟨w₀, hc, hrun⟩ := hr.run
  exact ⟨w₀, _, w, hc, hrun⟩

/-! ## C13, C47 -/

/-- **C47** (`ChaChaCore<R, Ietf>`, also under `XChaCha`).  After `set_block_pos(b)`, `get_block_pos()` is `b`; a request for `k` blocks
on any backend yields the blocks of counters `b, b+1, ..., b+k-1` modulo `2^32`, and leaves the counter at `b+k`, everything
else being as before. -/
theorem C47_ietf (dr : Nat) (e : ChaCha.Env) (s : Vector U32 16) (b : U32) (k : Nat) :
    ChaCha.getBlockPos .ietf (ChaCha.setBlockPos .ietf s b) = b ∧
    ChaCha.process dr .ietf e (writeBlocksClosure k) (ChaCha.setBlockPos .ietf s b) =
      .ok ((List.range k).map fun i =>
          (Spec.ChaCha.serialize (Spec.ChaCha.core dr (rows (s.set 12 (BitVec.ofNat 32 (b.toNat + i)))))).toList,
        s.set 12 (BitVec.ofNat 32 (b.toNat + k))) := by
  refine ⟨ChaCha.getBlockPos_setBlockPos .ietf s b, ?_⟩
  exact ChaCha.writeBlocks_at dr .ietf e s b k

/-- Five blocks on AVX2 from the last but one counter value: the counter wraps. -/
example : ∃ l s, ChaCha.process 10 .ietf Sample.avx2 (writeBlocksClosure 5)
    (ChaCha.setBlockPos .ietf (Vector.replicate 16 7#32) 0xFFFFFFFE#32) = .ok (l, s) ∧ l.length = 5 ∧ s[12] = 3 ∧ s[13] = 7 :=
  ⟨_, _, (C47_ietf 10 Sample.avx2 (Vector.replicate 16 7#32) 0xFFFFFFFE#32 5).2, by simp, by decide, by decide⟩

/-- **C13**, **C47** (`ChaChaCore<R, Legacy>`).  The counter is the 64-bit number in words 12 (low) and 13 (high): after
`set_block_pos(b)` a request for `k` blocks on any backend yields the blocks of counters `b, ..., b+k-1` modulo `2^64`, carrying into
word 13. -/
theorem C13_legacy (dr : Nat) (e : ChaCha.Env) (s : Vector U32 16) (b : U64) (k : Nat) :
    ChaCha.getBlockPos .legacy (ChaCha.setBlockPos .legacy s b) = b ∧
    ChaCha.process dr .legacy e (writeBlocksClosure k) (ChaCha.setBlockPos .legacy s b) =
      .ok ((List.range k).map fun i =>
          (Spec.ChaCha.serialize (Spec.ChaCha.core dr (rows ((s.set 12 (BitVec.ofNat 32 (b.toNat + i))).set 13
            (BitVec.ofNat 32 ((b.toNat + i) / 2 ^ 32)))))).toList,
        (s.set 12 (BitVec.ofNat 32 (b.toNat + k))).set 13 (BitVec.ofNat 32 ((b.toNat + k) / 2 ^ 32))) := by
  refine ⟨ChaCha.getBlockPos_setBlockPos .legacy s b, ?_⟩
  simp only [← ChaCha.at'_legacy_words]
  exact ChaCha.writeBlocks_at dr .legacy e s b k

/-- Five blocks on AVX2 across the carry into word 13. -/
example : ∃ l s, ChaCha.process 10 .legacy Sample.avx2 (writeBlocksClosure 5)
    (ChaCha.setBlockPos .legacy (Vector.replicate 16 7#32) 0xFFFFFFFE#64) = .ok (l, s) ∧ l.length = 5 ∧ s[12] = 3 ∧ s[13] = 1 :=
  ⟨_, _, (C13_legacy 10 Sample.avx2 (Vector.replicate 16 7#32) 0xFFFFFFFE#64 5).2, by simp, by decide, by decide⟩

/-- **C47** (`SalsaCore<R>`): words 8 (low) and 9 (high).  With overflow checks the claim is for counters that stay below `2^64`
(see C32 for the rest). -/
theorem C47_salsa {χ : Type} (u : Nat) (m : Mode) (dr : Nat) (x : χ) (s : Vector U32 16) (b : U64) (k : Nat)
    (hm : m = .release ∨ b.toNat + k ≤ 2 ^ 64 - 1) :
    Salsa.getBlockPos (Salsa.setBlockPos s b) = b ∧
    (Salsa.core χ u m dr).process x (writeBlocksClosure k) (Salsa.setBlockPos s b) =
      .ok ((List.range k).map fun i =>
          (Spec.Salsa.serialize (Spec.Salsa.hash dr (rows ((s.set 8 (BitVec.ofNat 32 (b.toNat + i))).set 9
            (BitVec.ofNat 32 ((b.toNat + i) / 2 ^ 32)))))).toList,
        (s.set 8 (BitVec.ofNat 32 (b.toNat + k))).set 9 (BitVec.ofNat 32 ((b.toNat + k) / 2 ^ 32))) := by
  refine ⟨Salsa.getBlockPos_setBlockPos s b, ?_⟩
  have hg := Salsa.getBlockPos_setBlockPos s b
  rw [Salsa.process_of_ref u m dr x (writeBlocksClosure k) (Salsa.setBlockPos s b) _ k (by rw [hg]; exact hm)
    (writeBlocks_ref _ 1 (by decide) k _)]
  simp only [hg, blocksFrom, List.map_map, Function.comp_def, Salsa.ksOf_rows]
  have ha : ∀ n, Salsa.at' (Salsa.setBlockPos s b) n = (s.set 8 (BitVec.ofNat 32 n)).set 9 (BitVec.ofNat 32 (n / 2 ^ 32)) := by
    intro n
    rw [← Salsa.at'_words]
    exact Salsa.setBlockPos_setBlockPos s b _
  simp only [ha]

/-- The hypothesis of `C47_salsa` is satisfiable in both modes, up to the very end of the counter. -/
example : (Mode.debug = .release ∨ (0xFFFFFFFF#64).toNat + 5 ≤ 2 ^ 64 - 1) ∧
    (Mode.release = .release ∨ (BitVec.allOnes 64).toNat + 5 ≤ 2 ^ 64 - 1) := by decide

/-! ## C48 -/

/-- **C48**.  Any number of ChaCha rounds is injective on states. -/
theorem C48_chacha (dr : Nat) : Function.Injective (iter dr ChaCha.doubleRound) :=
  iter_injective _ ChaCha.doubleRound_injective dr

example : iter 10 ChaCha.doubleRound (Vector.replicate 16 7#32) ≠ iter 10 ChaCha.doubleRound (Vector.replicate 16 8#32) :=
  fun h => absurd (congrArg (fun v : Vector U32 16 => v[0]) (C48_chacha 10 h)) (by decide)

/-- **C48**.  Any number of Salsa rounds is injective on states. -/
theorem C48_salsa (dr : Nat) : Function.Injective (iter dr Salsa.doubleRound) :=
  iter_injective _ Salsa.doubleRound_injective dr

example : iter 10 Salsa.doubleRound (Vector.replicate 16 7#32) ≠ iter 10 Salsa.doubleRound (Vector.replicate 16 8#32) :=
  fun h => absurd (congrArg (fun v : Vector U32 16 => v[0]) (C48_salsa 10 h)) (by decide)

/-- **C48** (IETF).  States set up from different (key, nonce, counter) are still different after the rounds. -/
theorem C48_ietf_inputs (dr : Nat) (key key' : Vector U8 32) (nonce nonce' : Vector U8 12) (b b' : U32) (s s' : Vector U32 16)
    (hs : ChaCha.newIetf key nonce = .ok s) (hs' : ChaCha.newIetf key' nonce' = .ok s')
    (h : iter dr ChaCha.doubleRound (ChaCha.setBlockPos .ietf s b) = iter dr ChaCha.doubleRound (ChaCha.setBlockPos .ietf s' b')) :
    key = key' ∧ nonce = nonce' ∧ b = b' := by
  rw [ChaCha.newIetf_eq] at hs hs'
  cases hs; cases hs'
  have h1 := congrArg rows (C48_chacha dr h)
  have e : ∀ key nonce b, rows (ChaCha.setBlockPos .ietf (ChaCha.ietfState key nonce) b) = Spec.ChaCha.ietfInput key nonce b.toNat := by
    intro key nonce b
    rw [← ChaCha.rows_at'_ietf]
    simp only [ChaCha.at', BitVec.ofNat_toNat, BitVec.setWidth_eq]
  obtain ⟨h2, h3, h4⟩ := ietfInput_inj _ _ _ _ _ _ b.isLt b'.isLt ((e _ _ _).symm.trans (h1.trans (e _ _ _)))
  exact ⟨h2, h3, BitVec.eq_of_toNat_eq h4⟩

/-- Set-up succeeds, and states for different nonces stay apart. -/
example : ∃ s s', ChaCha.newIetf (Sample.bytes 32 0) (Sample.bytes 12 7) = .ok s ∧
    ChaCha.newIetf (Sample.bytes 32 0) (Sample.bytes 12 8) = .ok s' ∧
    iter 10 ChaCha.doubleRound (ChaCha.setBlockPos .ietf s 5#32) ≠ iter 10 ChaCha.doubleRound (ChaCha.setBlockPos .ietf s' 5#32) :=
  ⟨_, _, ChaCha.newIetf_eq _ _, ChaCha.newIetf_eq _ _, fun h => absurd
    (C48_ietf_inputs 10 _ _ _ _ _ _ _ _ (ChaCha.newIetf_eq _ _) (ChaCha.newIetf_eq _ _) h).2.1 (by decide +kernel)⟩

/-- **C48** (legacy). -/
theorem C48_legacy_inputs (dr : Nat) (key key' : Vector U8 32) (nonce nonce' : Vector U8 8) (b b' : U64) (s s' : Vector U32 16)
    (hs : ChaCha.newLegacy key nonce = .ok s) (hs' : ChaCha.newLegacy key' nonce' = .ok s')
    (h : iter dr ChaCha.doubleRound (ChaCha.setBlockPos .legacy s b) =
      iter dr ChaCha.doubleRound (ChaCha.setBlockPos .legacy s' b')) :
    key = key' ∧ nonce = nonce' ∧ b = b' := by
  rw [ChaCha.newLegacy_eq] at hs hs'
  cases hs; cases hs'
  have h1 := congrArg rows (C48_chacha dr h)
  have e : ∀ key nonce b, rows (ChaCha.setBlockPos .legacy (ChaCha.legacyState key nonce) b) =
      Spec.ChaCha.djbInput key nonce b.toNat := by
    intro key nonce b
    rw [← ChaCha.rows_at'_legacy]
    simp only [ChaCha.at', BitVec.ofNat_toNat, BitVec.setWidth_eq]
  obtain ⟨h2, h3, h4⟩ := djbInput_inj _ _ _ _ _ _ b.isLt b'.isLt ((e _ _ _).symm.trans (h1.trans (e _ _ _)))
  exact ⟨h2, h3, BitVec.eq_of_toNat_eq h4⟩

example : ∃ s s', ChaCha.newLegacy (Sample.bytes 32 0) (Sample.bytes 8 7) = .ok s ∧
    ChaCha.newLegacy (Sample.bytes 32 0) (Sample.bytes 8 8) = .ok s' ∧
    iter 10 ChaCha.doubleRound (ChaCha.setBlockPos .legacy s 5#64) ≠ iter 10 ChaCha.doubleRound (ChaCha.setBlockPos .legacy s' 5#64) :=
  ⟨_, _, ChaCha.newLegacy_eq _ _, ChaCha.newLegacy_eq _ _, fun h => absurd
    (C48_legacy_inputs 10 _ _ _ _ _ _ _ _ (ChaCha.newLegacy_eq _ _) (ChaCha.newLegacy_eq _ _) h).2.1 (by decide +kernel)⟩

/-- **C48** (Salsa). -/
theorem C48_salsa_inputs (dr : Nat) (key key' : Vector U8 32) (nonce nonce' : Vector U8 8) (b b' : U64)
    (h : iter dr Salsa.doubleRound (Salsa.setBlockPos (Salsa.new key nonce) b) =
      iter dr Salsa.doubleRound (Salsa.setBlockPos (Salsa.new key' nonce') b')) :
    key = key' ∧ nonce = nonce' ∧ b = b' := by
  have h1 := congrArg rows (C48_salsa dr h)
  have e : ∀ key nonce b, rows (Salsa.setBlockPos (Salsa.new key nonce) b) = Spec.Salsa.input key nonce b.toNat := by
    intro key nonce b
    rw [← Salsa.rows_at'_new]
    simp only [Salsa.at', BitVec.ofNat_toNat, BitVec.setWidth_eq]
  rw [e, e] at h1
  obtain ⟨h2, h3, h4⟩ := salsaInput_inj _ _ _ _ _ _ b.isLt b'.isLt h1
  exact ⟨h2, h3, BitVec.eq_of_toNat_eq h4⟩

example : iter 10 Salsa.doubleRound (Salsa.setBlockPos (Salsa.new (Sample.bytes 32 0) (Sample.bytes 8 7)) 5#64) ≠
    iter 10 Salsa.doubleRound (Salsa.setBlockPos (Salsa.new (Sample.bytes 32 0) (Sample.bytes 8 7)) 6#64) :=
  fun h => absurd (C48_salsa_inputs 10 _ _ _ _ _ _ h).2.2 (by decide)

end Verif
