import Verif.Props.Sample
import Verif.Proof.Counter
/-!
# Relations between the ChaCha types, HChaCha (C14, C15, C16)
-/
namespace Verif
open Spec

/-! ## C14 -/

/-- Four zero bytes in front of an 8-byte nonce. -/
def padNonce (nonce : Vector U8 8) : Vector U8 12 :=
  Vector.ofFn fun i : Fin 12 => if h : i.val < 4 then 0 else nonce[i.val - 4]

theorem padNonce_words (nonce : Vector U8 8) : leWord (padNonce nonce).toList 0 = 0 ∧
    leWord (padNonce nonce).toList 1 = leWord nonce.toList 0 ∧ leWord (padNonce nonce).toList 2 = leWord nonce.toList 1 := by
  rw [← wordAt_eq_leWord (padNonce nonce) 0 (by decide), ← wordAt_eq_leWord (padNonce nonce) 1 (by decide),
    ← wordAt_eq_leWord (padNonce nonce) 2 (by decide), ← wordAt_eq_leWord nonce 0 (by decide),
    ← wordAt_eq_leWord nonce 1 (by decide)]
  simp only [wordAt, padNonce, Vector.getElem_ofFn]
  exact ⟨(by decide : le32 0 0 0 0 = (0 : U32)), rfl, rfl⟩

/-- **C14**, blocks: below `2^32` blocks the two published keystreams coincide. -/
theorem C14_blocks (dr : Nat) (key : Vector U8 32) (nonce : Vector U8 8) (i : Nat) (hi : i < 2 ^ 32) :
    Spec.ChaCha.djbBlock dr key nonce i = Spec.ChaCha.ietfBlock dr key (padNonce nonce) i := by
  unfold Spec.ChaCha.djbBlock Spec.ChaCha.ietfBlock
  refine congrArg (fun m => Spec.ChaCha.serialize (Spec.ChaCha.core dr m)) ?_
  unfold Spec.ChaCha.djbInput Spec.ChaCha.ietfInput
  refine congrArg (Spec.ChaCha.setup key) ?_
  obtain ⟨h0, h1, h2⟩ := padNonce_words nonce
  rw [h0, h1, h2, Nat.div_eq_of_lt hi]
  rfl

example : Spec.ChaCha.djbBlock 10 (Sample.bytes 32 0) (Sample.bytes 8 7) (2 ^ 32 - 1) =
    Spec.ChaCha.ietfBlock 10 (Sample.bytes 32 0) (padNonce (Sample.bytes 8 7)) (2 ^ 32 - 1) := C14_blocks 10 _ _ _ (by decide)

/-- **C14**, cores: `k` blocks from counter `b`, not passing `2^32`, are the same whether the IETF core with the padded nonce or the
legacy core is asked, each on any backend. -/
theorem C14_cores (dr : Nat) (e e' : ChaCha.Env) (key : Vector U8 32) (nonce : Vector U8 8) (b : U32) (k : Nat)
    (hk : b.toNat + k ≤ 2 ^ 32) (s s' : Vector U32 16) (hs : ChaCha.newLegacy key nonce = .ok s)
    (hs' : ChaCha.newIetf key (padNonce nonce) = .ok s') :
    ∃ l t t', ChaCha.process dr .legacy e (writeBlocksClosure k) (ChaCha.setBlockPos .legacy s (b.setWidth 64)) = .ok (l, t) ∧
      ChaCha.process dr .ietf e' (writeBlocksClosure k) (ChaCha.setBlockPos .ietf s' b) = .ok (l, t') := by
  rw [ChaCha.newLegacy_eq] at hs
  rw [ChaCha.newIetf_eq] at hs'
  cases hs; cases hs'
  refine ⟨_, _, ChaCha.at' .ietf (ChaCha.ietfState key (padNonce nonce)) (b.toNat + k),
    ChaCha.writeBlocks_at dr .legacy e _ _ k, (ChaCha.writeBlocks_at dr .ietf e' _ b k).trans ?_⟩
  refine congrArg (fun l => Except.ok (l, _)) ?_
  apply List.map_congr_left
  intro i hi
  have hi := List.mem_range.1 hi
  have hb : (b.setWidth 64 : U64).toNat = b.toNat := by
    have := b.isLt
    rw [BitVec.toNat_setWidth]; omega
  have h64 : @BitVec.toNat (8 * ChaCha.Variant.legacy.ctrBytes) (b.setWidth 64) = b.toNat := hb
  have h := C14_blocks dr key nonce (b.toNat + i) (by omega)
  unfold Spec.ChaCha.djbBlock Spec.ChaCha.ietfBlock at h
  rw [h64, ChaCha.rows_at'_legacy, ChaCha.rows_at'_ietf]
  exact (congrArg Vector.toList h).symm

/-- The last five blocks below `2^32`, on AVX2 and on the portable backend. -/
example : ∃ s s' l t t', ChaCha.newLegacy (Sample.bytes 32 0) (Sample.bytes 8 7) = .ok s ∧
    ChaCha.newIetf (Sample.bytes 32 0) (padNonce (Sample.bytes 8 7)) = .ok s' ∧
    ChaCha.process 10 .legacy Sample.avx2 (writeBlocksClosure 5) (ChaCha.setBlockPos .legacy s (0xFFFFFFFB#32 |>.setWidth 64)) = .ok (l, t) ∧
    ChaCha.process 10 .ietf Sample.soft (writeBlocksClosure 5) (ChaCha.setBlockPos .ietf s' 0xFFFFFFFB#32) = .ok (l, t') := by
  obtain ⟨l, t, t', h⟩ := C14_cores 10 Sample.avx2 Sample.soft (Sample.bytes 32 0) (Sample.bytes 8 7) 0xFFFFFFFB#32 5 (by decide)
    _ _ (ChaCha.newLegacy_eq _ _) (ChaCha.newIetf_eq _ _)
  exact ⟨_, _, l, t, t', ChaCha.newLegacy_eq _ _, ChaCha.newIetf_eq _ _, h⟩

/-- The caller saw no refusal to encrypt, read or seek. -/
def Succeeded : Obs → Prop
  | .data (.ok ()) _ => True
  | .done (.ok ()) => True
  | .num _ => True
  | _ => False

/-- While nothing is refused, cursors over streams that agree below the smaller limit show the same. -/
theorem Cursor.run_agree (bs : Nat) (st st' : Nat → U8) (L L' : Nat) (hL : L ≤ L') (hst : ∀ i, i < L → st i = st' i)
    (h : List SeekOp) (p : Nat) (hs : ∀ o ∈ (Cursor.run (Cursor.step bs st (some L)) h p).1, Succeeded o) :
    Cursor.run (Cursor.step bs st' (some L')) h p = Cursor.run (Cursor.step bs st (some L)) h p ∧
      ∀ q, .seek q ∈ h → q ≤ L := by
  have hwin : ∀ p n, p + n ≤ L → window st' p n = window st p n := by
    intro p n hp
    simp only [window]
    apply List.map_congr_left
    intro i hi
    have := List.mem_range.1 hi
    exact (hst (p + i) (by omega)).symm
  have hw : ∀ q, Within (some L) q → q ≤ L := fun q hq => hq L rfl
  have hw' : ∀ q, Within (some L) q → Within (some L') q := by
    intro q hq M e
    cases e
    exact Nat.le_trans (hq L rfl) hL
  induction h generalizing p with
  | nil => exact ⟨rfl, fun q hq => by cases hq⟩
  | cons op h ih =>
    simp only [Cursor.run, List.forall_mem_cons] at hs
    obtain ⟨h1, h2⟩ := hs
    have key : Cursor.step bs st' (some L') p op = Cursor.step bs st (some L) p op ∧ ∀ q, op = .seek q → q ≤ L := by
      cases op with
      | io op =>
        refine ⟨?_, fun q hq => by cases hq⟩
        cases op with
        | apply data =>
          simp only [Cursor.step, Cursor.io] at h1 ⊢
          by_cases hp : Within (some L) (p + data.length)
          · rw [if_pos hp, if_pos (hw' _ hp), hwin _ _ (hw _ hp)]
          · rw [if_neg hp] at h1; exact h1.elim
        | write buf =>
          simp only [Cursor.step, Cursor.io] at h1 ⊢
          by_cases hp : Within (some L) (p + buf.length)
          · rw [if_pos hp, if_pos (hw' _ hp), hwin _ _ (hw _ hp)]
          · rw [if_neg hp] at h1; exact h1.elim
      | seek q =>
        simp only [Cursor.step] at h1 ⊢
        by_cases hp : Within (some L) q
        · rw [if_pos hp, if_pos (hw' _ hp)]
          exact ⟨rfl, fun q' e => by cases e; exact hw _ hp⟩
        · rw [if_neg hp] at h1; exact h1.elim
      | pos m => exact ⟨rfl, fun q hq => by cases hq⟩
    obtain ⟨ih1, ih2⟩ := ih _ h2
    refine ⟨?_, ?_⟩
    · simp only [Cursor.run, key.1, ih1]
    · intro q hq
      rcases List.mem_cons.1 hq with e | hq
      · exact key.2 q e.symm
      · exact ih2 q hq

/-- **C14**, objects: a history that the IETF cipher with nonce `0000 || n` serves without refusing anything looks exactly the same
on the legacy cipher with nonce `n`. -/
theorem C14_history (u dr : Nat) (key : Vector U8 32) (nonce : Vector U8 8) (h : List (ChaCha.Env × SeekOp)) (os : List Obs)
    (w : (SeekCipher.chacha dr key (padNonce nonce)).Obj u) (hr : (SeekCipher.chacha dr key (padNonce nonce)).Reach u h os w)
    (hs : ∀ o ∈ os, Succeeded o) :
    ∃ w', (SeekCipher.chachaLegacy dr key nonce).Reach u h os w' := by
  have hos : os = (Cursor.run (Cursor.step 64 (SeekCipher.chacha dr key (padNonce nonce)).stream
      (some (64 * (SeekCipher.chacha dr key (padNonce nonce)).blocks))) (h.map (·.2)) 0).1 := by
    obtain ⟨w₁, hr₁⟩ := (SeekCipher.chacha dr key (padNonce nonce)).reach_exists u h hr.allowed
    obtain ⟨w₀, hc, hrun⟩ := hr.run
    obtain ⟨w₀', hc', hrun'⟩ := hr₁.run
    rw [hc] at hc'
    cases hc'
    rw [hrun] at hrun'
    cases hrun'
    rfl
  have hb : (SeekCipher.chacha dr key (padNonce nonce)).blocks = 2 ^ 32 - 1 := rfl
  have hb' : (SeekCipher.chachaLegacy dr key nonce).blocks = 2 ^ 64 - 1 := rfl
  rw [hos] at hs
  obtain ⟨h1, h2⟩ := Cursor.run_agree 64 _ (SeekCipher.chachaLegacy dr key nonce).stream _
    (64 * (SeekCipher.chachaLegacy dr key nonce).blocks) (by rw [hb, hb']; decide) (by
      intro i hi
      rw [hb] at hi
      have := C14_blocks dr key nonce (i / 64) (by omega)
      simp only [SeekCipher.stream, byteStream, SeekCipher.block, this]) _ 0 hs
  obtain ⟨w', hw'⟩ := (SeekCipher.chachaLegacy dr key nonce).reach_exists u h (by
    intro e he
    have ha := hr.allowed e he
    cases e with
    | mk x op =>
      cases op with
      | io op => exact ha
      | seek q =>
        have := h2 q (List.mem_map.2 ⟨_, he, rfl⟩)
        exact .inl (Nat.le_trans this (by rw [hb, hb']; decide))
      | pos m => trivial)
  refine ⟨w', ?_⟩
  rw [hos, ← h1]
  exact hw'

/-- The hypotheses are satisfiable: the sample history is served without refusal. -/
example : ∃ os w, (SeekCipher.chacha 10 (Sample.bytes 32 0) (padNonce (Sample.bytes 8 9))).Reach 64 Sample.history os w ∧
    ∀ o ∈ os, Succeeded o := by
  obtain ⟨w, hr⟩ := (SeekCipher.chacha 10 (Sample.bytes 32 0) (padNonce (Sample.bytes 8 9))).reach_exists 64 Sample.history
    (Sample.history_allowed _)
  refine ⟨_, w, hr, ?_⟩
  have hb : (SeekCipher.chacha 10 (Sample.bytes 32 0) (padNonce (Sample.bytes 8 9))).blocks = 2 ^ 32 - 1 := rfl
  generalize (SeekCipher.chacha 10 (Sample.bytes 32 0) (padNonce (Sample.bytes 8 9))).stream = st
  rw [hb]
  simp only [Sample.history, List.map_cons, List.map_nil, Cursor.run, Cursor.step, Cursor.io, List.length_replicate]
  rw [if_pos (show Within (some (64 * (2 ^ 32 - 1))) (0 + 70) from fun L e => by cases e; decide),
    if_pos (show Within (some (64 * (2 ^ 32 - 1))) 5 from fun L e => by cases e; decide)]
  intro o ho
  simp only [List.mem_cons, List.not_mem_nil, or_false] at ho
  rcases ho with rfl | rfl <;> trivial

/-! ## C15 -/

/-- **C15**.  `hchacha` is the published function. -/
theorem C15_hchacha (dr : Nat) (key : Vector U8 32) (input : Vector U8 16) :
    ChaCha.hchacha dr key input = Spec.ChaCha.hchacha dr key input := ChaCha.hchacha_eq dr key input

/-- Test vector of draft-irtf-cfrg-xchacha, 2.2.1 (first and last output bytes). -/
example : (ChaCha.hchacha 10 (Sample.bytes 32 0)
    #v[0, 0, 0, 0x09, 0, 0, 0, 0x4a, 0, 0, 0, 0, 0x31, 0x41, 0x59, 0x27])[0] = 0x82 := by decide +kernel

/-! ## C16 -/

/-- **C16**.  `XChaCha::new(key, nonce)` is the very same object as `ChaCha::new(hchacha(key, nonce[..16]), 0000 || nonce[16..])`, and every
call on it runs the same code: all histories agree, on any backends, including the final object. -/
theorem C16_xchacha (u dr : Nat) (key : Vector U8 32) (nonce : Vector U8 24) (h : List (ChaCha.Env × SeekOp)) :
    (do let w ← (SeekCipher.xchacha dr key nonce).create u
        runHistory ((SeekCipher.xchacha dr key nonce).step u) h w) =
    (do let w ← (SeekCipher.chacha dr
            (Spec.ChaCha.hchacha dr key (Vector.ofFn fun i : Fin 16 => nonce[i.val]))
            (padNonce (Vector.ofFn fun i : Fin 8 => nonce[16 + i.val]))).create u
        runHistory ((SeekCipher.chacha dr
            (Spec.ChaCha.hchacha dr key (Vector.ofFn fun i : Fin 16 => nonce[i.val]))
            (padNonce (Vector.ofFn fun i : Fin 8 => nonce[16 + i.val]))).step u) h w) := by
  have hn : padNonce (Vector.ofFn fun i : Fin 8 => nonce[16 + i.val]) =
      Vector.ofFn fun i : Fin 12 => if h : i.val < 4 then 0 else nonce[12 + i.val] := by
    apply Vector.ext; intro i hi
    simp only [padNonce, Vector.getElem_ofFn]
    split
    · rfl
    · congr 1; omega
  have hc : ChaCha.cipherX dr key nonce = ChaCha.cipherIetf
      (Spec.ChaCha.hchacha dr key (Vector.ofFn fun i : Fin 16 => nonce[i.val]))
      (padNonce (Vector.ofFn fun i : Fin 8 => nonce[16 + i.val])) := by
    rw [hn, ChaCha.cipherX, ChaCha.cipherIetf, ChaCha.newX_eq, ChaCha.hchacha_eq]
  show (ChaCha.cipherX dr key nonce >>= fun w => runHistory (fun x w op => Wrapper.seekStep (ChaCha.core u dr .ietf) x w op) h w) =
    (ChaCha.cipherIetf (Spec.ChaCha.hchacha dr key (Vector.ofFn fun i : Fin 16 => nonce[i.val]))
      (padNonce (Vector.ofFn fun i : Fin 8 => nonce[16 + i.val])) >>=
        fun w => runHistory (fun x w op => Wrapper.seekStep (ChaCha.core u dr .ietf) x w op) h w)
  rw [hc]

/-- Both sides are successful computations. -/
example : ∃ w, (SeekCipher.xchacha 10 (Sample.bytes 32 0) (Sample.bytes 24 7)).create 64 = .ok w := by
  obtain ⟨w, h, _⟩ := SeekCipher.isSeekStream 64 (.xchacha 10 (Sample.bytes 32 0) (Sample.bytes 24 7))
  exact ⟨w, h⟩

end Verif
