import Verif.Proof.Ciphers
/-!
# Seeks into the block at the top of the counter range
-/
namespace Verif
open Spec

variable {bs : Nat} {χ : Type} {S : SeekCore bs χ} {u : Nat} {ks : Nat → Vector U8 bs} {Rel : S.σ → Nat → Prop} {M : Nat}

/-- The counter wraps when the top block is generated. -/
def WrapLaw (S : SeekCore bs χ) (ks : Nat → Vector U8 bs) (Rel : S.σ → Nat → Prop) (M : Nat) : Prop :=
  ∀ (x : χ) (s : S.σ), Rel s M → ∃ s', S.process x (writeBlockClosure bs) s = .ok (ks M, s') ∧ Rel s' 0

namespace Edge

/-- Block `M` in front. -/
def shiftKs (ks : Nat → Vector U8 bs) (M n : Nat) : Vector U8 bs := if n = 0 then ks M else ks (n - 1)

def shiftRel {σ : Type} (Rel : σ → Nat → Prop) (s : σ) (n : Nat) : Prop := 1 ≤ n ∧ Rel s (n - 1)

theorem shiftKs_succ (n : Nat) : shiftKs ks M (n + 1) = ks n := rfl

theorem ref_shift {α : Type} (par : Nat) (p : Prog bs α) (n : Nat) :
    p.ref (shiftKs ks M) par (n + 1) = (p.ref ks par n).map fun (a, n) => (a, n + 1) := by
  have hl : ∀ k, ((List.range k).map fun i => shiftKs ks M (n + 1 + i)) = (List.range k).map fun i => ks (n + i) := by
    intro k
    apply List.map_congr_left
    intro i _
    rw [show n + 1 + i = n + i + 1 by omega, shiftKs_succ]
  induction p generalizing n with
  | done a => rfl
  | block k ih =>
    simp only [Prog.ref, shiftKs_succ]
    refine ih _ _ fun k => ?_
    apply List.map_congr_left
    intro i _
    rw [show n + 1 + 1 + i = n + 1 + i + 1 by omega, shiftKs_succ]
  | par k ih =>
    simp only [Prog.ref, hl]
    rw [show n + 1 + par = n + par + 1 by omega]
    refine ih _ _ fun k => ?_
    apply List.map_congr_left
    intro i _
    rw [show n + par + 1 + i = n + par + i + 1 by omega, shiftKs_succ]
  | tail t k ih =>
    simp only [Prog.ref, hl]
    split
    · rw [show n + 1 + t = n + t + 1 by omega]
      refine ih _ _ fun k => ?_
      apply List.map_congr_left
      intro i _
      rw [show n + t + 1 + i = n + t + i + 1 by omega, shiftKs_succ]
    · rfl

theorem coreLaw (law : SeekLaw S u ks Rel M) : CoreLaw S.toCore u (shiftKs ks M) (shiftRel Rel) (some (M + 1)) where
  process := by
    intro x s n hr
    obtain ⟨h1, hr⟩ := hr
    obtain ⟨n, rfl⟩ : ∃ k, n = k + 1 := ⟨n - 1, by omega⟩
    obtain ⟨par, hpar, h⟩ := law.process x s n hr
    refine ⟨par, hpar, ?_⟩
    intro α f a n' he hw
    rw [ref_shift] at he
    cases hp : (f par).ref ks par n with
    | error e => rw [hp] at he; cases he
    | ok r =>
      obtain ⟨a', n''⟩ := r
      rw [hp] at he
      simp only [Except.map, Except.ok.injEq, Prod.mk.injEq] at he
      obtain ⟨rfl, rfl⟩ := he
      obtain ⟨s', h2, h3⟩ := h α f a' n'' hp (by
        intro L e
        cases e
        have := hw _ rfl
        omega)
      exact ⟨s', h2, by omega, h3⟩
  remaining := by
    intro s n hr hw
    obtain ⟨h1, hr⟩ := hr
    have hn := hw _ rfl
    have := law.remaining s (n - 1) hr (by intro L e; cases e; omega)
    rw [this]
    simp only [show M + 1 - n = M - (n - 1) by omega]

theorem stream_shift (hbs : 0 < bs) : byteStream (shiftKs ks M) hbs = edgeStream bs (byteStream ks hbs) M := by
  funext r
  unfold edgeStream
  split
  · rename_i h
    simp only [byteStream, Nat.div_eq_of_lt h, Nat.mod_eq_of_lt h, Nat.mul_add_div hbs, Nat.mul_add_mod, Nat.add_zero]
    rfl
  · rename_i h
    obtain ⟨q, rfl⟩ : ∃ q, r = q + bs := ⟨r - bs, by omega⟩
    simp only [byteStream, Nat.add_div_right q hbs, Nat.add_mod_right, Nat.add_sub_cancel, shiftKs_succ]

theorem window_shift (st : Nat → U8) (p k : Nat) : window (edgeStream bs st M) (bs + p) k = window st p k := by
  unfold window
  apply List.map_congr_left
  intro i _
  rw [edgeStream, if_neg (by omega), show bs + p + i - bs = p + i by omega]

/-- Positions of the plain cursor are marks from `bs` up. -/
theorem at_iff (hbs : 0 < bs) (w : Wrapper bs S.σ) (p : Nat) :
    At (shiftKs ks M) hbs (shiftRel Rel) (some (M + 1)) w (bs + p) ↔ At ks hbs Rel (some M) w p := by
  constructor
  · rintro ⟨⟨n, ⟨h1, hr⟩, hp, hw⟩, h2, h3, h4⟩
    refine ⟨⟨n - 1, hr, ?_, ?_⟩, h2, h3, ?_⟩
    · rw [Nat.mul_sub]; omega
    · intro L e; cases e; have := hw _ rfl; omega
    · rw [h4, stream_shift, window_shift]
  · rintro ⟨⟨n, hr, hp, hw⟩, h2, h3, h4⟩
    refine ⟨⟨n + 1, ⟨by omega, hr⟩, ?_, ?_⟩, h2, h3, ?_⟩
    · rw [Nat.mul_succ]; omega
    · intro L e; cases e; have := hw _ rfl; omega
    · rw [h4, stream_shift, window_shift]

theorem step_spec (law : SeekLaw S u ks Rel M) (wrap : WrapLaw S ks Rel M) (hbs : 0 < bs) (x : χ) (w : Wrapper bs S.σ) (r : Nat)
    (hat : At (shiftKs ks M) hbs (shiftRel Rel) (some (M + 1)) w r) (op : SeekOp) (hop : FitsAny u op) :
    ∃ w', w.seekStep S x op = .ok ((Edge.step bs (byteStream ks hbs) M r op).1, w') ∧
      At (shiftKs ks M) hbs (shiftRel Rel) (some (M + 1)) w' (Edge.step bs (byteStream ks hbs) M r op).2 := by
  cases op with
  | io op =>
    have := Verif.step_spec (coreLaw law) hbs x w r hat op hop
    rw [stream_shift] at this
    simp only [byteLimit, Option.map_some, Nat.mul_succ, Nat.add_comm (bs * M) bs] at this
    exact this
  | seek q =>
    obtain ⟨⟨n, ⟨h1, hr⟩, hp, hw⟩, h2, h3, h4⟩ := hat
    simp only [Wrapper.seekStep, Edge.step]
    by_cases hq : q ≤ bs * M
    · obtain ⟨w', e1, e2⟩ := trySeek_of_rel law hbs x w (n - 1) hr q hq
      refine ⟨w', by simp only [e1, if_pos hq, bind, Except.bind, pure, Except.pure], ?_⟩
      rw [if_pos hq]
      exact (at_iff hbs w' q).2 e2
    · by_cases hq2 : q < bs * M + bs
      · have hd : q / bs = M := by
          obtain ⟨d, rfl⟩ : ∃ d, q = bs * M + d := ⟨q - bs * M, by omega⟩
          rw [Nat.mul_add_div hbs, Nat.div_eq_of_lt (by omega), Nat.add_zero]
        have hm : q % bs = q - bs * M := by
          have := Nat.div_add_mod q bs
          rw [hd] at this
          omega
        have hset := law.setPos w.core (n - 1) M hr (Nat.le_refl _)
        obtain ⟨s', e1, e2⟩ := wrap x _ hset
        have hctr := law.ctrMax
        refine ⟨⟨s', ks M, q - bs * M⟩, ?_, ?_⟩
        · unfold Wrapper.trySeek
          rw [if_neg (by omega), hd, hm, if_neg (by omega), if_neg hq, if_pos hq2]
          simp only [e1, bind, Except.bind, pure, Except.pure]
        · rw [if_neg hq, if_pos hq2]
          refine ⟨⟨1, ⟨by omega, e2⟩, ?_, ?_⟩, ?_, ?_, ?_⟩
          · show q - bs * M + (bs - (q - bs * M)) = bs * 1
            omega
          · intro L e; cases e; omega
          · show q - bs * M ≤ bs
            omega
          · show 0 < q - bs * M
            omega
          · show (ks M).toList.drop (q - bs * M) = window _ (q - bs * M) (bs - (q - bs * M))
            have : ks M = shiftKs ks M 0 := rfl
            rw [this, block_window (shiftKs ks M) hbs, window_drop, Nat.mul_zero, Nat.zero_add]
      · have e1 := trySeek_overflow law hbs x w q (by rw [Nat.mul_succ]; omega)
        refine ⟨w, by simp only [e1, if_neg hq, if_neg hq2, bind, Except.bind, pure, Except.pure], ?_⟩
        rw [if_neg hq, if_neg hq2]
        exact ⟨⟨n, ⟨h1, hr⟩, hp, hw⟩, h2, h3, h4⟩
  | pos snMax =>
    refine ⟨w, ?_, ?_⟩
    · simp only [Wrapper.seekStep, Edge.step]
      by_cases hb : bs ≤ r
      · obtain ⟨p, rfl⟩ : ∃ p, r = bs + p := ⟨r - bs, by omega⟩
        have := tryCurrentPos_spec law hbs w p ((at_iff hbs w p).1 hat) snMax
        rw [this, Nat.add_sub_cancel_left]
        by_cases hs : (p + bs - 1) / bs * bs ≤ snMax
        · rw [if_pos hs, if_pos ⟨hb, hs⟩]
        · rw [if_neg hs, if_neg (fun h => hs h.2)]
      · obtain ⟨⟨n, ⟨h1, hr⟩, hp, hw⟩, h2, h3, h4⟩ := hat
        rw [if_neg (fun h => hb h.1)]
        have hn : n = 1 := by
          have h5 : bs * n < bs * 2 := by omega
          have := Nat.lt_of_mul_lt_mul_left h5
          omega
        subst hn
        have hg := law.getPos w.core 0 hr (Nat.zero_le _)
        unfold Wrapper.tryCurrentPos
        simp only [hg, Nat.zero_mul]
        rw [if_neg (by omega), if_neg (by omega), if_pos (by omega)]
    · have : (Edge.step bs (byteStream ks hbs) M r (.pos snMax)).2 = r := by
        simp only [Edge.step]
        split <;> rfl
      rw [this]
      exact hat

theorem history_spec (law : SeekLaw S u ks Rel M) (wrap : WrapLaw S ks Rel M) (hbs : 0 < bs) (h : List (χ × SeekOp))
    (w : Wrapper bs S.σ) (r : Nat) (hat : At (shiftKs ks M) hbs (shiftRel Rel) (some (M + 1)) w r) (hh : ∀ op ∈ h, FitsAny u op.2) :
    ∃ w', runHistory (fun x w op => Wrapper.seekStep S x w op) h w =
        .ok ((Cursor.run (Edge.step bs (byteStream ks hbs) M) (h.map (·.2)) r).1, w') ∧
      At (shiftKs ks M) hbs (shiftRel Rel) (some (M + 1)) w' (Cursor.run (Edge.step bs (byteStream ks hbs) M) (h.map (·.2)) r).2 := by
  induction h generalizing w r with
  | nil => exact ⟨w, rfl, hat⟩
  | cons e h ih =>
    obtain ⟨x, op⟩ := e
    obtain ⟨w1, h1, hat1⟩ := step_spec law wrap hbs x w r hat op (hh (x, op) (by simp))
    obtain ⟨w2, h2, hat2⟩ := ih w1 _ hat1 (fun o ho => hh o (by simp [ho]))
    refine ⟨w2, ?_, hat2⟩
    simp only [runHistory, h1, h2, bind, Except.bind, pure, Except.pure, List.map_cons, Cursor.run]

end Edge

theorem ChaCha.wrapLaw (u dr : Nat) (V : ChaCha.Variant) (s0 : ChaCha.State) :
    WrapLaw (ChaCha.core u dr V) (ChaCha.ksOf dr V s0) (ChaCha.Rel V s0) (2 ^ (8 * V.ctrBytes) - 1) := by
  intro e s hr
  have h2 : (0 : Nat) < 2 ^ (8 * V.ctrBytes) := Nat.two_pow_pos _
  have hz : ChaCha.at' V s0 (2 ^ (8 * V.ctrBytes) - 1 + 1) = ChaCha.at' V s0 0 := by
    unfold ChaCha.at'
    refine congrArg (ChaCha.setBlockPos V s0) ?_
    apply BitVec.eq_of_toNat_eq
    rw [BitVec.toNat_ofNat, BitVec.toNat_ofNat, Nat.sub_add_cancel h2, Nat.mod_self, Nat.zero_mod]
  refine ⟨ChaCha.at' V s0 0, ?_, rfl⟩
  refine (ChaCha.process_eq dr V e _ s).trans ?_
  rw [hr, ← hz]
  have := ChaCha.softGenBlock_at' dr V s0 (2 ^ (8 * V.ctrBytes) - 1)
  simp only [Backend.call, Backend.ofBlock, writeBlockClosure, Prog.run, this, bind, Except.bind]
  rfl

theorem Salsa.wrapLaw (χ : Type) (u dr : Nat) (s0 : Salsa.State) :
    WrapLaw (Salsa.core χ u .release dr) (Salsa.ksOf dr s0) (Salsa.Rel s0) (2 ^ 64 - 1) := by
  intro x s hr
  have hz : Salsa.at' s0 (2 ^ 64 - 1 + 1) = Salsa.at' s0 0 := by
    unfold Salsa.at'
    exact congrArg (Salsa.setBlockPos s0) (by decide)
  refine ⟨Salsa.at' s0 0, ?_, rfl⟩
  rw [hr, ← hz]
  have := Salsa.genBlock_at' .release dr s0 (2 ^ 64 - 1) (.inl rfl)
  simp only [Salsa.core, Salsa.soft, Backend.call, Backend.ofBlock, writeBlockClosure, Prog.run, this, bind, Except.bind]

namespace SeekCipher

/-- Types whose counter wraps silently: all but Salsa and XSalsa in builds with overflow checks. -/
def Wraps : SeekCipher → Prop
  | .salsa m _ _ _ => m = .release
  | .xsalsa m _ _ _ => m = .release
  | _ => True

theorem wrapLaw (u : Nat) (c : SeekCipher) (hw : c.Wraps) : ∃ Rel, SeekLaw (c.core u) u c.block Rel c.blocks ∧
    WrapLaw (c.core u) c.block Rel c.blocks ∧ ∃ s₀, c.create u = .ok (Wrapper.fromCore s₀) ∧ Rel s₀ 0 := by
  cases c with
  | chacha dr key nonce =>
    have law := ChaCha.seekLaw u dr .ietf (ChaCha.ietfState key nonce)
    have wl := ChaCha.wrapLaw u dr .ietf (ChaCha.ietfState key nonce)
    rw [show ChaCha.ksOf dr .ietf (ChaCha.ietfState key nonce) = Spec.ChaCha.ietfBlock dr key nonce from
      funext fun n => ChaCha.ksOf_ietf dr key nonce n] at law wl
    refine ⟨_, law, wl, ChaCha.ietfState key nonce, ?_, rfl⟩
    show ChaCha.cipherIetf key nonce = _
    simp only [ChaCha.cipherIetf, ChaCha.newIetf_eq]; rfl
  | chachaLegacy dr key nonce =>
    have law := ChaCha.seekLaw u dr .legacy (ChaCha.legacyState key nonce)
    have wl := ChaCha.wrapLaw u dr .legacy (ChaCha.legacyState key nonce)
    rw [show ChaCha.ksOf dr .legacy (ChaCha.legacyState key nonce) = Spec.ChaCha.djbBlock dr key nonce from
      funext fun n => ChaCha.ksOf_legacy dr key nonce n] at law wl
    refine ⟨_, law, wl, ChaCha.legacyState key nonce, ?_, ?_⟩
    · show ChaCha.cipherLegacy key nonce = _
      simp only [ChaCha.cipherLegacy, ChaCha.newLegacy_eq]; rfl
    · show ChaCha.legacyState key nonce = ChaCha.at' .legacy (ChaCha.setupState key 0 0 _ _) 0
      rw [ChaCha.at'_legacy]
      rfl
  | xchacha dr key nonce =>
    have law := ChaCha.seekLaw u dr .ietf
      (ChaCha.ietfState (Spec.ChaCha.xSubkey dr key nonce) (Spec.ChaCha.xNonce nonce))
    have wl := ChaCha.wrapLaw u dr .ietf
      (ChaCha.ietfState (Spec.ChaCha.xSubkey dr key nonce) (Spec.ChaCha.xNonce nonce))
    rw [show ChaCha.ksOf dr .ietf (ChaCha.ietfState (Spec.ChaCha.xSubkey dr key nonce) (Spec.ChaCha.xNonce nonce)) =
      Spec.ChaCha.xBlock dr key nonce from funext fun n => ChaCha.ksOf_ietf dr _ _ n] at law wl
    refine ⟨_, law, wl, ChaCha.ietfState (Spec.ChaCha.xSubkey dr key nonce) (Spec.ChaCha.xNonce nonce), ?_, rfl⟩
    show ChaCha.cipherX dr key nonce = _
    simp only [ChaCha.cipherX, ChaCha.newX_eq, ChaCha.hchacha_eq]
    rw [ChaCha.newIetf_eq]; rfl
  | salsa m dr key nonce =>
    have law := Salsa.seekLaw ChaCha.Env u m dr (Salsa.new key nonce)
    have wl := Salsa.wrapLaw ChaCha.Env u dr (Salsa.new key nonce)
    rw [show Salsa.ksOf dr (Salsa.new key nonce) = Spec.Salsa.block dr key nonce from
      funext fun n => Salsa.ksOf_new dr key nonce n] at law wl
    cases (show m = .release from hw)
    exact ⟨_, law, wl, Salsa.new key nonce, rfl, Salsa.rel_new key nonce⟩
  | xsalsa m dr key nonce =>
    have law := Salsa.seekLaw ChaCha.Env u m dr (Salsa.newX dr key nonce)
    have wl := Salsa.wrapLaw ChaCha.Env u dr (Salsa.newX dr key nonce)
    rw [show Salsa.ksOf dr (Salsa.newX dr key nonce) = Spec.Salsa.xBlock dr key nonce from
      funext fun n => by rw [Salsa.newX, Salsa.ksOf_new, Salsa.hsalsa_eq]; rfl] at law wl
    cases (show m = .release from hw)
    exact ⟨_, law, wl, Salsa.newX dr key nonce, rfl, Salsa.rel_new _ _⟩

end SeekCipher

end Verif
