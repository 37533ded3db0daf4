import Verif.Model.Work
import Verif.Spec.Work
import Verif.Proof.Ciphers
/-!
# The meter
-/
namespace Verif
open Spec

variable {bs : Nat} {χ : Type}

theorem Prog.ref_metered {α : Type} (ks : Nat → Vector U8 bs) (par : Nat) (p : Prog bs α) (n n' : Nat) (a : α)
    (h : p.ref ks par n = .ok (a, n')) : ∃ k, (p.metered par).ref ks par n = .ok ((a, k), n') ∧ n' = n + k := by
  induction p generalizing n with
  | done b =>
    simp only [Prog.ref, Except.ok.injEq, Prod.mk.injEq] at h
    obtain ⟨rfl, rfl⟩ := h
    exact ⟨0, rfl, rfl⟩
  | block k ih =>
    obtain ⟨j, h1, h2⟩ := ih _ _ h
    refine ⟨1 + j, ?_, by omega⟩
    simp only [Prog.metered, Prog.ref, Prog.ref_map, h1, Except.map]
  | par k ih =>
    obtain ⟨j, h1, h2⟩ := ih _ _ h
    refine ⟨par + j, ?_, by omega⟩
    simp only [Prog.metered, Prog.ref, Prog.ref_map, h1, Except.map]
  | tail t k ih =>
    simp only [Prog.ref] at h
    split at h
    · rename_i ht
      obtain ⟨j, h1, h2⟩ := ih _ _ h
      refine ⟨t + j, ?_, by omega⟩
      simp only [Prog.metered, Prog.ref, if_pos ht, Prog.ref_map, h1, Except.map]
    · nomatch h

/-- Relation for the core with a meter: the meter has advanced as far as the block number. -/
def MeterRel {σ : Type} (Rel : σ → Nat → Prop) (n₀ k₀ : Nat) (s : σ × Nat) (n : Nat) : Prop := Rel s.1 n ∧ s.2 + n₀ = n + k₀

theorem CoreLaw.metered {C : Core bs χ} {u : Nat} {ks : Nat → Vector U8 bs} {Rel : C.σ → Nat → Prop} {mb : Option Nat}
    (law : CoreLaw C u ks Rel mb) (n₀ k₀ : Nat) : CoreLaw C.metered u ks (MeterRel Rel n₀ k₀) mb where
  process x s n hr := by
    obtain ⟨par, hpar, h⟩ := law.process x s.1 n hr.1
    refine ⟨par, hpar, fun α f a n' hf hw => ?_⟩
    obtain ⟨k, h1, h2⟩ := Prog.ref_metered ks par (f par) n n' a hf
    obtain ⟨s', h3, h4⟩ := h _ (fun par => (f par).metered par) (a, k) n' h1 hw
    refine ⟨(s', s.2 + k), ?_, h4, ?_⟩
    · show (C.process x (fun par => (f par).metered par) s.1 >>= fun r => pure (r.1.1, (r.2, s.2 + r.1.2))) = _
      rw [h3]; rfl
    · have := hr.2
      show s.2 + k + n₀ = n' + k₀
      omega
  remaining s n hr hw := by
    have h := law.remaining s.1 n hr.1 hw
    cases mb <;> exact h

/-- The number of the next block is determined by the position. -/
theorem begun_of_at (hbs : 0 < bs) (p n pos : Nat) (h : p + (bs - pos) = bs * n) (hpos : 0 < pos) : begun bs p = n := by
  unfold begun
  have e : p + bs - 1 = (bs - 1 - (bs - pos)) + bs * n := by
    rw [← h]; omega
  rw [e, Nat.add_mul_div_left _ _ hbs, Nat.div_eq_of_lt (by omega), Nat.zero_add]

theorem io_place (st : Nat → U8) (limit : Option Nat) (p : Nat) (op : Op) :
    (Cursor.io st limit p op).2 = place limit p (.io op) := by
  cases op with
  | apply data =>
    rw [show place limit p (.io (.apply data)) = if Within limit (p + data.length) then p + data.length else p from rfl]
    simp only [Cursor.io]
    by_cases h : Within limit (p + data.length)
    · simp only [if_pos h]
    · simp only [if_neg h]
  | write data =>
    rw [show place limit p (.io (.write data)) = if Within limit (p + data.length) then p + data.length else p from rfl]
    simp only [Cursor.io]
    by_cases h : Within limit (p + data.length)
    · simp only [if_pos h]
    · simp only [if_neg h]

theorem step_place (st : Nat → U8) (limit : Option Nat) (p : Nat) (op : SeekOp) :
    (Cursor.step bs st limit p op).2 = place limit p op := by
  cases op with
  | io op => exact io_place st limit p op
  | seek q => simp only [Cursor.step, place]; split <;> rfl
  | pos m => simp only [Cursor.step, place]; split <;> rfl

theorem place_io_work (limit : Option Nat) (p : Nat) (op : Op) :
    work bs limit p (.io op) = begun bs (place limit p (.io op)) - begun bs p := by
  simp only [work, place]
  split
  · rfl
  · rw [Nat.sub_self]

theorem begun_mono (bs p q : Nat) (h : p ≤ q) : begun bs p ≤ begun bs q := Nat.div_le_div_right (by omega)

/-- A wrapper with a meter that stands at `k`. -/
structure MAt (ks : Nat → Vector U8 bs) (hbs : 0 < bs) {σ : Type} (Rel : σ → Nat → Prop) (mb : Option Nat)
    (w : Wrapper bs (σ × Nat)) (p k : Nat) : Prop where
  at_ : At ks hbs (fun s n => Rel s.1 n) mb w p
  meter : w.core.2 = k

theorem MAt.enter {ks : Nat → Vector U8 bs} {hbs : 0 < bs} {σ : Type} {Rel : σ → Nat → Prop} {mb : Option Nat}
    {w : Wrapper bs (σ × Nat)} {p k : Nat} (h : MAt ks hbs Rel mb w p k) : At ks hbs (MeterRel Rel (begun bs p) k) mb w p := by
  obtain ⟨⟨⟨n, h1, h2, h3⟩, h4, h5, h6⟩, hk⟩ := h
  refine ⟨⟨n, ⟨h1, ?_⟩, h2, h3⟩, h4, h5, h6⟩
  rw [hk, begun_of_at hbs p n w.pos h2 h5, Nat.add_comm]

theorem MAt.leave {ks : Nat → Vector U8 bs} {hbs : 0 < bs} {σ : Type} {Rel : σ → Nat → Prop} {mb : Option Nat}
    {w : Wrapper bs (σ × Nat)} {p n₀ k : Nat} (h : At ks hbs (MeterRel Rel n₀ k) mb w p) (hp : n₀ ≤ begun bs p) :
    MAt ks hbs Rel mb w p (k + (begun bs p - n₀)) := by
  obtain ⟨⟨n, h1, h2, h3⟩, h4, h5, h6⟩ := h
  refine ⟨⟨⟨n, h1.1, h2, h3⟩, h4, h5, h6⟩, ?_⟩
  have e := begun_of_at hbs p n w.pos h2 h5
  have := h1.2
  omega

theorem step_metered {C : Core bs χ} {u : Nat} {ks : Nat → Vector U8 bs} {Rel : C.σ → Nat → Prop} {mb : Option Nat}
    (law : CoreLaw C u ks Rel mb) (hbs : 0 < bs) (x : χ) (w : Wrapper bs (C.σ × Nat)) (p k : Nat)
    (hat : MAt ks hbs Rel mb w p k) (op : Op) (hop : FitsUsize u op) :
    ∃ w', Wrapper.step C.metered x w op = .ok ((Cursor.io (byteStream ks hbs) (byteLimit bs mb) p op).1, w') ∧
      MAt ks hbs Rel mb w' (place (byteLimit bs mb) p (.io op)) (k + work bs (byteLimit bs mb) p (.io op)) := by
  obtain ⟨w', h1, h2⟩ := step_spec (law.metered (begun bs p) k) hbs x w p hat.enter op hop
  refine ⟨w', h1, ?_⟩
  rw [io_place] at h2
  rw [place_io_work]
  refine MAt.leave h2 (begun_mono bs _ _ ?_)
  simp only [place]
  split <;> omega

theorem history_metered {C : Core bs χ} {u : Nat} {ks : Nat → Vector U8 bs} {Rel : C.σ → Nat → Prop} {mb : Option Nat}
    (law : CoreLaw C u ks Rel mb) (hbs : 0 < bs) (h : List (χ × Op)) : ∀ (w : Wrapper bs (C.σ × Nat)) (p k : Nat),
    MAt ks hbs Rel mb w p k → (∀ e ∈ h, FitsUsize u e.2) →
    ∃ w', runHistory (fun x w op => Wrapper.step C.metered x w op) h w =
        .ok ((Cursor.run (Cursor.io (byteStream ks hbs) (byteLimit bs mb)) (h.map (·.2)) p).1, w') ∧
      w'.core.2 = k + totalWork bs (byteLimit bs mb) (h.map fun e => .io e.2) p := by
  induction h with
  | nil => intro w p k hat _; exact ⟨w, rfl, hat.meter⟩
  | cons e h ih =>
    intro w p k hat hh
    obtain ⟨x, op⟩ := e
    obtain ⟨w1, h1, hat1⟩ := step_metered law hbs x w p k hat op (hh (x, op) (List.mem_cons_self ..))
    obtain ⟨w2, h2, h3⟩ := ih w1 _ _ hat1 (fun o ho => hh o (List.mem_cons_of_mem _ ho))
    refine ⟨w2, ?_, ?_⟩
    · rw [← io_place (byteStream ks hbs)] at h2
      simp only [runHistory, h1, h2, bind, Except.bind, pure, Except.pure, List.map_cons, Cursor.run]
    · rw [h3]
      simp only [List.map_cons, totalWork]
      omega

theorem within_some (M q : Nat) : Within (some M) q ↔ q ≤ M := by
  constructor
  · exact fun h => h M rfl
  · intro h L e
    cases e; exact h

theorem trySeek_metered {C : SeekCore bs χ} {u : Nat} {ks : Nat → Vector U8 bs} {Rel : C.σ → Nat → Prop} {M : Nat}
    (law : SeekLaw C u ks Rel M) (hbs : 0 < bs) (x : χ) (w : Wrapper bs (C.σ × Nat)) (p k : Nat)
    (hat : MAt ks hbs Rel (some M) w p k) (q : Nat) (hq : q ≤ bs * M ∨ bs * (M + 1) ≤ q) :
    ∃ w', Wrapper.seekStep C.metered x w (.seek q) = .ok ((Cursor.step bs (byteStream ks hbs) (some (bs * M)) p (.seek q)).1, w') ∧
      MAt ks hbs Rel (some M) w' (place (some (bs * M)) p (.seek q)) (k + work bs (some (bs * M)) p (.seek q)) := by
  have hdm := Nat.div_add_mod q bs
  have hml := Nat.mod_lt q hbs
  have hctr := law.ctrMax
  obtain ⟨⟨⟨n, hrel, h2, h3⟩, h4, h5, h6⟩, hk⟩ := hat
  by_cases hin : q ≤ bs * M
  · have hblock : q / bs ≤ M := by
      rw [Nat.div_le_iff_le_mul_add_pred hbs]; omega
    have hset := law.setPos w.core.1 n (q / bs) hrel hblock
    have hw : Within (some (bs * M)) q := (within_some _ _).2 hin
    have hno : ¬ q / bs ≥ 2 ^ C.ctrBits := by omega
    simp only [Cursor.step, place, work, if_pos hw]
    by_cases h0 : q % bs = 0
    · refine ⟨⟨(C.setPos w.core.1 (q / bs), w.core.2), w.buf, bs⟩, ?_, ⟨⟨⟨q / bs, hset, ?_, ?_⟩, ?_, ?_, ?_⟩, ?_⟩⟩
      · show (Wrapper.trySeek C.metered x w q >>= fun r => pure (Obs.done r.1, r.2)) = _
        unfold Wrapper.trySeek
        dsimp only
        rw [if_neg (show ¬ q / bs ≥ 2 ^ C.metered.ctrBits from hno), if_pos h0]
        rfl
      · show q + (bs - bs) = _
        omega
      · intro M' e; cases e; exact hblock
      · exact Nat.le_refl _
      · exact hbs
      · show w.buf.toList.drop bs = window _ _ (bs - bs)
        rw [Nat.sub_self]; simp [window]
      · rw [if_neg (fun h => h.2 h0)]
        exact hk
    · have hlt : q / bs + 1 ≤ M := by
        have h2 : bs * (q / bs) < bs * M := by omega
        exact Nat.lt_of_mul_lt_mul_left h2
      have hr : MeterRel Rel (q / bs) k (C.setPos w.core.1 (q / bs), w.core.2) (q / bs) := ⟨hset, by rw [hk, Nat.add_comm]⟩
      obtain ⟨s2, hs2, hr2⟩ := (law.toCoreLaw.metered (q / bs) k).writeBlock x (C.setPos w.core.1 (q / bs), w.core.2) (q / bs) hr
        (by intro M' e; cases e; exact hlt)
      refine ⟨⟨s2, ks (q / bs), q % bs⟩, ?_, ⟨⟨⟨q / bs + 1, hr2.1, ?_, ?_⟩, ?_, ?_, ?_⟩, ?_⟩⟩
      · show (Wrapper.trySeek C.metered x w q >>= fun r => pure (Obs.done r.1, r.2)) = _
        unfold Wrapper.trySeek
        dsimp only
        rw [if_neg (show ¬ q / bs ≥ 2 ^ C.metered.ctrBits from hno), if_neg h0]
        show ((C.toCore.metered.process x (writeBlockClosure bs) (C.setPos w.core.1 (q / bs), w.core.2) >>= fun r => _) >>= fun r => _) = _
        rw [hs2]; rfl
      · show q + (bs - q % bs) = _
        rw [Nat.mul_succ]; omega
      · intro M' e; cases e; exact hlt
      · show q % bs ≤ bs
        omega
      · show 0 < q % bs
        omega
      · show (ks (q / bs)).toList.drop (q % bs) = window _ _ (bs - q % bs)
        rw [block_window ks hbs, window_drop, hdm]
      · rw [if_pos ⟨hw, h0⟩]
        have := hr2.2
        show s2.2 = k + 1
        omega
  · have hw : ¬ Within (some (bs * M)) q := fun h => hin ((within_some _ _).1 h)
    have hov : q / bs ≥ 2 ^ C.ctrBits := by
      rw [← hctr, ge_iff_le, Nat.le_div_iff_mul_le hbs, Nat.mul_comm]
      omega
    simp only [Cursor.step, place, work, if_neg hw]
    refine ⟨w, ?_, ⟨⟨⟨n, hrel, h2, h3⟩, h4, h5, h6⟩, ?_⟩⟩
    · show (Wrapper.trySeek C.metered x w q >>= fun r => pure (Obs.done r.1, r.2)) = _
      unfold Wrapper.trySeek
      dsimp only
      rw [if_pos (show q / bs ≥ 2 ^ C.metered.ctrBits from hov)]
      rfl
    · rw [if_neg (fun h => hw h.1)]
      exact hk

/-- Reporting the position touches nothing. -/
theorem pos_metered {C : SeekCore bs χ} {u : Nat} {ks : Nat → Vector U8 bs} {Rel : C.σ → Nat → Prop} {M : Nat}
    (law : SeekLaw C u ks Rel M) (hbs : 0 < bs) (x : χ) (w : Wrapper bs (C.σ × Nat)) (p k : Nat)
    (hat : MAt ks hbs Rel (some M) w p k) (m : Nat) :
    Wrapper.seekStep C.metered x w (.pos m) = .ok ((Cursor.step bs (byteStream ks hbs) (some (bs * M)) p (.pos m)).1, w) := by
  obtain ⟨h, -⟩ := hat
  obtain ⟨⟨n, hrel, h2, h3⟩, h4, h5, h6⟩ := h
  obtain ⟨w', h', -⟩ := seekStep_spec law hbs x ⟨w.core.1, w.buf, w.pos⟩ p ⟨⟨n, hrel, h2, h3⟩, h4, h5, h6⟩ (.pos m) trivial
  have e : Wrapper.seekStep C x ⟨w.core.1, w.buf, w.pos⟩ (.pos m) = .ok (.num (Wrapper.tryCurrentPos C ⟨w.core.1, w.buf, w.pos⟩ m), ⟨w.core.1, w.buf, w.pos⟩) := rfl
  have := (Prod.mk.inj (Except.ok.inj (e.symm.trans h'))).1
  rw [← this]
  rfl

theorem seekStep_metered {C : SeekCore bs χ} {u : Nat} {ks : Nat → Vector U8 bs} {Rel : C.σ → Nat → Prop} {M : Nat}
    (law : SeekLaw C u ks Rel M) (hbs : 0 < bs) (x : χ) (w : Wrapper bs (C.σ × Nat)) (p k : Nat)
    (hat : MAt ks hbs Rel (some M) w p k) (op : SeekOp) (hop : FitsSeek u bs M op) :
    ∃ w', Wrapper.seekStep C.metered x w op = .ok ((Cursor.step bs (byteStream ks hbs) (some (bs * M)) p op).1, w') ∧
      MAt ks hbs Rel (some M) w' (place (some (bs * M)) p op) (k + work bs (some (bs * M)) p op) := by
  cases op with
  | io op => exact step_metered law.toCoreLaw hbs x w p k hat op hop
  | seek q => exact trySeek_metered law hbs x w p k hat q hop
  | pos m => exact ⟨w, pos_metered law hbs x w p k hat m, hat⟩

theorem seekHistory_metered {C : SeekCore bs χ} {u : Nat} {ks : Nat → Vector U8 bs} {Rel : C.σ → Nat → Prop} {M : Nat}
    (law : SeekLaw C u ks Rel M) (hbs : 0 < bs) (h : List (χ × SeekOp)) : ∀ (w : Wrapper bs (C.σ × Nat)) (p k : Nat),
    MAt ks hbs Rel (some M) w p k → (∀ e ∈ h, FitsSeek u bs M e.2) →
    ∃ w', runHistory (fun x w op => Wrapper.seekStep C.metered x w op) h w =
        .ok ((Cursor.run (Cursor.step bs (byteStream ks hbs) (some (bs * M))) (h.map (·.2)) p).1, w') ∧
      w'.core.2 = k + totalWork bs (some (bs * M)) (h.map (·.2)) p := by
  induction h with
  | nil => intro w p k hat _; exact ⟨w, rfl, hat.meter⟩
  | cons e h ih =>
    intro w p k hat hh
    obtain ⟨x, op⟩ := e
    obtain ⟨w1, h1, hat1⟩ := seekStep_metered law hbs x w p k hat op (hh (x, op) (List.mem_cons_self ..))
    obtain ⟨w2, h2, h3⟩ := ih w1 _ _ hat1 (fun o ho => hh o (List.mem_cons_of_mem _ ho))
    refine ⟨w2, ?_, ?_⟩
    · rw [← step_place (bs := bs) (byteStream ks hbs)] at h2
      simp only [runHistory, h1, h2, bind, Except.bind, pure, Except.pure, List.map_cons, Cursor.run]
    · rw [h3]
      simp only [List.map_cons, totalWork]
      omega

end Verif
