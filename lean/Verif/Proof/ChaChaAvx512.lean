import Verif.Model.ChaChaAvx512
import Verif.Proof.ChaChaSimd
/-!
# The AVX-512 backend agrees with the portable one
-/
namespace Verif.ChaCha.Avx512
open Verif

/-! ## Lanes -/

theorem lane_map (f : M128 → M128) (x : M512) (k : Nat) : (x.map f).lane k = f (x.lane k) := by
  simp only [M512.lane, M512.map]; split <;> rfl

theorem lane_map2 (f : M128 → M128 → M128) (x y : M512) (k : Nat) :
    (x.map2 f y).lane k = f (x.lane k) (y.lane k) := by
  simp only [M512.lane, M512.map2]; split <;> rfl

theorem lane_broadcast (x : M128) (k : Nat) : (M512.broadcast x).lane k = x := by
  simp only [M512.lane, M512.broadcast]; split <;> rfl

def laneRows (k : Nat) (r : Rows M512) : Rows M128 := ⟨r.a.lane k, r.b.lane k, r.c.lane k, r.d.lane k⟩

def axr512 (r : Rows M512) : Rows M512 := stepCB 7 (stepAD 8 (stepCB 12 (stepAD 16 r)))

theorem lane_axr512 (k : Nat) (r : Rows M512) : laneRows k (axr512 r) = (laneRows k r).columns qr := by
  rw [← axr_eq]
  simp only [axr512, stepCB, stepAD, laneRows, axr, M512.addEpi32, M512.xor, M512.rolEpi32, lane_map, lane_map2,
    M128.rolEpi32]

def dqr1 (r : Rows M512) : Rows M512 := colsToRows1 (axr512 (rowsToCols1 (axr512 r)))

theorem doubleQuarterRound_eq {N : Nat} (v : Vector (Rows M512) N) : doubleQuarterRound v = v.map dqr1 := by
  simp only [doubleQuarterRound, addXorRot, Vector.map_map]; rfl

theorem lane_dqr1 (k : Nat) (r : Rows M512) : (laneRows k (dqr1 r)).words = doubleRound (laneRows k r).words := by
  have h1 : ∀ r, laneRows k (rowsToCols1 r) = Sse2.rowsToCols1 (laneRows k r) := fun _ => by
    simp only [laneRows, rowsToCols1, Sse2.rowsToCols1, M512.shuffleEpi32, lane_map]
  have h2 : ∀ r, laneRows k (colsToRows1 r) = Sse2.colsToRows1 (laneRows k r) := fun _ => by
    simp only [laneRows, colsToRows1, Sse2.colsToRows1, M512.shuffleEpi32, lane_map]
  rw [dqr1, h2, lane_axr512, h1, lane_axr512]
  exact words_doubleRound_acd _

theorem lane_iter (k n : Nat) (r : Rows M512) :
    (laneRows k (iter n dqr1 r)).words = iter n doubleRound (laneRows k r).words := by
  induction n generalizing r with
  | zero => rfl
  | succ n ih => rw [iter, iter, ih, lane_dqr1]

theorem lane_rounds {N : Nat} (dr : Nat) (v : Vector M512 3) (c : Vector M512 N) (i : Nat) (hi : i < N) (k : Nat) :
    (laneRows k (rounds dr v c)[i]).words = runRounds dr (laneRows k ⟨v[0], v[1], v[2], c[i]⟩).words := by
  simp only [rounds, funext doubleQuarterRound_eq, iter_vector_map]
  simp only [Vector.getElem_ofFn, Vector.getElem_map, Fin.getElem_fin]
  have : ∀ x y : Rows M512, laneRows k ⟨x.a.addEpi32 y.a, x.b.addEpi32 y.b, x.c.addEpi32 y.c, x.d.addEpi32 y.d⟩ =
      ⟨(laneRows k x).a.addEpi32 (laneRows k y).a, (laneRows k x).b.addEpi32 (laneRows k y).b,
       (laneRows k x).c.addEpi32 (laneRows k y).c, (laneRows k x).d.addEpi32 (laneRows k y).d⟩ := by
    intro x y
    simp only [laneRows, M512.addEpi32, lane_map2]
  rw [this _ ⟨v[0], v[1], v[2], c[i]⟩, Rows.words_add, lane_iter]
  rfl

theorem lane_setCtr32 (f : Nat → U32) : ∀ j, j < 4 →
    (M512.setCtr32 (f 3) (f 2) (f 1) (f 0)).lane j = .setEpi32 0 0 0 (f j) := by
  apply forall_lt4 <;> rfl

theorem lane_setCtr64 (f : Nat → U64) : ∀ j, j < 4 →
    (M512.setCtr64 (f 3) (f 2) (f 1) (f 0)).lane j = .setEpi64x 0 (f j) := by
  apply forall_lt4 <;> rfl

theorem lane_ctrReg (V : Variant) (ctr : M128) (i j : Nat) (hj : j < 4) :
    (ctrReg V (.broadcast ctr) i).lane j = Sse2.ctrAdd V ctr (i * 4 + j) := by
  cases V
  · rw [ctrReg, if_pos (by decide), M512.addEpi32, lane_map2, lane_broadcast, Sse2.ctrAdd, if_pos (by decide)]
    exact congrArg _ (lane_setCtr32 (fun j => BitVec.ofNat 32 (i * 4 + j)) j hj)
  · rw [ctrReg, if_neg (by decide), M512.addEpi64, lane_map2, lane_broadcast, Sse2.ctrAdd, if_neg (by decide)]
    exact congrArg _ (lane_setCtr64 (fun j => BitVec.ofNat 64 (i * 4 + j)) j hj)

theorem lane_ctrs (N : Nat) (V : Variant) (ctr : M128) (i : Nat) (hi : i < N) (j : Nat) (hj : j < 4) :
    (ctrs N V ctr)[i].lane j = Sse2.ctrAdd V ctr (i * 4 + j) := by
  rw [ctrs, Vector.getElem_ofFn]
  simp only [Fin.getElem_fin, Vector.getElem_replicate]
  exact lane_ctrReg V ctr i j hj

theorem store_transpose (r : Rows M512) (j : Nat) (hj : j < 4) : store (transpose r)[j] = (laneRows j r).store := by
  revert j; apply forall_lt4 <;> rfl

/-! ## Writing the output slice -/

/-- The blocks with index in `S` have been written. -/
def Good (n : Nat) (f : Nat → Block) (S : Nat → Prop) (out : List Block) : Prop :=
  out.length = n ∧ ∀ k, k < n → S k → out[k]? = some (f k)

theorem fold_good {ι : Type} {n : Nat} {f : Nat → Block} (step : List Block → ι → List Block) (D : ι → Nat → Prop)
    (h : ∀ out i S, Good n f S out → Good n f (fun k => S k ∨ D i k) (step out i)) (l : List ι) :
    ∀ S out, Good n f S out → Good n f (fun k => S k ∨ ∃ i ∈ l, D i k) (l.foldl step out) := by
  induction l with
  | nil => intro S out hg; exact ⟨hg.1, fun k hk hs => hg.2 k hk (by simpa using hs)⟩
  | cons i l ih =>
    intro S out hg
    have := ih _ _ (h out i S hg)
    refine ⟨this.1, fun k hk hs => this.2 k hk ?_⟩
    rcases hs with hs | ⟨i', hi', hd⟩
    · exact .inl (.inl hs)
    · rcases List.mem_cons.mp hi' with rfl | hi'
      · exact .inl (.inr hd)
      · exact .inr ⟨i', hi', hd⟩

theorem good_set {n : Nat} {f : Nat → Block} {S : Nat → Prop} {out : List Block} (hg : Good n f S out) (dst : Nat)
    (b : Block) (hb : b = f dst) :
    Good n f (fun k => S k ∨ k = dst) (if dst < out.length then out.set dst b else out) := by
  subst hb
  split
  · rename_i hd
    refine ⟨by simp [hg.1], fun k hk hs => ?_⟩
    by_cases hkd : k = dst
    · subst hkd; simp [hd]
    · rw [List.getElem?_set_ne (Ne.symm hkd)]
      exact hg.2 k hk (hs.resolve_right hkd)
  · rename_i hd
    refine ⟨hg.1, fun k hk hs => ?_⟩
    rcases hs with hs | rfl
    · exact hg.2 k hk hs
    · exact absurd (hg.1 ▸ hk) hd

theorem good_all {n : Nat} {f : Nat → Block} {S : Nat → Prop} {out : List Block} (hg : Good n f S out)
    (hS : ∀ k, k < n → S k) : out = (List.range n).map f := by
  apply List.ext_getElem?
  intro k
  by_cases hk : k < n
  · rw [hg.2 k hk (hS k hk)]; simp [hk]
  · rw [List.getElem?_eq_none (by rw [hg.1]; omega), List.getElem?_eq_none (by simp; omega)]

theorem writeBlocks_eq {N : Nat} (result : Vector (Rows M512) N) (f : Nat → Block) (blocks : List Block)
    (hlen : blocks.length ≤ N * 4)
    (h : ∀ i (hi : i < N) j, j < 4 → (laneRows j result[i]).store = f (i * 4 + j)) :
    writeBlocks result blocks = (List.range blocks.length).map f := by
  have h0 : Good blocks.length f (fun _ => False) blocks := ⟨rfl, fun _ _ h => h.elim⟩
  have := fold_good (fun blocks (i : Fin N) => (List.finRange 4).foldl (fun blocks j =>
      if i.val * 4 + j.val < blocks.length then blocks.set (i.val * 4 + j.val) (store (transpose result[i])[j])
      else blocks) blocks)
    (fun i k => ∃ j ∈ List.finRange 4, k = i.val * 4 + j.val)
    (fun out i S hg => fold_good _ (fun (j : Fin 4) k => k = i.val * 4 + j.val)
      (fun out j S hg => good_set hg _ _ (by
        rw [Fin.getElem_fin, Fin.getElem_fin, store_transpose _ _ j.isLt, h i.val i.isLt j.val j.isLt])) _ S out hg)
    (List.finRange N) _ _ h0
  refine good_all (S := _) this fun k hk => .inr ⟨⟨k / 4, by omega⟩, List.mem_finRange _, ⟨k % 4, by omega⟩,
    List.mem_finRange _, ?_⟩
  show k = k / 4 * 4 + k % 4
  omega

/-! ## The three widths -/

/-- The rows held by the registers. -/
def rows (g : Regs) : Rows M128 := ⟨g.state[0], g.state[1], g.state[2], g.ctr⟩

theorem incrementCtr_eq (V : Variant) (g : Regs) (k : Nat) :
    incrementCtr V g k = { g with ctr := Sse2.ctrAdd V g.ctr k } := by
  cases V <;> rfl

theorem words_incrementCtr (V : Variant) (g : Regs) (k : Nat) :
    (rows (incrementCtr V g k)).words = advance V k (rows g).words := by
  rw [incrementCtr_eq]
  exact Sse2.words_ctrAdd V g.state[0] g.state[1] g.state[2] g.ctr k

theorem state_incrementCtr (V : Variant) (g : Regs) (k : Nat) : (incrementCtr V g k).state = g.state := by
  rw [incrementCtr_eq]

theorem genFull_eq (N dr : Nat) (V : Variant) (blocks : List Block) (g : Regs) (h : blocks.length ≤ N * 4) :
    genFull N dr V blocks g =
      .ok ((List.range blocks.length).map fun i => leBytes (runRounds dr (advance V i (rows g).words)),
        incrementCtr V g blocks.length) := by
  have hw := writeBlocks_eq (rounds dr (g.state.map .broadcast) (ctrs N V g.ctr))
    (fun k => leBytes (runRounds dr (advance V k (rows g).words))) blocks h (by
      intro i hi j hj
      rw [Rows.store, lane_rounds]
      congr 2
      simp only [laneRows, Vector.getElem_map, lane_broadcast, lane_ctrs N V g.ctr i hi j hj, Sse2.words_ctrAdd, rows])
  simp only [genFull, state_incrementCtr, hw, not_true_eq_false, if_false, h]

theorem doubleQuarterRoundQuarter_words (r : Rows M128) :
    (doubleQuarterRoundQuarter r).words = doubleRound r.words := by
  have h : ∀ r, addXorRotQuarter r = r.columns qr := fun r => by rw [← axr_eq]; rfl
  simp only [doubleQuarterRoundQuarter, h]
  exact words_doubleRound_acd _

theorem roundsQuarter_words (dr : Nat) (v : Rows M128) : (roundsQuarter dr v).words = runRounds dr v.words := by
  simp only [roundsQuarter]
  rw [Rows.words_add, words_iter _ doubleQuarterRoundQuarter_words]
  rfl

theorem genBlock_eq (dr : Nat) (V : Variant) (g : Regs) :
    genBlock dr V g = .ok (leBytes (runRounds dr (rows g).words), incrementCtr V g 1) := by
  simp only [genBlock, Rows.store, roundsQuarter_words]
  rfl

theorem low_axrHalf (r : Rows M256) : Avx2.lowRows (addXorRotHalf r) = (Avx2.lowRows r).columns qr := by
  rw [← axr_eq]; rfl

theorem high_axrHalf (r : Rows M256) : Avx2.highRows (addXorRotHalf r) = (Avx2.highRows r).columns qr := by
  rw [← axr_eq]; rfl

theorem low_dqrHalf (r : Rows M256) :
    (Avx2.lowRows (doubleQuarterRoundHalf r)).words = doubleRound (Avx2.lowRows r).words := by
  have h1 : ∀ r, Avx2.lowRows (rowsToColsHalf r) = Sse2.rowsToCols1 (Avx2.lowRows r) := fun _ => rfl
  have h2 : ∀ r, Avx2.lowRows (colsToRowsHalf r) = Sse2.colsToRows1 (Avx2.lowRows r) := fun _ => rfl
  simp only [doubleQuarterRoundHalf]
  rw [h2, low_axrHalf, h1, low_axrHalf]
  exact words_doubleRound_acd _

theorem high_dqrHalf (r : Rows M256) :
    (Avx2.highRows (doubleQuarterRoundHalf r)).words = doubleRound (Avx2.highRows r).words := by
  have h1 : ∀ r, Avx2.highRows (rowsToColsHalf r) = Sse2.rowsToCols1 (Avx2.highRows r) := fun _ => rfl
  have h2 : ∀ r, Avx2.highRows (colsToRowsHalf r) = Sse2.colsToRows1 (Avx2.highRows r) := fun _ => rfl
  simp only [doubleQuarterRoundHalf]
  rw [h2, high_axrHalf, h1, high_axrHalf]
  exact words_doubleRound_acd _

theorem low_roundsHalf (dr : Nat) (v : Rows M256) :
    (Avx2.lowRows (roundsHalf dr v)).words = runRounds dr (Avx2.lowRows v).words := by
  have hi : ∀ n r, (Avx2.lowRows (iter n doubleQuarterRoundHalf r)).words = iter n doubleRound (Avx2.lowRows r).words := by
    intro n
    induction n with
    | zero => intro r; rfl
    | succ n ih => intro r; rw [iter, iter, ih, low_dqrHalf]
  refine (Rows.words_add (Avx2.lowRows (iter dr doubleQuarterRoundHalf v)) (Avx2.lowRows v)).trans ?_
  rw [hi]; rfl

theorem high_roundsHalf (dr : Nat) (v : Rows M256) :
    (Avx2.highRows (roundsHalf dr v)).words = runRounds dr (Avx2.highRows v).words := by
  have hi : ∀ n r, (Avx2.highRows (iter n doubleQuarterRoundHalf r)).words = iter n doubleRound (Avx2.highRows r).words := by
    intro n
    induction n with
    | zero => intro r; rfl
    | succ n ih => intro r; rw [iter, iter, ih, high_dqrHalf]
  refine (Rows.words_add (Avx2.highRows (iter dr doubleQuarterRoundHalf v)) (Avx2.highRows v)).trans ?_
  rw [hi]; rfl

/-- Start of the half-wide computation. -/
def halfStart (V : Variant) (g : Regs) : Rows M256 :=
  ⟨.broadcast g.state[0], .broadcast g.state[1], .broadcast g.state[2], Avx2.ctrAdd V (.broadcast g.ctr) 1 0⟩

theorem low_halfStart (V : Variant) (g : Regs) : (Avx2.lowRows (halfStart V g)).words = (rows g).words := by
  have : (Avx2.ctrAdd V (.broadcast g.ctr) 1 0).lo = Sse2.ctrAdd V g.ctr 0 := Avx2.ctrAdd_lo ..
  simp only [halfStart, Avx2.lowRows, this, Sse2.words_ctrAdd, advance_zero]
  rfl

theorem high_halfStart (V : Variant) (g : Regs) :
    (Avx2.highRows (halfStart V g)).words = advance V 1 (rows g).words := by
  have : (Avx2.ctrAdd V (.broadcast g.ctr) 1 0).hi = Sse2.ctrAdd V g.ctr 1 := Avx2.ctrAdd_hi ..
  simp only [halfStart, Avx2.highRows, this, Sse2.words_ctrAdd]
  rfl

theorem writeHalf_eq (r : Rows M256) (b0 b1 : Block) :
    writeHalf (halfParts r) [b0, b1] = [(Avx2.lowRows r).store, (Avx2.highRows r).store] := rfl

theorem genHalf_eq (dr : Nat) (V : Variant) (b0 b1 : Block) (g : Regs) :
    genHalf dr V [b0, b1] g =
      .ok ((List.range 2).map fun i => leBytes (runRounds dr (advance V i (rows g).words)), incrementCtr V g 2) := by
  have h : genHalf dr V [b0, b1] g =
      .ok ([(Avx2.lowRows (roundsHalf dr (halfStart V g))).store, (Avx2.highRows (roundsHalf dr (halfStart V g))).store],
        incrementCtr V g 2) := by
    have hc : (if V.ctrBytes = 4 then (M256.broadcast g.ctr).addEpi32 (.setEpi32 0 0 0 1 0 0 0 0)
        else (M256.broadcast g.ctr).addEpi64 (.setEpi64x 0 1 0 0)) = Avx2.ctrAdd V (.broadcast g.ctr) 1 0 := rfl
    have hn : ¬ ¬ [b0, b1].length ≤ 2 := fun h => h (Nat.le_refl 2)
    simp only [genHalf, state_incrementCtr, hc, if_neg hn]
    exact congrArg (fun l => Except.ok (l, incrementCtr V g 2)) (writeHalf_eq _ b0 b1)
  rw [h, Rows.store, Rows.store, low_roundsHalf, high_roundsHalf, low_halfStart, high_halfStart]
  have : List.range 2 = [0, 1] := rfl
  simp only [this, List.map_cons, List.map_nil, advance_zero]

theorem genTailInto_eq (dr : Nat) (V : Variant) (blocks : List Block) (g : Regs) (h : blocks.length < 16) :
    genTailInto dr V blocks g =
      .ok ((List.range blocks.length).map fun i => leBytes (runRounds dr (advance V i (rows g).words)),
        incrementCtr V g blocks.length) := by
  rw [genTailInto.eq_def, if_neg (by simpa using h)]
  split
  · have : incrementCtr V g 0 = g := by
      rw [incrementCtr_eq]
      have : Sse2.ctrAdd V g.ctr 0 = g.ctr := by
        have := Sse2.words_ctrAdd V g.state[0] g.state[1] g.state[2] g.ctr 0
        rw [advance_zero] at this
        exact congrArg (fun w => (Rows.load w).d) this
      rw [this]
    simp [this]
  · rename_i b bs
    split
    · rename_i h1
      have : bs = [] := by simpa using h1
      subst this
      simp [genBlock_eq, bind, Except.bind, pure, Except.pure, advance_zero]
    · split
      · rename_i h1 h2
        obtain ⟨b1, rfl⟩ : ∃ b1, bs = [b1] := by
          match bs, h2 with
          | [b1], _ => exact ⟨b1, rfl⟩
        exact genHalf_eq dr V b b1 g
      · split
        · exact genFull_eq 1 dr V _ g (by omega)
        · split
          · exact genFull_eq 2 dr V _ g (by omega)
          · exact genFull_eq 4 dr V _ g (by omega)

/-! ## Simulation -/

def Rep (V : Variant) (s0 : State) (g : Regs) (s : State) : Prop := (rows g).words = s ∧ ∃ k, s = advance V k s0

theorem Rep.step {V : Variant} {s0 : State} {g : Regs} {s : State} (h : Rep V s0 g s) (n : Nat) :
    Rep V s0 (incrementCtr V g n) (advance V n s) := by
  obtain ⟨rfl, k, hk⟩ := h
  refine ⟨words_incrementCtr V g n, k + n, ?_⟩
  rw [hk, advance_advance]

/-- The AVX-512 backend is indistinguishable from the portable block function run sixteen at a time, whatever
the output slices contained before. -/
theorem inner_eq {α : Type} (dr : Nat) (V : Variant) (old : Nat → List Block) (hold : ∀ n, (old n).length = n)
    (f : Closure 64 α) (s : State) :
    inner dr V old f s = (Backend.ofBlock 16 (softGenBlock dr V)).call f s := by
  have h : RelE (Rep V s) ((backend dr V old).call f ⟨#v[(Rows.load s).a, (Rows.load s).b, (Rows.load s).c], (Rows.load s).d⟩)
      ((Backend.ofBlock 16 (softGenBlock dr V)).call f s) := by
    refine Prog.run_rel _ _ ?_ ?_ ?_ _ _ _ ⟨Rows.words_load s, 0, (advance_zero V s).symm⟩
    · intro g t h
      simp only [backend, Backend.ofBlock, genBlock_eq, softGenBlock_eq, h.1]
      exact .ok _ _ _ (h.step 1)
    · intro g t h
      simp only [backend, Backend.ofBlock, genMany_soft, genFull_eq 4 dr V (old 16) g (by rw [hold]; decide), h.1, hold]
      exact .ok _ _ _ (h.step 16)
    · intro n g t h
      simp only [backend, Backend.ofBlock, genMany_soft]
      split
      · rename_i hn
        rw [genTailInto_eq dr V (old n) g (by rw [hold]; exact hn), h.1, hold]
        exact .ok _ _ _ (h.step n)
      · rename_i hn
        rw [genTailInto.eq_def, if_pos (by rw [hold]; exact hn)]
        exact .error _
  simp only [inner]
  revert h
  generalize Backend.call (backend dr V old) f _ = x
  generalize Backend.call _ f s = y
  intro h
  cases h with
  | error p => rfl
  | ok a g t h =>
    obtain ⟨hw, k, hk⟩ := h
    simp only [bind, Except.bind, pure, Except.pure]
    have h12 : g.ctr.x0 = t[12] := by rw [← hw]; rfl
    have h13 : g.ctr.x1 = t[13] := by rw [← hw]; rfl
    congr 2
    rw [h12, h13, hk]
    exact writeBack V k s

end Verif.ChaCha.Avx512
