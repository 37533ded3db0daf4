import Verif.Model.ChaChaSse2
import Verif.Model.ChaChaAvx2
import Verif.Model.ChaChaNeon
import Verif.Proof.Simd
import Verif.Proof.BackendSim
/-!
# SSE2, AVX2 and NEON backends agree with the portable one
-/
namespace Verif.ChaCha
open Verif

theorem softGenBlock_eq (dr : Nat) (V : Variant) (s : State) :
    softGenBlock dr V s = .ok (leBytes (runRounds dr s), advance V 1 s) := by
  simp only [softGenBlock, softAdvance_eq]

theorem genMany_soft (dr : Nat) (V : Variant) (n : Nat) (s : State) :
    genMany (softGenBlock dr V) n s =
      .ok ((List.range n).map fun i => leBytes (runRounds dr (advance V i s)), advance V n s) :=
  genMany_ok _ _ (advance V) (advance_zero V)
    (fun k s => by rw [advance_advance, Nat.add_comm]) (softGenBlock_eq dr V) n s

/-- Writing back the counter words of an advanced state. -/
theorem writeBack (V : Variant) (k : Nat) (s : State) :
    (if V.ctrBytes = 8 then (s.set 12 (advance V k s)[12]).set 13 (advance V k s)[13]
      else s.set 12 (advance V k s)[12]) = advance V k s := by
  cases V
  · simp [Variant.ctrBytes, advance_ietf]
  · simp only [Variant.ctrBytes, if_true, advance_legacy, Legacy.setBlockPos]
    apply Vector.ext; intro i hi
    simp only [Vector.getElem_set]
    split
    · simp
    · split <;> simp

theorem advance_getElem_ge (V : Variant) (k : Nat) (s : State) (i : Nat) (h : i < 16) (h12 : i ≠ 12) (h13 : i ≠ 13) :
    (advance V k s)[i] = s[i] := by
  cases V
  · simp [advance_ietf, Ne.symm h12]
  · simp [advance_legacy, Legacy.setBlockPos, Ne.symm h12, Ne.symm h13]

theorem words_iter (f : Rows M128 → Rows M128) (hf : ∀ r, (f r).words = doubleRound r.words) (n : Nat) (r : Rows M128) :
    (iter n f r).words = iter n doubleRound r.words := by
  induction n generalizing r with
  | zero => rfl
  | succ n ih => rw [iter, iter, ih, hf]

theorem iter_vector_map {α : Type} {m : Nat} (f : α → α) (n : Nat) (v : Vector α m) :
    iter n (fun v => v.map f) v = v.map (iter n f) := by
  induction n generalizing v with
  | zero => simp [iter]
  | succ n ih => rw [iter, ih, Vector.map_map]; rfl

theorem slli_xor_srli (x : M128) (n : Nat) (h : n < 32) :
    (x.slliEpi32 n).xor (x.srliEpi32 (32 - n)) = x.map (·.rotateLeft n) := by
  simp only [M128.slliEpi32, M128.srliEpi32, M128.xor, M128.map2, M128.map, shl_xor_shr _ n h]

theorem slli_or_srli (x : M128) (n : Nat) (h : n < 32) :
    (x.slliEpi32 n).or (x.srliEpi32 (32 - n)) = x.map (·.rotateLeft n) := by
  simp only [M128.slliEpi32, M128.srliEpi32, M128.or, M128.map2, M128.map, shl_or_shr _ n h]

/-- The quarter round of the backends, with the rotations already identified. -/
def axr (r : Rows M128) : Rows M128 :=
  let a := r.a.addEpi32 r.b
  let d := (r.d.xor a).map (·.rotateLeft 16)
  let c := r.c.addEpi32 d
  let b := (r.b.xor c).map (·.rotateLeft 12)
  let a := a.addEpi32 b
  let d := (d.xor a).map (·.rotateLeft 8)
  let c := c.addEpi32 d
  let b := (b.xor c).map (·.rotateLeft 7)
  ⟨a, b, c, d⟩

theorem axr_eq (r : Rows M128) : axr r = r.columns qr := rfl

theorem toList_store {n : Nat} (res : Vector (Rows M128) n) (f : Nat → State)
    (h : ∀ i (hi : i < n), res[i].words = f i) :
    res.toList.map Rows.store = (List.range n).map fun i => (leBytes (f i) : Block) := by
  apply List.ext_getElem (by simp)
  intro i h1 h2
  simp only [List.length_map, Vector.length_toList] at h1
  simp only [List.getElem_map, Vector.getElem_toList, List.getElem_range, Rows.store, h i h1]

/-! ## SSE2 -/
namespace Sse2

theorem addXorRot1_eq (r : Rows M128) : addXorRot1 r = r.columns qr := by
  rw [← axr_eq]
  simp only [addXorRot1, axr]
  rw [slli_xor_srli _ 16 (by decide), slli_xor_srli _ 12 (by decide), slli_xor_srli _ 8 (by decide),
    slli_xor_srli _ 7 (by decide)]

def dqr1 (r : Rows M128) : Rows M128 := colsToRows1 (addXorRot1 (rowsToCols1 (addXorRot1 r)))

theorem words_dqr1 (r : Rows M128) : (dqr1 r).words = doubleRound r.words := by
  rw [dqr1, addXorRot1_eq, addXorRot1_eq]
  exact words_doubleRound_acd r

theorem doubleQuarterRound_eq (v : Vector (Rows M128) 4) : doubleQuarterRound v = v.map dqr1 := by
  simp only [doubleQuarterRound, Vector.map_map]; rfl

theorem words_ctrAdd (V : Variant) (a b c d : M128) (k : Nat) :
    (Rows.mk a b c (ctrAdd V d k)).words = advance V k (Rows.mk a b c d).words := by
  cases V
  · exact words_ctr_ietf a b c d k
  · exact words_ctr_legacy a b c d k

theorem rounds_getElem (dr : Nat) (V : Variant) (v : Rows M128) (i : Nat) (hi : i < 4) :
    (rounds dr V v)[i].words = runRounds dr (advance V i v.words) := by
  have hstart : ∀ i, i < 4 → (if i = 0 then v else { v with d := ctrAdd V v.d i }).words = advance V i v.words := by
    intro i _
    split
    · subst i; rw [advance_zero]
    · exact words_ctrAdd V v.a v.b v.c v.d i
  simp only [rounds, funext doubleQuarterRound_eq, iter_vector_map]
  simp only [Vector.getElem_ofFn, Vector.getElem_map, Fin.getElem_fin, Vector.getElem_replicate]
  refine (Rows.words_add _ ⟨v.a, v.b, v.c, ctrAdd V v.d i⟩).trans ?_
  rw [words_ctrAdd, words_iter _ words_dqr1, hstart i hi]
  rfl

/-- Registers represent the state. -/
def Rep (V : Variant) (s0 : State) (v : Rows M128) (s : State) : Prop := v.words = s ∧ ∃ k, s = advance V k s0

theorem genBlock_rel (dr : Nat) (V : Variant) (s0 : State) (v : Rows M128) (s : State) (h : Rep V s0 v s) :
    RelE (Rep V s0) (genBlock dr V v) (softGenBlock dr V s) := by
  obtain ⟨rfl, k, hk⟩ := h
  rw [softGenBlock_eq]
  have h0 := rounds_getElem dr V v 0 (by decide)
  rw [advance_zero] at h0
  have : genBlock dr V v = .ok (leBytes (runRounds dr v.words), { v with d := ctrAdd V v.d 1 }) := by
    simp only [genBlock, Rows.store, h0]
  rw [this]
  refine .ok _ _ _ ⟨words_ctrAdd V v.a v.b v.c v.d 1, k + 1, ?_⟩
  rw [hk, advance_advance]

theorem genPar_rel (dr : Nat) (V : Variant) (s0 : State) (v : Rows M128) (s : State) (h : Rep V s0 v s) :
    RelE (Rep V s0) (genPar dr V v) (genMany (softGenBlock dr V) 4 s) := by
  obtain ⟨rfl, k, hk⟩ := h
  rw [genMany_soft]
  have hl := toList_store (rounds dr V v) (fun i => runRounds dr (advance V i v.words)) (rounds_getElem dr V v)
  have : genPar dr V v = .ok ((List.range 4).map fun i => leBytes (runRounds dr (advance V i v.words)),
      { v with d := ctrAdd V v.d 4 }) := by
    rw [genPar, hl]
  rw [this]
  refine .ok _ _ _ ⟨words_ctrAdd V v.a v.b v.c v.d 4, k + 4, ?_⟩
  rw [hk, advance_advance]

/-- The SSE2 backend is indistinguishable from the portable block function run four at a time, for every
client, including panics and the state left behind. -/
theorem inner_eq {α : Type} (dr : Nat) (V : Variant) (f : Closure 64 α) (s : State) :
    inner dr V f s = (Backend.ofBlock 4 (softGenBlock dr V)).call f s := by
  have h := Backend.call_rel_ofBlock (genBlock_rel dr V s) (genPar_rel dr V s) f (Rows.load s) s
    ⟨Rows.words_load s, 0, (advance_zero V s).symm⟩
  simp only [inner, backend]
  revert h
  generalize Backend.call _ f (Rows.load s) = x
  generalize Backend.call _ f s = y
  intro h
  cases h with
  | error p => rfl
  | ok a v t h =>
    obtain ⟨hw, k, hk⟩ := h
    simp only [bind, Except.bind, pure, Except.pure]
    have h12 : v.d.x0 = t[12] := by rw [← hw]; rfl
    have h13 : v.d.x1 = t[13] := by rw [← hw]; rfl
    congr 2
    rw [h12, h13, hk]
    exact writeBack V k s

end Sse2

/-! ## AVX2 -/
namespace Avx2

theorem shuffle_rol16 (x : M128) : x.shuffleEpi8 rol16Mask.lo = x.map (·.rotateLeft 16) := by
  simp only [M128.map, ← bytes_rol16]
  rfl

theorem shuffle_rol8 (x : M128) : x.shuffleEpi8 rol8Mask.lo = x.map (·.rotateLeft 8) := by
  simp only [M128.map, ← bytes_rol8]
  rfl

def axr256 (r : Rows M256) : Rows M256 := stepCB 7 25 (stepAD rol8Mask (stepCB 12 20 (stepAD rol16Mask r)))

theorem addXorRot_eq (vs : Vector (Rows M256) 2) : addXorRot vs = vs.map axr256 := by
  simp only [addXorRot, Vector.map_map]; rfl

theorem low_axr256 (r : Rows M256) : lowRows (axr256 r) = (lowRows r).columns qr := by
  rw [← axr_eq]
  simp only [axr256, stepCB, stepAD, lowRows, axr, M256.addEpi32, M256.xor, M256.shuffleEpi8, M256.map2, M256.slliEpi32,
    M256.srliEpi32, M256.map, shuffle_rol16, shuffle_rol8, slli_xor_srli _ 12 (by decide : 12 < 32),
    slli_xor_srli _ 7 (by decide : 7 < 32)]

theorem high_axr256 (r : Rows M256) : highRows (axr256 r) = (highRows r).columns qr := by
  rw [← axr_eq]
  have h16 : rol16Mask.hi = rol16Mask.lo := rfl
  have h8 : rol8Mask.hi = rol8Mask.lo := rfl
  simp only [axr256, stepCB, stepAD, highRows, axr, M256.addEpi32, M256.xor, M256.shuffleEpi8, M256.map2, M256.slliEpi32,
    M256.srliEpi32, M256.map, h16, h8, shuffle_rol16, shuffle_rol8, slli_xor_srli _ 12 (by decide : 12 < 32),
    slli_xor_srli _ 7 (by decide : 7 < 32)]

def dqr1 (r : Rows M256) : Rows M256 := colsToRows1 (axr256 (rowsToCols1 (axr256 r)))

theorem doubleQuarterRound_eq (v : Vector (Rows M256) 2) : doubleQuarterRound v = v.map dqr1 := by
  simp only [doubleQuarterRound, addXorRot_eq, Vector.map_map]; rfl

theorem low_dqr1 (r : Rows M256) : (lowRows (dqr1 r)).words = doubleRound (lowRows r).words := by
  have h1 : ∀ r, lowRows (rowsToCols1 r) = Sse2.rowsToCols1 (lowRows r) := fun _ => rfl
  have h2 : ∀ r, lowRows (colsToRows1 r) = Sse2.colsToRows1 (lowRows r) := fun _ => rfl
  rw [dqr1, h2, low_axr256, h1, low_axr256]
  exact words_doubleRound_acd _

theorem high_dqr1 (r : Rows M256) : (highRows (dqr1 r)).words = doubleRound (highRows r).words := by
  have h1 : ∀ r, highRows (rowsToCols1 r) = Sse2.rowsToCols1 (highRows r) := fun _ => rfl
  have h2 : ∀ r, highRows (colsToRows1 r) = Sse2.colsToRows1 (highRows r) := fun _ => rfl
  rw [dqr1, h2, high_axr256, h1, high_axr256]
  exact words_doubleRound_acd _

theorem low_iter (n : Nat) (r : Rows M256) : (lowRows (iter n dqr1 r)).words = iter n doubleRound (lowRows r).words := by
  induction n generalizing r with
  | zero => rfl
  | succ n ih => rw [iter, iter, ih, low_dqr1]

theorem high_iter (n : Nat) (r : Rows M256) :
    (highRows (iter n dqr1 r)).words = iter n doubleRound (highRows r).words := by
  induction n generalizing r with
  | zero => rfl
  | succ n ih => rw [iter, iter, ih, high_dqr1]

/-- The input rows of register pair `i`. -/
def start (g : Regs) (i : Nat) (hi : i < 2) : Rows M256 := ⟨g.v[0], g.v[1], g.v[2], g.ctr[i]⟩

theorem low_rounds (dr : Nat) (g : Regs) (i : Nat) (hi : i < 2) :
    (lowRows (rounds dr g)[i]).words = runRounds dr (lowRows (start g i hi)).words := by
  simp only [rounds, funext doubleQuarterRound_eq, iter_vector_map]
  simp only [Vector.getElem_ofFn, Vector.getElem_map, Fin.getElem_fin]
  refine (Rows.words_add (lowRows (iter dr dqr1 (start g i hi))) (lowRows (start g i hi))).trans ?_
  rw [low_iter]
  rfl

theorem high_rounds (dr : Nat) (g : Regs) (i : Nat) (hi : i < 2) :
    (highRows (rounds dr g)[i]).words = runRounds dr (highRows (start g i hi)).words := by
  simp only [rounds, funext doubleQuarterRound_eq, iter_vector_map]
  simp only [Vector.getElem_ofFn, Vector.getElem_map, Fin.getElem_fin]
  refine (Rows.words_add (highRows (iter dr dqr1 (start g i hi))) (highRows (start g i hi))).trans ?_
  rw [high_iter]
  rfl

theorem ctrAdd_lo (V : Variant) (c : M256) (hi lo : Nat) : (ctrAdd V c hi lo).lo = Sse2.ctrAdd V c.lo lo := by
  cases V <;> rfl

theorem ctrAdd_hi (V : Variant) (c : M256) (hi lo : Nat) : (ctrAdd V c hi lo).hi = Sse2.ctrAdd V c.hi hi := by
  cases V <;> rfl

/-- Registers represent four consecutive states. -/
structure Lanes (V : Variant) (g : Regs) (s : State) : Prop where
  l0 : (lowRows (start g 0 (by decide))).words = s
  h0 : (highRows (start g 0 (by decide))).words = advance V 1 s
  l1 : (lowRows (start g 1 (by decide))).words = advance V 2 s
  h1 : (highRows (start g 1 (by decide))).words = advance V 3 s

theorem Lanes.add {V : Variant} {g : Regs} {s : State} (h : Lanes V g s) (k : Nat) :
    Lanes V { g with ctr := g.ctr.map fun c => ctrAdd V c k k } (advance V k s) := by
  have hc : ∀ j, advance V j (advance V k s) = advance V k (advance V j s) := by
    intro j; rw [advance_advance, advance_advance, Nat.add_comm]
  refine ⟨?_, ?_, ?_, ?_⟩
  · conv => rhs; rw [← h.l0]
    simp only [lowRows, start, Vector.getElem_map, ctrAdd_lo, Sse2.words_ctrAdd]
  · rw [hc, ← h.h0]
    simp only [highRows, start, Vector.getElem_map, ctrAdd_hi, Sse2.words_ctrAdd]
  · rw [hc, ← h.l1]
    simp only [lowRows, start, Vector.getElem_map, ctrAdd_lo, Sse2.words_ctrAdd]
  · rw [hc, ← h.h1]
    simp only [highRows, start, Vector.getElem_map, ctrAdd_hi, Sse2.words_ctrAdd]

theorem lanes_load (V : Variant) (s : State) : Lanes V (load V s) s := by
  have hs : (Rows.mk (Rows.load s).a (Rows.load s).b (Rows.load s).c (Rows.load s).d).words = s := Rows.words_load s
  refine ⟨?_, ?_, ?_, ?_⟩
  · have : (ctrAdd V (M256.broadcast (Rows.load s).d) 1 0).lo = Sse2.ctrAdd V (Rows.load s).d 0 := ctrAdd_lo ..
    show (Rows.mk (Rows.load s).a (Rows.load s).b (Rows.load s).c
      (ctrAdd V (M256.broadcast (Rows.load s).d) 1 0).lo).words = s
    rw [this, Sse2.words_ctrAdd, advance_zero, hs]
  · have : (ctrAdd V (M256.broadcast (Rows.load s).d) 1 0).hi = Sse2.ctrAdd V (Rows.load s).d 1 := ctrAdd_hi ..
    show (Rows.mk (Rows.load s).a (Rows.load s).b (Rows.load s).c
      (ctrAdd V (M256.broadcast (Rows.load s).d) 1 0).hi).words = _
    rw [this, Sse2.words_ctrAdd, hs]
  · have : (ctrAdd V (ctrAdd V (M256.broadcast (Rows.load s).d) 1 0) 2 2).lo =
        Sse2.ctrAdd V (Sse2.ctrAdd V (Rows.load s).d 0) 2 := by rw [ctrAdd_lo, ctrAdd_lo]; rfl
    show (Rows.mk (Rows.load s).a (Rows.load s).b (Rows.load s).c
      (ctrAdd V (ctrAdd V (M256.broadcast (Rows.load s).d) 1 0) 2 2).lo).words = _
    rw [this, Sse2.words_ctrAdd, Sse2.words_ctrAdd, advance_zero, hs]
  · have : (ctrAdd V (ctrAdd V (M256.broadcast (Rows.load s).d) 1 0) 2 2).hi =
        Sse2.ctrAdd V (Sse2.ctrAdd V (Rows.load s).d 1) 2 := by rw [ctrAdd_hi, ctrAdd_hi]; rfl
    show (Rows.mk (Rows.load s).a (Rows.load s).b (Rows.load s).c
      (ctrAdd V (ctrAdd V (M256.broadcast (Rows.load s).d) 1 0) 2 2).hi).words = _
    rw [this, Sse2.words_ctrAdd, Sse2.words_ctrAdd, hs, advance_advance]

def Rep (V : Variant) (s0 : State) (g : Regs) (s : State) : Prop := Lanes V g s ∧ ∃ k, s = advance V k s0

theorem genBlock_rel (dr : Nat) (V : Variant) (s0 : State) (g : Regs) (s : State) (h : Rep V s0 g s) :
    RelE (Rep V s0) (genBlock dr V g) (softGenBlock dr V s) := by
  obtain ⟨hl, k, hk⟩ := h
  rw [softGenBlock_eq]
  have : genBlock dr V g =
      .ok (leBytes (runRounds dr s), { g with ctr := g.ctr.map fun c => ctrAdd V c 1 1 }) := by
    simp only [genBlock, Rows.store, low_rounds, hl.l0]
  rw [this]
  refine .ok _ _ _ ⟨hl.add 1, k + 1, ?_⟩
  rw [hk, advance_advance]

theorem genPar_rel (dr : Nat) (V : Variant) (s0 : State) (g : Regs) (s : State) (h : Rep V s0 g s) :
    RelE (Rep V s0) (genPar dr V g) (genMany (softGenBlock dr V) 4 s) := by
  obtain ⟨hl, k, hk⟩ := h
  rw [genMany_soft]
  have : genPar dr V g = .ok ((List.range 4).map fun i => leBytes (runRounds dr (advance V i s)),
      { g with ctr := g.ctr.map fun c => ctrAdd V c 4 4 }) := by
    simp only [genPar, Rows.store, low_rounds, high_rounds, hl.l0, hl.l1, hl.h0, hl.h1]
    have : List.range 4 = [0, 1, 2, 3] := rfl
    simp only [this, List.map_cons, List.map_nil, advance_zero]
  rw [this]
  refine .ok _ _ _ ⟨hl.add 4, k + 4, ?_⟩
  rw [hk, advance_advance]

/-- The AVX2 backend is indistinguishable from the portable block function run four at a time. -/
theorem inner_eq {α : Type} (dr : Nat) (V : Variant) (f : Closure 64 α) (s : State) :
    inner dr V f s = (Backend.ofBlock 4 (softGenBlock dr V)).call f s := by
  have h := Backend.call_rel_ofBlock (genBlock_rel dr V s) (genPar_rel dr V s) f (load V s) s
    ⟨lanes_load V s, 0, (advance_zero V s).symm⟩
  simp only [inner, backend]
  revert h
  generalize Backend.call _ f (load V s) = x
  generalize Backend.call _ f s = y
  intro h
  cases h with
  | error p => rfl
  | ok a g t h =>
    obtain ⟨hl, k, hk⟩ := h
    simp only [bind, Except.bind, pure, Except.pure]
    have h12 : g.ctr[0].lo.x0 = t[12] := by rw [← hl.l0]; rfl
    have h13 : g.ctr[0].lo.x1 = t[13] := by rw [← hl.l0]; rfl
    congr 2
    rw [h12, h13, hk]
    refine Eq.trans ?_ (writeBack V k s)
    cases V <;> rfl

end Avx2

/-! ## NEON -/
namespace Neon

theorem maskb_eq : maskb = ⟨0x02010003#32, 0x06050407#32, 0x0a09080b#32, 0x0e0d0c0f#32⟩ := by decide

theorem vqtbl1q_eq (x m : M128) (f : Nat → Nat) (h : ∀ i, i < 16 → (m.byte i).toNat = f i ∧ f i < 16) :
    x.vqtbl1q m = .ofBytes fun i => x.byte (f i) := by
  have hb : ∀ i, i < 16 → (if (m.byte i).toNat < 16 then x.byte (m.byte i).toNat else 0) = x.byte (f i) := by
    intro i hi
    rw [(h i hi).1, if_pos (h i hi).2]
  simp only [M128.vqtbl1q, M128.ofBytes]
  simp only [hb _ (by decide : 0 < 16), hb _ (by decide : 1 < 16), hb _ (by decide : 2 < 16), hb _ (by decide : 3 < 16),
    hb _ (by decide : 4 < 16), hb _ (by decide : 5 < 16), hb _ (by decide : 6 < 16), hb _ (by decide : 7 < 16),
    hb _ (by decide : 8 < 16), hb _ (by decide : 9 < 16), hb _ (by decide : 10 < 16), hb _ (by decide : 11 < 16),
    hb _ (by decide : 12 < 16), hb _ (by decide : 13 < 16), hb _ (by decide : 14 < 16), hb _ (by decide : 15 < 16)]

theorem rotateLeft8_eq (x : M128) : rotateLeft8 x = x.map (·.rotateLeft 8) := by
  rw [rotateLeft8, maskb_eq, vqtbl1q_eq _ _ (fun i => 4 * (i / 4) + (i + 3) % 4) (by decide)]
  simp only [M128.map, ← bytes_rol8]
  rfl

theorem rotateLeft16_eq (x : M128) : rotateLeft16 x = x.map (·.rotateLeft 16) := by
  simp only [rotateLeft16, M128.vrev32q16, halves_rol16]

theorem rotateLeftN_eq (x : M128) (n : Nat) (h : n < 32) : rotateLeftN x n = x.map (·.rotateLeft n) :=
  slli_or_srli x n h

theorem addXorRot1_eq (r : Rows M128) : addXorRot1 r = r.columns qr := by
  rw [← axr_eq]
  simp only [addXorRot1, axr, rotateLeft8_eq, rotateLeft16_eq]
  rw [rotateLeftN_eq _ 12 (by decide), rotateLeftN_eq _ 7 (by decide)]

def dqr1 (r : Rows M128) : Rows M128 := colsToRows1 (addXorRot1 (rowsToCols1 (addXorRot1 r)))

theorem words_dqr1 (r : Rows M128) : (dqr1 r).words = doubleRound r.words := by
  rw [dqr1, addXorRot1_eq, addXorRot1_eq]
  exact words_doubleRound_bcd r

theorem doubleQuarterRound_eq {N : Nat} (v : Vector (Rows M128) N) : doubleQuarterRound v = v.map dqr1 := by
  simp only [doubleQuarterRound, Vector.map_map]; rfl

/-- The constant `ctrs` array. -/
def ctrs : Vector M128 8 := #v[⟨1, 0, 0, 0⟩, ⟨2, 0, 0, 0⟩, ⟨3, 0, 0, 0⟩, ⟨4, 0, 0, 0⟩, ⟨5, 0, 0, 0⟩, ⟨6, 0, 0, 0⟩,
    ⟨7, 0, 0, 0⟩, ⟨8, 0, 0, 0⟩]

theorem addCounter_lit (V : Variant) (d : M128) (k : Nat) (hk : k < 16) :
    addCounter V d ⟨BitVec.ofNat 32 k, 0, 0, 0⟩ = Sse2.ctrAdd V d k := by
  cases V
  · simp only [addCounter, Variant.ctrBytes, Sse2.ctrAdd, M128.setEpi32, if_true]
  · have : (⟨BitVec.ofNat 32 k, 0, 0, 0⟩ : M128) = .setEpi64x 0 (BitVec.ofNat 64 k) := by
      have h0 : (BitVec.ofNat 64 k).setWidth 32 = BitVec.ofNat 32 k := by
        apply BitVec.eq_of_toNat_eq
        simp only [BitVec.toNat_setWidth, BitVec.toNat_ofNat]; omega
      have h1 : ((BitVec.ofNat 64 k) >>> 32).setWidth 32 = (0 : U32) := by
        apply BitVec.eq_of_toNat_eq
        rw [hi_toNat, BitVec.toNat_ofNat]
        show _ = 0
        omega
      simp only [M128.setEpi64x, M128.ofQ, h0, h1]
      rfl
    rw [addCounter, Sse2.ctrAdd, if_neg (by decide), if_neg (by decide), this]

theorem ctrs_getElem : ∀ i, (h : i < 8) → ctrs[i] = ⟨BitVec.ofNat 32 (i + 1), 0, 0, 0⟩ := by decide

theorem words_ctrRow (V : Variant) (g : Regs) (hg : g.ctrs = ctrs) (i : Nat) (h : i ≤ 8) :
    (Rows.mk g.state.a g.state.b g.state.c (ctrRow V g i h)).words = advance V i g.state.words := by
  rw [ctrRow]
  split
  · subst i; rw [advance_zero]
  · have : g.ctrs[i - 1] = ⟨BitVec.ofNat 32 i, 0, 0, 0⟩ := by
      simp only [hg]
      rw [ctrs_getElem (i - 1) (by omega), show i - 1 + 1 = i by omega]
    rw [this, addCounter_lit V _ i (by omega), Sse2.words_ctrAdd]

theorem blocks_getElem (N : Nat) (hN : N ≤ 8) (dr : Nat) (V : Variant) (g : Regs) (hg : g.ctrs = ctrs) (i : Nat) (hi : i < N) :
    (blocks N hN dr V g)[i].words = runRounds dr (advance V i g.state.words) := by
  simp only [blocks, funext doubleQuarterRound_eq, iter_vector_map]
  simp only [Vector.getElem_ofFn, Vector.getElem_map, Fin.getElem_fin]
  refine (Rows.words_add _ ⟨g.state.a, g.state.b, g.state.c, ctrRow V g i (by omega)⟩).trans ?_
  rw [words_iter _ words_dqr1, words_ctrRow V g hg]
  rfl

def Rep (V : Variant) (s0 : State) (g : Regs) (s : State) : Prop :=
  g.ctrs = ctrs ∧ g.state.words = s ∧ ∃ k, s = advance V k s0

theorem genPar_eq (dr : Nat) (V : Variant) (g : Regs) (hg : g.ctrs = ctrs) :
    genPar dr V g = .ok ((List.range 8).map fun i => leBytes (runRounds dr (advance V i g.state.words)),
      { g with state := { g.state with d := Sse2.ctrAdd V g.state.d 8 } }) := by
  have hl := toList_store (blocks 8 (by decide) dr V g) (fun i => runRounds dr (advance V i g.state.words))
    (blocks_getElem 8 (by decide) dr V g hg)
  have h7 : g.ctrs[7] = ⟨BitVec.ofNat 32 8, 0, 0, 0⟩ := by
    simp only [hg]; exact ctrs_getElem 7 (by decide)
  rw [genPar, hl, h7, addCounter_lit V _ 8 (by decide)]

theorem genBlock_eq (dr : Nat) (V : Variant) (g : Regs) (hg : g.ctrs = ctrs) :
    genBlock dr V g = .ok (leBytes (runRounds dr g.state.words),
      { g with state := { g.state with d := Sse2.ctrAdd V g.state.d 1 } }) := by
  have h1 : addCounter V g.state.d ⟨1, 0, 0, 0⟩ = Sse2.ctrAdd V g.state.d 1 := addCounter_lit V _ 1 (by decide)
  have hr : List.range 8 = 0 :: [1, 2, 3, 4, 5, 6, 7] := rfl
  simp only [genBlock, genPar_eq dr V g hg, bind, Except.bind, hr, List.map_cons, pure, Except.pure, h1, advance_zero]

theorem genBlock_rel (dr : Nat) (V : Variant) (s0 : State) (g : Regs) (s : State) (h : Rep V s0 g s) :
    RelE (Rep V s0) (genBlock dr V g) (softGenBlock dr V s) := by
  obtain ⟨hg, rfl, k, hk⟩ := h
  rw [softGenBlock_eq, genBlock_eq dr V g hg]
  refine .ok _ _ _ ⟨hg, Sse2.words_ctrAdd V _ _ _ _ 1, k + 1, ?_⟩
  rw [hk, advance_advance]

theorem genPar_rel (dr : Nat) (V : Variant) (s0 : State) (g : Regs) (s : State) (h : Rep V s0 g s) :
    RelE (Rep V s0) (genPar dr V g) (genMany (softGenBlock dr V) 8 s) := by
  obtain ⟨hg, rfl, k, hk⟩ := h
  rw [genMany_soft, genPar_eq dr V g hg]
  refine .ok _ _ _ ⟨hg, Sse2.words_ctrAdd V _ _ _ _ 8, k + 8, ?_⟩
  rw [hk, advance_advance]

/-- The NEON backend is indistinguishable from the portable block function run eight at a time. -/
theorem inner_eq {α : Type} (dr : Nat) (V : Variant) (f : Closure 64 α) (s : State) :
    inner dr V f s = (Backend.ofBlock 8 (softGenBlock dr V)).call f s := by
  have h := Backend.call_rel_ofBlock (genBlock_rel dr V s) (genPar_rel dr V s) f (new s) s
    ⟨rfl, Rows.words_load s, 0, (advance_zero V s).symm⟩
  simp only [inner, backend]
  revert h
  generalize Backend.call _ f (new s) = x
  generalize Backend.call _ f s = y
  intro h
  cases h with
  | error p => rfl
  | ok a g t h =>
    obtain ⟨hg, hw, k, hk⟩ := h
    simp only [bind, Except.bind, pure, Except.pure]
    have h12 : g.state.d.x0 = t[12] := by rw [← hw]; rfl
    have h13 : g.state.d.x1 = t[13] := by rw [← hw]; rfl
    have h14 : g.state.d.x2 = s[14] := by
      have : g.state.d.x2 = t[14] := by rw [← hw]; rfl
      rw [this, hk, advance_getElem_ge V k s 14 _ (by decide) (by decide)]
    have h15 : g.state.d.x3 = s[15] := by
      have : g.state.d.x3 = t[15] := by rw [← hw]; rfl
      rw [this, hk, advance_getElem_ge V k s 15 _ (by decide) (by decide)]
    congr 2
    rw [h12, h13, h14, h15, hk]
    have hwb := writeBack V k s
    revert hwb
    cases V
    · exact id
    · intro hwb
      refine Eq.trans ?_ hwb
      rw [if_neg (show ¬ Variant.legacy.ctrBytes = 4 by decide), if_pos (show Variant.legacy.ctrBytes = 8 by decide)]
      apply Vector.ext; intro i hi
      simp only [Vector.getElem_set]
      split
      · subst i; simp
      · split
        · subst i; simp
        · simp

end Neon
end Verif.ChaCha
