import Verif.Proof.Counter
/-!
# The RNG refill on every backend
-/
namespace Verif.ChaCha
open Spec

/-- Four blocks of sixteen words in a row. -/
def quad (w : Nat → Vector U32 16) : Vector U32 64 :=
  Vector.ofFn fun k : Fin 64 => (w (k.val / 16))[k.val % 16]'(Nat.mod_lt _ (by decide))

theorem quad_append (w : Nat → Vector U32 16) : ((w 0 ++ w 1 ++ w 2 ++ w 3 : Vector U32 (16 + 16 + 16 + 16))) = quad w := by
  apply Vector.ext; intro k hk
  have hk : k < 64 := hk
  rw [quad, Vector.getElem_ofFn]
  simp only [Vector.getElem_append]
  split
  · split
    · split
      · have h : k / 16 = 0 := by omega
        have h' : k % 16 = k := by omega
        simp only [h, h']
      · have h : k / 16 = 1 := by omega
        have h' : k % 16 = k - 16 := by omega
        simp only [h, h']
    · have h : k / 16 = 2 := by omega
      have h' : k % 16 = k - (16 + 16) := by omega
      simp only [h, h']
  · have h : k / 16 = 3 := by omega
    have h' : k % 16 = k - (16 + 16 + 16) := by omega
    simp only [h, h']

theorem softRngStep_eq (dr : Nat) (s : State) : softRngStep dr s = (runRounds dr s, advance .legacy 1 s) :=
  congrArg (fun t => (runRounds dr s, t)) (softAdvance_eq .legacy s)

theorem softGenKsBlocks_eq (dr : Nat) (s : State) :
    softGenKsBlocks dr s = (quad fun i => runRounds dr (advance .legacy i s), advance .legacy 4 s) := by
  rw [← quad_append]
  simp only [softGenKsBlocks, softRngStep_eq, advance_advance]
  rw [advance_zero]

theorem writeBack64 (k : Nat) (s : State) :
    (s.set 12 (advance .legacy k s)[12]).set 13 (advance .legacy k s)[13] = advance .legacy k s := writeBack .legacy k s

theorem Sse2.rngInner_eq (dr : Nat) (V : Variant) (s : State) :
    Sse2.rngInner dr V s = (quad fun i => runRounds dr (advance V i s), advance .legacy 4 s) := by
  have hw : (Rows.load s).words = s := Rows.words_load s
  have hd : (Rows.mk (Rows.load s).a (Rows.load s).b (Rows.load s).c ((Rows.load s).d.addEpi64 (.setEpi64x 0 4))).words =
      advance .legacy 4 s := (Sse2.words_ctrAdd .legacy _ _ _ _ 4).trans (congrArg _ hw)
  have h12 : ((Rows.load s).d.addEpi64 (.setEpi64x 0 4)).x0 = (advance .legacy 4 s)[12] := by rw [← hd]; rfl
  have h13 : ((Rows.load s).d.addEpi64 (.setEpi64x 0 4)).x1 = (advance .legacy 4 s)[13] := by rw [← hd]; rfl
  unfold Sse2.rngInner
  rw [← quad_append]
  simp only
  rw [h12, h13, writeBack64, Sse2.rounds_getElem, Sse2.rounds_getElem, Sse2.rounds_getElem, Sse2.rounds_getElem, hw]

theorem Avx2.rngInner_eq (dr : Nat) (s : State) :
    Avx2.rngInner dr s = (quad fun i => runRounds dr (advance .legacy i s), advance .legacy 4 s) := by
  have hl := Avx2.lanes_load .legacy s
  have hl4 := (hl.add 4).l0
  have hm : ((Avx2.load .legacy s).ctr.map fun c => c.addEpi64 (.setEpi64x 0 4 0 4)) =
      (Avx2.load .legacy s).ctr.map fun c => Avx2.ctrAdd .legacy c 4 4 := rfl
  unfold Avx2.rngInner
  rw [← quad_append]
  simp only
  rw [hm]
  have h12 : ((Avx2.load .legacy s).ctr.map fun c => Avx2.ctrAdd .legacy c 4 4)[0].lo.x0 = (advance .legacy 4 s)[12] := by
    rw [← hl4]; rfl
  have h13 : ((Avx2.load .legacy s).ctr.map fun c => Avx2.ctrAdd .legacy c 4 4)[0].lo.x1 = (advance .legacy 4 s)[13] := by
    rw [← hl4]; rfl
  rw [h12, h13, writeBack64, Avx2.low_rounds, Avx2.low_rounds, Avx2.high_rounds, Avx2.high_rounds, hl.l0, hl.l1, hl.h0, hl.h1,
    advance_zero]

theorem writeRow (V : Variant) (k : Nat) (s : State) :
    (((s.set 12 (advance V k s)[12]).set 13 (advance V k s)[13]).set 14 (advance V k s)[14]).set 15 (advance V k s)[15] =
      advance V k s := by
  apply Vector.ext; intro i hi
  simp only [Vector.getElem_set]
  split
  · subst i; rfl
  split
  · subst i; rfl
  split
  · subst i; rfl
  split
  · subst i; rfl
  exact (advance_getElem_ge V k s i hi (by omega) (by omega)).symm

theorem Neon.rngInner_eq (dr : Nat) (V : Variant) (s : State) :
    Neon.rngInner dr V s = (quad fun i => runRounds dr (advance V i s), advance V 4 s) := by
  have hw : (Neon.new s).state.words = s := Rows.words_load s
  have hc : (Neon.new s).ctrs = Neon.ctrs := rfl
  have h3 : (Neon.new s).ctrs[3] = ⟨BitVec.ofNat 32 4, 0, 0, 0⟩ := by
    simp only [hc]; exact Neon.ctrs_getElem 3 (by decide)
  have hd : Neon.addCounter V (Neon.new s).state.d (Neon.new s).ctrs[3] = Sse2.ctrAdd V (Neon.new s).state.d 4 := by
    rw [h3]; exact Neon.addCounter_lit V _ 4 (by decide)
  have hr := Sse2.words_ctrAdd V (Neon.new s).state.a (Neon.new s).state.b (Neon.new s).state.c (Neon.new s).state.d 4
  rw [show Rows.mk (Neon.new s).state.a (Neon.new s).state.b (Neon.new s).state.c (Neon.new s).state.d = (Neon.new s).state from rfl,
    hw] at hr
  unfold Neon.rngInner
  rw [← quad_append]
  simp only
  rw [hd]
  generalize Sse2.ctrAdd V (Neon.new s).state.d 4 = d at hr ⊢
  have h12 : d.x0 = (advance V 4 s)[12] := by rw [← hr]; rfl
  have h13 : d.x1 = (advance V 4 s)[13] := by rw [← hr]; rfl
  have h14 : d.x2 = (advance V 4 s)[14] := by rw [← hr]; rfl
  have h15 : d.x3 = (advance V 4 s)[15] := by rw [← hr]; rfl
  rw [h12, h13, h14, h15, writeRow, Neon.blocks_getElem 4 _ dr V _ hc, Neon.blocks_getElem 4 _ dr V _ hc,
    Neon.blocks_getElem 4 _ dr V _ hc, Neon.blocks_getElem 4 _ dr V _ hc, hw]

end Verif.ChaCha
