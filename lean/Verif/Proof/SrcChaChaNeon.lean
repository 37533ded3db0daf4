import Verif.Proof.SrcRows
import Verif.Proof.ChaChaSimd
import Verif.Rust.Src.ChaChaNeon
/-!
# The text of the NEON backend computes the model
-/
namespace Verif.Rust.ChaCha
open Verif.ChaCha (State)

section
variable {α : Type}

/-- The first `k` elements of `A`, the others of `B`. -/
def splice (A B : List α) (k : Nat) : List α := A.take k ++ B.drop k

theorem splice_zero (A B : List α) : splice A B 0 = B := rfl

theorem splice_all (A B : List α) (h : A.length = B.length) : splice A B A.length = A := by
  rw [splice, List.take_length, h, List.drop_length, List.append_nil]

theorem splice_length (A B : List α) (h : A.length = B.length) (k : Nat) : (splice A B k).length = A.length := by
  rw [splice, List.length_append, List.length_take, List.length_drop]
  omega

theorem splice_get (A B : List α) (h : A.length = B.length) (k : Nat) (hk : k < B.length) :
    (splice A B k)[k]'(by rw [splice_length A B h]; omega) = B[k] := by
  have ht : (A.take k).length = k := by rw [List.length_take]; omega
  simp only [splice]
  rw [List.getElem_append_right (by omega)]
  simp only [ht, Nat.sub_self, List.getElem_drop, Nat.add_zero]

theorem splice_set (A B : List α) (h : A.length = B.length) (k : Nat) (hk : k < A.length) : (splice A B k).set k A[k] = splice A B (k + 1) := by
  have ht : (A.take k).length = k := by rw [List.length_take]; omega
  rw [splice, splice, List.set_append_right _ _ (by omega), ht, Nat.sub_self, List.drop_eq_getElem_cons (show k < B.length by omega), List.set_cons_zero,
    List.take_succ_eq_append_getElem hk, List.append_assoc]
  rfl

theorem idx_set {tgt : Target} (L : List α) (k : Nat) (hk : k < L.length) (y : α) : idx (L.set k y) (⟨k⟩ : Usize tgt) = .ok y := by
  rw [idx, nth_ok _ _ (by rw [List.length_set]; exact hk), List.getElem_set_self]

theorem upd_set {tgt : Target} (L : List α) (k : Nat) (hk : k < L.length) (y z : α) : upd (L.set k y) (⟨k⟩ : Usize tgt) z = .ok (L.set k z) := by
  have h : k < (L.set k y).length := by rw [List.length_set]; exact hk
  rw [upd, if_pos h, List.set_set]

end

namespace neon

variable {R V : Type} [Rounds R] [Variant V] {tgt : Target}

abbrev blocksL {N : Nat} (v : Vector (Rows M128) N) : List (List M128) := v.toList.map rowsL

theorem maskb_eq : (load ([3, 0, 1, 2, 7, 4, 5, 6, 11, 8, 9, 10, 15, 12, 13, 14] : List U8) 0 : Except Panic M128) = .ok Verif.ChaCha.Neon.maskb :=
  congrArg Except.ok (by decide +kernel)

theorem add_xor_rot_eq (l : List (Rows M128)) : add_xor_rot tgt (l.map rowsL) = .ok ((), (l.map Verif.ChaCha.Neon.addXorRot1).map rowsL) := by
  rw [add_xor_rot]
  dsimp only
  simp only [maskb_eq]
  rw [each_rows _ Verif.ChaCha.Neon.addXorRot1 l _ (List.length_map ..)]
  · rfl
  · intro k l hk
    rw [nth_rows l k hk]
    rfl

theorem rows_to_cols_eq (l : List (Rows M128)) : rows_to_cols tgt (l.map rowsL) = .ok ((), (l.map Verif.ChaCha.Neon.rowsToCols1).map rowsL) := by
  rw [rows_to_cols]
  dsimp only
  rw [each_rows _ Verif.ChaCha.Neon.rowsToCols1 l _ (List.length_map ..)]
  · rfl
  · intro k l hk
    rw [nth_rows l k hk]
    rfl

theorem cols_to_rows_eq (l : List (Rows M128)) : cols_to_rows tgt (l.map rowsL) = .ok ((), (l.map Verif.ChaCha.Neon.colsToRows1).map rowsL) := by
  rw [cols_to_rows]
  dsimp only
  rw [each_rows _ Verif.ChaCha.Neon.colsToRows1 l _ (List.length_map ..)]
  · rfl
  · intro k l hk
    rw [nth_rows l k hk]
    rfl

theorem double_quarter_round_eq {N : Nat} (v : Vector (Rows M128) N) :
    double_quarter_round tgt (blocksL v) = .ok ((), blocksL (Verif.ChaCha.Neon.doubleQuarterRound v)) := by
  rw [double_quarter_round]
  dsimp only
  rw [blocksL, add_xor_rot_eq, ok_bind, rows_to_cols_eq, ok_bind, add_xor_rot_eq, ok_bind, cols_to_rows_eq, ok_bind]
  rw [Verif.ChaCha.Neon.doubleQuarterRound, blocksL]
  simp only [Vector.toList_map]
  rfl

/-- The loop over the double rounds. -/
theorem rounds_loop {N : Nat} (n : Nat) (x : Vector (Rows M128) N) :
    (forIn (List.range n) (blocksL x) fun _ (s : List (List M128)) => do
      let r ← double_quarter_round tgt s
      pure (ForInStep.yield r.2)) = .ok (blocksL (iter n Verif.ChaCha.Neon.doubleQuarterRound x)) := by
  refine forIn_range n (fun k => blocksL (iter k Verif.ChaCha.Neon.doubleQuarterRound x)) _ _ rfl ?_
  intro k _
  rw [double_quarter_round_eq, Salsa.iter_succ_out]
  rfl

/-- The backend with these registers. -/
def rep (R V : Type) [Rounds R] [Variant V] (g : Verif.ChaCha.Neon.Regs) : Backend R V := ⟨rowsL g.state, g.ctrs.toList⟩

theorem st0 (r : Rows M128) : idx (rowsL r) (0 : Usize tgt) = .ok r.a := rfl
theorem st1 (r : Rows M128) : idx (rowsL r) (1 : Usize tgt) = .ok r.b := rfl
theorem st2 (r : Rows M128) : idx (rowsL r) (2 : Usize tgt) = .ok r.c := rfl
theorem st3 (r : Rows M128) : idx (rowsL r) (3 : Usize tgt) = .ok r.d := rfl

/-- `self.ctrs[i]`. -/
theorem ctr_idx (g : Verif.ChaCha.Neon.Regs) (i : Usize tgt) (h : i.val < 8) : idx g.ctrs.toList i = .ok g.ctrs[i.val] := by
  rw [idx, nth_ok _ _ (by rw [Vector.length_toList]; exact h), Vector.getElem_toList]

/-- `add_counter!`. -/
theorem add_counter_eq (v : Verif.ChaCha.Variant) (a b : M128) : (if v.ctrBytes = 4 then pure (vaddq_u32 a b)
    else pure (vreinterpretq_u32_u64 (vaddq_u64 (vreinterpretq_u64_u32 a) (vreinterpretq_u64_u32 b)))) =
      Except.ok (ε := Panic) (Verif.ChaCha.Neon.addCounter v a b) := by
  cases v <;> rfl

/-- Adding the first rows of the input - neon.rs:200-202, 285-287. -/
theorem add_state (st : Rows M128) (L : List (List M128)) (k : Nat) (hk : k < L.length) (x : Rows M128) (hx : L[k] = rowsL x) :
    (forIn (List.range (Usize.val (3 : Usize tgt) - Usize.val (0 : Usize tgt))) L fun j s => do
      let r35 ← idx s (⟨k⟩ : Usize tgt)
      let r36 ← idx r35 (⟨j⟩ : Usize tgt)
      let r37 ← idx (rowsL st) (⟨j⟩ : Usize tgt)
      let r38 ← idx s (⟨k⟩ : Usize tgt)
      let r39 ← upd r38 (⟨j⟩ : Usize tgt) (vaddq_u32 r36 r37)
      let r40 ← upd s (⟨k⟩ : Usize tgt) r39
      pure (ForInStep.yield r40)) = .ok (L.set k (rowsL ⟨x.a.addEpi32 st.a, x.b.addEpi32 st.b, x.c.addEpi32 st.c, x.d⟩)) := by
  refine forIn_range 3 (fun n => L.set k (rowsL ⟨if 1 ≤ n then x.a.addEpi32 st.a else x.a, if 2 ≤ n then x.b.addEpi32 st.b else x.b,
    if 3 ≤ n then x.c.addEpi32 st.c else x.c, x.d⟩)) _ _ ?_ ?_
  · show L = L.set k (rowsL x)
    rw [← hx, List.set_getElem_self]
  · intro j hj
    rw [idx_set L k hk, ok_bind]
    rcases j with _ | _ | _ | j
    · refine (bind_of (a := x.a) rfl _).trans ?_
      refine (bind_of (a := st.a) rfl _).trans ?_
      rw [ok_bind]
      refine (bind_of (a := rowsL ⟨x.a.addEpi32 st.a, x.b, x.c, x.d⟩) rfl _).trans ?_
      rw [upd_set L k hk]
      rfl
    · refine (bind_of (a := x.b) rfl _).trans ?_
      refine (bind_of (a := st.b) rfl _).trans ?_
      rw [ok_bind]
      refine (bind_of (a := rowsL ⟨x.a.addEpi32 st.a, x.b.addEpi32 st.b, x.c, x.d⟩) rfl _).trans ?_
      rw [upd_set L k hk]
      rfl
    · refine (bind_of (a := x.c) rfl _).trans ?_
      refine (bind_of (a := st.c) rfl _).trans ?_
      rw [ok_bind]
      refine (bind_of (a := rowsL ⟨x.a.addEpi32 st.a, x.b.addEpi32 st.b, x.c.addEpi32 st.c, x.d⟩) rfl _).trans ?_
      rw [upd_set L k hk]
      rfl
    · omega

/-- `state_row << 4`. -/
theorem shl_row (ht : 16 ≤ tgt.bits) (i : Nat) (hi : i < 4) : shl tgt (⟨i⟩ : Usize tgt) 4 = .ok ⟨i * 16⟩ := by
  have h : i * 16 < 2 ^ tgt.bits := pow_bits ht (show i * 16 < 65536 by omega)
  rw [shl, if_pos (show 4 < RInt.width (Usize tgt) from (show 4 < tgt.bits by omega))]
  show Except.ok (Usize.mk ((i <<< 4) % 2 ^ tgt.bits)) = _
  rw [Nat.shiftLeft_eq, show i * 2 ^ 4 = i * 16 from rfl, Nat.mod_eq_of_lt h]

/-- Storing the rows of block `k` - neon.rs:212-217. -/
theorem store_rows (ht : 16 ≤ tgt.bits) (D : List (List U8)) (k : Nat) (hD : k < D.length) (hb : D[k].length = 64) (L : List (List M128)) (hk : k < L.length)
    (x : Rows M128) :
    (forIn (List.range (Usize.val (4 : Usize tgt) - Usize.val (0 : Usize tgt))) D fun i s => do
      let r1 ← shl tgt (⟨i⟩ : Usize tgt) 4
      let r2 ← idx s (⟨k⟩ : Usize tgt)
      let r3 ← ptrAdd (Mem.size r2) (Mem.unit r2) 0 r1
      let r4 ← idx (L.set k (rowsL x)) (⟨k⟩ : Usize tgt)
      let r5 ← idx r4 (⟨i⟩ : Usize tgt)
      let r6 ← idx s (⟨k⟩ : Usize tgt)
      let r7 ← store r6 r3 (vreinterpretq_u8_u32 r5)
      let r8 ← upd s (⟨k⟩ : Usize tgt) r7
      pure (ForInStep.yield r8)) = .ok (D.set k x.store.toList) := by
  have h64 : Mem.size D[k] = 64 := by rw [size_u8, hb]
  obtain ⟨c, hc, hd⟩ := exists_cells (β := M128) D[k] 4 h64
  rw [← cells_block D[k] hb x]
  have hall : rowsL x = splice (rowsL x) c 4 := (splice_all (rowsL x) c (by rw [hc]; rfl)).symm
  refine Eq.trans (b := .ok (D.set k (cells D[k] (splice (rowsL x) c 4)))) ?_ (by rw [← hall])
  refine forIn_range 4 (fun n => D.set k (cells D[k] (splice (rowsL x) c n))) _ _ ?_ ?_
  · show D = D.set k (cells D[k] c)
    rw [← hd, List.set_getElem_self]
  · intro i hi
    have hl : (splice (rowsL x) c i).length = 4 := splice_length _ _ (by rw [hc]; rfl) i
    have hs : Mem.size (cells D[k] (splice (rowsL x) c i)) = 64 := by rw [size_cells _ _ (by rw [hl]; exact h64), h64]
    rw [shl_row ht i hi, ok_bind, idx_set D k hD, ok_bind, hs]
    have hu : Mem.unit (cells D[k] (splice (rowsL x) c i)) = 1 := by
      rw [size_u8] at hs
      generalize cells D[k] (splice (rowsL x) c i) = l at hs
      match l, hs with
      | _ :: _, _ => rfl
    rw [hu, ptrAdd_ok _ _ _ _ (show 0 + i * 16 * 1 ≤ 64 by omega), ok_bind, idx_set L k hk, ok_bind]
    have hr : idx (rowsL x) (⟨i⟩ : Usize tgt) = .ok ((rowsL x)[i]'hi) := nth_ok _ _ hi
    rw [hr, ok_bind, ok_bind]
    refine (bind_of (store_cells D[k] _ (by rw [hl]; exact h64) i _ (by rw [hl]; exact hi) (show 0 + i * 16 * 1 = i * 16 by omega) _) _).trans ?_
    rw [show vreinterpretq_u8_u32 ((rowsL x)[i]'hi) = (rowsL x)[i]'hi from rfl, splice_set (rowsL x) c (by rw [hc]; rfl) i hi, upd_set D k hD]
    rfl

/-- A block after the double rounds with the input added. -/
def finish (v : Verif.ChaCha.Variant) (g : Verif.ChaCha.Neon.Regs) (k : Nat) (hk : k ≤ 8) (r : Rows M128) : Rows M128 :=
  ⟨r.a.addEpi32 g.state.a, r.b.addEpi32 g.state.b, r.c.addEpi32 g.state.c, r.d.addEpi32 (Verif.ChaCha.Neon.ctrRow v g k hk)⟩

/-- Adding the input to block `k` - neon.rs:200-210, 285-295. -/
theorem add_input {α : Type} (ht : 16 ≤ tgt.bits) (v : Verif.ChaCha.Variant) (g : Verif.ChaCha.Neon.Regs) (L : List (List M128)) (k : Nat) (hk : k < L.length) (hk8 : k < 8)
    (x : Rows M128) (hx : L[k] = rowsL x) (F : List (List M128) → Except Panic α) :
    (do
      let bl ← forIn (List.range (Usize.val (3 : Usize tgt) - Usize.val (0 : Usize tgt))) L fun j s => do
        let r35 ← idx s (⟨k⟩ : Usize tgt)
        let r36 ← idx r35 (⟨j⟩ : Usize tgt)
        let r37 ← idx (rowsL g.state) (⟨j⟩ : Usize tgt)
        let r38 ← idx s (⟨k⟩ : Usize tgt)
        let r39 ← upd r38 (⟨j⟩ : Usize tgt) (vaddq_u32 r36 r37)
        let r40 ← upd s (⟨k⟩ : Usize tgt) r39
        pure (ForInStep.yield r40)
      if lt (0 : Usize tgt) ⟨k⟩ = true then do
        let r77 ← idx bl (⟨k⟩ : Usize tgt)
        let r78 ← idx r77 (3 : Usize tgt)
        let r86 ← (if v.ctrBytes = 4 then do
            let r80 ← sub tgt (⟨k⟩ : Usize tgt) 1
            let r81 ← idx g.ctrs.toList r80
            pure (vaddq_u32 g.state.d r81)
          else do
            let r83 ← sub tgt (⟨k⟩ : Usize tgt) 1
            let r84 ← idx g.ctrs.toList r83
            pure (vreinterpretq_u32_u64 (vaddq_u64 (vreinterpretq_u64_u32 g.state.d) (vreinterpretq_u64_u32 r84))))
        let r87 ← idx bl (⟨k⟩ : Usize tgt)
        let r88 ← upd r87 (3 : Usize tgt) (vaddq_u32 r78 r86)
        let r89 ← upd bl (⟨k⟩ : Usize tgt) r88
        F r89
      else do
        let r90 ← idx bl (⟨k⟩ : Usize tgt)
        let r91 ← idx r90 (3 : Usize tgt)
        let r93 ← idx bl (⟨k⟩ : Usize tgt)
        let r94 ← upd r93 (3 : Usize tgt) (vaddq_u32 r91 g.state.d)
        let r95 ← upd bl (⟨k⟩ : Usize tgt) r94
        F r95) = F (L.set k (rowsL (finish v g k (Nat.le_of_lt hk8) x))) := by
  rw [add_state g.state L k hk x hx, ok_bind]
  generalize hy : (⟨x.a.addEpi32 g.state.a, x.b.addEpi32 g.state.b, x.c.addEpi32 g.state.c, x.d⟩ : Rows M128) = y
  have hd : y.d = x.d := by rw [← hy]
  have hfin : rowsL (finish v g k (Nat.le_of_lt hk8) x) = rowsL { y with d := y.d.addEpi32 (Verif.ChaCha.Neon.ctrRow v g k (Nat.le_of_lt hk8)) } := by
    rw [← hy]; rfl
  rw [hfin]
  have hu (d : M128) : upd (rowsL y) (3 : Usize tgt) d = .ok (rowsL { y with d := d }) := rfl
  rcases k with _ | k
  · rw [if_neg (show ¬ lt (0 : Usize tgt) ⟨0⟩ = true from fun h => by cases h)]
    rw [idx_set L 0 hk, ok_bind, st3, ok_bind, ok_bind, hu, ok_bind, upd_set L 0 hk, ok_bind]
    rfl
  · rw [if_pos (show lt (0 : Usize tgt) ⟨k + 1⟩ = true from decide_eq_true (Nat.succ_pos k))]
    have hsub : sub tgt (⟨k + 1⟩ : Usize tgt) 1 = .ok ⟨k⟩ := sub_usize _ _ (show 1 ≤ k + 1 by omega) (pow_bits ht (show k + 1 < 65536 by omega))
    simp only [idx_set L (k + 1) hk, ok_bind, st3, hsub, ctr_idx g (⟨k⟩ : Usize tgt) (show k < 8 by omega), add_counter_eq, hu, upd_set L (k + 1) hk]
    rfl

theorem blocksL_length {N : Nat} (v : Vector (Rows M128) N) : (blocksL v).length = N := by rw [List.length_map, Vector.length_toList]

theorem blocksL_get {N : Nat} (v : Vector (Rows M128) N) (k : Nat) (hk : k < N) : (blocksL v)[k]'(by rw [blocksL_length]; exact hk) = rowsL v[k] := by
  rw [List.getElem_map, Vector.getElem_toList]

/-- The finished blocks. -/
theorem blocks_eq {N : Nat} (hN : N ≤ 8) (dr : Nat) (v : Verif.ChaCha.Variant) (g : Verif.ChaCha.Neon.Regs) (start : Vector (Rows M128) N)
    (hs : ∀ k (hk : k < N), start[k] = ⟨g.state.a, g.state.b, g.state.c, Verif.ChaCha.Neon.ctrRow v g k (by omega)⟩) (k : Nat) (hk : k < N) :
    (Verif.ChaCha.Neon.blocks N hN dr v g)[k] = finish v g k (by omega) (iter dr Verif.ChaCha.Neon.doubleQuarterRound start)[k] := by
  have e : start = Vector.ofFn fun i : Fin N => ⟨g.state.a, g.state.b, g.state.c, Verif.ChaCha.Neon.ctrRow v g i.val (by omega)⟩ := by
    apply Vector.ext
    intro i hi
    rw [hs i hi, Vector.getElem_ofFn]
  rw [e, Verif.ChaCha.Neon.blocks]
  dsimp only
  rw [Vector.getElem_ofFn]
  rfl

theorem gen_par_ks_blocks_eq {v : Verif.ChaCha.Variant} (hV : Is V v) (ht : 16 ≤ tgt.bits) (g : Verif.ChaCha.Neon.Regs) (bs : List (List U8))
    (hb : Blocks64 8 bs) : Backend.gen_par_ks_blocks tgt (rep R V g) bs =
      (Verif.ChaCha.Neon.genPar (Rounds.count R) v g).map fun x => ((), rep R V x.2, x.1.map Vector.toList) := by
  rw [Backend.gen_par_ks_blocks]
  dsimp only
  have e0 : Usize.val (0 : Usize tgt) = 0 := rfl
  simp only [counter_match hV, rep, st0, st1, st2, st3, ok_bind, ctr_idx g (0 : Usize tgt) (show 0 < 8 by decide), ctr_idx g (1 : Usize tgt) (show 1 < 8 by decide),
    ctr_idx g (2 : Usize tgt) (show 2 < 8 by decide), ctr_idx g (3 : Usize tgt) (show 3 < 8 by decide), ctr_idx g (4 : Usize tgt) (show 4 < 8 by decide),
    ctr_idx g (5 : Usize tgt) (show 5 < 8 by decide), ctr_idx g (6 : Usize tgt) (show 6 < 8 by decide), ctr_idx g (7 : Usize tgt) (show 7 < 8 by decide),
    add_counter_eq, e0, Nat.zero_add]
  generalize hst : (#v[⟨g.state.a, g.state.b, g.state.c, g.state.d⟩, ⟨g.state.a, g.state.b, g.state.c, Verif.ChaCha.Neon.addCounter v g.state.d g.ctrs[0]⟩,
    ⟨g.state.a, g.state.b, g.state.c, Verif.ChaCha.Neon.addCounter v g.state.d g.ctrs[1]⟩, ⟨g.state.a, g.state.b, g.state.c, Verif.ChaCha.Neon.addCounter v g.state.d g.ctrs[2]⟩,
    ⟨g.state.a, g.state.b, g.state.c, Verif.ChaCha.Neon.addCounter v g.state.d g.ctrs[3]⟩, ⟨g.state.a, g.state.b, g.state.c, Verif.ChaCha.Neon.addCounter v g.state.d g.ctrs[4]⟩,
    ⟨g.state.a, g.state.b, g.state.c, Verif.ChaCha.Neon.addCounter v g.state.d g.ctrs[5]⟩, ⟨g.state.a, g.state.b, g.state.c, Verif.ChaCha.Neon.addCounter v g.state.d g.ctrs[6]⟩] :
      Vector (Rows M128) 8) = start
  have hs : ∀ k (hk : k < 8), start[k] = ⟨g.state.a, g.state.b, g.state.c, Verif.ChaCha.Neon.ctrRow v g k (by omega)⟩ := by
    subst hst
    intro k hk
    rcases k with _ | _ | _ | _ | _ | _ | _ | _ | k <;> first | rfl | omega
  have hfin := blocks_eq (N := 8) (by decide) (Rounds.count R) v g start hs
  refine (bind_of ((congrArg (fun l => forIn (List.range (Rounds.count R)) l _) (show _ = blocksL start by subst hst; rfl)).trans
    (rounds_loop (Rounds.count R) start)) _).trans ?_
  rw [Verif.ChaCha.Neon.genPar]
  generalize Verif.ChaCha.Neon.blocks 8 (by decide) (Rounds.count R) v g = fin at hfin
  generalize iter (Rounds.count R) Verif.ChaCha.Neon.doubleQuarterRound start = x at hfin
  have hbl : bs.length = 8 := hb.1
  have hD : (fin.toList.map fun r => r.store.toList).length = bs.length := by rw [List.length_map, Vector.length_toList, hbl]
  have hL : (blocksL fin).length = (blocksL x).length := by rw [blocksL_length, blocksL_length]
  have hloop : ∀ F : Nat → List (List U8) × List (List M128) → Except Panic (ForInStep (List (List U8) × List (List M128))),
      (∀ k, k < 8 → F k (splice (fin.toList.map fun r => r.store.toList) bs k, splice (blocksL fin) (blocksL x) k) =
        .ok (.yield (splice (fin.toList.map fun r => r.store.toList) bs (k + 1), splice (blocksL fin) (blocksL x) (k + 1)))) →
      forIn (List.range 8) (bs, blocksL x) F = .ok ((fin.toList.map fun r => r.store.toList), blocksL fin) := by
    intro F hF
    have h := forIn_range 8 (fun k => (splice (fin.toList.map fun r => r.store.toList) bs k, splice (blocksL fin) (blocksL x) k)) F _ rfl hF
    have e1 := splice_all (fin.toList.map fun r => r.store.toList) bs hD
    have e2 := splice_all (blocksL fin) (blocksL x) hL
    rw [hD, hbl] at e1
    rw [blocksL_length] at e2
    rw [e1, e2] at h
    exact h
  refine (bind_of (hloop _ ?_) _).trans ?_
  · intro k hk
    dsimp only
    have hkL : k < (splice (blocksL fin) (blocksL x) k).length := by rw [splice_length _ _ hL, blocksL_length]; exact hk
    have hkD : k < (splice (fin.toList.map fun r => r.store.toList) bs k).length := by rw [splice_length _ _ hD, hD, hbl]; exact hk
    refine (add_input ht v g _ k hkL hk x[k] (by rw [splice_get _ _ hL k (by rw [blocksL_length]; exact hk), blocksL_get]) _).trans ?_
    have hb64 : ((splice (fin.toList.map fun r => r.store.toList) bs k)[k]).length = 64 := by
      rw [splice_get _ _ hD k (by rw [hbl]; exact hk)]
      exact hb.2 _ (List.getElem_mem _)
    refine (bind_of (store_rows ht _ k hkD hb64 _ hkL _) _).trans ?_
    rw [← hfin k hk]
    have e1 := splice_set _ _ hD k (by rw [hD, hbl]; exact hk)
    have e2 := splice_set _ _ hL k (by rw [blocksL_length]; exact hk)
    rw [List.getElem_map, Vector.getElem_toList] at e1
    rw [blocksL_get fin k hk] at e2
    rw [e1, e2]
    rfl
  have hm : (fin.toList.map fun r => r.store.toList) = (fin.toList.map Rows.store).map Vector.toList := by rw [List.map_map]; rfl
  rw [hm]
  rfl

theorem load1 (k : U32) : (load [k, 0, 0, 0] 0 : Except Panic M128) = .ok ⟨k, 0, 0, 0⟩ :=
  load_cells ([k, 0, 0, 0] : List U32) [(⟨k, 0, 0, 0⟩ : M128)] (by
    show toLeBytes k ++ (toLeBytes (0 : U32) ++ (toLeBytes (0 : U32) ++ (toLeBytes (0 : U32) ++ []))) =
      (toLeBytes k ++ toLeBytes (0 : U32) ++ toLeBytes (0 : U32) ++ toLeBytes (0 : U32)) ++ []
    simp only [List.append_assoc, List.append_nil]) 0 0 (show 0 < 1 by decide) rfl

theorem gen_ks_block_eq {v : Verif.ChaCha.Variant} (hV : Is V v) (ht : 16 ≤ tgt.bits) (g : Verif.ChaCha.Neon.Regs) (block : List U8) :
    Backend.gen_ks_block tgt (rep R V g) block =
      (Verif.ChaCha.Neon.genBlock (Rounds.count R) v g).map fun x => ((), rep R V x.2, x.1.toList) := by
  rw [Backend.gen_ks_block]
  dsimp only
  have hd : Blocks64 8 (ParBlocks.default (Backend R V)) := by
    refine ⟨List.length_replicate, ?_⟩
    intro b hb
    rw [(List.mem_replicate.mp hb).2]
    exact List.length_replicate
  refine (bind_of (st3 g.state) _).trans ?_
  rw [gen_par_ks_blocks_eq hV ht g _ hd]
  simp only [counter_match hV, load1, ok_bind, add_counter_eq]
  rw [Verif.ChaCha.Neon.genBlock, Verif.ChaCha.Neon.genPar]
  dsimp only
  generalize Verif.ChaCha.Neon.blocks 8 (by decide) (Rounds.count R) v g = fin
  obtain ⟨b, bs, h⟩ : ∃ b bs, fin.toList.map Rows.store = b :: bs := by
    cases h : fin.toList.map Rows.store with
    | nil => exact absurd (congrArg List.length h) (by rw [List.length_map, Vector.length_toList]; decide)
    | cons b bs => exact ⟨b, bs, rfl⟩
  rw [h]
  rfl

/-- Storing the rows of block `k` in the buffer of a generator - neon.rs:297-302. -/
theorem store_words (ht : 16 ≤ tgt.bits) (a : List U32) (ha : Mem.size a = 256) (F c : List M128) (hF : F.length = 16) (hc : c.length = 16) (k p : Nat)
    (hk4 : k < 4) (hp : p = k * 64) (L : List (List M128)) (hk : k < L.length) (x : Rows M128) (hx : ∀ i (hi : i < 4), F[4 * k + i] = (rowsL x)[i]'hi) :
    (forIn (List.range (Usize.val (4 : Usize tgt) - Usize.val (0 : Usize tgt))) (cells a (splice F c (4 * k))) fun i s => do
      let r61 ← shl tgt (⟨i⟩ : Usize tgt) 4
      let r62 ← ptrAdd (Mem.size s) 1 p r61
      let r63 ← idx (L.set k (rowsL x)) (⟨k⟩ : Usize tgt)
      let r64 ← idx r63 (Rust.cast (Usize tgt) (⟨i⟩ : Usize tgt))
      let r65 ← store s r62 (vreinterpretq_u8_u32 r64)
      pure (ForInStep.yield r65)) = .ok (cells a (splice F c (4 * (k + 1)))) := by
  refine forIn_range 4 (fun n => cells a (splice F c (4 * k + n))) _ _ rfl ?_
  intro i hi
  have hl : (splice F c (4 * k + i)).length = 16 := (splice_length _ _ (hF.trans hc.symm) _).trans hF
  have hs : Mem.size (cells a (splice F c (4 * k + i))) = 256 := by rw [size_cells _ _ (by rw [hl]; exact ha), ha]
  rw [shl_row ht i hi, ok_bind, hs, hp, ptrAdd_ok _ _ _ _ (show k * 64 + i * 16 * 1 ≤ 256 by omega), ok_bind, idx_set L k hk, ok_bind]
  have hcast : Rust.cast (Usize tgt) (⟨i⟩ : Usize tgt) = ⟨i⟩ := by
    show (⟨i % 2 ^ tgt.bits⟩ : Usize tgt) = ⟨i⟩
    rw [Nat.mod_eq_of_lt (pow_bits ht (show i < 65536 by omega))]
  have hr : idx (rowsL x) (⟨i⟩ : Usize tgt) = .ok ((rowsL x)[i]'hi) := nth_ok _ _ hi
  rw [hcast, hr, ok_bind]
  refine (bind_of (store_cells a _ (by rw [hl]; exact ha) (4 * k + i) _ (by rw [hl]; omega) (show k * 64 + i * 16 * 1 = (4 * k + i) * 16 by omega) _) _).trans ?_
  rw [show vreinterpretq_u8_u32 ((rowsL x)[i]'hi) = (rowsL x)[i]'hi from rfl, ← hx i hi, splice_set F c (hF.trans hc.symm) _ (by rw [hF]; omega)]
  rfl

theorem write_par_ks_blocks_eq {v : Verif.ChaCha.Variant} (hV : Is V v) (ht : 16 ≤ tgt.bits) (g : Verif.ChaCha.Neon.Regs) (buffer : List U32)
    (hb : buffer.length = 64) : Backend.write_par_ks_blocks tgt (rep R V g) buffer =
      .ok ((), rep R V { g with state := { g.state with d := Verif.ChaCha.Neon.addCounter v g.state.d g.ctrs[3] } },
        (Verif.ChaCha.Neon.blocks 4 (by decide) (Rounds.count R) v g).toList.flatMap fun r => r.words.toList) := by
  rw [Backend.write_par_ks_blocks]
  dsimp only
  have e0 : Usize.val (0 : Usize tgt) = 0 := rfl
  simp only [counter_match hV, rep, st0, st1, st2, st3, ok_bind, ctr_idx g (0 : Usize tgt) (show 0 < 8 by decide), ctr_idx g (1 : Usize tgt) (show 1 < 8 by decide),
    ctr_idx g (2 : Usize tgt) (show 2 < 8 by decide), ctr_idx g (3 : Usize tgt) (show 3 < 8 by decide), add_counter_eq, e0, Nat.zero_add]
  generalize hst : (#v[⟨g.state.a, g.state.b, g.state.c, g.state.d⟩, ⟨g.state.a, g.state.b, g.state.c, Verif.ChaCha.Neon.addCounter v g.state.d g.ctrs[0]⟩,
    ⟨g.state.a, g.state.b, g.state.c, Verif.ChaCha.Neon.addCounter v g.state.d g.ctrs[1]⟩, ⟨g.state.a, g.state.b, g.state.c, Verif.ChaCha.Neon.addCounter v g.state.d g.ctrs[2]⟩] :
      Vector (Rows M128) 4) = start
  have hs : ∀ k (hk : k < 4), start[k] = ⟨g.state.a, g.state.b, g.state.c, Verif.ChaCha.Neon.ctrRow v g k (by omega)⟩ := by
    subst hst
    intro k hk
    rcases k with _ | _ | _ | _ | k <;> first | rfl | omega
  have hfin := blocks_eq (N := 4) (by decide) (Rounds.count R) v g start hs
  refine (bind_of ((congrArg (fun l => forIn (List.range (Rounds.count R)) l _) (show _ = blocksL start by subst hst; rfl)).trans
    (rounds_loop (Rounds.count R) start)) _).trans ?_
  generalize Verif.ChaCha.Neon.blocks 4 (by decide) (Rounds.count R) v g = fin at hfin
  generalize iter (Rounds.count R) Verif.ChaCha.Neon.doubleQuarterRound start = x at hfin
  have h256 : Mem.size buffer = 256 := by rw [size_u32, hb]
  obtain ⟨c, hc, hcells⟩ := exists_cells (β := M128) buffer 16 h256
  have hfl : fin.toList.length = 4 := Vector.length_toList ..
  have hF : (fin.toList.flatMap rowsL).length = 16 := by rw [size_flat, hfl]
  have hL : (blocksL fin).length = (blocksL x).length := by rw [blocksL_length, blocksL_length]
  have hloop : ∀ G : Nat → List U32 × List (List M128) × Nat → Except Panic (ForInStep (List U32 × List (List M128) × Nat)),
      (∀ k, k < 4 → G k (cells buffer (splice (fin.toList.flatMap rowsL) c (4 * k)), splice (blocksL fin) (blocksL x) k, k * 64) =
        .ok (.yield (cells buffer (splice (fin.toList.flatMap rowsL) c (4 * (k + 1))), splice (blocksL fin) (blocksL x) (k + 1), (k + 1) * 64))) →
      forIn (List.range 4) (buffer, blocksL x, 0) G = .ok (cells buffer (fin.toList.flatMap rowsL), blocksL fin, 256) := by
    intro G hG
    have h := forIn_range 4 (fun k => (cells buffer (splice (fin.toList.flatMap rowsL) c (4 * k)), splice (blocksL fin) (blocksL x) k, k * 64)) G
      (buffer, blocksL x, 0) (congrArg (fun l => (l, blocksL x, 0)) hcells) hG
    have e1 := splice_all (fin.toList.flatMap rowsL) c (hF.trans hc.symm)
    have e2 := splice_all (blocksL fin) (blocksL x) hL
    rw [hF] at e1
    rw [blocksL_length] at e2
    rw [show 4 * 4 = 16 from rfl, e1, e2] at h
    exact h
  refine (bind_of (hloop _ ?_) _).trans ?_
  · intro k hk
    dsimp only
    have hkL : k < (splice (blocksL fin) (blocksL x) k).length := by rw [splice_length _ _ hL, blocksL_length]; exact hk
    refine (add_input ht v g _ k hkL (by omega) x[k] (by rw [splice_get _ _ hL k (by rw [blocksL_length]; exact hk), blocksL_get]) _).trans ?_
    rw [← hfin k hk]
    refine (bind_of (store_words ht buffer h256 (fin.toList.flatMap rowsL) c hF hc k _ hk rfl _ hkL fin[k] ?_) _).trans ?_
    · intro i hi
      rw [flat_get fin.toList k i (by rw [hfl]; exact hk) hi]
      simp only [Vector.getElem_toList]
      rfl
    have hl : (splice (fin.toList.flatMap rowsL) c (4 * (k + 1))).length = 16 := (splice_length _ _ (hF.trans hc.symm) _).trans hF
    rw [ptrAdd_ok _ _ _ _ (by rw [size_cells _ _ (by rw [hl]; exact h256), h256]; show k * 64 + 64 * 1 ≤ 256; omega), ok_bind]
    have e2 := splice_set _ _ hL k (by rw [blocksL_length]; exact hk)
    rw [blocksL_get fin k hk] at e2
    rw [e2]
    show Except.ok (ForInStep.yield (_, _, k * 64 + 64 * 1)) = _
    rw [show k * 64 + 64 * 1 = (k + 1) * 64 by omega]
  rw [cells_words buffer _ (by rw [hb, hfl])]
  rfl

theorem unit_state (s : State) : Mem.unit s.toList = 4 := by
  have h : s.toList.length = 16 := Vector.length_toList ..
  generalize s.toList = l at h
  match l, h with
  | _ :: _, _ => rfl

theorem new_eq (s : State) : Backend.new (R := R) (V := V) tgt s.toList = .ok (rep R V (Verif.ChaCha.Neon.new s), s.toList) := by
  rw [Backend.new]
  dsimp only
  rw [unit_state]
  have hp (k : Nat) (hk : k < 16) : ptrAdd (tgt := tgt) (Mem.size s.toList) 4 0 ⟨k⟩ = .ok (0 + k * 4) :=
    ptrAdd_ok _ _ _ _ (by rw [size_state]; show 0 + k * 4 ≤ 64; omega)
  refine (bind_of (hp 0 (by decide)) _).trans ?_
  rw [load_state s 0 _ (by decide) rfl, ok_bind]
  refine (bind_of (hp 4 (by decide)) _).trans ?_
  rw [load_state s 1 _ (by decide) rfl, ok_bind]
  refine (bind_of (hp 8 (by decide)) _).trans ?_
  rw [load_state s 2 _ (by decide) rfl, ok_bind]
  refine (bind_of (hp 12 (by decide)) _).trans ?_
  rw [load_state s 3 _ (by decide) rfl, ok_bind]
  simp only [load1, ok_bind]
  rfl

/-- Storing the last row of the state. -/
theorem store_last (s : State) (d : M128) : store s.toList (0 + 12 * 4) d =
    .ok ((((s.set 12 d.x0).set 13 d.x1).set 14 d.x2).set 15 d.x3).toList := by
  have hw : s.toList = cells s.toList (rowsL (Rows.load s)) := by
    rw [cells, rows_words, words_load, LawfulMem.put_bytes]
  have hst := store_cells s.toList (rowsL (Rows.load s)) (by rw [size_state]; rfl) 3 (0 + 12 * 4) (show 3 < 4 by decide) rfl d
  rw [← hw] at hst
  rw [hst, show (rowsL (Rows.load s)).set 3 d = [({ Rows.load s with d := d } : Rows M128)].flatMap rowsL from rfl,
    cells_words s.toList _ (by rw [Vector.length_toList]; rfl)]
  apply congrArg Except.ok
  show ({ Rows.load s with d := d } : Rows M128).words.toList ++ [] = _
  rw [List.append_nil]
  apply congrArg Vector.toList
  apply Vector.ext
  intro i hi
  rcases i with _ | _ | _ | _ | _ | _ | _ | _ | _ | _ | _ | _ | _ | _ | _ | _ | i
  all_goals first | omega | simp only [Vector.getElem_set] | skip
  all_goals rfl

/-- The backend as client code sees it. -/
theorem call_eq {α : Type} {v : Verif.ChaCha.Variant} (hV : Is V v) (ht : 16 ≤ tgt.bits) (c : Closure 64 α) (g : Verif.ChaCha.Neon.Regs) :
    (asBackend tgt (Backend R V)).call c (rep R V g) =
      ((Verif.ChaCha.Neon.backend (Rounds.count R) v).call c g).map (Prod.map id (rep R V)) := by
  refine call_sim (B := Verif.ChaCha.Neon.backend (Rounds.count R) v) (rep R V) rfl ?_ ?_ ?_ c g
  · exact blockOf_sim (rep R V) (fun s b _ => gen_ks_block_eq hV ht s b)
  · exact blocksOf_sim (rep R V) (gen_par_ks_blocks_eq hV ht)
  · intro n s
    exact blocksOf_sim (g := (Verif.Backend.ofBlock 8 (Verif.ChaCha.Neon.genBlock (Rounds.count R) v)).genTail n) (rep R V)
      (fun s b hb => providedTail_sim (rep R V) 8 (fun s b _ => gen_ks_block_eq hV ht s b) n b hb s) s

theorem inner_eq {α : Type} {v : Verif.ChaCha.Variant} (hV : Is V v) (ht : 16 ≤ tgt.bits) (c : Closure 64 α) (s : State) :
    inner (R := R) (V := V) tgt s.toList (Callee.ready c) =
      (Verif.ChaCha.Neon.inner (Rounds.count R) v c s).map fun x => ((), x.2.toList, Callee.done x.1) := by
  rw [inner]
  dsimp only
  simp only [counter_match hV]
  refine (bind_of (new_eq s) _).trans ?_
  rw [Verif.ChaCha.Neon.inner]
  have hc : StreamCipherClosure.call tgt (Callee.ready c) (rep R V (Verif.ChaCha.Neon.new s)) =
      ((Verif.ChaCha.Neon.backend (Rounds.count R) v).call c (Verif.ChaCha.Neon.new s)).map fun x => ((), Callee.done x.1, rep R V x.2) := by
    show ((asBackend tgt (Backend R V)).call c (rep R V (Verif.ChaCha.Neon.new s)) >>= _) = _
    rw [call_eq hV ht]
    cases (Verif.ChaCha.Neon.backend (Rounds.count R) v).call c (Verif.ChaCha.Neon.new s) <;> rfl
  refine (congrArg (· >>= _) hc).trans ?_
  cases (Verif.ChaCha.Neon.backend (Rounds.count R) v).call c (Verif.ChaCha.Neon.new s) with
  | error e => rfl
  | ok x =>
    obtain ⟨a, ⟨st, ctr⟩⟩ := x
    have hp : ptrAdd (tgt := tgt) (Mem.size s.toList) (Mem.unit s.toList) 0 12 = .ok (0 + 12 * 4) := by
      rw [unit_state]
      exact ptrAdd_ok _ _ _ _ (by rw [size_state]; show 0 + 12 * 4 ≤ 64; decide)
    refine (bind_of (a := ((), Callee.done a, rep R V ⟨st, ctr⟩)) rfl _).trans ?_
    cases v with
    | ietf =>
      refine (if_pos rfl).trans ?_
      refine (bind_of (st3 st) _).trans ?_
      exact (bind_of (upd_vec s (12 : Usize tgt) (show 12 < 16 by decide) _) _).trans rfl
    | legacy =>
      refine (if_neg (by decide)).trans ?_
      refine (bind_of hp _).trans ?_
      refine (bind_of (st3 st) _).trans ?_
      exact (bind_of (store_last s st.d) _).trans rfl

theorem rng_inner_eq (ht : 16 ≤ tgt.bits) {v : Verif.ChaCha.Variant} (hV : Is V v) (s : State) (buffer : List U32) (hb : buffer.length = 64) :
    rng_inner (R := R) tgt (repr R V s) buffer =
      .ok ((), repr R V (Verif.ChaCha.Neon.rngInner (Rounds.count R) v s).2, (Verif.ChaCha.Neon.rngInner (Rounds.count R) v s).1.toList) := by
  rw [rng_inner]
  dsimp only
  refine (bind_of (new_eq s) _).trans ?_
  refine (bind_of (write_par_ks_blocks_eq hV ht _ buffer hb) _).trans ?_
  have hp : ptrAdd (tgt := tgt) (Mem.size s.toList) (Mem.unit s.toList) 0 12 = .ok (0 + 12 * 4) := by
    rw [unit_state]
    exact ptrAdd_ok _ _ _ _ (by rw [size_state]; show 0 + 12 * 4 ≤ 64; decide)
  refine (bind_of hp _).trans ?_
  rw [Verif.ChaCha.Neon.rngInner]
  dsimp only
  generalize Verif.ChaCha.Neon.blocks 4 (by decide) (Rounds.count R) v (Verif.ChaCha.Neon.new s) = fin
  refine (bind_of (st3 _) _).trans ?_
  refine (bind_of (store_last s _) _).trans ?_
  have hf : fin.toList = [fin[0], fin[1], fin[2], fin[3]] := by
    refine Eq.trans (congrArg Vector.toList (?_ : fin = #v[fin[0], fin[1], fin[2], fin[3]])) rfl
    apply Vector.ext
    intro i hi
    rcases i with _ | _ | _ | _ | i <;> first | rfl | omega
  rw [hf]
  simp only [List.flatMap_cons, List.flatMap_nil, List.append_nil, Vector.toList_append, List.append_assoc]
  rfl

end neon
end Verif.Rust.ChaCha
