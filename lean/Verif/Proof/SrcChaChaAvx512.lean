import Verif.Proof.SrcChaChaAvx2
import Verif.Proof.SrcChaChaNeon
import Verif.Rust.Src.ChaChaAvx512
/-!
# The text of the AVX-512 backend computes the model
-/
namespace Verif.Rust.ChaCha
open Verif.ChaCha (State)

/-- A loop that overwrites `B` by `A`, element by element. -/
theorem overwrite {α : Type} (A B : List α) (n : Nat) (hn : A.length = n) (h : A.length = B.length) (f : Nat → List α → Except Panic (ForInStep (List α)))
    (hf : ∀ k (hk : k < A.length), f k (splice A B k) = .ok (.yield ((splice A B k).set k A[k]))) : forIn (List.range n) B f = .ok A := by
  subst hn
  refine Eq.trans (b := .ok (splice A B A.length)) ?_ (by rw [splice_all A B h])
  refine forIn_range A.length (fun k => splice A B k) _ _ (splice_zero A B).symm ?_
  intro k hk
  rw [hf k hk, splice_set A B h k hk]

/-- A loop over a range as a fold. -/
theorem forIn_fin {σ τ : Type} {N : Nat} (rep : σ → τ) (F : σ → Fin N → σ) (f : Nat → τ → Except Panic (ForInStep τ))
    (h : ∀ (i : Fin N) s, f i.val (rep s) = .ok (.yield (rep (F s i)))) (s : σ) :
    forIn (List.range N) (rep s) f = .ok (rep ((List.finRange N).foldl F s)) := by
  have hl : ∀ (l : List (Fin N)) (s : σ), forIn (l.map Fin.val) (rep s) f = .ok (rep (l.foldl F s)) := by
    intro l
    induction l with
    | nil => intro s; rfl
    | cons i l ih =>
      intro s
      rw [List.map_cons, List.forIn_cons, h i s]
      exact ih (F s i)
  have hr : List.range N = (List.finRange N).map Fin.val := by
    refine List.ext_getElem (by simp) ?_
    intro i h1 h2
    simp
  rw [hr]
  exact hl _ s

/-- One call that fills blocks, first zero. -/
theorem blocksOf_zero {σ τ : Type} (f : σ → τ) {n : Nat} {gen : τ → List (List U8) → Except Panic (Unit × τ × List (List U8))}
    {m : Except Panic (List (Vector U8 64) × σ)} (t : τ)
    (h : gen t (List.replicate n (List.replicate 64 0)) = m.map fun r => ((), f r.2, r.1.map Vector.toList)) :
    blocksOf 64 n gen t = m.map (Prod.map id f) := by
  rw [blocksOf, h]
  cases m with
  | error e => rfl
  | ok r =>
    show (arrays 64 (r.1.map Vector.toList) >>= _) = _
    rw [arrays_ok]
    rfl

namespace avx512

variable {R V : Type} [Rounds R] [Variant V] {tgt : Target}

abbrev blocksL {N : Nat} (v : Vector (Rows M512) N) : List (List M512) := v.toList.map rowsL

theorem blocksL_length {N : Nat} (v : Vector (Rows M512) N) : (blocksL v).length = N := by rw [List.length_map, Vector.length_toList]

theorem blocksL_get {N : Nat} (v : Vector (Rows M512) N) (k : Nat) (hk : k < N) : (blocksL v)[k]'(by rw [blocksL_length]; exact hk) = rowsL v[k] := by
  rw [List.getElem_map, Vector.getElem_toList]

theorem per_vector_eq : BLOCKS_PER_VECTOR tgt = .ok ⟨4⟩ := rfl

theorem max_par_eq : MAX_PAR_BLOCKS tgt = .ok ⟨16⟩ := rfl

theorem max_n_eq : MAX_N tgt = .ok ⟨4⟩ := by
  rw [MAX_N, max_par_eq, ok_bind, per_vector_eq, ok_bind]
  exact avx2.div_val 16 4 (by decide)

theorem add_xor_rot_eq {N : Nat} (v : Vector (Rows M512) N) : add_xor_rot tgt (blocksL v) = .ok ((), blocksL (Verif.ChaCha.Avx512.addXorRot v)) := by
  rw [add_xor_rot]
  dsimp only
  rw [each_rows _ (Verif.ChaCha.Avx512.stepAD 16) v.toList _ (List.length_map ..)]
  · rw [ok_bind, each_rows _ (Verif.ChaCha.Avx512.stepCB 12) _ _ (List.length_map ..)]
    · rw [ok_bind, each_rows _ (Verif.ChaCha.Avx512.stepAD 8) _ _ (List.length_map ..)]
      · rw [ok_bind, each_rows _ (Verif.ChaCha.Avx512.stepCB 7) _ _ (List.length_map ..)]
        · rw [Verif.ChaCha.Avx512.addXorRot, blocksL]
          simp only [Vector.toList_map]
          rfl
        · intro k l hk
          rw [nth_rows l k hk]
          rfl
      · intro k l hk
        rw [nth_rows l k hk]
        rfl
    · intro k l hk
      rw [nth_rows l k hk]
      rfl
  · intro k l hk
    rw [nth_rows l k hk]
    rfl

theorem rows_to_cols_eq (l : List (Rows M512)) : rows_to_cols tgt (l.map rowsL) = .ok ((), (l.map Verif.ChaCha.Avx512.rowsToCols1).map rowsL) := by
  rw [rows_to_cols]
  dsimp only
  rw [each_rows _ Verif.ChaCha.Avx512.rowsToCols1 l _ (List.length_map ..)]
  · rfl
  · intro k l hk
    rw [nth_rows l k hk]
    rfl

theorem cols_to_rows_eq (l : List (Rows M512)) : cols_to_rows tgt (l.map rowsL) = .ok ((), (l.map Verif.ChaCha.Avx512.colsToRows1).map rowsL) := by
  rw [cols_to_rows]
  dsimp only
  rw [each_rows _ Verif.ChaCha.Avx512.colsToRows1 l _ (List.length_map ..)]
  · rfl
  · intro k l hk
    rw [nth_rows l k hk]
    rfl

theorem double_quarter_round_eq {N : Nat} (v : Vector (Rows M512) N) :
    double_quarter_round tgt (blocksL v) = .ok ((), blocksL (Verif.ChaCha.Avx512.doubleQuarterRound v)) := by
  rw [double_quarter_round]
  dsimp only
  rw [add_xor_rot_eq, ok_bind, rows_to_cols_eq, ok_bind, ← Vector.toList_map, add_xor_rot_eq, ok_bind, cols_to_rows_eq, ok_bind]
  rw [Verif.ChaCha.Avx512.doubleQuarterRound, blocksL]
  simp only [Vector.toList_map]
  rfl

/-- The loop over the double rounds. -/
theorem rounds_loop {N : Nat} (n : Nat) (x : Vector (Rows M512) N) :
    (forIn (List.range n) (blocksL x) fun _ (s : List (List M512)) => do
      let r ← double_quarter_round tgt s
      pure (ForInStep.yield r.2)) = .ok (blocksL (iter n Verif.ChaCha.Avx512.doubleQuarterRound x)) := by
  refine forIn_range n (fun k => blocksL (iter k Verif.ChaCha.Avx512.doubleQuarterRound x)) _ _ rfl ?_
  intro k _
  rw [double_quarter_round_eq, Salsa.iter_succ_out]
  rfl

/-- Adding the first rows of the input - avx512.rs:356-358. -/
theorem add_rows (v0 v1 v2 : M512) (L : List (List M512)) (k : Nat) (hk : k < L.length) (x : Rows M512) (hx : L[k] = rowsL x) :
    (forIn (List.range (Usize.val (3 : Usize tgt))) L fun j s => do
      let r10 ← idx s (⟨k⟩ : Usize tgt)
      let r11 ← idx r10 (⟨j⟩ : Usize tgt)
      let r12 ← idx [v0, v1, v2] (⟨j⟩ : Usize tgt)
      let r13 ← idx s (⟨k⟩ : Usize tgt)
      let r14 ← upd r13 (⟨j⟩ : Usize tgt) (_mm512_add_epi32 r11 r12)
      let r15 ← upd s (⟨k⟩ : Usize tgt) r14
      pure (ForInStep.yield r15)) = .ok (L.set k (rowsL ⟨x.a.addEpi32 v0, x.b.addEpi32 v1, x.c.addEpi32 v2, x.d⟩)) := by
  refine forIn_range 3 (fun n => L.set k (rowsL ⟨if 1 ≤ n then x.a.addEpi32 v0 else x.a, if 2 ≤ n then x.b.addEpi32 v1 else x.b,
    if 3 ≤ n then x.c.addEpi32 v2 else x.c, x.d⟩)) _ _ ?_ ?_
  · show L = L.set k (rowsL x)
    rw [← hx, List.set_getElem_self]
  · intro j hj
    rw [idx_set L k hk, ok_bind]
    rcases j with _ | _ | _ | j
    · refine (bind_of (a := x.a) rfl _).trans ?_
      refine (bind_of (a := v0) rfl _).trans ?_
      rw [ok_bind]
      refine (bind_of (a := rowsL ⟨x.a.addEpi32 v0, x.b, x.c, x.d⟩) rfl _).trans ?_
      rw [upd_set L k hk]
      rfl
    · refine (bind_of (a := x.b) rfl _).trans ?_
      refine (bind_of (a := v1) rfl _).trans ?_
      rw [ok_bind]
      refine (bind_of (a := rowsL ⟨x.a.addEpi32 v0, x.b.addEpi32 v1, x.c, x.d⟩) rfl _).trans ?_
      rw [upd_set L k hk]
      rfl
    · refine (bind_of (a := x.c) rfl _).trans ?_
      refine (bind_of (a := v2) rfl _).trans ?_
      rw [ok_bind]
      refine (bind_of (a := rowsL ⟨x.a.addEpi32 v0, x.b.addEpi32 v1, x.c.addEpi32 v2, x.d⟩) rfl _).trans ?_
      rw [upd_set L k hk]
      rfl
    · omega

theorem vec_idx {α : Type} {n : Nat} (v : Vector α n) (k : Nat) (h : k < n) : idx v.toList (⟨k⟩ : Usize tgt) = .ok v[k] := by
  rw [idx, nth_ok _ _ (by rw [Vector.length_toList]; exact h), Vector.getElem_toList]

theorem list_upd {α : Type} (L : List α) (k : Nat) (h : k < L.length) (x : α) : upd L (⟨k⟩ : Usize tgt) x = .ok (L.set k x) := if_pos h

theorem rounds_eq {N : Nat} (v : Vector M512 3) (c : Vector M512 N) :
    rounds N (R := R) tgt v.toList c.toList = .ok (blocksL (Verif.ChaCha.Avx512.rounds (Rounds.count R) v c)) := by
  obtain ⟨v0, v1, v2, rfl⟩ := avx2.three v
  rw [rounds]
  have e0 : Usize.val (0 : Usize tgt) = 0 := rfl
  dsimp only
  simp only [e0, Nat.zero_add, Nat.sub_zero]
  generalize hst : (Vector.ofFn fun i : Fin N => ⟨v0, v1, v2, c[i]⟩ : Vector (Rows M512) N) = start
  have hlen : (blocksL start).length = (List.replicate N (List.replicate (Usize.val (4 : Usize tgt)) _mm512_setzero_si512)).length := by
    rw [blocksL_length, List.length_replicate]
  refine (bind_of (overwrite (blocksL start) _ N (blocksL_length start) hlen _ ?_) _).trans ?_
  · intro k hk
    have hkN : k < N := by rwa [blocksL_length] at hk
    refine (bind_of (a := v0) rfl _).trans ?_
    refine (bind_of (a := v1) rfl _).trans ?_
    refine (bind_of (a := v2) rfl _).trans ?_
    rw [vec_idx c k hkN, ok_bind, list_upd _ k (by rw [splice_length _ _ hlen]; exact hk), ok_bind, blocksL_get start k hkN, ← hst, Vector.getElem_ofFn]
    rfl
  refine (bind_of (rounds_loop (Rounds.count R) start) _).trans ?_
  rw [Verif.ChaCha.Avx512.rounds]
  have hst' : (Vector.ofFn fun i : Fin N => ⟨(#v[v0, v1, v2])[0], (#v[v0, v1, v2])[1], (#v[v0, v1, v2])[2], c[i]⟩ : Vector (Rows M512) N) = start := hst
  dsimp only
  rw [hst']
  generalize iter (Rounds.count R) Verif.ChaCha.Avx512.doubleQuarterRound start = x
  generalize hfin : (Vector.ofFn fun i : Fin N => ⟨x[i].a.addEpi32 (#v[v0, v1, v2])[0], x[i].b.addEpi32 (#v[v0, v1, v2])[1],
    x[i].c.addEpi32 (#v[v0, v1, v2])[2], x[i].d.addEpi32 c[i]⟩ : Vector (Rows M512) N) = fin
  have hL : (blocksL fin).length = (blocksL x).length := by rw [blocksL_length, blocksL_length]
  refine (bind_of (overwrite (blocksL fin) (blocksL x) N (blocksL_length fin) hL _ ?_) _).trans rfl
  intro k hk
  have hkN : k < N := by rwa [blocksL_length] at hk
  have hks : k < (splice (blocksL fin) (blocksL x) k).length := by rw [splice_length _ _ hL]; exact hk
  refine (bind_of (add_rows v0 v1 v2 _ k hks x[k] (by rw [splice_get _ _ hL k (by rw [blocksL_length]; exact hkN), blocksL_get])) _).trans ?_
  rw [idx_set _ k hks, ok_bind]
  refine (bind_of (a := x[k].d) rfl _).trans ?_
  rw [vec_idx c k hkN, ok_bind, ok_bind]
  refine (bind_of (a := rowsL fin[k]) ?_ _).trans ?_
  · rw [← hfin, Vector.getElem_ofFn]
    rfl
  rw [upd_set _ k hks, ok_bind, blocksL_get fin k hkN]
  rfl

/-- The backend with these registers. -/
def rep (R V : Type) [Rounds R] [Variant V] (g : Verif.ChaCha.Avx512.Regs) : Backend R V := ⟨g.state.toList, g.ctr⟩

theorem increment_ctr_eq {v : Verif.ChaCha.Variant} (hV : Is V v) (g : Verif.ChaCha.Avx512.Regs) (n : Nat) :
    Backend.increment_ctr tgt (rep R V g) ⟨n⟩ = .ok ((), rep R V (Verif.ChaCha.Avx512.incrementCtr v g n)) := by
  rw [Backend.increment_ctr]
  dsimp only
  simp only [counter_match hV]
  cases v <;> rfl

/-! ## The wide path -/

/-- The counter of one register - avx512.rs:92-132. -/
theorem ctr_step {α : Type} (ht : 16 ≤ tgt.bits) (v : Verif.ChaCha.Variant) (c : List M512) (x : M512) (k : Nat) (hk : k < 4) (hc : idx c (⟨k⟩ : Usize tgt) = .ok x)
    (F : List M512 → Except Panic α) :
    (if v.ctrBytes = 4 then do
      let r3 ← idx c (⟨k⟩ : Usize tgt)
      let r4 ← BLOCKS_PER_VECTOR tgt
      let r5 ← mul tgt (⟨k⟩ : Usize tgt) r4
      let r6 ← add tgt r5 3
      let r7 ← BLOCKS_PER_VECTOR tgt
      let r8 ← mul tgt (⟨k⟩ : Usize tgt) r7
      let r9 ← add tgt r8 2
      let r10 ← BLOCKS_PER_VECTOR tgt
      let r11 ← mul tgt (⟨k⟩ : Usize tgt) r10
      let r12 ← add tgt r11 1
      let r13 ← BLOCKS_PER_VECTOR tgt
      let r14 ← mul tgt (⟨k⟩ : Usize tgt) r13
      let r15 ← upd c (⟨k⟩ : Usize tgt) (_mm512_add_epi32 r3 (_mm512_set_epi32 0 0 0 (cast U32 r6) 0 0 0 (cast U32 r9) 0 0 0 (cast U32 r12) 0 0 0 (cast U32 r14)))
      F r15
    else do
      let r16 ← idx c (⟨k⟩ : Usize tgt)
      let r17 ← BLOCKS_PER_VECTOR tgt
      let r18 ← mul tgt (⟨k⟩ : Usize tgt) r17
      let r19 ← add tgt r18 3
      let r20 ← BLOCKS_PER_VECTOR tgt
      let r21 ← mul tgt (⟨k⟩ : Usize tgt) r20
      let r22 ← add tgt r21 2
      let r23 ← BLOCKS_PER_VECTOR tgt
      let r24 ← mul tgt (⟨k⟩ : Usize tgt) r23
      let r25 ← add tgt r24 1
      let r26 ← BLOCKS_PER_VECTOR tgt
      let r27 ← mul tgt (⟨k⟩ : Usize tgt) r26
      let r28 ← upd c (⟨k⟩ : Usize tgt) (_mm512_add_epi64 r16 (_mm512_set_epi64 0 (cast U64 r19) 0 (cast U64 r22) 0 (cast U64 r25) 0 (cast U64 r27)))
      F r28) = (upd c (⟨k⟩ : Usize tgt) (Verif.ChaCha.Avx512.ctrReg v x k) >>= F) := by
  have hm : mul tgt (⟨k⟩ : Usize tgt) ⟨4⟩ = .ok ⟨k * 4⟩ := mul_usize _ _ (pow_bits ht (show k * 4 < 65536 by omega))
  have h3 : add tgt (⟨k * 4⟩ : Usize tgt) 3 = .ok ⟨k * 4 + 3⟩ := add_usize _ _ (pow_bits ht (show k * 4 + 3 < 65536 by omega))
  have h2 : add tgt (⟨k * 4⟩ : Usize tgt) 2 = .ok ⟨k * 4 + 2⟩ := add_usize _ _ (pow_bits ht (show k * 4 + 2 < 65536 by omega))
  have h1 : add tgt (⟨k * 4⟩ : Usize tgt) 1 = .ok ⟨k * 4 + 1⟩ := add_usize _ _ (pow_bits ht (show k * 4 + 1 < 65536 by omega))
  simp only [hc, ok_bind, per_vector_eq, hm, h3, h2, h1]
  cases v <;> rfl

theorem setr01 : (Vector.ofFn fun k : Fin 8 => ((_mm512_setr_epi64 0 1 8 9 2 3 10 11).elem64 k.val).1.toNat) = #v[0, 1, 8, 9, 2, 3, 10, 11] := by decide +kernel

theorem setr23 : (Vector.ofFn fun k : Fin 8 => ((_mm512_setr_epi64 4 5 12 13 6 7 14 15).elem64 k.val).1.toNat) = #v[4, 5, 12, 13, 6, 7, 14, 15] := by decide +kernel

theorem perm01 (a b : M512) : _mm512_permutex2var_epi64 a (_mm512_setr_epi64 0 1 8 9 2 3 10 11) b = M512.permutex2var64 a #v[0, 1, 8, 9, 2, 3, 10, 11] b := by
  rw [_mm512_permutex2var_epi64, setr01]

theorem perm23 (a b : M512) : _mm512_permutex2var_epi64 a (_mm512_setr_epi64 4 5 12 13 6 7 14 15) b = M512.permutex2var64 a #v[4, 5, 12, 13, 6, 7, 14, 15] b := by
  rw [_mm512_permutex2var_epi64, setr23]

/-- A register over a block. -/
theorem store_block (b : Verif.ChaCha.Block) (x : M512) : store b.toList 0 x = .ok (Verif.ChaCha.Avx512.store x).toList := by
  have h64 : Mem.size b.toList = 1 * Reg.size M512 := by rw [size_u8, Vector.length_toList]; rfl
  obtain ⟨c, hc, hb⟩ := exists_cells (β := M512) b.toList 1 h64
  match c, hc with
  | [y], _ =>
    rw [hb, store_cells b.toList [y] h64 0 0 Nat.one_pos (by rw [Nat.zero_mul]) x]
    refine congrArg Except.ok ?_
    have hx : [x].flatMap Reg.bytes = (Verif.ChaCha.Avx512.store x).toList := by
      rw [Verif.ChaCha.Avx512.store, ← rows_bytes]
      show (Reg.bytes x.l0 ++ Reg.bytes x.l1 ++ Reg.bytes x.l2 ++ Reg.bytes x.l3) ++ [] =
        Reg.bytes x.l0 ++ (Reg.bytes x.l1 ++ (Reg.bytes x.l2 ++ (Reg.bytes x.l3 ++ [])))
      simp only [List.append_assoc]
    show cells b.toList [x] = _
    rw [cells, hx, put_u8 _ _ (by rw [Vector.length_toList, Vector.length_toList])]

/-- Storing one block, if there is room - avx512.rs:204-207. -/
theorem put_block {α : Type} (bl : List Verif.ChaCha.Block) (d : Nat) (x : M512) (F : List (List U8) → Except Panic α) :
    (if lt (⟨d⟩ : Usize tgt) (len tgt (bl.map Vector.toList)) = true then do
      let r47 ← idx (bl.map Vector.toList) (⟨d⟩ : Usize tgt)
      let r48 ← store r47 0 x
      let r49 ← upd (bl.map Vector.toList) (⟨d⟩ : Usize tgt) r48
      F r49
    else F (bl.map Vector.toList)) = F ((if d < bl.length then bl.set d (Verif.ChaCha.Avx512.store x) else bl).map Vector.toList) := by
  have hlt : lt (⟨d⟩ : Usize tgt) (len tgt (bl.map Vector.toList)) = decide (d < bl.length) := by
    show decide (d < (bl.map Vector.toList).length) = _
    rw [List.length_map]
  rw [hlt]
  by_cases h : d < bl.length
  · rw [if_pos (decide_eq_true h), if_pos h]
    have hi : idx (bl.map Vector.toList) (⟨d⟩ : Usize tgt) = .ok bl[d].toList := by
      rw [idx, nth_ok _ _ (show d < _ by rw [List.length_map]; exact h), List.getElem_map]
    rw [hi, ok_bind, store_block, ok_bind, list_upd _ d (by rw [List.length_map]; exact h), ok_bind, List.map_set]
  · rw [if_neg (by rw [decide_eq_true_iff]; exact h), if_neg h]

/-- Storing four blocks - avx512.rs:203-208. -/
theorem put_four (ht : 16 ≤ tgt.bits) (t : Vector M512 4) (i : Nat) (hi : i < 4) (bl : List Verif.ChaCha.Block) (l : List M512) (hl : l = t.toList) :
    (forIn (List.range l.length) (bl.map Vector.toList) fun j s => do
      let r43 ← nth l j
      let r44 ← BLOCKS_PER_VECTOR tgt
      let r45 ← mul tgt (⟨i⟩ : Usize tgt) r44
      let r46 ← add tgt r45 ⟨j⟩
      if lt r46 (len tgt s) = true then do
        let r47 ← idx s r46
        let r48 ← store r47 0 r43
        let r49 ← upd s r46 r48
        pure (ForInStep.yield r49)
      else pure (ForInStep.yield s)) = .ok (((List.finRange 4).foldl (fun bl j =>
        if i * 4 + j.val < bl.length then bl.set (i * 4 + j.val) (Verif.ChaCha.Avx512.store t[j]) else bl) bl).map Vector.toList) := by
  subst hl
  rw [Vector.length_toList]
  refine forIn_fin (fun bl : List Verif.ChaCha.Block => bl.map Vector.toList) (fun bl j =>
        if i * 4 + j.val < bl.length then bl.set (i * 4 + j.val) (Verif.ChaCha.Avx512.store t[j]) else bl) _ ?_ bl
  intro j bl
  have hm : mul tgt (⟨i⟩ : Usize tgt) ⟨4⟩ = .ok ⟨i * 4⟩ := mul_usize _ _ (pow_bits ht (show i * 4 < 65536 by omega))
  have ha : add tgt (⟨i * 4⟩ : Usize tgt) ⟨j.val⟩ = .ok ⟨i * 4 + j.val⟩ := add_usize _ _ (pow_bits ht (show i * 4 + j.val < 65536 by omega))
  have hn : nth t.toList j.val = .ok t[j] := by
    rw [nth_ok _ _ (by rw [Vector.length_toList]; exact j.isLt), Vector.getElem_toList]
    rfl
  simp only [hn, ok_bind, per_vector_eq, hm, ha]
  exact put_block bl _ _ fun l => .ok (ForInStep.yield l)

theorem ctrs_get (N : Nat) (v : Verif.ChaCha.Variant) (c : M128) (k : Nat) (hk : k < N) :
    (Verif.ChaCha.Avx512.ctrs N v c)[k] = Verif.ChaCha.Avx512.ctrReg v (M512.broadcast c) k := by
  show (Vector.ofFn fun i : Fin N => Verif.ChaCha.Avx512.ctrReg v ((Vector.replicate N (M512.broadcast c))[i.val]) i.val)[k] = _
  rw [Vector.getElem_ofFn, Vector.getElem_replicate]

theorem gen_full_eq {v : Verif.ChaCha.Variant} (hV : Is V v) (ht : 16 ≤ tgt.bits) (N : Nat) (hN : N ≤ 4) (g : Verif.ChaCha.Avx512.Regs)
    (bl : List Verif.ChaCha.Block) : Backend.gen_blocks_fullwidth N tgt (rep R V g) (bl.map Vector.toList) =
      (Verif.ChaCha.Avx512.genFull N (Rounds.count R) v bl g).map fun x => ((), rep R V x.2, x.1.map Vector.toList) := by
  rw [Backend.gen_blocks_fullwidth]
  have e0 : Usize.val (0 : Usize tgt) = 0 := rfl
  dsimp only
  simp only [e0, Nat.zero_add, Nat.sub_zero, counter_match hV]
  refine (bind_of per_vector_eq _).trans ?_
  refine (bind_of (mul_usize _ _ (pow_bits ht (show N * 4 < 65536 by omega))) _).trans ?_
  rw [Verif.ChaCha.Avx512.genFull]
  have hle : le (len tgt (bl.map Vector.toList)) (⟨N * 4⟩ : Usize tgt) = decide (bl.length ≤ N * 4) := by
    show decide ((bl.map Vector.toList).length ≤ N * 4) = _
    rw [List.length_map]
  by_cases h : ¬ bl.length ≤ N * 4
  · rw [if_pos h]
    refine (congrArg (fun b => assert b >>= _) (hle.trans (decide_eq_false h))).trans rfl
  rw [if_neg h]
  replace h := Decidable.not_not.mp h
  refine (bind_of (a := ()) ((congrArg assert (hle.trans (decide_eq_true h))).trans rfl) _).trans ?_
  have hcl : (Verif.ChaCha.Avx512.ctrs N v g.ctr).toList.length = (List.replicate N (_mm512_broadcast_i32x4 g.ctr)).length := by
    rw [Vector.length_toList, List.length_replicate]
  refine (bind_of (overwrite (Verif.ChaCha.Avx512.ctrs N v g.ctr).toList (List.replicate N (_mm512_broadcast_i32x4 g.ctr)) _
    (by rw [Vector.length_toList]; show N = List.length _; rw [List.length_replicate]) hcl _ ?_) _).trans ?_
  · intro k hk
    have hkN : k < N := by rwa [Vector.length_toList] at hk
    have hks : k < (splice (Verif.ChaCha.Avx512.ctrs N v g.ctr).toList (List.replicate N (_mm512_broadcast_i32x4 g.ctr)) k).length := by
      rw [splice_length _ _ hcl]; exact hk
    have hi : idx (splice (Verif.ChaCha.Avx512.ctrs N v g.ctr).toList (List.replicate N (_mm512_broadcast_i32x4 g.ctr)) k) (⟨k⟩ : Usize tgt) =
        .ok (M512.broadcast g.ctr) := by
      rw [idx, nth_ok _ _ hks, splice_get _ _ hcl k (by rw [List.length_replicate]; exact hkN), List.getElem_replicate]
      rfl
    refine (ctr_step ht v _ _ k (by omega) hi _).trans ?_
    rw [list_upd _ k hks, ok_bind, Vector.getElem_toList, ctrs_get]
    rfl
  have hinc : Backend.increment_ctr tgt (rep R V g) (len tgt (bl.map Vector.toList)) = .ok ((), rep R V (Verif.ChaCha.Avx512.incrementCtr v g bl.length)) := by
    rw [len, List.length_map, increment_ctr_eq hV]
  refine (bind_of hinc _).trans ?_
  dsimp only
  generalize Verif.ChaCha.Avx512.incrementCtr v g bl.length = g'
  have hmap : List.mapM (m := Except Panic) (fun v => pure (_mm512_broadcast_i32x4 v)) (rep R V g').state = .ok (g'.state.map M512.broadcast).toList := by
    rw [rep, Vector.toList_map]
    obtain ⟨a, b, c, h⟩ := avx2.three g'.state
    rw [h]
    rfl
  refine (bind_of hmap _).trans ?_
  refine (bind_of (rounds_eq _ _) _).trans ?_
  generalize Verif.ChaCha.Avx512.rounds (Rounds.count R) (g'.state.map M512.broadcast) (Verif.ChaCha.Avx512.ctrs N v g.ctr) = res
  refine (bind_of (forIn_fin (fun bl : List Verif.ChaCha.Block => bl.map Vector.toList) (fun bl (i : Fin N) =>
    (List.finRange 4).foldl (fun bl j => if i.val * 4 + j.val < bl.length then
      bl.set (i.val * 4 + j.val) (Verif.ChaCha.Avx512.store (Verif.ChaCha.Avx512.transpose res[i])[j]) else bl) bl) _ ?_ bl) _).trans rfl
  intro i bl
  have hr : idx (blocksL res) (⟨i.val⟩ : Usize tgt) = .ok (rowsL res[i]) := by
    rw [idx, nth_ok _ _ (show i.val < _ by rw [blocksL_length]; exact i.isLt), blocksL_get res i.val i.isLt]
    rfl
  rw [hr, ok_bind]
  generalize res[i] = r
  have i0 : idx (rowsL r) (0 : Usize tgt) = .ok r.a := rfl
  have i1 : idx (rowsL r) (1 : Usize tgt) = .ok r.b := rfl
  have i2 : idx (rowsL r) (2 : Usize tgt) = .ok r.c := rfl
  have i3 : idx (rowsL r) (3 : Usize tgt) = .ok r.d := rfl
  simp only [i0, i1, i2, i3, ok_bind, perm01, perm23]
  refine (bind_of (put_four ht (Verif.ChaCha.Avx512.transpose r) i.val (by omega) bl _ rfl) _).trans rfl

/-! ## The half-wide path -/

theorem add_xor_rot_halfwide_eq (r : Rows M256) : add_xor_rot_halfwide tgt (rowsL r) = .ok ((), rowsL (Verif.ChaCha.Avx512.addXorRotHalf r)) := rfl

theorem rows_to_cols_halfwide_eq (r : Rows M256) : rows_to_cols_halfwide tgt (rowsL r) = .ok ((), rowsL (Verif.ChaCha.Avx512.rowsToColsHalf r)) := rfl

theorem cols_to_rows_halfwide_eq (r : Rows M256) : cols_to_rows_halfwide tgt (rowsL r) = .ok ((), rowsL (Verif.ChaCha.Avx512.colsToRowsHalf r)) := rfl

theorem double_quarter_round_halfwide_eq (r : Rows M256) :
    double_quarter_round_halfwide tgt (rowsL r) = .ok ((), rowsL (Verif.ChaCha.Avx512.doubleQuarterRoundHalf r)) := by
  rw [double_quarter_round_halfwide]
  dsimp only
  refine (bind_of (add_xor_rot_halfwide_eq _) _).trans ?_
  refine (bind_of (rows_to_cols_halfwide_eq _) _).trans ?_
  refine (bind_of (add_xor_rot_halfwide_eq _) _).trans ?_
  refine (bind_of (cols_to_rows_halfwide_eq _) _).trans ?_
  rfl

theorem rounds_halfwide_eq (r : Rows M256) : rounds_halfwide (R := R) tgt (rowsL r) = .ok (rowsL (Verif.ChaCha.Avx512.roundsHalf (Rounds.count R) r)) := by
  rw [rounds_halfwide]
  dsimp only
  refine (bind_of (forIn_range (Rounds.count R) (fun k => rowsL (iter k Verif.ChaCha.Avx512.doubleQuarterRoundHalf r)) _ _ rfl ?_) _).trans ?_
  · intro k _
    rw [double_quarter_round_halfwide_eq, Salsa.iter_succ_out]
    rfl
  rw [Verif.ChaCha.Avx512.roundsHalf]
  generalize iter (Rounds.count R) Verif.ChaCha.Avx512.doubleQuarterRoundHalf r = x
  refine (bind_of (forIn_range 4 (fun k => rowsL ⟨if 1 ≤ k then x.a.addEpi32 r.a else x.a, if 2 ≤ k then x.b.addEpi32 r.b else x.b,
    if 3 ≤ k then x.c.addEpi32 r.c else x.c, if 4 ≤ k then x.d.addEpi32 r.d else x.d⟩) _ _ rfl ?_) _).trans rfl
  intro k hk
  rcases k with _ | _ | _ | _ | k <;> first | rfl | omega

theorem half0 (a b : M256) : _mm256_permutex2var_epi64 a (_mm256_setr_epi64x 0 1 4 5) b = M256.permutex2var64 a #v[0, 1, 4, 5] b := by
  rw [_mm256_permutex2var_epi64, show (Vector.ofFn fun k : Fin 4 => ((_mm256_setr_epi64x 0 1 4 5).elem64 k.val).1.toNat) = #v[0, 1, 4, 5] by decide +kernel]

theorem half1 (a b : M256) : _mm256_permutex2var_epi64 a (_mm256_setr_epi64x 2 3 6 7) b = M256.permutex2var64 a #v[2, 3, 6, 7] b := by
  rw [_mm256_permutex2var_epi64, show (Vector.ofFn fun k : Fin 4 => ((_mm256_setr_epi64x 2 3 6 7).elem64 k.val).1.toNat) = #v[2, 3, 6, 7] by decide +kernel]

/-- Two registers over a block. -/
theorem cells_half (b : Verif.ChaCha.Block) (x y : M256) : cells b.toList [x, y] = (Rows.mk x.lo x.hi y.lo y.hi).store.toList := by
  have hx : [x, y].flatMap Reg.bytes = (Rows.mk x.lo x.hi y.lo y.hi).store.toList := by
    rw [← rows_bytes]
    show (Reg.bytes x.lo ++ Reg.bytes x.hi) ++ ((Reg.bytes y.lo ++ Reg.bytes y.hi) ++ []) =
      Reg.bytes x.lo ++ (Reg.bytes x.hi ++ (Reg.bytes y.lo ++ (Reg.bytes y.hi ++ [])))
    simp only [List.append_assoc]
  rw [cells, hx, put_u8 _ _ (by rw [Vector.length_toList, Vector.length_toList])]

/-- Storing the halves of a block, if there is room - avx512.rs:267-274. -/
theorem put_half {α : Type} (bl : List Verif.ChaCha.Block) (d : Nat) (x y : M256) (F : List (List U8) → Except Panic α) :
    (if lt (⟨d⟩ : Usize tgt) (len tgt (bl.map Vector.toList)) = true then do
      let r15 ← idx (bl.map Vector.toList) (⟨d⟩ : Usize tgt)
      let r16 ← store r15 0 x
      let r17 ← upd (bl.map Vector.toList) (⟨d⟩ : Usize tgt) r16
      let r18 ← div tgt (64 : Usize tgt) 2
      let r19 ← div tgt r18 (sizeOfTy tgt U32)
      let r20 ← idx r17 (⟨d⟩ : Usize tgt)
      let r21 ← ptrAdd (Mem.size r20) 4 0 r19
      let r22 ← idx r17 (⟨d⟩ : Usize tgt)
      let r23 ← store r22 r21 y
      let r24 ← upd r17 (⟨d⟩ : Usize tgt) r23
      F r24
    else F (bl.map Vector.toList)) = F ((if d < bl.length then bl.set d (Rows.mk x.lo x.hi y.lo y.hi).store else bl).map Vector.toList) := by
  have hlt : lt (⟨d⟩ : Usize tgt) (len tgt (bl.map Vector.toList)) = decide (d < bl.length) := by
    show decide (d < (bl.map Vector.toList).length) = _
    rw [List.length_map]
  rw [hlt]
  by_cases h : d < bl.length
  · rw [if_pos (decide_eq_true h), if_pos h]
    have hd : d < (bl.map Vector.toList).length := by rw [List.length_map]; exact h
    have hi : idx (bl.map Vector.toList) (⟨d⟩ : Usize tgt) = .ok bl[d].toList := by
      rw [idx, nth_ok _ _ hd, List.getElem_map]
    have h64 : Mem.size bl[d].toList = 2 * Reg.size M256 := by rw [size_u8, Vector.length_toList]; rfl
    obtain ⟨c, hc, hb⟩ := exists_cells (β := M256) bl[d].toList 2 h64
    match c, hc with
    | [c0, c1], _ =>
      have hs0 : store bl[d].toList 0 x = .ok (cells bl[d].toList [x, c1]) := by
        refine (congrArg (fun l => store l 0 x) hb).trans ?_
        exact store_cells bl[d].toList [c0, c1] h64 0 0 Nat.two_pos (by rw [Nat.zero_mul]) x
      have hs1 : store (cells bl[d].toList [x, c1]) (0 + 8 * 4) y = .ok (cells bl[d].toList [x, y]) :=
        store_cells bl[d].toList [x, c1] h64 1 _ Nat.one_lt_two rfl y
      have hp : ptrAdd (tgt := tgt) (Mem.size (cells bl[d].toList [x, c1])) 4 0 ⟨8⟩ = .ok (0 + 8 * 4) :=
        ptrAdd_ok _ _ _ _ (by rw [size_cells bl[d].toList [x, c1] h64, h64]; show 0 + 8 * 4 ≤ 2 * 32; omega)
      have hd1 : div tgt (64 : Usize tgt) 2 = .ok ⟨32⟩ := avx2.div_val 64 2 (by decide)
      have hd2 : div tgt (⟨32⟩ : Usize tgt) (sizeOfTy tgt U32) = .ok ⟨8⟩ := avx2.div_val 32 4 (by decide)
      rw [hi, ok_bind, hs0, ok_bind, list_upd _ d hd, ok_bind, hd1, ok_bind, hd2, ok_bind, idx_set _ d hd, ok_bind, hp, ok_bind, ok_bind, hs1, ok_bind,
        upd_set _ d hd, ok_bind, cells_half, List.map_set]
  · rw [if_neg (by rw [decide_eq_true_iff]; exact h), if_neg h]

/-- The rest of the function, for either width of the counter - avx512.rs:236-275. -/
theorem half_rest (g : Verif.ChaCha.Avx512.Regs) (ctr : M256) (bl : List Verif.ChaCha.Block) :
    (do
      let r1 ← idx (rep R V g).state (0 : Usize tgt)
      let r2 ← idx (rep R V g).state (1 : Usize tgt)
      let r3 ← idx (rep R V g).state (2 : Usize tgt)
      let r4 ← rounds_halfwide (R := R) tgt [_mm256_broadcast_i32x4 r1, _mm256_broadcast_i32x4 r2, _mm256_broadcast_i32x4 r3, ctr]
      let r5 ← idx r4 (0 : Usize tgt)
      let r6 ← idx r4 (1 : Usize tgt)
      let r7 ← idx r4 (2 : Usize tgt)
      let r8 ← idx r4 (3 : Usize tgt)
      let r9 ← idx r4 (0 : Usize tgt)
      let r10 ← idx r4 (1 : Usize tgt)
      let r11 ← idx r4 (2 : Usize tgt)
      let r12 ← idx r4 (3 : Usize tgt)
      let l := [(_mm256_permutex2var_epi64 r5 (_mm256_setr_epi64x 0 1 4 5) r6, _mm256_permutex2var_epi64 r7 (_mm256_setr_epi64x 0 1 4 5) r8),
        (_mm256_permutex2var_epi64 r9 (_mm256_setr_epi64x 2 3 6 7) r10, _mm256_permutex2var_epi64 r11 (_mm256_setr_epi64x 2 3 6 7) r12)]
      let s ← forIn (List.range l.length) (bl.map Vector.toList) fun r13 s => do
        let r14 ← nth l r13
        if lt (⟨r13⟩ : Usize tgt) (len tgt s) = true then do
          let r15 ← idx s (⟨r13⟩ : Usize tgt)
          let r16 ← store r15 0 r14.1
          let r17 ← upd s (⟨r13⟩ : Usize tgt) r16
          let r18 ← div tgt (64 : Usize tgt) 2
          let r19 ← div tgt r18 (sizeOfTy tgt U32)
          let r20 ← idx r17 (⟨r13⟩ : Usize tgt)
          let r21 ← ptrAdd (Mem.size r20) 4 0 r19
          let r22 ← idx r17 (⟨r13⟩ : Usize tgt)
          let r23 ← store r22 r21 r14.2
          let r24 ← upd r17 (⟨r13⟩ : Usize tgt) r23
          pure (ForInStep.yield r24)
        else pure (ForInStep.yield s)
      pure ((), rep R V g, s)) = .ok ((), rep R V g, (Verif.ChaCha.Avx512.writeHalf (Verif.ChaCha.Avx512.halfParts
        (Verif.ChaCha.Avx512.roundsHalf (Rounds.count R) ⟨M256.broadcast g.state[0], M256.broadcast g.state[1], M256.broadcast g.state[2], ctr⟩)) bl).map
          Vector.toList) := by
  have hs (k : Nat) (hk : k < 3) : idx (rep R V g).state (⟨k⟩ : Usize tgt) = .ok g.state[k] := vec_idx g.state k hk
  refine (bind_of (hs 0 (by decide)) _).trans ?_
  refine (bind_of (hs 1 (by decide)) _).trans ?_
  refine (bind_of (hs 2 (by decide)) _).trans ?_
  refine (bind_of (rounds_halfwide_eq ⟨M256.broadcast g.state[0], M256.broadcast g.state[1], M256.broadcast g.state[2], ctr⟩) _).trans ?_
  generalize Verif.ChaCha.Avx512.roundsHalf (Rounds.count R) ⟨M256.broadcast g.state[0], M256.broadcast g.state[1], M256.broadcast g.state[2], ctr⟩ = r
  have i0 : idx (rowsL r) (0 : Usize tgt) = .ok r.a := rfl
  have i1 : idx (rowsL r) (1 : Usize tgt) = .ok r.b := rfl
  have i2 : idx (rowsL r) (2 : Usize tgt) = .ok r.c := rfl
  have i3 : idx (rowsL r) (3 : Usize tgt) = .ok r.d := rfl
  simp only [i0, i1, i2, i3, ok_bind, half0, half1]
  refine (bind_of (forIn_fin (N := 2) (fun bl : List Verif.ChaCha.Block => bl.map Vector.toList) (fun bl i =>
    if i.val < bl.length then bl.set i.val (Rows.mk (Verif.ChaCha.Avx512.halfParts r)[i].1.lo (Verif.ChaCha.Avx512.halfParts r)[i].1.hi
      (Verif.ChaCha.Avx512.halfParts r)[i].2.lo (Verif.ChaCha.Avx512.halfParts r)[i].2.hi).store else bl) _ ?_ bl) _).trans rfl
  intro i bl
  have hn : nth [(M256.permutex2var64 r.a #v[0, 1, 4, 5] r.b, M256.permutex2var64 r.c #v[0, 1, 4, 5] r.d),
      (M256.permutex2var64 r.a #v[2, 3, 6, 7] r.b, M256.permutex2var64 r.c #v[2, 3, 6, 7] r.d)] i.val = .ok (Verif.ChaCha.Avx512.halfParts r)[i] := by
    obtain ⟨i, hi⟩ := i
    rcases i with _ | _ | i <;> first | rfl | omega
  rw [hn, ok_bind]
  exact put_half bl i.val _ _ fun l => .ok (ForInStep.yield l)

theorem gen_half_eq {v : Verif.ChaCha.Variant} (hV : Is V v) (g : Verif.ChaCha.Avx512.Regs)
    (bl : List Verif.ChaCha.Block) : Backend.gen_blocks_halfwidth tgt (rep R V g) (bl.map Vector.toList) =
      (Verif.ChaCha.Avx512.genHalf (Rounds.count R) v bl g).map fun x => ((), rep R V x.2, x.1.map Vector.toList) := by
  rw [Backend.gen_blocks_halfwidth]
  dsimp only
  simp only [counter_match hV]
  rw [Verif.ChaCha.Avx512.genHalf]
  have hle : le (len tgt (bl.map Vector.toList)) (2 : Usize tgt) = decide (bl.length ≤ 2) := by
    show decide ((bl.map Vector.toList).length ≤ 2) = _
    rw [List.length_map]
  by_cases h : ¬ bl.length ≤ 2
  · rw [if_pos h]
    refine (congrArg (fun b => assert b >>= _) (hle.trans (decide_eq_false h))).trans rfl
  rw [if_neg h]
  replace h := Decidable.not_not.mp h
  refine (bind_of (a := ()) ((congrArg assert (hle.trans (decide_eq_true h))).trans rfl) _).trans ?_
  have hinc : Backend.increment_ctr tgt (rep R V g) (len tgt (bl.map Vector.toList)) = .ok ((), rep R V (Verif.ChaCha.Avx512.incrementCtr v g bl.length)) := by
    rw [len, List.length_map, increment_ctr_eq hV]
  simp only [hinc, ok_bind]
  generalize Verif.ChaCha.Avx512.incrementCtr v g bl.length = g'
  cases v
  · exact (if_pos rfl).trans (half_rest g' _ bl)
  · exact (if_neg (by decide)).trans (half_rest g' _ bl)

/-! ## The narrow path -/

theorem add_xor_rot_quarterwide_eq (r : Rows M128) : add_xor_rot_quarterwide tgt (rowsL r) = .ok ((), rowsL (Verif.ChaCha.Avx512.addXorRotQuarter r)) := rfl

theorem rows_to_cols_quarterwide_eq (r : Rows M128) : rows_to_cols_quarterwide tgt (rowsL r) = .ok ((), rowsL (Verif.ChaCha.Avx512.rowsToColsQuarter r)) := rfl

theorem cols_to_rows_quarterwide_eq (r : Rows M128) : cols_to_rows_quarterwide tgt (rowsL r) = .ok ((), rowsL (Verif.ChaCha.Avx512.colsToRowsQuarter r)) := rfl

theorem double_quarter_round_quarterwide_eq (r : Rows M128) :
    double_quarter_round_quarterwide tgt (rowsL r) = .ok ((), rowsL (Verif.ChaCha.Avx512.doubleQuarterRoundQuarter r)) := by
  rw [double_quarter_round_quarterwide]
  dsimp only
  refine (bind_of (add_xor_rot_quarterwide_eq _) _).trans ?_
  refine (bind_of (rows_to_cols_quarterwide_eq _) _).trans ?_
  refine (bind_of (add_xor_rot_quarterwide_eq _) _).trans ?_
  refine (bind_of (cols_to_rows_quarterwide_eq _) _).trans ?_
  rfl

theorem rounds_quarterwide_eq (r : Rows M128) : rounds_quarterwide (R := R) tgt (rowsL r) = .ok (rowsL (Verif.ChaCha.Avx512.roundsQuarter (Rounds.count R) r)) := by
  rw [rounds_quarterwide]
  dsimp only
  refine (bind_of (forIn_range (Rounds.count R) (fun k => rowsL (iter k Verif.ChaCha.Avx512.doubleQuarterRoundQuarter r)) _ _ rfl ?_) _).trans ?_
  · intro k _
    rw [double_quarter_round_quarterwide_eq, Salsa.iter_succ_out]
    rfl
  rw [Verif.ChaCha.Avx512.roundsQuarter]
  generalize iter (Rounds.count R) Verif.ChaCha.Avx512.doubleQuarterRoundQuarter r = x
  refine (bind_of (forIn_range 4 (fun k => rowsL ⟨if 1 ≤ k then x.a.addEpi32 r.a else x.a, if 2 ≤ k then x.b.addEpi32 r.b else x.b,
    if 3 ≤ k then x.c.addEpi32 r.c else x.c, if 4 ≤ k then x.d.addEpi32 r.d else x.d⟩) _ _ rfl ?_) _).trans rfl
  intro k hk
  rcases k with _ | _ | _ | _ | k <;> first | rfl | omega

theorem gen_ks_block_eq {v : Verif.ChaCha.Variant} (hV : Is V v) (ht : 16 ≤ tgt.bits) (g : Verif.ChaCha.Avx512.Regs) (block : List U8) (hb : block.length = 64) :
    Backend.gen_ks_block tgt (rep R V g) block =
      (Verif.ChaCha.Avx512.genBlock (Rounds.count R) v g).map fun x => ((), rep R V x.2, x.1.toList) := by
  rw [Backend.gen_ks_block]
  dsimp only
  have hs (k : Nat) (hk : k < 3) : idx (rep R V g).state (⟨k⟩ : Usize tgt) = .ok g.state[k] := vec_idx g.state k hk
  refine (bind_of (hs 0 (by decide)) _).trans ?_
  refine (bind_of (hs 1 (by decide)) _).trans ?_
  refine (bind_of (hs 2 (by decide)) _).trans ?_
  refine (bind_of (increment_ctr_eq hV g 1) _).trans ?_
  refine (bind_of (rounds_quarterwide_eq ⟨g.state[0], g.state[1], g.state[2], g.ctr⟩) _).trans ?_
  rw [Verif.ChaCha.Avx512.genBlock]
  dsimp only
  generalize Verif.ChaCha.Avx512.roundsQuarter (Rounds.count R) ⟨g.state[0], g.state[1], g.state[2], g.ctr⟩ = r
  have h64 : Mem.size block = 64 := by rw [size_u8, hb]
  refine (bind_of (store_loop 4 block (rowsL r) rfl h64 _ ?_) _).trans ?_
  · intro m hm s hs
    have hm : m < 4 := hm
    refine (bind_of (mul_usize _ _ (pow_bits ht (show (0 + m) * 4 < 65536 by omega))) _).trans ?_
    refine (bind_of (ptrAdd_ok _ _ _ _ (by rw [hs, h64]; show 0 + (0 + m) * 4 * 4 ≤ 64; omega)) _).trans ?_
    have hi : idx (rowsL r) (⟨0 + m⟩ : Usize tgt) = .ok ((rowsL r)[m]'hm) := by
      rw [Nat.zero_add]
      exact nth_ok _ _ hm
    refine (bind_of hi _).trans ?_
    show (store s (0 + (0 + m) * 4 * 4) _ >>= _) = _
    rw [show 0 + (0 + m) * 4 * 4 = m * 16 by omega]
    rfl
  rw [cells_block block hb]
  rfl

/-! ## Tails, parallel blocks and client code -/

theorem gen_tail_eq {v : Verif.ChaCha.Variant} (hV : Is V v) (ht : 16 ≤ tgt.bits) (g : Verif.ChaCha.Avx512.Regs) (bl : List Verif.ChaCha.Block) :
    Backend.gen_tail_blocks tgt (rep R V g) (bl.map Vector.toList) =
      (Verif.ChaCha.Avx512.genTailInto (Rounds.count R) v bl g).map fun x => ((), rep R V x.2, x.1.map Vector.toList) := by
  rw [Backend.gen_tail_blocks]
  dsimp only
  refine (bind_of max_par_eq _).trans ?_
  rw [Verif.ChaCha.Avx512.genTailInto.eq_def]
  have hlt : lt (len tgt (bl.map Vector.toList)) (⟨16⟩ : Usize tgt) = decide (bl.length < 16) := by
    show decide ((bl.map Vector.toList).length < 16) = _
    rw [List.length_map]
  by_cases h : ¬ bl.length < 16
  · rw [if_pos h]
    refine (congrArg (fun b => assert b >>= _) (hlt.trans (decide_eq_false h))).trans rfl
  rw [if_neg h]
  replace h := Decidable.not_not.mp h
  refine (bind_of (a := ()) ((congrArg assert (hlt.trans (decide_eq_true h))).trans rfl) _).trans ?_
  match bl, h with
  | [], _ => rfl
  | b :: bs, h =>
    rw [if_neg (by rw [List.map_cons]; exact Bool.false_ne_true)]
    have heq (n : Nat) : (len tgt ((b :: bs).map Vector.toList) == (⟨n⟩ : Usize tgt)) = decide ((b :: bs).length = n) := by
      show (len tgt ((b :: bs).map Vector.toList) == (⟨n⟩ : Usize tgt)) = _
      rw [len, List.length_map]
      by_cases hh : (b :: bs).length = n
      · rw [hh, decide_eq_true rfl]; exact beq_self_eq_true _
      · rw [decide_eq_false hh]
        exact beq_false_of_ne (fun he => hh (congrArg Usize.val he))
    have hle (n : Nat) : le (len tgt ((b :: bs).map Vector.toList)) (⟨n⟩ : Usize tgt) = decide ((b :: bs).length ≤ n) := by
      show decide (((b :: bs).map Vector.toList).length ≤ n) = _
      rw [List.length_map]
    have hfull (N : Nat) (hN : N ≤ 4) : (do
        let r ← Backend.gen_blocks_fullwidth N tgt (rep R V g) ((b :: bs).map Vector.toList)
        pure ((), r.2.1, r.2.2)) = (Verif.ChaCha.Avx512.genFull N (Rounds.count R) v (b :: bs) g).map fun x => ((), rep R V x.2, x.1.map Vector.toList) := by
      rw [gen_full_eq hV ht N hN]
      cases Verif.ChaCha.Avx512.genFull N (Rounds.count R) v (b :: bs) g <;> rfl
    have e1 : (len tgt ((b :: bs).map Vector.toList) == (1 : Usize tgt)) = _ := heq 1
    have e2 : (len tgt ((b :: bs).map Vector.toList) == (2 : Usize tgt)) = _ := heq 2
    have e4 : le (len tgt ((b :: bs).map Vector.toList)) (4 : Usize tgt) = _ := hle 4
    have e8 : le (len tgt ((b :: bs).map Vector.toList)) (8 : Usize tgt) = _ := hle 8
    simp only [e1, e2, e4, e8, decide_eq_true_eq]
    by_cases h1 : (b :: bs).length = 1
    · rw [if_pos h1, if_pos h1]
      have hb1 : bs = [] := List.length_eq_zero_iff.mp (by simpa using h1)
      subst hb1
      refine (bind_of (a := b.toList) rfl _).trans ?_
      rw [gen_ks_block_eq hV ht g b.toList (Vector.length_toList ..)]
      cases Verif.ChaCha.Avx512.genBlock (Rounds.count R) v g <;> rfl
    · rw [if_neg h1, if_neg h1]
      by_cases h2 : (b :: bs).length = 2
      · rw [if_pos h2, if_pos h2, gen_half_eq hV]
        cases Verif.ChaCha.Avx512.genHalf (Rounds.count R) v (b :: bs) g <;> rfl
      · rw [if_neg h2, if_neg h2]
        by_cases h4 : (b :: bs).length ≤ 4
        · rw [if_pos h4, if_pos h4]
          exact hfull 1 (by decide)
        · rw [if_neg h4, if_neg h4]
          by_cases h8 : (b :: bs).length ≤ 8
          · rw [if_pos h8, if_pos h8]
            exact hfull 2 (by decide)
          · rw [if_neg h8, if_neg h8]
            refine (bind_of max_n_eq _).trans ?_
            exact hfull 4 (by decide)

theorem gen_par_eq {v : Verif.ChaCha.Variant} (hV : Is V v) (ht : 16 ≤ tgt.bits) (g : Verif.ChaCha.Avx512.Regs) (bl : List Verif.ChaCha.Block) :
    Backend.gen_par_ks_blocks tgt (rep R V g) (bl.map Vector.toList) =
      (Verif.ChaCha.Avx512.genFull 4 (Rounds.count R) v bl g).map fun x => ((), rep R V x.2, x.1.map Vector.toList) := by
  rw [Backend.gen_par_ks_blocks]
  dsimp only
  refine (bind_of max_n_eq _).trans ?_
  rw [gen_full_eq hV ht 4 (by decide)]
  cases Verif.ChaCha.Avx512.genFull 4 (Rounds.count R) v bl g <;> rfl

/-- Buffers before a call. -/
def zeros (n : Nat) : List Verif.ChaCha.Block := List.replicate n (Vector.replicate 64 0)

theorem zeros_map (n : Nat) : (zeros n).map Vector.toList = List.replicate n (List.replicate 64 0) := by
  rw [zeros, List.map_replicate, Vector.toList_replicate]

/-- The backend as client code sees it. -/
theorem call_eq {α : Type} {v : Verif.ChaCha.Variant} (hV : Is V v) (ht : 16 ≤ tgt.bits) (c : Closure 64 α) (g : Verif.ChaCha.Avx512.Regs) :
    (asBackend tgt (Backend R V)).call c (rep R V g) =
      ((Verif.ChaCha.Avx512.backend (Rounds.count R) v zeros).call c g).map (Prod.map id (rep R V)) := by
  refine call_sim (B := Verif.ChaCha.Avx512.backend (Rounds.count R) v zeros) (rep R V) rfl ?_ ?_ ?_ c g
  · exact blockOf_sim (rep R V) (gen_ks_block_eq hV ht)
  · intro s
    refine blocksOf_zero (rep R V) (rep R V s) ?_
    rw [← zeros_map]
    exact gen_par_eq hV ht s (zeros 16)
  · intro n s
    refine blocksOf_zero (rep R V) (rep R V s) ?_
    rw [← zeros_map]
    exact gen_tail_eq hV ht s (zeros n)

theorem upd12 (s : State) (d : M128) : upd s.toList (12 : Usize tgt) (cast U32 (_mm_extract_epi32 d 0)) = .ok (s.set 12 d.x0).toList := by
  rw [upd_vec s (12 : Usize tgt) (show 12 < 16 by decide), cast_bv]
  simp only [BitVec.setWidth_eq]
  rfl

theorem upd13 (s : State) (d : M128) : upd s.toList (13 : Usize tgt) (cast U32 (_mm_extract_epi32 d 1)) = .ok (s.set 13 d.x1).toList := by
  rw [upd_vec s (13 : Usize tgt) (show 13 < 16 by decide), cast_bv]
  simp only [BitVec.setWidth_eq]
  rfl

theorem inner_eq {α : Type} {v : Verif.ChaCha.Variant} (hV : Is V v) (ht : 16 ≤ tgt.bits) (c : Closure 64 α) (s : State) :
    inner (R := R) (V := V) tgt s.toList (Callee.ready c) =
      (Verif.ChaCha.Avx512.inner (Rounds.count R) v zeros c s).map fun x => ((), x.2.toList, Callee.done x.1) := by
  rw [inner]
  dsimp only
  have hp (k : Nat) (hk : k < 16) : ptrAdd (tgt := tgt) (Mem.size s.toList) 4 0 ⟨k⟩ = .ok (0 + k * 4) :=
    ptrAdd_ok _ _ _ _ (by rw [size_state]; show 0 + k * 4 ≤ 64; omega)
  rw [load_state s 0 _ (by decide) rfl, ok_bind]
  refine (bind_of (hp 4 (by decide)) _).trans ?_
  rw [load_state s 1 _ (by decide) rfl, ok_bind]
  refine (bind_of (hp 8 (by decide)) _).trans ?_
  rw [load_state s 2 _ (by decide) rfl, ok_bind]
  refine (bind_of (hp 12 (by decide)) _).trans ?_
  rw [load_state s 3 _ (by decide) rfl, ok_bind]
  rw [Verif.ChaCha.Avx512.inner]
  dsimp only
  generalize hg : (⟨#v[(Rows.load s).a, (Rows.load s).b, (Rows.load s).c], (Rows.load s).d⟩ : Verif.ChaCha.Avx512.Regs) = g
  have hc : StreamCipherClosure.call tgt (Callee.ready c) (rep R V g) =
      ((Verif.ChaCha.Avx512.backend (Rounds.count R) v zeros).call c g).map fun x => ((), Callee.done x.1, rep R V x.2) := by
    show ((asBackend tgt (Backend R V)).call c (rep R V g) >>= _) = _
    rw [call_eq hV ht]
    cases (Verif.ChaCha.Avx512.backend (Rounds.count R) v zeros).call c g <;> rfl
  have hr : (⟨[(Rows.load s).a, (Rows.load s).b, (Rows.load s).c], (Rows.load s).d⟩ : Backend R V) = rep R V g := by
    rw [← hg]; rfl
  refine (congrArg (· >>= _) ((congrArg (StreamCipherClosure.call tgt (Callee.ready c)) hr).trans hc)).trans ?_
  cases (Verif.ChaCha.Avx512.backend (Rounds.count R) v zeros).call c g with
  | error e => rfl
  | ok x =>
    obtain ⟨a, g⟩ := x
    refine (bind_of (a := ((), Callee.done a, rep R V g)) rfl _).trans ?_
    refine (bind_of (upd12 s g.ctr) _).trans ?_
    rw [counter_size hV]
    cases v with
    | ietf => rfl
    | legacy =>
      refine (if_pos rfl).trans ?_
      refine (bind_of (upd13 _ g.ctr) _).trans ?_
      rfl

end avx512
end Verif.Rust.ChaCha
