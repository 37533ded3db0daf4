import Verif.Proof.SrcRows
import Verif.Proof.ChaChaSimd
import Verif.Rust.Src.ChaChaSse2
/-!
# The text of the SSE2 backend computes the model
-/
namespace Verif.Rust.ChaCha
open Verif.ChaCha (State)

namespace sse2

variable {R V : Type} [Rounds R] [Variant V] {tgt : Target}

abbrev blocksL (v : Vector (Rows M128) 4) : List (List M128) := v.toList.map rowsL

theorem par_blocks_eq : PAR_BLOCKS tgt = .ok 4 := rfl

theorem add_xor_rot_eq (l : List (Rows M128)) : add_xor_rot tgt (l.map rowsL) = .ok ((), (l.map Verif.ChaCha.Sse2.addXorRot1).map rowsL) := by
  rw [add_xor_rot]
  dsimp only
  rw [each_rows _ Verif.ChaCha.Sse2.addXorRot1 l _ (List.length_map ..)]
  · rfl
  · intro k l hk
    rw [nth_rows l k hk]
    rfl

theorem rows_to_cols_eq (l : List (Rows M128)) : rows_to_cols tgt (l.map rowsL) = .ok ((), (l.map Verif.ChaCha.Sse2.rowsToCols1).map rowsL) := by
  rw [rows_to_cols]
  dsimp only
  rw [each_rows _ Verif.ChaCha.Sse2.rowsToCols1 l _ (List.length_map ..)]
  · rfl
  · intro k l hk
    rw [nth_rows l k hk]
    rfl

theorem cols_to_rows_eq (l : List (Rows M128)) : cols_to_rows tgt (l.map rowsL) = .ok ((), (l.map Verif.ChaCha.Sse2.colsToRows1).map rowsL) := by
  rw [cols_to_rows]
  dsimp only
  rw [each_rows _ Verif.ChaCha.Sse2.colsToRows1 l _ (List.length_map ..)]
  · rfl
  · intro k l hk
    rw [nth_rows l k hk]
    rfl

theorem double_quarter_round_eq (v : Vector (Rows M128) 4) :
    double_quarter_round tgt (blocksL v) = .ok ((), blocksL (Verif.ChaCha.Sse2.doubleQuarterRound v)) := by
  rw [double_quarter_round]
  dsimp only
  rw [blocksL, add_xor_rot_eq, ok_bind, rows_to_cols_eq, ok_bind, add_xor_rot_eq, ok_bind, cols_to_rows_eq, ok_bind]
  rw [Verif.ChaCha.Sse2.doubleQuarterRound, blocksL]
  simp only [Vector.toList_map]
  rfl

/-- The counters of the four blocks - sse2.rs:158-165. -/
def start (v : Verif.ChaCha.Variant) (r : Rows M128) : Vector (Rows M128) 4 :=
  #v[r, { r with d := Verif.ChaCha.Sse2.ctrAdd v r.d 1 }, { r with d := Verif.ChaCha.Sse2.ctrAdd v r.d 2 },
    { r with d := Verif.ChaCha.Sse2.ctrAdd v r.d 3 }]

/-- Adding the input - sse2.rs:171-181. -/
def finish (v : Verif.ChaCha.Variant) (r x : Rows M128) (k : Nat) : Rows M128 :=
  ⟨x.a.addEpi32 r.a, x.b.addEpi32 r.b, x.c.addEpi32 r.c, x.d.addEpi32 (Verif.ChaCha.Sse2.ctrAdd v r.d k)⟩

/-- The loop over the double rounds. -/
theorem rounds_loop (n : Nat) (x : Vector (Rows M128) 4) :
    (forIn (List.range n) (blocksL x) fun _ (s : List (List M128)) => do
      let r ← double_quarter_round tgt s
      pure (ForInStep.yield r.2)) = .ok (blocksL (iter n Verif.ChaCha.Sse2.doubleQuarterRound x)) := by
  refine forIn_range n (fun k => blocksL (iter k Verif.ChaCha.Sse2.doubleQuarterRound x)) _ _ rfl ?_
  intro k _
  rw [double_quarter_round_eq, Salsa.iter_succ_out]
  rfl

theorem rounds_eq {v : Verif.ChaCha.Variant} (hV : Is V v) (r : Rows M128) :
    rounds (R := R) (V := V) tgt (rowsL r) = .ok (blocksL (Verif.ChaCha.Sse2.rounds (Rounds.count R) v r)) := by
  rw [rounds]
  dsimp only
  simp only [counter_match hV]
  rw [par_blocks_eq, ok_bind]
  refine (congrArg (· >>= _) (forIn_range 3 (fun k => [rowsL r, rowsL (if 1 ≤ k then (start v r)[1] else r), rowsL (if 2 ≤ k then (start v r)[2] else r),
    rowsL (if 3 ≤ k then (start v r)[3] else r)]) _ (List.replicate 4 (rowsL r)) rfl ?_)).trans ?_
  · intro k hk
    cases v <;> (rcases k with _ | _ | _ | k <;> first | rfl | omega)
  rw [ok_bind]
  refine (congrArg (· >>= _) (rounds_loop (Rounds.count R) (start v r))).trans ?_
  rw [ok_bind, ok_bind]
  have hs : Verif.ChaCha.Sse2.rounds (Rounds.count R) v r = Vector.ofFn fun i : Fin 4 =>
      finish v r (iter (Rounds.count R) Verif.ChaCha.Sse2.doubleQuarterRound (start v r))[i] i.val := rfl
  rw [hs]
  generalize iter (Rounds.count R) Verif.ChaCha.Sse2.doubleQuarterRound (start v r) = x
  obtain ⟨x0, x1, x2, x3, hx⟩ : ∃ x0 x1 x2 x3, x = #v[x0, x1, x2, x3] := ⟨x[0], x[1], x[2], x[3], by
    apply Vector.ext; intro i hi; rcases i with _ | _ | _ | _ | i <;> first | rfl | omega⟩
  subst hx
  refine (congrArg (· >>= _) (forIn_range 4 (fun k => [rowsL (if 1 ≤ k then finish v r x0 0 else x0), rowsL (if 2 ≤ k then finish v r x1 1 else x1),
    rowsL (if 3 ≤ k then finish v r x2 2 else x2), rowsL (if 4 ≤ k then finish v r x3 3 else x3)]) _ _ rfl ?_)).trans ?_
  · intro k hk
    cases v <;> (rcases k with _ | _ | _ | _ | k <;> first | rfl | omega)
  rfl

/-- The backend with these registers. -/
def rep (R V : Type) [Rounds R] [Variant V] (r : Rows M128) : Backend R V := ⟨rowsL r⟩

/-- Adding to the counter of the backend. -/
theorem ctr_text {v : Verif.ChaCha.Variant} (r : Rows M128) (k : Nat) (a : U32) (b : U64)
    (ha : a = BitVec.ofNat 32 k) (hb : b = BitVec.ofNat 64 k) :
    (if v.ctrBytes = 4 then (do
        let r1 ← idx (rowsL r) (3 : Usize tgt)
        pure (_mm_add_epi32 r1 (_mm_set_epi32 0 0 0 a)))
      else do
        let r2 ← idx (rowsL r) (3 : Usize tgt)
        pure (_mm_add_epi64 r2 (_mm_set_epi64x 0 b))) = Except.ok (ε := Panic) (Verif.ChaCha.Sse2.ctrAdd v r.d k) := by
  subst ha hb
  cases v <;> rfl

theorem gen_ks_block_eq {v : Verif.ChaCha.Variant} (hV : Is V v) (r : Rows M128) (block : List U8) (hb : block.length = 64) :
    Backend.gen_ks_block tgt (rep R V r) block =
      (Verif.ChaCha.Sse2.genBlock (Rounds.count R) v r).map fun x => ((), rep R V x.2, x.1.toList) := by
  rw [Backend.gen_ks_block]
  dsimp only
  simp only [counter_match hV]
  rw [rep, rounds_eq hV, ok_bind]
  refine (congrArg (· >>= _) (ctr_text r 1 1 1 rfl rfl)).trans ?_
  rw [ok_bind]
  have hu : upd (rowsL r) (3 : Usize tgt) (Verif.ChaCha.Sse2.ctrAdd v r.d 1) = .ok (rowsL { r with d := Verif.ChaCha.Sse2.ctrAdd v r.d 1 }) := rfl
  refine (congrArg (· >>= _) hu).trans ?_
  rw [ok_bind, Verif.ChaCha.Sse2.genBlock]
  generalize Verif.ChaCha.Sse2.rounds (Rounds.count R) v r = res
  have h64 : Mem.size block = 64 := by rw [size_u8, hb]
  refine (congrArg (· >>= _) (store_loop 4 block (rowsL res[0]) rfl h64 _ ?_)).trans ?_
  · intro m hm s hs
    have hm : m < 4 := hm
    rw [ptrAdd_ok _ _ _ _ (by rw [hs, h64]; show 0 + (0 + m) * 16 ≤ 64; omega), ok_bind]
    have h0 : idx (blocksL res) (0 : Usize tgt) = .ok (rowsL res[0]) := nth_rows res.toList 0 (by rw [Vector.length_toList]; decide)
    rw [h0, ok_bind]
    have hi : idx (rowsL res[0]) (⟨Usize.val (0 : Usize tgt) + m⟩ : Usize tgt) = .ok ((rowsL res[0])[m]'hm) := by
      show nth _ (0 + m) = _
      rw [Nat.zero_add]
      exact nth_ok _ _ hm
    rw [hi, ok_bind]
    show (store s (0 + (0 + m) * 16) _ >>= _) = _
    rw [Nat.zero_add, Nat.zero_add]
    rfl
  rw [ok_bind, cells_block block hb]
  rfl

/-- Storing sixteen registers. -/
theorem store_all {α : Type} [Mem α] [LawfulMem α] (ht : 16 ≤ tgt.bits) (res : Vector (Rows M128) 4) (a : α) (h : Mem.size a = 256) :
    (forIn (List.range (Usize.val (4 : Usize tgt) - Usize.val (0 : Usize tgt))) a fun k s => do
      let s ← forIn (List.range (Usize.val (4 : Usize tgt) - Usize.val (0 : Usize tgt))) s fun i s => do
        let r11 ← PAR_BLOCKS tgt
        let r12 ← mul tgt (⟨Usize.val (0 : Usize tgt) + k⟩ : Usize tgt) r11
        let r13 ← add tgt (⟨Usize.val (0 : Usize tgt) + i⟩ : Usize tgt) r12
        let r14 ← ptrAdd (Mem.size s) 16 0 r13
        let r15 ← idx (blocksL res) (⟨Usize.val (0 : Usize tgt) + k⟩ : Usize tgt)
        let r16 ← idx r15 (⟨Usize.val (0 : Usize tgt) + i⟩ : Usize tgt)
        let r17 ← store s r14 r16
        pure (ForInStep.yield r17)
      pure (ForInStep.yield s)) = .ok (cells a (res.toList.flatMap rowsL)) := by
  have hl : res.toList.length = 4 := Vector.length_toList ..
  have hf : (res.toList.flatMap rowsL).length = 4 * 4 := by rw [size_flat, hl]
  refine store_loop2 4 4 a (res.toList.flatMap rowsL) hf (by rw [h, hf]; rfl) _ ?_
  intro k i hk hi hm s hs
  have e0 : Usize.val (0 : Usize tgt) = 0 := rfl
  simp only [e0, Nat.zero_add]
  rw [par_blocks_eq, ok_bind]
  refine (bind_of (mul_usize _ _ (pow_bits ht (show k * 4 < 65536 by omega))) _).trans ?_
  rw [add_usize _ _ (pow_bits ht (show i + k * 4 < 65536 by omega)), ok_bind,
    ptrAdd_ok _ _ _ _ (by rw [hs, h]; show 0 + (i + k * 4) * 16 ≤ 256; omega), ok_bind]
  have h0 : idx (blocksL res) (⟨k⟩ : Usize tgt) = .ok (rowsL (res.toList[k]'(by rw [hl]; exact hk))) := nth_rows res.toList k (by rw [hl]; exact hk)
  rw [h0, ok_bind, idx, nth_ok _ _ hi, ok_bind, flat_get _ _ _ (by rw [hl]; exact hk) hi hm]
  show (store s (0 + (i + k * 4) * 16) _ >>= _) = _
  rw [show 0 + (i + k * 4) * 16 = (4 * k + i) * Reg.size M128 by show _ = (4 * k + i) * 16; omega]
  rfl

theorem gen_par_ks_blocks_eq {v : Verif.ChaCha.Variant} (hV : Is V v) (ht : 16 ≤ tgt.bits) (r : Rows M128) (blocks : List (List U8)) (hb : Blocks64 4 blocks) :
    Backend.gen_par_ks_blocks tgt (rep R V r) blocks =
      (Verif.ChaCha.Sse2.genPar (Rounds.count R) v r).map fun x => ((), rep R V x.2, x.1.map Vector.toList) := by
  rw [Backend.gen_par_ks_blocks]
  dsimp only
  simp only [counter_match hV]
  rw [rep, rounds_eq hV, ok_bind]
  refine (congrArg (· >>= _) (ctr_text r 4 4 4 rfl rfl)).trans ?_
  rw [ok_bind]
  have hu : upd (rowsL r) (3 : Usize tgt) (Verif.ChaCha.Sse2.ctrAdd v r.d 4) = .ok (rowsL { r with d := Verif.ChaCha.Sse2.ctrAdd v r.d 4 }) := rfl
  refine (congrArg (· >>= _) hu).trans ?_
  rw [ok_bind, Verif.ChaCha.Sse2.genPar]
  generalize Verif.ChaCha.Sse2.rounds (Rounds.count R) v r = res
  rw [par_blocks_eq, ok_bind]
  refine (congrArg (· >>= _) (store_all ht res blocks (by rw [size_blocks hb]))).trans ?_
  rw [ok_bind, cells_blocks blocks hb _ (Vector.length_toList ..)]
  show _ = Except.ok ((), _, (res.toList.map Rows.store).map Vector.toList)
  rw [List.map_map]
  rfl

theorem gen_ks_blocks_eq {v : Verif.ChaCha.Variant} (hV : Is V v) (ht : 16 ≤ tgt.bits) (r : Rows M128) (buffer : List U32) (hb : buffer.length = 64) :
    Backend.gen_ks_blocks tgt (rep R V r) buffer =
      .ok ((), rep R V { r with d := r.d.addEpi64 (.setEpi64x 0 4) },
        (Verif.ChaCha.Sse2.rounds (Rounds.count R) v r).toList.flatMap fun r => r.words.toList) := by
  rw [Backend.gen_ks_blocks]
  dsimp only
  rw [par_blocks_eq, ok_bind]
  refine (bind_of (mul_usize _ _ (pow_bits ht (show 4 * 4 < 65536 by decide))) _).trans ?_
  refine (bind_of (mul_usize _ _ (pow_bits ht (show 4 * 4 * 16 < 65536 by decide))) _).trans ?_
  refine (bind_of (mul_usize _ _ (pow_bits ht (show 4 * 64 < 65536 by decide))) _).trans ?_
  refine (bind_of (a := ()) rfl _).trans ?_
  rw [rep, rounds_eq hV, ok_bind]
  have hu : idx (rowsL r) (3 : Usize tgt) = .ok r.d := rfl
  refine (bind_of hu _).trans ?_
  rw [ok_bind]
  have hu : upd (rowsL r) (3 : Usize tgt) (r.d.addEpi64 (.setEpi64x 0 4)) = .ok (rowsL { r with d := r.d.addEpi64 (.setEpi64x 0 4) }) := rfl
  refine (bind_of hu _).trans ?_
  generalize Verif.ChaCha.Sse2.rounds (Rounds.count R) v r = res
  rw [ok_bind]
  refine (bind_of (store_all ht res buffer (by rw [size_u32, hb])) _).trans ?_
  rw [cells_words buffer _ (by rw [Vector.length_toList, hb])]
  rfl

theorem upd12 (s : State) (d : M128) : upd s.toList (12 : Usize tgt) (cast U32 (_mm_cvtsi128_si32 d)) = .ok (s.set 12 d.x0).toList := by
  rw [upd_vec s (12 : Usize tgt) (show 12 < 16 by decide), cast_bv]
  simp only [BitVec.setWidth_eq]
  rfl

theorem upd13 (s : State) (d : M128) : upd s.toList (13 : Usize tgt) (cast U32 (_mm_extract_epi32 d 1)) = .ok (s.set 13 d.x1).toList := by
  rw [upd_vec s (13 : Usize tgt) (show 13 < 16 by decide), cast_bv]
  simp only [BitVec.setWidth_eq]
  rfl

/-- The backend as client code sees it. -/
theorem call_eq {α : Type} {v : Verif.ChaCha.Variant} (hV : Is V v) (ht : 16 ≤ tgt.bits) (c : Closure 64 α) (r : Rows M128) :
    (asBackend tgt (Backend R V)).call c (rep R V r) =
      ((Verif.ChaCha.Sse2.backend (Rounds.count R) v).call c r).map (Prod.map id (rep R V)) := by
  refine call_sim (B := Verif.ChaCha.Sse2.backend (Rounds.count R) v) (rep R V) rfl ?_ ?_ ?_ c r
  · exact blockOf_sim (rep R V) (gen_ks_block_eq hV)
  · exact blocksOf_sim (rep R V) (gen_par_ks_blocks_eq hV ht)
  · intro n s
    exact blocksOf_sim (g := (Verif.Backend.ofBlock 4 (Verif.ChaCha.Sse2.genBlock (Rounds.count R) v)).genTail n) (rep R V)
      (fun s b hb => providedTail_sim (rep R V) 4 (gen_ks_block_eq hV) n b hb s) s

theorem inner_eq {α : Type} {v : Verif.ChaCha.Variant} (hV : Is V v) (ht : 16 ≤ tgt.bits) (c : Closure 64 α) (s : State) :
    inner (R := R) (V := V) tgt s.toList (Callee.ready c) =
      (Verif.ChaCha.Sse2.inner (Rounds.count R) v c s).map fun x => ((), x.2.toList, Callee.done x.1) := by
  rw [inner]
  dsimp only
  simp only [counter_size hV]
  have hp (k : Nat) (hk : k < 4) : ptrAdd (tgt := tgt) (Mem.size s.toList) 16 0 ⟨k⟩ = .ok (0 + k * 16) :=
    ptrAdd_ok _ _ _ _ (by rw [size_state]; show 0 + k * 16 ≤ 64; omega)
  rw [show (0 : Usize tgt) = ⟨0⟩ from rfl, show (1 : Usize tgt) = ⟨1⟩ from rfl, show (2 : Usize tgt) = ⟨2⟩ from rfl, show (3 : Usize tgt) = ⟨3⟩ from rfl]
  rw [hp 0 (by decide), ok_bind, load_state s 0 _ (by decide) rfl, ok_bind, hp 1 (by decide), ok_bind, load_state s 1 _ (by decide) rfl, ok_bind,
    hp 2 (by decide), ok_bind, load_state s 2 _ (by decide) rfl, ok_bind, hp 3 (by decide), ok_bind, load_state s 3 _ (by decide) rfl, ok_bind]
  rw [Verif.ChaCha.Sse2.inner]
  have hc : StreamCipherClosure.call tgt (Callee.ready c) (rep R V (Rows.load s)) =
      ((Verif.ChaCha.Sse2.backend (Rounds.count R) v).call c (Rows.load s)).map fun x => ((), Callee.done x.1, rep R V x.2) := by
    show ((asBackend tgt (Backend R V)).call c (rep R V (Rows.load s)) >>= _) = _
    rw [call_eq hV ht]
    cases (Verif.ChaCha.Sse2.backend (Rounds.count R) v).call c (Rows.load s) <;> rfl
  refine (congrArg (· >>= _) hc).trans ?_
  cases (Verif.ChaCha.Sse2.backend (Rounds.count R) v).call c (Rows.load s) with
  | error e => rfl
  | ok x =>
    obtain ⟨a, r⟩ := x
    refine (bind_of (a := ((), Callee.done a, rep R V r)) rfl _).trans ?_
    refine (bind_of (a := r.d) rfl _).trans ?_
    refine (bind_of (upd12 s _) _).trans ?_
    cases v with
    | ietf => rfl
    | legacy =>
      refine (bind_of (a := r.d) rfl _).trans ?_
      refine (bind_of (upd13 _ _) _).trans ?_
      rfl

theorem rng_inner_eq {v : Verif.ChaCha.Variant} (hV : Is V v) (ht : 16 ≤ tgt.bits) (s : State) (buffer : List U32) (hb : buffer.length = 64) :
    rng_inner tgt (repr R V s) buffer =
      .ok ((), repr R V (Verif.ChaCha.Sse2.rngInner (Rounds.count R) v s).2, (Verif.ChaCha.Sse2.rngInner (Rounds.count R) v s).1.toList) := by
  rw [rng_inner]
  dsimp only
  have hp (k : Nat) (hk : k < 4) : ptrAdd (tgt := tgt) (Mem.size s.toList) 16 0 ⟨k⟩ = .ok (0 + k * 16) :=
    ptrAdd_ok _ _ _ _ (by rw [size_state]; show 0 + k * 16 ≤ 64; omega)
  rw [show (0 : Usize tgt) = ⟨0⟩ from rfl, show (1 : Usize tgt) = ⟨1⟩ from rfl, show (2 : Usize tgt) = ⟨2⟩ from rfl, show (3 : Usize tgt) = ⟨3⟩ from rfl, repr]
  rw [hp 0 (by decide), ok_bind, load_state s 0 _ (by decide) rfl, ok_bind, hp 1 (by decide), ok_bind, load_state s 1 _ (by decide) rfl, ok_bind,
    hp 2 (by decide), ok_bind, load_state s 2 _ (by decide) rfl, ok_bind, hp 3 (by decide), ok_bind, load_state s 3 _ (by decide) rfl, ok_bind]
  refine (bind_of (gen_ks_blocks_eq hV ht (Rows.load s) buffer hb) _).trans ?_
  rw [Verif.ChaCha.Sse2.rngInner]
  dsimp only
  generalize Verif.ChaCha.Sse2.rounds (Rounds.count R) v (Rows.load s) = res
  generalize (Rows.load s).d.addEpi64 (.setEpi64x 0 4) = d
  refine (bind_of (a := d) rfl _).trans ?_
  refine (bind_of (upd12 s _) _).trans ?_
  refine (bind_of (a := d) rfl _).trans ?_
  refine (bind_of (upd13 _ _) _).trans ?_
  refine congrArg (fun x => Except.ok ((), _, x)) ?_
  rw [Vector.toList_append, Vector.toList_append, Vector.toList_append]
  obtain ⟨x0, x1, x2, x3, hx⟩ : ∃ x0 x1 x2 x3, res = #v[x0, x1, x2, x3] := ⟨res[0], res[1], res[2], res[3], by
    apply Vector.ext; intro i hi; rcases i with _ | _ | _ | _ | i <;> first | rfl | omega⟩
  subst hx
  show x0.words.toList ++ (x1.words.toList ++ (x2.words.toList ++ (x3.words.toList ++ []))) = _
  simp only [List.append_nil, List.append_assoc]
  rfl

end sse2
end Verif.Rust.ChaCha
