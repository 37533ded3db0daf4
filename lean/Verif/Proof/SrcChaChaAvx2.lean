import Verif.Proof.SrcRows
import Verif.Proof.ChaChaSimd
import Verif.Rust.Src.ChaChaAvx2
/-!
# The text of the AVX2 backend computes the model
-/
namespace Verif.Rust.ChaCha
open Verif.ChaCha (State)

/-- `transmute` of memory that consists of registers. -/
theorem transmute_cells {α β : Type} [Mem α] [Reg β] [LawfulReg β] {tgt : Target} (a : α) (c : List β) (n : Usize tgt) (hn : c.length = n.val)
    (h : Mem.bytes a = c.flatMap Reg.bytes) : transmute n a = .ok c := by
  have hs : Mem.size a = n.val * Reg.size β := by rw [Mem.size, h, length_cells, hn]
  rw [transmute, if_pos hs]
  refine congrArg Except.ok ?_
  refine List.ext_getElem (by rw [List.length_map, List.length_range, hn]) ?_
  intro j h1 h2
  rw [List.getElem_map, List.getElem_range, h, flatMap_get c j h2, LawfulReg.ofBytes_bytes]

namespace avx2

variable {R V : Type} [Rounds R] [Variant V] {tgt : Target}

abbrev blocksL (v : Vector (Rows M256) 2) : List (List M256) := v.toList.map rowsL

theorem par_blocks_eq : PAR_BLOCKS tgt = .ok 4 := rfl

theorem div_val (a b : Nat) (h : b ≠ 0) : div tgt (⟨a⟩ : Usize tgt) ⟨b⟩ = .ok ⟨a / b⟩ := if_neg h

theorem n_eq : N tgt = .ok 2 := by
  rw [N, par_blocks_eq, ok_bind]
  exact div_val 4 2 (by decide)

theorem add_xor_rot_eq (v : Vector (Rows M256) 2) : add_xor_rot tgt (blocksL v) = .ok ((), blocksL (Verif.ChaCha.Avx2.addXorRot v)) := by
  rw [add_xor_rot]
  dsimp only
  rw [each_rows _ (Verif.ChaCha.Avx2.stepAD Verif.ChaCha.Avx2.rol16Mask) v.toList _ (List.length_map ..)]
  · rw [ok_bind, each_rows _ (Verif.ChaCha.Avx2.stepCB 12 20) _ _ (List.length_map ..)]
    · rw [ok_bind, each_rows _ (Verif.ChaCha.Avx2.stepAD Verif.ChaCha.Avx2.rol8Mask) _ _ (List.length_map ..)]
      · rw [ok_bind, each_rows _ (Verif.ChaCha.Avx2.stepCB 7 25) _ _ (List.length_map ..)]
        · rw [Verif.ChaCha.Avx2.addXorRot, blocksL]
          simp only [Vector.toList_map]
          rfl
        · intro k l hk
          rw [nth_rows l k hk]
          rfl
      · intro k l hk
        rw [nth_rows l k hk]
        rfl
    · intro k l hk
      rw [nth_rows l k hk]
      rfl
  · intro k l hk
    rw [nth_rows l k hk]
    rfl

theorem rows_to_cols_eq (l : List (Rows M256)) : rows_to_cols tgt (l.map rowsL) = .ok ((), (l.map Verif.ChaCha.Avx2.rowsToCols1).map rowsL) := by
  rw [rows_to_cols]
  dsimp only
  rw [each_rows _ Verif.ChaCha.Avx2.rowsToCols1 l _ (List.length_map ..)]
  · rfl
  · intro k l hk
    rw [nth_rows l k hk]
    rfl

theorem cols_to_rows_eq (l : List (Rows M256)) : cols_to_rows tgt (l.map rowsL) = .ok ((), (l.map Verif.ChaCha.Avx2.colsToRows1).map rowsL) := by
  rw [cols_to_rows]
  dsimp only
  rw [each_rows _ Verif.ChaCha.Avx2.colsToRows1 l _ (List.length_map ..)]
  · rfl
  · intro k l hk
    rw [nth_rows l k hk]
    rfl

theorem double_quarter_round_eq (v : Vector (Rows M256) 2) :
    double_quarter_round tgt (blocksL v) = .ok ((), blocksL (Verif.ChaCha.Avx2.doubleQuarterRound v)) := by
  rw [double_quarter_round]
  dsimp only
  rw [add_xor_rot_eq, ok_bind, rows_to_cols_eq, ok_bind, ← Vector.toList_map, add_xor_rot_eq, ok_bind, cols_to_rows_eq, ok_bind]
  rw [Verif.ChaCha.Avx2.doubleQuarterRound, blocksL]
  simp only [Vector.toList_map]
  rfl

/-- The loop over the double rounds. -/
theorem rounds_loop (n : Nat) (x : Vector (Rows M256) 2) :
    (forIn (List.range n) (blocksL x) fun _ (s : List (List M256)) => do
      let r ← double_quarter_round tgt s
      pure (ForInStep.yield r.2)) = .ok (blocksL (iter n Verif.ChaCha.Avx2.doubleQuarterRound x)) := by
  refine forIn_range n (fun k => blocksL (iter k Verif.ChaCha.Avx2.doubleQuarterRound x)) _ _ rfl ?_
  intro k _
  rw [double_quarter_round_eq, Salsa.iter_succ_out]
  rfl

theorem two {α : Type} (v : Vector α 2) : ∃ a b, v = #v[a, b] := ⟨v[0], v[1], by
  apply Vector.ext; intro i hi; rcases i with _ | _ | i <;> first | rfl | omega⟩

theorem three {α : Type} (v : Vector α 3) : ∃ a b c, v = #v[a, b, c] := ⟨v[0], v[1], v[2], by
  apply Vector.ext; intro i hi; rcases i with _ | _ | _ | i <;> first | rfl | omega⟩

/-- Adding the input - avx2.rs:218-223. -/
def finish (v0 v1 v2 c : M256) (x : Rows M256) : Rows M256 :=
  ⟨x.a.addEpi32 v0, x.b.addEpi32 v1, x.c.addEpi32 v2, x.d.addEpi32 c⟩

theorem rounds_eq (g : Verif.ChaCha.Avx2.Regs) :
    rounds (R := R) tgt g.v.toList g.ctr.toList = .ok (blocksL (Verif.ChaCha.Avx2.rounds (Rounds.count R) g)) := by
  obtain ⟨v, ctr⟩ := g
  obtain ⟨v0, v1, v2, rfl⟩ := three v
  obtain ⟨c0, c1, rfl⟩ := two ctr
  rw [rounds]
  dsimp only
  refine (bind_of n_eq _).trans ?_
  refine (bind_of n_eq _).trans ?_
  refine (bind_of (forIn_range 2 (fun k => [rowsL (if 1 ≤ k then ⟨v0, v1, v2, c0⟩ else ⟨_mm256_setzero_si256, _mm256_setzero_si256, _mm256_setzero_si256, _mm256_setzero_si256⟩),
    rowsL (if 2 ≤ k then ⟨v0, v1, v2, c1⟩ else ⟨_mm256_setzero_si256, _mm256_setzero_si256, _mm256_setzero_si256, _mm256_setzero_si256⟩)]) _ _ rfl ?_) _).trans ?_
  · intro k hk
    rcases k with _ | _ | k <;> first | rfl | omega
  refine (bind_of (rounds_loop (Rounds.count R) #v[⟨v0, v1, v2, c0⟩, ⟨v0, v1, v2, c1⟩]) _).trans ?_
  have hs : Verif.ChaCha.Avx2.rounds (Rounds.count R) ⟨#v[v0, v1, v2], #v[c0, c1]⟩ = Vector.ofFn fun i : Fin 2 =>
      finish v0 v1 v2 (#v[c0, c1])[i] (iter (Rounds.count R) Verif.ChaCha.Avx2.doubleQuarterRound #v[⟨v0, v1, v2, c0⟩, ⟨v0, v1, v2, c1⟩])[i] := rfl
  rw [hs]
  generalize iter (Rounds.count R) Verif.ChaCha.Avx2.doubleQuarterRound #v[⟨v0, v1, v2, c0⟩, ⟨v0, v1, v2, c1⟩] = x
  obtain ⟨x0, x1, rfl⟩ := two x
  refine (bind_of n_eq _).trans ?_
  refine (bind_of (forIn_range 2 (fun k => [rowsL (if 1 ≤ k then finish v0 v1 v2 c0 x0 else x0), rowsL (if 2 ≤ k then finish v0 v1 v2 c1 x1 else x1)]) _ _ rfl ?_) _).trans ?_
  · intro k hk
    rcases k with _ | _ | k <;> first | rfl | omega
  rfl

/-- The backend with these registers. -/
def rep (R V : Type) [Rounds R] [Variant V] (g : Verif.ChaCha.Avx2.Regs) : Backend R V := ⟨g.v.toList, g.ctr.toList⟩

/-- Changing both counters. -/
theorem ctr_loop (g : Verif.ChaCha.Avx2.Regs) (h : M256 → M256) (f : Nat → Backend R V → Except Panic (ForInStep (Backend R V)))
    (hf : ∀ k (l : List M256) (hk : k < l.length), f k ⟨g.v.toList, l⟩ = .ok (.yield ⟨g.v.toList, l.set k (h l[k])⟩)) :
    forIn (List.range (rep R V g).ctr.length) (rep R V g) f = .ok (rep R V { g with ctr := g.ctr.map h }) := by
  obtain ⟨v, ctr⟩ := g
  obtain ⟨c0, c1, rfl⟩ := two ctr
  rw [show rep R V { v := v, ctr := Vector.map h #v[c0, c1] } = ⟨v.toList, [h c0, h c1]⟩ by rw [rep, Vector.toList_map]; rfl]
  refine forIn_range 2 (fun k => (⟨v.toList, [if 1 ≤ k then h c0 else c0, if 2 ≤ k then h c1 else c1]⟩ : Backend R V)) _ _ rfl ?_
  intro k hk
  rcases k with _ | _ | k
  · exact hf 0 [c0, c1] (show 0 < 2 by decide)
  · exact hf 1 [h c0, c1] (show 1 < 2 by decide)
  · omega

/-- The registers of four rows of two blocks. -/
def halves (r : Rows M256) : List M128 := [r.a.lo, r.a.hi, r.b.lo, r.b.hi, r.c.lo, r.c.hi, r.d.lo, r.d.hi]

theorem halves_bytes (r : Rows M256) : Mem.bytes (rowsL r) = (halves r).flatMap Reg.bytes := by
  show (Reg.bytes r.a.lo ++ Reg.bytes r.a.hi) ++ ((Reg.bytes r.b.lo ++ Reg.bytes r.b.hi) ++ ((Reg.bytes r.c.lo ++ Reg.bytes r.c.hi) ++
    ((Reg.bytes r.d.lo ++ Reg.bytes r.d.hi) ++ []))) = _
  simp only [List.append_assoc]
  rfl

theorem transmute_rows (r : Rows M256) : transmute (8 : Usize tgt) (rowsL r) = .ok (halves r) := transmute_cells _ _ _ rfl (halves_bytes r)

theorem gen_ks_block_eq {v : Verif.ChaCha.Variant} (hV : Is V v) (ht : 16 ≤ tgt.bits) (g : Verif.ChaCha.Avx2.Regs) (block : List U8) (hb : block.length = 64) :
    Backend.gen_ks_block tgt (rep R V g) block =
      (Verif.ChaCha.Avx2.genBlock (Rounds.count R) v g).map fun x => ((), rep R V x.2, x.1.toList) := by
  rw [Backend.gen_ks_block]
  dsimp only
  simp only [counter_match hV]
  refine (bind_of (rounds_eq g) _).trans ?_
  refine (bind_of (ctr_loop g (fun c => Verif.ChaCha.Avx2.ctrAdd v c 1 1) _ ?_) _).trans ?_
  · intro k l hk
    rw [nth_ok _ _ hk]
    cases v <;> rfl
  rw [Verif.ChaCha.Avx2.genBlock]
  generalize Verif.ChaCha.Avx2.rounds (Rounds.count R) g = res
  have h0 : idx (blocksL res) (0 : Usize tgt) = .ok (rowsL res[0]) := nth_rows res.toList 0 (by rw [Vector.length_toList]; decide)
  refine (bind_of h0 _).trans ?_
  refine (bind_of (transmute_rows res[0]) _).trans ?_
  have h64 : Mem.size block = 64 := by rw [size_u8, hb]
  refine (bind_of (store_loop 4 block (rowsL (Verif.ChaCha.Avx2.lowRows res[0])) rfl h64 _ ?_) _).trans ?_
  · intro m hm s hs
    have hm : m < 4 := hm
    rw [ptrAdd_ok _ _ _ _ (by rw [hs, h64]; show 0 + (0 + m) * 16 ≤ 64; omega), ok_bind]
    refine (bind_of (mul_usize _ _ (pow_bits ht (show 2 * (0 + m) < 65536 by omega))) _).trans ?_
    have hi : idx (halves res[0]) (⟨2 * (0 + m)⟩ : Usize tgt) = .ok ((rowsL (Verif.ChaCha.Avx2.lowRows res[0]))[m]'hm) := by
      rcases m with _ | _ | _ | _ | m <;> first | rfl | omega
    refine (bind_of hi _).trans ?_
    show (store s (0 + (0 + m) * 16) _ >>= _) = _
    rw [Nat.zero_add, Nat.zero_add]
    rfl
  rw [cells_block block hb]
  rfl

/-- Storing the halves of row `i`. -/
def put2 (t : List M128) (k : Nat) (c : List M128) (i : Nat) : List M128 := (c.set (8 * k + i) (t.getD (2 * i) ⟨0, 0, 0, 0⟩)).set (8 * k + (4 + i)) (t.getD (2 * i + 1) ⟨0, 0, 0, 0⟩)

theorem put2_length (t : List M128) (k : Nat) (c : List M128) (i : Nat) : (put2 t k c i).length = c.length := by
  rw [put2, List.length_set, List.length_set]

/-- Two blocks in memory. -/
def putRows (r : Rows M256) (c : List M128) (k : Nat) : List M128 := (List.range 4).foldl (put2 (halves r) k) c

theorem foldl_length {α : Type} (f : List α → Nat → List α) (h : ∀ c i, (f c i).length = c.length) (l : List Nat) (c : List α) :
    (l.foldl f c).length = c.length := by
  induction l generalizing c with
  | nil => rfl
  | cons i l ih => rw [List.foldl_cons, ih, h]

/-- `foldl` over a range. -/
theorem foldl_range_succ {α : Type} (f : α → Nat → α) (c : α) (n : Nat) : (List.range (n + 1)).foldl f c = f ((List.range n).foldl f c) n := by
  rw [List.range_succ, List.foldl_append]
  rfl

/-- Storing the halves of one entry of the result - avx2.rs:172-175. -/
theorem store_halves {α : Type} [Mem α] [LawfulMem α] (ht : 16 ≤ tgt.bits) (r : Rows M256) (a : α) (c : List M128) (hc : c.length = 16) (h : Mem.size a = 256)
    (k p : Nat) (hk : k < 2) (hp : p = k * 128) :
    (forIn (List.range (Usize.val (4 : Usize tgt) - Usize.val (0 : Usize tgt))) (cells a c) fun i s => do
      let r10 ← ptrAdd (Mem.size s) 16 p (⟨Usize.val (0 : Usize tgt) + i⟩ : Usize tgt)
      let r11 ← mul tgt (2 : Usize tgt) ⟨Usize.val (0 : Usize tgt) + i⟩
      let r12 ← idx (halves r) r11
      let r13 ← store s r10 r12
      let r14 ← add tgt (4 : Usize tgt) ⟨Usize.val (0 : Usize tgt) + i⟩
      let r15 ← ptrAdd (Mem.size r13) 16 p r14
      let r16 ← mul tgt (2 : Usize tgt) ⟨Usize.val (0 : Usize tgt) + i⟩
      let r17 ← add tgt r16 1
      let r18 ← idx (halves r) r17
      let r19 ← store r13 r15 r18
      pure (ForInStep.yield r19)) = .ok (cells a (putRows r c k)) := by
  refine forIn_range 4 (fun n => cells a ((List.range n).foldl (put2 (halves r) k) c)) _ _ rfl ?_
  intro i hi
  rw [foldl_range_succ]
  have hl : ((List.range i).foldl (put2 (halves r) k) c).length = 16 := by rw [foldl_length _ (put2_length _ _), hc]
  generalize (List.range i).foldl (put2 (halves r) k) c = c at hl
  have e0 : Usize.val (0 : Usize tgt) = 0 := rfl
  simp only [e0, Nat.zero_add]
  have hs : ∀ c : List M128, c.length = 16 → Mem.size (cells a c) = 256 := fun c hc => by
    rw [size_cells a c (by rw [h, hc]; rfl), h]
  have hst : ∀ (c : List M128), c.length = 16 → ∀ j off, j < 16 → off = j * 16 → ∀ x : M128, store (cells a c) off x = .ok (cells a (c.set j x)) :=
    fun c hc j off hj ho x => store_cells a c (by rw [h, hc]; rfl) j off (by rw [hc]; exact hj) ho x
  have hi1 : idx (halves r) (⟨2 * i⟩ : Usize tgt) = .ok ((halves r).getD (2 * i) ⟨0, 0, 0, 0⟩) := by
    rcases i with _ | _ | _ | _ | i <;> first | rfl | omega
  have hi2 : idx (halves r) (⟨2 * i + 1⟩ : Usize tgt) = .ok ((halves r).getD (2 * i + 1) ⟨0, 0, 0, 0⟩) := by
    rcases i with _ | _ | _ | _ | i <;> first | rfl | omega
  subst hp
  rw [ptrAdd_ok _ _ _ _ (by rw [hs _ hl]; show k * 128 + i * 16 ≤ 256; omega), ok_bind]
  refine (bind_of (mul_usize _ _ (pow_bits ht (show 2 * i < 65536 by omega))) _).trans ?_
  rw [hi1, ok_bind]
  refine (bind_of (hst c hl (8 * k + i) _ (by omega) (show k * 128 + i * 16 = _ by omega) _) _).trans ?_
  refine (bind_of (add_usize _ _ (pow_bits ht (show 4 + i < 65536 by omega))) _).trans ?_
  have hl' : (c.set (8 * k + i) ((halves r).getD (2 * i) ⟨0, 0, 0, 0⟩)).length = 16 := by rw [List.length_set, hl]
  rw [ptrAdd_ok _ _ _ _ (by rw [hs _ hl']; show k * 128 + (4 + i) * 16 ≤ 256; omega), ok_bind]
  refine (bind_of (mul_usize _ _ (pow_bits ht (show 2 * i < 65536 by omega))) _).trans ?_
  refine (bind_of (add_usize _ _ (pow_bits ht (show 2 * i + 1 < 65536 by omega))) _).trans ?_
  refine (bind_of hi2 _).trans ?_
  refine (bind_of (hst _ hl' (8 * k + (4 + i)) _ (by omega) (show k * 128 + (4 + i) * 16 = _ by omega) _) _).trans ?_
  rfl

/-- Storing the first results. -/
def putFirst (res : Vector (Rows M256) 2) (c : List M128) (k : Nat) : List M128 :=
  putRows (res.toList.getD k ⟨.setEpi64x 0 0 0 0, .setEpi64x 0 0 0 0, .setEpi64x 0 0 0 0, .setEpi64x 0 0 0 0⟩) c k

/-- The four blocks. -/
def blocks (res : Vector (Rows M256) 2) : List (Rows M128) :=
  [Verif.ChaCha.Avx2.lowRows res[0], Verif.ChaCha.Avx2.highRows res[0], Verif.ChaCha.Avx2.lowRows res[1], Verif.ChaCha.Avx2.highRows res[1]]

/-- Storing everything - avx2.rs:169-178. -/
theorem store_all {α : Type} [Mem α] [LawfulMem α] (ht : 16 ≤ tgt.bits) (res : Vector (Rows M256) 2) (a : α) (h : Mem.size a = 256) :
    (forIn (List.range (blocksL res).length) (a, 0) fun k s => do
      let r7 ← nth (blocksL res) k
      let r8 : List M128 ← transmute (8 : Usize tgt) r7
      let t ← forIn (List.range (Usize.val (4 : Usize tgt) - Usize.val (0 : Usize tgt))) s.1 fun i x => do
        let r10 ← ptrAdd (Mem.size x) 16 s.2 (⟨Usize.val (0 : Usize tgt) + i⟩ : Usize tgt)
        let r11 ← mul tgt (2 : Usize tgt) ⟨Usize.val (0 : Usize tgt) + i⟩
        let r12 ← idx r8 r11
        let r13 ← store x r10 r12
        let r14 ← add tgt (4 : Usize tgt) ⟨Usize.val (0 : Usize tgt) + i⟩
        let r15 ← ptrAdd (Mem.size r13) 16 s.2 r14
        let r16 ← mul tgt (2 : Usize tgt) ⟨Usize.val (0 : Usize tgt) + i⟩
        let r17 ← add tgt r16 1
        let r18 ← idx r8 r17
        let r19 ← store r13 r15 r18
        pure (ForInStep.yield r19)
      let r20 ← ptrAdd (Mem.size t) 16 s.2 (8 : Usize tgt)
      pure (ForInStep.yield (t, r20))) = .ok (cells a ((blocks res).flatMap rowsL), 256) := by
  obtain ⟨c, hc, ha⟩ := exists_cells (β := M128) a 16 h
  have hlen : (blocksL res).length = 2 := by rw [List.length_map, Vector.length_toList]
  have hend : (blocks res).flatMap rowsL = (List.range 2).foldl (putFirst res) c := by
    obtain ⟨x0, x1, rfl⟩ := two res
    match c, hc with
    | [c0, c1, c2, c3, c4, c5, c6, c7, c8, c9, c10, c11, c12, c13, c14, c15], _ => rfl
  rw [hlen, hend]
  refine forIn_range 2 (fun n => (cells a ((List.range n).foldl (putFirst res) c), n * 128))
    _ _ (Prod.ext ha rfl) ?_
  intro k hk
  rw [foldl_range_succ]
  have hpl : ∀ (r : Rows M256) (c : List M128) (k : Nat), (putRows r c k).length = c.length := fun r c k => foldl_length _ (put2_length _ _) _ _
  have hl : ((List.range k).foldl (putFirst res) c).length = 16 := by
    rw [foldl_length (putFirst res) (fun c k => hpl _ c k), hc]
  generalize (List.range k).foldl (putFirst res) c = c at hl
  have hkl : k < res.toList.length := by rw [Vector.length_toList]; exact hk
  rw [nth_rows res.toList k hkl, ok_bind, transmute_rows, ok_bind]
  refine (bind_of (store_halves ht res.toList[k] a c hl h k _ hk rfl) _).trans ?_
  rw [ptrAdd_ok _ _ _ _ (by rw [size_cells a _ (by rw [h, hpl, hl]; rfl), h]; show k * 128 + 8 * 16 ≤ 256; omega), ok_bind]
  rw [putFirst, List.getD_eq_getElem?_getD, List.getElem?_eq_getElem hkl]
  show Except.ok (ForInStep.yield (_, k * 128 + 8 * 16)) = _
  rw [show k * 128 + 8 * 16 = (k + 1) * 128 by omega]
  rfl

theorem gen_par_ks_blocks_eq {v : Verif.ChaCha.Variant} (hV : Is V v) (ht : 16 ≤ tgt.bits) (g : Verif.ChaCha.Avx2.Regs) (bs : List (List U8))
    (hb : Blocks64 4 bs) : Backend.gen_par_ks_blocks tgt (rep R V g) bs =
      (Verif.ChaCha.Avx2.genPar (Rounds.count R) v g).map fun x => ((), rep R V x.2, x.1.map Vector.toList) := by
  rw [Backend.gen_par_ks_blocks]
  dsimp only
  simp only [counter_match hV]
  refine (bind_of (rounds_eq g) _).trans ?_
  refine (bind_of par_blocks_eq _).trans ?_
  refine (bind_of (ctr_loop g (fun c => Verif.ChaCha.Avx2.ctrAdd v c 4 4) _ ?_) _).trans ?_
  · intro k l hk
    rw [nth_ok _ _ hk]
    cases v <;> rfl
  rw [Verif.ChaCha.Avx2.genPar]
  generalize Verif.ChaCha.Avx2.rounds (Rounds.count R) g = res
  refine (bind_of (store_all ht res bs (by rw [size_blocks hb])) _).trans ?_
  rw [cells_blocks bs hb _ rfl]
  rfl

theorem rng_gen_par_ks_blocks_eq (ht : 16 ≤ tgt.bits) (g : Verif.ChaCha.Avx2.Regs) (buffer : List U32) (hb : buffer.length = 64) :
    Backend.rng_gen_par_ks_blocks tgt (rep R V g) buffer =
      .ok ((), rep R V { g with ctr := g.ctr.map fun c => c.addEpi64 (.setEpi64x 0 4 0 4) },
        (blocks (Verif.ChaCha.Avx2.rounds (Rounds.count R) g)).flatMap fun r => r.words.toList) := by
  rw [Backend.rng_gen_par_ks_blocks]
  dsimp only
  refine (bind_of (rounds_eq g) _).trans ?_
  refine (bind_of par_blocks_eq _).trans ?_
  refine (bind_of (ctr_loop g (fun c => c.addEpi64 (.setEpi64x 0 4 0 4)) _ ?_) _).trans ?_
  · intro k l hk
    rw [nth_ok _ _ hk]
    rfl
  generalize Verif.ChaCha.Avx2.rounds (Rounds.count R) g = res
  refine (bind_of (store_all ht res buffer (by rw [size_u32, hb])) _).trans ?_
  rw [cells_words buffer _ (by rw [hb]; rfl)]
  rfl

theorem upd12 (s : State) (d : M256) : upd s.toList (12 : Usize tgt) (cast U32 (_mm256_extract_epi32 d 0)) = .ok (s.set 12 d.lo.x0).toList := by
  rw [upd_vec s (12 : Usize tgt) (show 12 < 16 by decide), cast_bv]
  simp only [BitVec.setWidth_eq]
  rfl

theorem upd13 (s : State) (d : M256) : upd s.toList (13 : Usize tgt) (cast U32 (_mm256_extract_epi32 d 1)) = .ok (s.set 13 d.lo.x1).toList := by
  rw [upd_vec s (13 : Usize tgt) (show 13 < 16 by decide), cast_bv]
  simp only [BitVec.setWidth_eq]
  rfl

/-- The backend as client code sees it. -/
theorem call_eq {α : Type} {v : Verif.ChaCha.Variant} (hV : Is V v) (ht : 16 ≤ tgt.bits) (c : Closure 64 α) (g : Verif.ChaCha.Avx2.Regs) :
    (asBackend tgt (Backend R V)).call c (rep R V g) =
      ((Verif.ChaCha.Avx2.backend (Rounds.count R) v).call c g).map (Prod.map id (rep R V)) := by
  refine call_sim (B := Verif.ChaCha.Avx2.backend (Rounds.count R) v) (rep R V) rfl ?_ ?_ ?_ c g
  · exact blockOf_sim (rep R V) (gen_ks_block_eq hV ht)
  · exact blocksOf_sim (rep R V) (gen_par_ks_blocks_eq hV ht)
  · intro n s
    exact blocksOf_sim (g := (Verif.Backend.ofBlock 4 (Verif.ChaCha.Avx2.genBlock (Rounds.count R) v)).genTail n) (rep R V)
      (fun s b hb => providedTail_sim (rep R V) 4 (gen_ks_block_eq hV ht) n b hb s) s

theorem inner_eq {α : Type} {v : Verif.ChaCha.Variant} (hV : Is V v) (ht : 16 ≤ tgt.bits) (c : Closure 64 α) (s : State) :
    inner (R := R) (V := V) tgt s.toList (Callee.ready c) =
      (Verif.ChaCha.Avx2.inner (Rounds.count R) v c s).map fun x => ((), x.2.toList, Callee.done x.1) := by
  rw [inner]
  dsimp only
  simp only [counter_match hV]
  have hp (k : Nat) (hk : k < 4) : ptrAdd (tgt := tgt) (Mem.size s.toList) 16 0 ⟨k⟩ = .ok (0 + k * 16) :=
    ptrAdd_ok _ _ _ _ (by rw [size_state]; show 0 + k * 16 ≤ 64; omega)
  refine (bind_of (hp 0 (by decide)) _).trans ?_
  rw [load_state s 0 _ (by decide) rfl, ok_bind]
  refine (bind_of (hp 1 (by decide)) _).trans ?_
  rw [load_state s 1 _ (by decide) rfl, ok_bind]
  refine (bind_of (hp 2 (by decide)) _).trans ?_
  rw [load_state s 2 _ (by decide) rfl, ok_bind]
  refine (bind_of (hp 3 (by decide)) _).trans ?_
  rw [load_state s 3 _ (by decide) rfl, ok_bind]
  rw [Verif.ChaCha.Avx2.inner]
  have h1 : (if v.ctrBytes = 4 then Except.ok (ε := Panic) (_mm256_add_epi32 (_mm256_broadcastsi128_si256 (Rows.load s).d) (_mm256_set_epi32 0 0 0 1 0 0 0 0))
      else .ok (_mm256_add_epi64 (_mm256_broadcastsi128_si256 (Rows.load s).d) (_mm256_set_epi64x 0 1 0 0))) =
      .ok (Verif.ChaCha.Avx2.load v s).ctr[0] := by cases v <;> rfl
  refine (bind_of h1 _).trans ?_
  refine (bind_of n_eq _).trans ?_
  refine (bind_of n_eq _).trans ?_
  have h2 : ∃ y, forIn (List.range (Usize.val (2 : Usize tgt) - Usize.val (0 : Usize tgt))) ((Verif.ChaCha.Avx2.load v s).ctr[0], List.replicate 2 (Verif.ChaCha.Avx2.load v s).ctr[0]) (fun k s => do
      let r ← upd s.2 (⟨Usize.val (0 : Usize tgt) + k⟩ : Usize tgt) s.1
      let r' ← (if v.ctrBytes = 4 then Except.ok (ε := Panic) (_mm256_add_epi32 s.1 (_mm256_set_epi32 0 0 0 2 0 0 0 2))
        else .ok (_mm256_add_epi64 s.1 (_mm256_set_epi64x 0 2 0 2)))
      pure (ForInStep.yield (r', r))) = .ok (y, (Verif.ChaCha.Avx2.load v s).ctr.toList) := by
    cases v <;> exact ⟨_, rfl⟩
  obtain ⟨y, h2⟩ := h2
  refine (bind_of h2 _).trans ?_
  have hc : StreamCipherClosure.call tgt (Callee.ready c) (rep R V (Verif.ChaCha.Avx2.load v s)) =
      ((Verif.ChaCha.Avx2.backend (Rounds.count R) v).call c (Verif.ChaCha.Avx2.load v s)).map fun x => ((), Callee.done x.1, rep R V x.2) := by
    show ((asBackend tgt (Backend R V)).call c (rep R V (Verif.ChaCha.Avx2.load v s)) >>= _) = _
    rw [call_eq hV ht]
    cases (Verif.ChaCha.Avx2.backend (Rounds.count R) v).call c (Verif.ChaCha.Avx2.load v s) <;> rfl
  refine (congrArg (· >>= _) hc).trans ?_
  cases (Verif.ChaCha.Avx2.backend (Rounds.count R) v).call c (Verif.ChaCha.Avx2.load v s) with
  | error e => rfl
  | ok x =>
    obtain ⟨a, ⟨w, ctr⟩⟩ := x
    obtain ⟨c0, c1, rfl⟩ := two ctr
    refine (bind_of (a := ((), Callee.done a, rep R V ⟨w, #v[c0, c1]⟩)) rfl _).trans ?_
    refine (bind_of (a := c0) rfl _).trans ?_
    refine (bind_of (upd12 s _) _).trans ?_
    cases v with
    | ietf => rfl
    | legacy =>
      refine (bind_of (a := c0) rfl _).trans ?_
      refine (bind_of (upd13 _ c0) _).trans ?_
      rfl

theorem rng_inner_eq (ht : 16 ≤ tgt.bits) (s : State) (buffer : List U32) (hb : buffer.length = 64) :
    rng_inner tgt (repr R V s) buffer =
      .ok ((), repr R V (Verif.ChaCha.Avx2.rngInner (Rounds.count R) s).2, (Verif.ChaCha.Avx2.rngInner (Rounds.count R) s).1.toList) := by
  rw [rng_inner]
  dsimp only
  have hp (k : Nat) (hk : k < 4) : ptrAdd (tgt := tgt) (Mem.size s.toList) 16 0 ⟨k⟩ = .ok (0 + k * 16) :=
    ptrAdd_ok _ _ _ _ (by rw [size_state]; show 0 + k * 16 ≤ 64; omega)
  rw [repr]
  refine (bind_of (hp 0 (by decide)) _).trans ?_
  rw [load_state s 0 _ (by decide) rfl, ok_bind]
  refine (bind_of (hp 1 (by decide)) _).trans ?_
  rw [load_state s 1 _ (by decide) rfl, ok_bind]
  refine (bind_of (hp 2 (by decide)) _).trans ?_
  rw [load_state s 2 _ (by decide) rfl, ok_bind]
  refine (bind_of (hp 3 (by decide)) _).trans ?_
  rw [load_state s 3 _ (by decide) rfl, ok_bind]
  refine (bind_of n_eq _).trans ?_
  refine (bind_of n_eq _).trans ?_
  have h2 : ∃ y, forIn (List.range (Usize.val (2 : Usize tgt) - Usize.val (0 : Usize tgt))) ((Verif.ChaCha.Avx2.load .legacy s).ctr[0], List.replicate 2 (Verif.ChaCha.Avx2.load .legacy s).ctr[0]) (fun k s => do
      let r ← upd s.2 (⟨Usize.val (0 : Usize tgt) + k⟩ : Usize tgt) s.1
      pure (ForInStep.yield (_mm256_add_epi64 s.1 (_mm256_set_epi64x 0 2 0 2), r))) = .ok (y, (Verif.ChaCha.Avx2.load .legacy s).ctr.toList) :=
    ⟨_, rfl⟩
  obtain ⟨y, h2⟩ := h2
  refine (bind_of h2 _).trans ?_
  refine (bind_of (rng_gen_par_ks_blocks_eq (V := V) ht (Verif.ChaCha.Avx2.load .legacy s) buffer hb) _).trans ?_
  rw [Verif.ChaCha.Avx2.rngInner]
  dsimp only
  generalize Verif.ChaCha.Avx2.rounds (Rounds.count R) (Verif.ChaCha.Avx2.load .legacy s) = res
  generalize (Verif.ChaCha.Avx2.load .legacy s).ctr.map (fun c => c.addEpi64 (.setEpi64x 0 4 0 4)) = ctr
  obtain ⟨c0, c1, rfl⟩ := two ctr
  refine (bind_of (a := c0) rfl _).trans ?_
  refine (bind_of (upd12 s _) _).trans ?_
  refine (bind_of (a := c0) rfl _).trans ?_
  refine (bind_of (upd13 _ _) _).trans ?_
  refine congrArg (fun x => Except.ok ((), _, x)) ?_
  rw [Vector.toList_append, Vector.toList_append, Vector.toList_append]
  obtain ⟨x0, x1, rfl⟩ := two res
  rw [blocks]
  simp only [List.flatMap_cons, List.flatMap_nil, List.append_nil, List.append_assoc]

end avx2
end Verif.Rust.ChaCha
