import Verif.Model.Raw
import Verif.Proof.Rng
/-!
# The memory-level backends compute what the value-level ones do
-/
namespace Verif.Raw
open Verif.ChaCha (Block State Variant)

theorem ok_bind {ε α β : Type} (a : α) (f : α → Except ε β) : (Except.ok a >>= f) = f a := rfl
theorem lift_ok {α : Type} (a : α) : lift (.ok a) = .ok a := rfl
theorem lift_error {α : Type} (p : Panic) : (lift (.error p) : Except Fault α) = .error (.panic p) := rfl

theorem lift_bind {α β : Type} (x : Except Panic α) (f : α → Except Panic β) :
    lift (x >>= f) = lift x >>= fun a => lift (f a) := by
  cases x <;> rfl

/-! ## Objects cut into chunks -/

theorem length_flatten_chunks (w : Nat) (L : List Bytes) (h : ∀ c ∈ L, c.length = w) : L.flatten.length = w * L.length := by
  induction L with
  | nil => rfl
  | cons c L ih =>
    rw [List.flatten_cons, List.length_append, h c List.mem_cons_self, ih fun d hd => h d (List.mem_cons_of_mem _ hd),
      List.length_cons, Nat.mul_succ]
    omega

theorem patch_append (c m : Bytes) (off : Nat) (x : Bytes) : patch (c ++ m) (c.length + off) x = c ++ patch m off x := by
  simp only [patch, Nat.add_assoc, List.append_assoc, List.take_length_add_append, List.drop_length_add_append]

theorem patch_flatten (w : Nat) (L : List Bytes) (k : Nat) (x : Bytes) (h : ∀ c ∈ L, c.length = w) (hx : x.length = w)
    (hk : k < L.length) : patch L.flatten (w * k) x = (L.set k x).flatten := by
  induction L generalizing k with
  | nil => exact absurd hk (Nat.not_lt_zero _)
  | cons c L ih =>
    have hc := h c List.mem_cons_self
    cases k with
    | zero =>
      simp only [patch, Nat.mul_zero, List.take_zero, List.nil_append, Nat.zero_add, List.set_cons_zero, List.flatten_cons]
      rw [show x.length = c.length by omega, List.drop_left]
    | succ k =>
      rw [List.flatten_cons, List.set_cons_succ, List.flatten_cons, show w * (k + 1) = c.length + w * k by rw [hc, Nat.mul_succ]; omega,
        patch_append, ih k (fun d hd => h d (List.mem_cons_of_mem _ hd)) (by simpa using hk)]

/-- Two adjacent stores are one. -/
theorem patch_patch (m : Bytes) (off : Nat) (x y : Bytes) (h : off + x.length + y.length ≤ m.length) :
    patch (patch m off x) (off + x.length) y = patch m off (x ++ y) := by
  have h1 : (m.take off ++ x).length = off + x.length := by simp; omega
  simp only [patch]
  rw [List.take_append_of_le_length (by omega), List.take_of_length_le (by omega), ← h1, List.drop_length_add_append, List.drop_drop,
    h1, List.length_append, Nat.add_assoc]
  simp only [List.append_assoc]

theorem mem_set_length (w : Nat) (L : List Bytes) (k : Nat) (x : Bytes) (h : ∀ c ∈ L, c.length = w) (hx : x.length = w) :
    ∀ c ∈ L.set k x, c.length = w := by
  intro c hc
  rcases List.mem_or_eq_of_mem_set hc with hc | rfl
  · exact h c hc
  · exact hx

theorem bytes128_length (x : M128) : (bytes128 x).length = 16 := by simp [bytes128]

theorem exists_chunks (w n : Nat) (m : Bytes) (h : m.length = w * n) :
    ∃ L : List Bytes, L.length = n ∧ (∀ c ∈ L, c.length = w) ∧ L.flatten = m := by
  induction n generalizing m with
  | zero => exact ⟨[], rfl, by simp, (List.eq_nil_of_length_eq_zero (by simpa using h)).symm⟩
  | succ n ih =>
    have hw : w ≤ m.length := by rw [h, Nat.mul_succ]; omega
    obtain ⟨L, h1, h2, h3⟩ := ih (m.drop w) (by rw [List.length_drop, h, Nat.mul_succ]; omega)
    refine ⟨m.take w :: L, by rw [List.length_cons, h1], ?_, by rw [List.flatten_cons, h3, List.take_append_drop]⟩
    intro c hc
    rcases List.mem_cons.1 hc with rfl | hc
    · rw [List.length_take, Nat.min_eq_left hw]
    · exact h2 c hc

/-- A 16-byte store at a multiple of sixteen bytes. -/
theorem store128_chunks (p : Ptr) (n k : Nat) (x : M128) (L : List Bytes) (h : ∀ c ∈ L, c.length = 16)
    (hk : p.off + n * p.elem = 16 * k) (hlo : p.lo ≤ 16 * k) (hhi : 16 * k + 16 ≤ p.hi) (hm : p.hi ≤ 16 * L.length) :
    store128 p n x L.flatten = .ok (L.set k (bytes128 x)).flatten := by
  have hl := length_flatten_chunks 16 L h
  have hb := bytes128_length x
  unfold store128 Ptr.add
  rw [hk, if_pos (by omega), ok_bind, store]
  dsimp only
  rw [if_pos (by omega), patch_flatten 16 L k _ h hb (by omega)]

/-- A loop of stores. -/
theorem foldlM_chunks {ι : Type} (l : List ι) (f : Bytes → ι → Except Fault Bytes) (g : List Bytes → ι → List Bytes) (n : Nat)
    (hf : ∀ i ∈ l, ∀ L, L.length = n → (∀ c ∈ L, c.length = 16) → f L.flatten i = .ok (g L i).flatten ∧
      (g L i).length = n ∧ ∀ c ∈ g L i, c.length = 16) :
    ∀ L : List Bytes, L.length = n → (∀ c ∈ L, c.length = 16) → l.foldlM f L.flatten = .ok (l.foldl g L).flatten ∧
      (l.foldl g L).length = n ∧ ∀ c ∈ l.foldl g L, c.length = 16 := by
  induction l with
  | nil => intro L h1 h2; exact ⟨rfl, h1, h2⟩
  | cons i l ih =>
    intro L h1 h2
    obtain ⟨e, h1, h2⟩ := hf i List.mem_cons_self L h1 h2
    rw [List.foldlM_cons, e, ok_bind, List.foldl_cons]
    exact ih (fun j hj => hf j (List.mem_cons_of_mem _ hj)) _ h1 h2

/-! ## Blocks, states -/

theorem leBytes_toList {k : Nat} (w : Vector U32 k) : (leBytes w).toList = w.toList.flatMap fun w => (toLe32 w).toList := by
  apply List.ext_getElem
  · rw [ChaCha.Rng.length_flatMap_toLe32]; simp; omega
  · intro i h1 h2
    rw [ChaCha.Rng.flatMap_toLe32_getElem, Vector.getElem_toList, leBytes_getElem]
    simp

/-- The 16-byte pieces of a block. -/
def pieces (r : Rows M128) : List Bytes := [bytes128 r.a, bytes128 r.b, bytes128 r.c, bytes128 r.d]

theorem words_bytes (r : Rows M128) : (r.words.toList.flatMap fun w => (toLe32 w).toList) = (pieces r).flatten := by
  show List.flatMap _ [r.a.x0, r.a.x1, r.a.x2, r.a.x3, r.b.x0, r.b.x1, r.b.x2, r.b.x3, r.c.x0, r.c.x1, r.c.x2, r.c.x3, r.d.x0, r.d.x1,
    r.d.x2, r.d.x3] = _
  simp only [pieces, bytes128, List.flatMap_cons, List.flatMap_nil, List.flatten_cons, List.flatten_nil, List.append_nil,
    List.append_assoc]

theorem store_toList (r : Rows M128) : r.store.toList = (pieces r).flatten := (leBytes_toList r.words).trans (words_bytes r)

theorem flat_cons (b : Block) (l : List Block) : flat (b :: l) = b.toList ++ flat l := rfl
theorem flat_nil : flat [] = [] := rfl
theorem flat_eq (l : List Block) : flat l = (l.map (·.toList)).flatten := rfl

theorem flat_length (l : List Block) : (flat l).length = 64 * l.length := by
  rw [flat_eq, length_flatten_chunks 64]
  · simp
  · intro c hc
    obtain ⟨b, -, rfl⟩ := List.mem_map.1 hc
    simp

theorem flat_store (l : List (Rows M128)) : flat (l.map Rows.store) = (l.flatMap pieces).flatten := by
  induction l with
  | nil => rfl
  | cons r l ih => rw [List.map_cons, flat_cons, ih, store_toList, List.flatMap_cons, List.flatten_append]

theorem toBlock_append (b : Block) (m : Bytes) : toBlock (b.toList ++ m) = b := by
  apply Vector.ext
  intro i hi
  simp only [toBlock, Vector.getElem_ofFn]
  rw [List.getD_eq_getElem?_getD, List.getElem?_append_left (by simpa using hi)]
  simp [hi]

theorem toBlock_toList (b : Block) : toBlock b.toList = b := by
  have := toBlock_append b []
  rwa [List.append_nil] at this

theorem toBlocks_flat (l : List Block) : toBlocks (flat l) = l := by
  induction l with
  | nil => rfl
  | cons b l ih =>
    have hl : (flat (b :: l)).length / 64 = (flat l).length / 64 + 1 := by simp only [flat_length, List.length_cons]; omega
    unfold toBlocks
    rw [hl, List.range_succ_eq_map, List.map_cons, List.map_map, flat_cons, Nat.mul_zero, List.drop_zero, toBlock_append]
    refine congrArg (b :: ·) (Eq.trans ?_ ih)
    refine List.map_congr_left fun i _ => ?_
    show toBlock ((b.toList ++ flat l).drop (64 * (i + 1))) = toBlock ((flat l).drop (64 * i))
    rw [show 64 * (i + 1) = b.toList.length + 64 * i by simp; omega, List.drop_length_add_append]

/-- A memory-level backend implements a value-level one on these buffers. -/
structure Implements {σ : Type} (R : RawBackend σ) (B : Backend 64 σ) (old : Nat → List Block) : Prop where
  parSize : R.parSize = B.parSize
  block : ∀ s, R.genBlock (flat (old 1)) s = lift (B.genBlock s) >>= fun r => .ok (r.1.toList, r.2)
  par : ∀ s, R.genPar (flat (old B.parSize)) s = lift (B.genPar s) >>= fun r => .ok (flat r.1, r.2)
  tail : ∀ n s, R.genTail (flat (old n)) s = lift (B.genTail n s) >>= fun r => .ok (flat r.1, r.2)

theorem Implements.run {σ α : Type} {R : RawBackend σ} {B : Backend 64 σ} {old : Nat → List Block} (h : Implements R B old)
    (p : Prog 64 α) : ∀ s, run R old p s = lift (p.run B s) := by
  induction p with
  | done a => intro s; rfl
  | block k ih =>
    intro s
    rw [Raw.run, Prog.run, h.block]
    cases B.genBlock s with
    | error e => rfl
    | ok r =>
      simp only [lift_ok, ok_bind, toBlock_toList]
      exact ih _ _
  | par k ih =>
    intro s
    rw [Raw.run, Prog.run, h.parSize, h.par]
    cases B.genPar s with
    | error e => rfl
    | ok r =>
      simp only [lift_ok, ok_bind, toBlocks_flat]
      exact ih _ _
  | tail n k ih =>
    intro s
    rw [Raw.run, Prog.run, h.tail]
    cases B.genTail n s with
    | error e => rfl
    | ok r =>
      simp only [lift_ok, ok_bind, toBlocks_flat]
      exact ih _ _

theorem tailLoop_eq {σ : Type} (rg : Bytes → σ → Except Fault (Bytes × σ)) (g : σ → Except Panic (Block × σ))
    (h : ∀ (b : Block) s, rg b.toList s = lift (g s) >>= fun r => .ok (r.1.toList, r.2)) (l : List Block) :
    ∀ s, tailLoop rg l.length (flat l) s = lift (genMany g l.length s) >>= fun r => .ok (flat r.1, r.2) := by
  induction l with
  | nil => intro s; rfl
  | cons b l ih =>
    intro s
    have h1 : (flat (b :: l)).take 64 = b.toList := by
      exact List.take_left' (by simp)
    have h2 : (flat (b :: l)).drop 64 = flat l := by
      exact List.drop_left' (by simp)
    rw [List.length_cons, tailLoop, genMany, h1, h2, h]
    cases g s with
    | error e => rfl
    | ok r =>
      simp only [lift_ok, ok_bind, ih]
      cases genMany g l.length r.2 with
      | error e => rfl
      | ok q => rfl

theorem providedTail_eq {σ : Type} (par : Nat) (rg : Bytes → σ → Except Fault (Bytes × σ)) (g : σ → Except Panic (Block × σ))
    (h : ∀ (b : Block) s, rg b.toList s = lift (g s) >>= fun r => .ok (r.1.toList, r.2)) (l : List Block) (s : σ) :
    providedTail par rg (flat l) s =
      lift ((Backend.ofBlock par g).genTail l.length s) >>= fun r => .ok (flat r.1, r.2) := by
  have hl : (flat l).length / 64 = l.length := by rw [flat_length]; omega
  unfold providedTail
  rw [hl]
  show _ = lift (if l.length < par then genMany g l.length s else .error .assertion) >>= _
  by_cases hp : l.length < par
  · rw [if_pos hp, if_pos hp]; exact tailLoop_eq rg g h l s
  · rw [if_neg hp, if_neg hp]; rfl

theorem stateBytes_eq (s : State) : stateBytes s = (pieces (Rows.load s)).flatten := by
  have := store_toList (Rows.load s)
  rw [Rows.store, Verif.Rows.words_load] at this
  exact this

theorem reg128_bytes128 (x : M128) : reg128 (bytes128 x) = x := by
  obtain ⟨a, b, c, d⟩ := x
  show M128.mk (le32 (toLe32 a)[0] (toLe32 a)[1] (toLe32 a)[2] (toLe32 a)[3]) (le32 (toLe32 b)[0] (toLe32 b)[1] (toLe32 b)[2] (toLe32 b)[3])
    (le32 (toLe32 c)[0] (toLe32 c)[1] (toLe32 c)[2] (toLe32 c)[3]) (le32 (toLe32 d)[0] (toLe32 d)[1] (toLe32 d)[2] (toLe32 d)[3]) = _
  simp only [le32_toLe32]

theorem load128_chunks (p : Ptr) (n k : Nat) (L : List Bytes) (x : M128) (h : ∀ c ∈ L, c.length = 16)
    (hk : p.off + n * p.elem = 16 * k) (hlo : p.lo ≤ 16 * k) (hhi : 16 * k + 16 ≤ p.hi) (hm : p.hi ≤ 16 * L.length)
    (hx : L[k]? = some (bytes128 x)) : load128 p n L.flatten = .ok x := by
  have hl := length_flatten_chunks 16 L h
  have hd : (L.flatten.drop (16 * k)).take 16 = bytes128 x := by
    clear hk hlo hhi hm hl
    induction L generalizing k with
    | nil => cases hx
    | cons c L ih =>
      have hc := h c List.mem_cons_self
      cases k with
      | zero =>
        cases hx
        rw [Nat.mul_zero, List.drop_zero, List.flatten_cons, show 16 = (bytes128 x).length by omega, List.take_left]
      | succ k =>
        rw [List.flatten_cons, show 16 * (k + 1) = c.length + 16 * k by omega, List.drop_length_add_append]
        exact ih k (fun d hd => h d (List.mem_cons_of_mem _ hd)) hx
  unfold load128 Ptr.add
  rw [hk, if_pos (by omega), ok_bind, load]
  dsimp only
  rw [if_pos (by omega), ok_bind, hd, reg128_bytes128]
  rfl

theorem pieces_length (r : Rows M128) : ∀ c ∈ pieces r, c.length = 16 := by
  intro c hc
  simp only [pieces, List.mem_cons, List.not_mem_nil, or_false] at hc
  rcases hc with rfl | rfl | rfl | rfl <;> exact bytes128_length _

theorem pieces_flatten_length (r : Rows M128) : (pieces r).flatten.length = 64 :=
  length_flatten_chunks 16 _ (pieces_length r)

theorem loadRows_eq (s : State) : loadRows (stateBytes s) = .ok (Rows.load s) := by
  rw [stateBytes_eq]
  generalize Rows.load s = r
  have hp := pieces_length r
  have hl := pieces_flatten_length r
  unfold loadRows Ptr.ofSlice Ptr.cast
  rw [hl]
  dsimp only
  rw [load128_chunks _ 0 0 _ r.a hp rfl (by decide) (by decide) (Nat.le_refl 64) rfl,
    load128_chunks _ 1 1 _ r.b hp rfl (by decide) (by decide) (Nat.le_refl 64) rfl,
    load128_chunks _ 2 2 _ r.c hp rfl (by decide) (by decide) (Nat.le_refl 64) rfl,
    load128_chunks _ 3 3 _ r.d hp rfl (by decide) (by decide) (Nat.le_refl 64) rfl]
  rfl

theorem loadRowsWords_eq (s : State) : loadRowsWords (stateBytes s) = .ok (Rows.load s) := by
  rw [stateBytes_eq]
  generalize Rows.load s = r
  have hp := pieces_length r
  have hl := pieces_flatten_length r
  unfold loadRowsWords Ptr.ofSlice
  rw [hl]
  dsimp only
  rw [load128_chunks _ 0 0 _ r.a hp rfl (by decide) (by decide) (Nat.le_refl 64) rfl,
    load128_chunks _ 4 1 _ r.b hp rfl (by decide) (by decide) (Nat.le_refl 64) rfl,
    load128_chunks _ 8 2 _ r.c hp rfl (by decide) (by decide) (Nat.le_refl 64) rfl,
    load128_chunks _ 12 3 _ r.d hp rfl (by decide) (by decide) (Nat.le_refl 64) rfl]
  rfl

theorem leBytes_quad (a b c d : Rows M128) :
    (leBytes (k := 64) (a.words ++ b.words ++ c.words ++ d.words : Vector U32 (16 + 16 + 16 + 16))).toList =
      ([a, b, c, d].flatMap pieces).flatten := by
  refine (leBytes_toList (k := 64) _).trans ?_
  show List.flatMap _ (Vector.toList (a.words ++ b.words ++ c.words ++ d.words)) = _
  simp only [Vector.toList_append, List.flatMap_append, words_bytes, List.flatMap_cons, List.flatMap_nil, List.append_nil,
    List.flatten_append, List.append_assoc]

/-! ## SSE2 -/

theorem list4 {α : Type} (L : List α) (h : L.length = 4) : ∃ a b c d, L = [a, b, c, d] := by
  match L, h with
  | [a, b, c, d], _ => exact ⟨a, b, c, d, rfl⟩

theorem list16 {α : Type} (L : List α) (h : L.length = 16) : ∃ a b c d e f g i j k l m n o p q,
    L = [a, b, c, d, e, f, g, i, j, k, l, m, n, o, p, q] := by
  match L, h with
  | [a, b, c, d, e, f, g, i, j, k, l, m, n, o, p, q], _ => exact ⟨a, b, c, d, e, f, g, i, j, k, l, m, n, o, p, q, rfl⟩

/-- Four stores of rows, at chunk `o` and following. -/
theorem storeRows (p : Ptr) (nn : Fin 4 → Nat) (o n : Nat) (r : Rows M128) (hk : ∀ i, p.off + nn i * p.elem = 16 * (o + i.val))
    (hlo : p.lo ≤ 16 * o) (hhi : 16 * (o + 4) ≤ p.hi) (hm : p.hi ≤ 16 * n) (L : List Bytes) (hn : L.length = n)
    (h : ∀ c ∈ L, c.length = 16) :
    (List.finRange 4).foldlM (fun m i => store128 p (nn i) (row r i) m) L.flatten =
        .ok ((List.finRange 4).foldl (fun L i => L.set (o + i.val) (bytes128 (row r i))) L).flatten ∧
      ((List.finRange 4).foldl (fun L i => L.set (o + i.val) (bytes128 (row r i))) L).length = n ∧
      ∀ c ∈ (List.finRange 4).foldl (fun L i => L.set (o + i.val) (bytes128 (row r i))) L, c.length = 16 := by
  refine foldlM_chunks _ _ _ n (fun i _ L hn h => ?_) L hn h
  have := i.isLt
  exact ⟨store128_chunks p _ _ _ L h (hk i) (by omega) (by omega) (by omega), by rw [List.length_set, hn],
    mem_set_length 16 _ _ _ h (bytes128_length _)⟩

/-- Four stores of rows over a whole block. -/
theorem storeBlock (p : Ptr) (nn : Fin 4 → Nat) (r : Rows M128) (hk : ∀ i, p.off + nn i * p.elem = 16 * i.val)
    (hlo : p.lo = 0) (hhi : p.hi = 64) (m : Bytes) (hm : m.length = 64) :
    (List.finRange 4).foldlM (fun m i => store128 p (nn i) (row r i) m) m = .ok r.store.toList := by
  obtain ⟨L, h1, h2, rfl⟩ := exists_chunks 16 4 m hm
  rw [(storeRows p nn 0 4 r (fun i => by rw [hk i, Nat.zero_add]) (by omega) (by omega) (by omega) L h1 h2).1, store_toList]
  obtain ⟨a, b, c, d, rfl⟩ := list4 L h1
  rfl

namespace Sse2

theorem storeAll_eq (res : Vector (Rows M128) 4) (p : Ptr) (h0 : p.off = 0) (he : p.elem = 16) (hlo : p.lo = 0) (hhi : p.hi = 256)
    (m : Bytes) (hm : m.length = 256) : storeAll res p m = .ok (res.toList.flatMap pieces).flatten := by
  obtain ⟨L, h1, h2, rfl⟩ := exists_chunks 16 16 m hm
  unfold storeAll
  rw [(foldlM_chunks (List.finRange 4) _ (fun L b => (List.finRange 4).foldl
    (fun L i => L.set (4 * b.val + i.val) (bytes128 (row res[b] i))) L) 16 (fun b _ L hn h => ?_) L h1 h2).1]
  · obtain ⟨a, b, c, d, e, f, g, i, j, k, l, m, n, o, p, q, rfl⟩ := list16 L h1
    obtain ⟨⟨rs⟩, hr⟩ := res
    obtain ⟨r0, r1, r2, r3, rfl⟩ := list4 rs hr
    rfl
  · have := b.isLt
    exact storeRows p _ (4 * b.val) 16 res[b] (fun i => by rw [h0, he]; omega) (by omega) (by omega) (by omega) L hn h

theorem genBlock_eq (dr : Nat) (V : Variant) (b : Bytes) (hb : b.length = 64) (v : Rows M128) :
    genBlock dr V b v = lift (ChaCha.Sse2.genBlock dr V v) >>= fun r => .ok (r.1.toList, r.2) := by
  unfold genBlock ChaCha.Sse2.genBlock
  generalize ChaCha.Sse2.rounds dr V v = res
  dsimp only
  rw [storeBlock _ _ res[0] (fun i => by show 0 + i.val * 16 = _; omega) rfl hb b hb, ok_bind, lift_ok, ok_bind]
  rfl

theorem genPar_eq (dr : Nat) (V : Variant) (b : Bytes) (hb : b.length = 256) (v : Rows M128) :
    genPar dr V b v = lift (ChaCha.Sse2.genPar dr V v) >>= fun r => .ok (flat r.1, r.2) := by
  unfold genPar ChaCha.Sse2.genPar
  generalize ChaCha.Sse2.rounds dr V v = res
  dsimp only
  rw [storeAll_eq res _ rfl rfl rfl hb b hb, lift_ok, ok_bind, ok_bind, flat_store]
  rfl

theorem implements (dr : Nat) (V : Variant) (old : Nat → List Block) (h : ∀ n, (old n).length = n) :
    Implements (backend dr V) (ChaCha.Sse2.backend dr V) old where
  parSize := rfl
  block s := genBlock_eq dr V _ (by rw [flat_length, h]) s
  par s := genPar_eq dr V _ (by rw [flat_length, h]; rfl) s
  tail n s := by
    have := providedTail_eq 4 (genBlock dr V) (ChaCha.Sse2.genBlock dr V) (fun b s => genBlock_eq dr V _ (by simp) s) (old n) s
    rw [h] at this
    exact this

theorem inner_eq {α : Type} (dr : Nat) (V : Variant) (old : Nat → List Block) (h : ∀ n, (old n).length = n) (f : Closure 64 α)
    (s : State) : inner dr V old f s = lift (ChaCha.Sse2.inner dr V f s) := by
  unfold inner ChaCha.Sse2.inner Backend.call
  rw [loadRows_eq, ok_bind, (implements dr V old h).run, lift_bind]
  rfl

theorem rngInner_eq (dr : Nat) (V : Variant) (buffer : Bytes) (hb : buffer.length = 256) (s : State) :
    rngInner dr V buffer s =
      .ok ((leBytes (ChaCha.Sse2.rngInner dr V s).1).toList, (ChaCha.Sse2.rngInner dr V s).2) := by
  unfold rngInner ChaCha.Sse2.rngInner
  rw [loadRows_eq, ok_bind]
  dsimp only
  generalize Rows.load s = v
  generalize ChaCha.Sse2.rounds dr V v = res
  rw [storeAll_eq res _ rfl rfl rfl hb buffer hb, ok_bind, leBytes_quad]
  obtain ⟨⟨rs⟩, hr⟩ := res
  obtain ⟨r0, r1, r2, r3, rfl⟩ := list4 rs hr
  rfl

end Sse2

/-! ## AVX2 -/

namespace Avx2

theorem genBlock_eq (dr : Nat) (V : Variant) (b : Bytes) (hb : b.length = 64) (g : ChaCha.Avx2.Regs) :
    genBlock dr V b g = lift (ChaCha.Avx2.genBlock dr V g) >>= fun r => .ok (r.1.toList, r.2) := by
  unfold genBlock ChaCha.Avx2.genBlock
  generalize ChaCha.Avx2.rounds dr g = res
  dsimp only
  have := storeBlock ((Ptr.ofSlice 1 b).cast 16) (fun i => i.val) (ChaCha.Avx2.lowRows res[0])
    (fun i => by show 0 + i.val * 16 = _; omega) rfl hb b hb
  have e : (fun (m : Bytes) (i : Fin 4) => store128 ((Ptr.ofSlice 1 b).cast 16) i.val (row (ChaCha.Avx2.lowRows res[0]) i) m) =
      fun m i => store128 ((Ptr.ofSlice 1 b).cast 16) i.val (halves res[0])[2 * i.val] m := by
    funext m i
    generalize res[0] = r
    refine congrArg (fun x => store128 _ _ x m) ?_
    match i with
    | 0 => rfl
    | 1 => rfl
    | 2 => rfl
    | 3 => rfl
  rw [e] at this
  rw [this, ok_bind, lift_ok, ok_bind]
  rfl

/-- Eight stores in the order `0 4 1 5 2 6 3 7`. -/
def order (r : Rows M256) (o : Nat) (L : List Bytes) : List Bytes :=
  (List.finRange 4).foldl (fun L i => (L.set (o + i.val) (bytes128 (halves r)[2 * i.val])).set (o + 4 + i.val)
    (bytes128 (halves r)[2 * i.val + 1])) L

theorem storeTwo_eq (r : Rows M256) (p : Ptr) (o : Nat) (h0 : p.off = 16 * o) (he : p.elem = 16) (hlo : p.lo = 0) (hhi : p.hi = 256)
    (ho : o + 8 ≤ 16) (L : List Bytes) (hL : L.length = 16) (h : ∀ c ∈ L, c.length = 16) :
    storeTwo r (p, L.flatten) = .ok ({ p with off := 16 * (o + 8) }, (order r o L).flatten) ∧ (order r o L).length = 16 ∧
      ∀ c ∈ order r o L, c.length = 16 := by
  unfold storeTwo
  dsimp only
  obtain ⟨e, h1, h2⟩ := foldlM_chunks (List.finRange 4) (fun m i => do
    let m ← store128 p i.val (halves r)[2 * i.val] m
    store128 p (4 + i.val) (halves r)[2 * i.val + 1] m) (fun L i => (L.set (o + i.val) (bytes128 (halves r)[2 * i.val])).set (o + 4 + i.val)
    (bytes128 (halves r)[2 * i.val + 1])) 16 (fun i _ L hL h => by
      have := i.isLt
      have h' := mem_set_length 16 L (o + i.val) _ h (bytes128_length (halves r)[2 * i.val])
      rw [store128_chunks p _ (o + i.val) _ L h (by rw [h0, he]; omega) (by omega) (by omega) (by omega), ok_bind,
        store128_chunks p _ (o + 4 + i.val) _ _ h' (by rw [h0, he]; omega) (by omega) (by omega) (by rw [List.length_set]; omega)]
      exact ⟨rfl, by rw [List.length_set, List.length_set, hL], mem_set_length 16 _ _ _ h' (bytes128_length _)⟩) L hL h
  rw [e, ok_bind]
  refine ⟨?_, h1, h2⟩
  unfold Ptr.add
  rw [h0, he, if_pos (by omega)]
  rfl

theorem storeAll_eq (vs : Vector (Rows M256) 2) (p : Ptr) (h0 : p.off = 0) (he : p.elem = 16) (hlo : p.lo = 0) (hhi : p.hi = 256)
    (m : Bytes) (hm : m.length = 256) :
    storeAll vs p m = .ok ([ChaCha.Avx2.lowRows vs[0], ChaCha.Avx2.highRows vs[0], ChaCha.Avx2.lowRows vs[1],
      ChaCha.Avx2.highRows vs[1]].flatMap pieces).flatten := by
  obtain ⟨L, h1, h2, rfl⟩ := exists_chunks 16 16 m hm
  obtain ⟨e1, l1, c1⟩ := storeTwo_eq vs[0] p 0 h0 he hlo hhi (by decide) L h1 h2
  obtain ⟨e2, l2, c2⟩ := storeTwo_eq vs[1] { p with off := 16 * (0 + 8) } 8 rfl he hlo hhi (by decide) _ l1 c1
  unfold storeAll
  rw [e1, ok_bind]
  dsimp only
  rw [e2, ok_bind]
  obtain ⟨a, b, c, d, e, f, g, i, j, k, l, m, n, o, p, q, rfl⟩ := list16 L h1
  generalize vs[0] = r0
  generalize vs[1] = r1
  rfl

theorem genPar_eq (dr : Nat) (V : Variant) (b : Bytes) (hb : b.length = 256) (g : ChaCha.Avx2.Regs) :
    genPar dr V b g = lift (ChaCha.Avx2.genPar dr V g) >>= fun r => .ok (flat r.1, r.2) := by
  unfold genPar ChaCha.Avx2.genPar
  generalize ChaCha.Avx2.rounds dr g = res
  dsimp only
  rw [storeAll_eq res _ rfl rfl rfl hb b hb, ok_bind, lift_ok, ok_bind, ← flat_store]
  rfl

theorem implements (dr : Nat) (V : Variant) (old : Nat → List Block) (h : ∀ n, (old n).length = n) :
    Implements (backend dr V) (ChaCha.Avx2.backend dr V) old where
  parSize := rfl
  block s := genBlock_eq dr V _ (by rw [flat_length, h]) s
  par s := genPar_eq dr V _ (by rw [flat_length, h]; rfl) s
  tail n s := by
    have := providedTail_eq 4 (genBlock dr V) (ChaCha.Avx2.genBlock dr V) (fun b s => genBlock_eq dr V _ (by simp) s) (old n) s
    rw [h] at this
    exact this

theorem load_eq (V : Variant) (s : State) : load V (stateBytes s) = .ok (ChaCha.Avx2.load V s) := by
  unfold load ChaCha.Avx2.load
  rw [loadRows_eq]
  rfl

theorem inner_eq {α : Type} (dr : Nat) (V : Variant) (old : Nat → List Block) (h : ∀ n, (old n).length = n) (f : Closure 64 α)
    (s : State) : inner dr V old f s = lift (ChaCha.Avx2.inner dr V f s) := by
  unfold inner ChaCha.Avx2.inner Backend.call
  rw [load_eq, ok_bind, (implements dr V old h).run, lift_bind]
  rfl

theorem rngInner_eq (dr : Nat) (buffer : Bytes) (hb : buffer.length = 256) (s : State) :
    rngInner dr buffer s = .ok ((leBytes (ChaCha.Avx2.rngInner dr s).1).toList, (ChaCha.Avx2.rngInner dr s).2) := by
  unfold rngInner ChaCha.Avx2.rngInner
  rw [load_eq, ok_bind]
  dsimp only
  generalize ChaCha.Avx2.load .legacy s = g
  generalize ChaCha.Avx2.rounds dr g = res
  rw [storeAll_eq res _ rfl rfl rfl hb buffer hb, ok_bind, leBytes_quad]
  rfl

end Avx2

/-! ## AVX-512 -/

namespace Avx512

/-- A store of a whole block. -/
theorem store_block (blocks : List Block) (k : Nat) (hk : k < blocks.length) (b : Block) (x : Bytes) (hx : b.toList = x) :
    (Ptr.ofBlock k (flat blocks) >>= fun p => store p x (flat blocks)) = .ok (flat (blocks.set k b)) := by
  subst hx
  have hl := flat_length blocks
  have hb : b.toList.length = 64 := by simp
  unfold Ptr.ofBlock
  rw [if_pos (by omega), ok_bind, store]
  dsimp only
  rw [if_pos (by omega), flat_eq, flat_eq, List.map_set, patch_flatten 64 _ k _ _ hb (by simpa using hk)]
  intro c hc
  obtain ⟨b, -, rfl⟩ := List.mem_map.1 hc
  simp

theorem bytes512_eq (x : M512) : (ChaCha.Avx512.store x).toList = bytes512 x := by
  unfold ChaCha.Avx512.store
  rw [store_toList]
  simp only [pieces, List.flatten_cons, List.flatten_nil, List.append_nil, bytes512, List.append_assoc]

theorem foldlM_blocks {ι : Type} (l : List ι) (f : Bytes → ι → Except Fault Bytes) (g : List Block → ι → List Block)
    (hf : ∀ i ∈ l, ∀ bl, f (flat bl) i = .ok (flat (g bl i))) :
    ∀ bl : List Block, l.foldlM f (flat bl) = .ok (flat (l.foldl g bl)) := by
  induction l with
  | nil => intro bl; rfl
  | cons i l ih =>
    intro bl
    rw [List.foldlM_cons, hf i List.mem_cons_self bl, ok_bind, List.foldl_cons]
    exact ih (fun j hj => hf j (List.mem_cons_of_mem _ hj)) _

theorem storeFull_eq {N : Nat} (result : Vector (Rows M512) N) (blocks : List Block) :
    storeFull result (flat blocks) = .ok (flat (ChaCha.Avx512.writeBlocks result blocks)) := by
  unfold storeFull ChaCha.Avx512.writeBlocks
  refine foldlM_blocks _ _ _ (fun i _ bl => ?_) blocks
  refine foldlM_blocks _ _ _ (fun j _ bl => ?_) bl
  have hl : (flat bl).length / 64 = bl.length := by rw [flat_length]; omega
  dsimp only
  rw [hl]
  by_cases h : i.val * 4 + j.val < bl.length
  · rw [if_pos h, if_pos h]
    exact store_block bl _ h _ _ (bytes512_eq _)
  · rw [if_neg h, if_neg h]
    rfl

theorem genFull_eq (N dr : Nat) (V : Variant) (blocks : List Block) (g : ChaCha.Avx512.Regs) :
    genFull N dr V (flat blocks) g = lift (ChaCha.Avx512.genFull N dr V blocks g) >>= fun r => .ok (flat r.1, r.2) := by
  have hl : (flat blocks).length / 64 = blocks.length := by rw [flat_length]; omega
  unfold genFull ChaCha.Avx512.genFull
  rw [hl]
  by_cases h : ¬ blocks.length ≤ N * 4
  · rw [if_pos h, if_pos h]; rfl
  · rw [if_neg h, if_neg h]
    dsimp only
    rw [storeFull_eq]
    rfl

theorem patch_length (m : Bytes) (off : Nat) (x : Bytes) (h : off + x.length ≤ m.length) : (patch m off x).length = m.length := by
  simp [patch]
  omega

theorem store_halves (m : Bytes) (k : Nat) (x y : Bytes) (hx : x.length = 32) (hy : y.length = 32) (hk : k < m.length / 64) :
    (do
      let dst := (← Ptr.ofBlock k m).cast 4
      let m ← store dst x m
      store (← dst.add (64 / 2 / 4)) y m) = (Ptr.ofBlock k m >>= fun p => store p (x ++ y) m) := by
  have hp := patch_length m (64 * k) x (by omega)
  have hxy : (x ++ y).length = 64 := by rw [List.length_append, hx, hy]
  have hh := patch_patch m (64 * k) x y (by omega)
  rw [hx] at hh
  unfold Ptr.ofBlock Ptr.cast Ptr.add store
  rw [if_pos hk]
  simp only [ok_bind]
  rw [if_pos (by omega), ok_bind, if_pos (by omega), ok_bind]
  dsimp only
  rw [if_pos (by omega), if_pos (by omega), ← hh]

theorem storeHalf_eq (parts : Vector (M256 × M256) 2) (blocks : List Block) :
    storeHalf parts (flat blocks) = .ok (flat (ChaCha.Avx512.writeHalf parts blocks)) := by
  unfold storeHalf ChaCha.Avx512.writeHalf
  refine foldlM_blocks _ _ _ (fun i _ bl => ?_) blocks
  have hl : (flat bl).length / 64 = bl.length := by rw [flat_length]; omega
  have hl' := flat_length bl
  dsimp only
  rw [hl]
  by_cases h : i.val < bl.length
  · rw [if_pos h, if_pos h]
    have hb : ∀ x : M256, (bytes256 x).length = 32 := fun x => by
      rw [bytes256, List.length_append, bytes128_length, bytes128_length]
    have h1 := hb parts[i].1
    have h2 := hb parts[i].2
    have e : (Rows.mk parts[i].1.lo parts[i].1.hi parts[i].2.lo parts[i].2.hi).store.toList = bytes256 parts[i].1 ++ bytes256 parts[i].2 := by
      rw [store_toList]
      simp only [pieces, List.flatten_cons, List.flatten_nil, List.append_nil, bytes256, List.append_assoc]
    refine Eq.trans ?_ (store_block bl i.val h _ _ e)
    exact store_halves _ _ _ _ h1 h2 (by rw [hl]; exact h)
  · rw [if_neg h, if_neg h]
    rfl

theorem genHalf_eq (dr : Nat) (V : Variant) (blocks : List Block) (g : ChaCha.Avx512.Regs) :
    genHalf dr V (flat blocks) g = lift (ChaCha.Avx512.genHalf dr V blocks g) >>= fun r => .ok (flat r.1, r.2) := by
  have hl : (flat blocks).length / 64 = blocks.length := by rw [flat_length]; omega
  unfold genHalf ChaCha.Avx512.genHalf
  rw [hl]
  by_cases h : ¬ blocks.length ≤ 2
  · rw [if_pos h, if_pos h]; rfl
  · rw [if_neg h, if_neg h]
    dsimp only
    rw [storeHalf_eq]
    rfl

theorem genBlock_eq (dr : Nat) (V : Variant) (b : Bytes) (hb : b.length = 64) (g : ChaCha.Avx512.Regs) :
    genBlock dr V b g = lift (ChaCha.Avx512.genBlock dr V g) >>= fun r => .ok (r.1.toList, r.2) := by
  unfold genBlock ChaCha.Avx512.genBlock
  dsimp only
  generalize ChaCha.Avx512.roundsQuarter dr _ = res
  obtain ⟨L, h1, h2, rfl⟩ := exists_chunks 16 4 b hb
  have := (foldlM_chunks (List.finRange 4) (fun m i => store128 ((Ptr.ofSlice 1 m).cast 4) (i.val * 4) (row res i) m)
    (fun L i => L.set i.val (bytes128 (row res i))) 4 (fun i _ L hn h => by
      have hi := i.isLt
      have hl := length_flatten_chunks 16 L h
      refine ⟨store128_chunks _ _ i.val _ L h (by show 0 + i.val * 4 * 4 = _; omega) (Nat.zero_le _) ?_ ?_,
        by rw [List.length_set, hn], mem_set_length 16 _ _ _ h (bytes128_length _)⟩
      · show _ ≤ L.flatten.length; omega
      · show L.flatten.length ≤ _; omega) L h1 h2).1
  rw [this, ok_bind, lift_ok, ok_bind, store_toList]
  obtain ⟨a, b, c, d, rfl⟩ := list4 L h1
  rfl

theorem genTail_eq (dr : Nat) (V : Variant) (blocks : List Block) (g : ChaCha.Avx512.Regs) :
    genTail dr V (flat blocks) g = lift (ChaCha.Avx512.genTailInto dr V blocks g) >>= fun r => .ok (flat r.1, r.2) := by
  have hl : (flat blocks).length / 64 = blocks.length := by rw [flat_length]; omega
  unfold genTail ChaCha.Avx512.genTailInto
  rw [hl]
  by_cases h : ¬ blocks.length < 16
  · rw [if_pos h, if_pos h]; rfl
  rw [if_neg h, if_neg h]
  match blocks with
  | [] => rfl
  | [b] =>
    have e : (flat [b]).take 64 = b.toList := List.take_left' (by simp)
    have e2 : (flat [b]).drop 64 = [] := List.drop_left' (by simp)
    have h0 : ¬ [b].length = 0 := nofun
    have h1 : [b].length = 1 := rfl
    rw [if_neg h0, if_pos h1]
    dsimp only
    rw [if_pos h1, e, e2, genBlock_eq dr V _ (by simp), lift_bind]
    cases ChaCha.Avx512.genBlock dr V g with
    | error p => rfl
    | ok r => rfl
  | b :: c :: bs =>
    dsimp only
    have h2 : 2 ≤ (b :: c :: bs).length := by simp
    generalize (b :: c :: bs).length = n at h2
    have h0 : ¬ n = 0 := by omega
    have h1 : ¬ n = 1 := by omega
    rw [if_neg h0, if_neg h1, if_neg h1]
    by_cases h : n = 2
    · rw [if_pos h, if_pos h]; exact genHalf_eq dr V _ g
    rw [if_neg h, if_neg h]
    by_cases h : n ≤ 4
    · rw [if_pos h, if_pos h]; exact genFull_eq 1 dr V _ g
    rw [if_neg h, if_neg h]
    by_cases h : n ≤ 8
    · rw [if_pos h, if_pos h]; exact genFull_eq 2 dr V _ g
    · rw [if_neg h, if_neg h]; exact genFull_eq 4 dr V _ g

theorem implements (dr : Nat) (V : Variant) (old : Nat → List Block) (h : ∀ n, (old n).length = n) :
    Implements (backend dr V) (ChaCha.Avx512.backend dr V old) old where
  parSize := rfl
  block s := genBlock_eq dr V _ (by rw [flat_length, h]) s
  par s := genFull_eq 4 dr V (old 16) s
  tail n s := genTail_eq dr V (old n) s

theorem inner_eq {α : Type} (dr : Nat) (V : Variant) (old : Nat → List Block) (h : ∀ n, (old n).length = n) (f : Closure 64 α)
    (s : State) : inner dr V old f s = lift (ChaCha.Avx512.inner dr V old f s) := by
  unfold inner ChaCha.Avx512.inner Backend.call
  rw [loadRowsWords_eq, ok_bind, lift_bind]
  dsimp only
  rw [(implements dr V old h).run]
  rfl

end Avx512

/-! ## NEON -/

namespace Neon

theorem new_eq (s : State) : new (stateBytes s) = .ok (ChaCha.Neon.new s) := by
  unfold new ChaCha.Neon.new
  rw [loadRowsWords_eq, ok_bind]
  rfl

theorem store_step (k j : Nat) (x : M128) (m : Bytes) (hk : k < m.length / 64) (hj : j < 4) :
    (Ptr.ofBlock k m >>= fun p => store128 p (j <<< 4) x m) = .ok (patch m (64 * k + 16 * j) (bytes128 x)) := by
  have hs : j <<< 4 = 16 * j := by rw [Nat.shiftLeft_eq]; omega
  have hb := bytes128_length x
  unfold Ptr.ofBlock store128 Ptr.add store
  rw [if_pos hk, ok_bind, hs, Nat.mul_one, if_pos (by dsimp only; omega), ok_bind]
  dsimp only
  rw [if_pos (by omega)]

/-- Four stores into block `k` of a slice. -/
theorem store_rows (k : Nat) (r : Rows M128) (blocks : List Block) (hk : k < blocks.length) :
    (List.finRange 4).foldlM (fun m i => do store128 (← Ptr.ofBlock k m) (i.val <<< 4) (row r i) m) (flat blocks) =
      .ok (flat (blocks.set k r.store)) := by
  have hl := flat_length blocks
  have hb := bytes128_length
  have e : flat (blocks.set k r.store) = patch (flat blocks) (64 * k) (pieces r).flatten := by
    rw [← store_toList, flat_eq, flat_eq, List.map_set, patch_flatten 64 _ k _ _ (by simp) (by simpa using hk)]
    intro c hc
    obtain ⟨b, -, rfl⟩ := List.mem_map.1 hc
    simp
  rw [e]
  show (List.foldlM _ (flat blocks) [(0 : Fin 4), 1, 2, 3]) = _
  simp only [List.foldlM_cons, List.foldlM_nil, pieces, List.flatten_cons, List.flatten_nil, List.append_nil]
  generalize flat blocks = m at hl
  have step := fun (m' : Bytes) (h : m'.length = m.length) (j : Fin 4) => store_step k j.val (row r j) m' (by omega) j.isLt
  have p1 := fun x (hx : x.length ≤ 64) => Avx512.patch_length m (64 * k) x (by omega)
  have hh := fun (x : Bytes) (y : M128) (j : Nat) (hx : x.length = 16 * j) (hj : j < 4) => by
    have := patch_patch m (64 * k) x (bytes128 y) (by have := hb y; omega)
    rw [hx] at this
    exact this
  have l1 : (bytes128 r.a ++ bytes128 r.b).length = 16 * 2 := by rw [List.length_append, hb, hb]
  have l2 : (bytes128 r.a ++ bytes128 r.b ++ bytes128 r.c).length = 16 * 3 := by rw [List.length_append, l1, hb]
  have h0 := step m rfl 0
  have h1 := step (patch m (64 * k) (bytes128 r.a)) (p1 _ (by rw [hb]; decide)) 1
  have h2 := step (patch m (64 * k) (bytes128 r.a ++ bytes128 r.b)) (p1 _ (by omega)) 2
  have h3 := step (patch m (64 * k) (bytes128 r.a ++ bytes128 r.b ++ bytes128 r.c)) (p1 _ (by omega)) 3
  replace h1 := h1.trans (congrArg Except.ok (hh (bytes128 r.a) r.b 1 (hb _) (by decide)))
  replace h2 := h2.trans (congrArg Except.ok (hh _ r.c 2 l1 (by decide)))
  replace h3 := h3.trans (congrArg Except.ok (hh _ r.d 3 l2 (by decide)))
  rw [h0, ok_bind]
  refine (congrArg (· >>= _) h1).trans ?_
  rw [ok_bind]
  refine (congrArg (· >>= _) h2).trans ?_
  rw [ok_bind]
  refine (congrArg (· >>= _) h3).trans ?_
  rw [ok_bind, ← List.append_assoc, ← List.append_assoc]
  rfl

theorem list8 {α : Type} (L : List α) (h : L.length = 8) : ∃ a b c d e f g i, L = [a, b, c, d, e, f, g, i] := by
  match L, h with
  | [a, b, c, d, e, f, g, i], _ => exact ⟨a, b, c, d, e, f, g, i, rfl⟩

/-- A loop over a slice of `n` blocks. -/
theorem foldlM_blocks {ι : Type} (n : Nat) (l : List ι) (f : Bytes → ι → Except Fault Bytes) (g : List Block → ι → List Block)
    (hf : ∀ i ∈ l, ∀ bl, bl.length = n → f (flat bl) i = .ok (flat (g bl i)) ∧ (g bl i).length = n) :
    ∀ bl : List Block, bl.length = n → l.foldlM f (flat bl) = .ok (flat (l.foldl g bl)) := by
  induction l with
  | nil => intro bl _; rfl
  | cons i l ih =>
    intro bl h
    obtain ⟨e, h⟩ := hf i List.mem_cons_self bl h
    rw [List.foldlM_cons, e, ok_bind, List.foldl_cons]
    exact ih (fun j hj => hf j (List.mem_cons_of_mem _ hj)) _ h

theorem genPar_eq (dr : Nat) (V : Variant) (b : List Block) (hb : b.length = 8) (g : ChaCha.Neon.Regs) :
    genPar dr V (flat b) g = lift (ChaCha.Neon.genPar dr V g) >>= fun r => .ok (flat r.1, r.2) := by
  unfold genPar ChaCha.Neon.genPar
  dsimp only
  generalize ChaCha.Neon.blocks 8 _ dr V g = bl
  rw [foldlM_blocks 8 (List.finRange 8) _ (fun l i => l.set i.val bl[i].store) (fun i _ l hl =>
    ⟨store_rows i.val bl[i] l (by rw [hl]; exact i.isLt), by rw [List.length_set, hl]⟩) b hb, ok_bind, lift_ok, ok_bind]
  obtain ⟨a, b, c, d, e, f, g, i, rfl⟩ := list8 b hb
  obtain ⟨⟨rs⟩, hr⟩ := bl
  obtain ⟨r0, r1, r2, r3, r4, r5, r6, r7, rfl⟩ := list8 rs hr
  rfl

theorem flat_zeros (n : Nat) : flat (List.replicate n (Vector.replicate 64 0)) = List.replicate (64 * n) 0 := by
  induction n with
  | zero => rfl
  | succ n ih =>
    rw [List.replicate_succ, flat_cons, ih, Vector.toList_replicate, List.replicate_append_replicate]
    exact congrArg (List.replicate · 0) (by omega)

theorem load_const (i : U32) : (let a : Bytes := (toLe32 i).toList ++ (toLe32 0).toList ++ (toLe32 0).toList ++ (toLe32 0).toList
    load128 (Ptr.ofSlice 4 a) 0 a) = .ok ⟨i, 0, 0, 0⟩ := by
  show load128 (Ptr.ofSlice 4 (bytes128 ⟨i, 0, 0, 0⟩)) 0 (bytes128 ⟨i, 0, 0, 0⟩) = _
  have hb := bytes128_length ⟨i, 0, 0, 0⟩
  unfold load128 Ptr.add Ptr.ofSlice load
  rw [Nat.zero_mul, if_pos (Nat.zero_le _), ok_bind]
  dsimp only
  rw [if_pos (by omega), ok_bind, Nat.add_zero, List.drop_zero, List.take_of_length_le (by omega), reg128_bytes128]
  rfl

theorem genBlock_eq (dr : Nat) (V : Variant) (b : Bytes) (g : ChaCha.Neon.Regs) :
    genBlock dr V b g = lift (ChaCha.Neon.genBlock dr V g) >>= fun r => .ok (r.1.toList, r.2) := by
  unfold genBlock ChaCha.Neon.genBlock
  have := genPar_eq dr V (List.replicate 8 (Vector.replicate 64 0)) (by simp) g
  rw [flat_zeros] at this
  dsimp only
  rw [this]
  have hc := load_const 1
  dsimp only at hc
  rw [hc]
  cases hp : ChaCha.Neon.genPar dr V g with
  | error p => rfl
  | ok r =>
    obtain ⟨par, g'⟩ := r
    simp only [lift_ok, ok_bind]
    match par with
    | [] => cases hp
    | b :: bs =>
      dsimp only
      rw [show (flat (b :: bs)).take 64 = b.toList from List.take_left' (by simp)]
      rfl

theorem implements (dr : Nat) (V : Variant) (old : Nat → List Block) (h : ∀ n, (old n).length = n) :
    Implements (backend dr V) (ChaCha.Neon.backend dr V) old where
  parSize := rfl
  block s := genBlock_eq dr V (flat (old 1)) s
  par s := genPar_eq dr V _ (h 8) s
  tail n s := by
    have := providedTail_eq 8 (genBlock dr V) (ChaCha.Neon.genBlock dr V) (fun b s => genBlock_eq dr V b.toList s) (old n) s
    rw [h] at this
    exact this

theorem stateOf_stateBytes (s : State) : stateOf (stateBytes s) = s := by
  apply Vector.ext
  intro i hi
  have h := congrArg (fun v : Vector U32 16 => v[i]) (leWords_leBytes (k := 16) s)
  refine Eq.trans ?_ h
  have e : ∀ j (hj : j < 64), (stateBytes s).getD j 0 = (leBytes (k := 16) s)[j] := by
    intro j hj
    rw [stateBytes, List.getD_eq_getElem?_getD, Vector.getElem?_toList, Vector.getElem?_eq_getElem hj]
    rfl
  simp only [stateOf, leWords, Vector.getElem_ofFn, wordOf, wordAt]
  rw [e _ (by omega), e _ (by omega), e _ (by omega), e _ (by omega)]

theorem storeCtr_eq (s : State) (d : M128) :
    storeCtr s d = .ok ((((s.set 12 d.x0).set 13 d.x1).set 14 d.x2).set 15 d.x3) := by
  have hb := bytes128_length d
  have hl : (stateBytes s).length = 64 := by simp [stateBytes]
  have key : patch (stateBytes s) 48 (bytes128 d) = stateBytes ((((s.set 12 d.x0).set 13 d.x1).set 14 d.x2).set 15 d.x3) := by
    rw [stateBytes_eq, patch_flatten 16 _ 3 _ (pieces_length _) hb (Nat.le_of_ble_eq_true rfl), stateBytes_eq]
    have e : Rows.load ((((s.set 12 d.x0).set 13 d.x1).set 14 d.x2).set 15 d.x3) = { Rows.load s with d := d } := by
      simp [Rows.load]
    rw [e]
    rfl
  unfold storeCtr Ptr.add Ptr.ofSlice
  dsimp only
  rw [hl, if_pos (by decide), ok_bind]
  unfold Ptr.cast store
  dsimp only
  rw [if_pos (by omega)]
  show Except.ok (stateOf (patch (stateBytes s) 48 (bytes128 d))) = _
  rw [key, stateOf_stateBytes]

theorem inner_eq {α : Type} (dr : Nat) (V : Variant) (old : Nat → List Block) (h : ∀ n, (old n).length = n) (f : Closure 64 α)
    (s : State) : inner dr V old f s = lift (ChaCha.Neon.inner dr V f s) := by
  unfold inner ChaCha.Neon.inner Backend.call
  rw [new_eq, ok_bind, (implements dr V old h).run, lift_bind]
  simp only [storeCtr_eq]
  cases V <;> rfl

/-- The chunks after the stores of one block. -/
def setRows (r : Rows M128) (o : Nat) (L : List Bytes) : List Bytes :=
  (List.finRange 4).foldl (fun L i => L.set (o + i.val) (bytes128 (row r i))) L

theorem storeOne_eq (bl : Vector (Rows M128) 4) (b : Fin 4) (L : List Bytes) (h1 : L.length = 16) (h2 : ∀ c ∈ L, c.length = 16) :
    storeOne bl (⟨64 * b.val, 1, 0, 256⟩, L.flatten) b = .ok (⟨64 * (b.val + 1), 1, 0, 256⟩, (setRows bl[b] (4 * b.val) L).flatten) ∧
      (setRows bl[b] (4 * b.val) L).length = 16 ∧ ∀ c ∈ setRows bl[b] (4 * b.val) L, c.length = 16 := by
  have hb := b.isLt
  obtain ⟨e, l, c⟩ := storeRows (⟨64 * b.val, 1, 0, 256⟩ : Ptr) (fun i => i.val <<< 4) (4 * b.val) 16 bl[b]
      (fun i => by show 64 * b.val + (i.val <<< 4) * 1 = _; rw [Nat.shiftLeft_eq]; omega) (Nat.zero_le _)
      (by show _ ≤ 256; omega) (Nat.le_refl 256) L h1 h2
  refine ⟨?_, l, c⟩
  unfold storeOne
  dsimp only
  rw [e, ok_bind]
  unfold Ptr.add
  rw [if_pos (by dsimp only; omega)]
  rfl

theorem storeMoving_eq (bl : Vector (Rows M128) 4) (m : Bytes) (hm : m.length = 256) :
    storeMoving bl m = .ok (bl.toList.flatMap pieces).flatten := by
  obtain ⟨L, h1, h2, rfl⟩ := exists_chunks 16 16 m hm
  obtain ⟨e0, l0, c0⟩ := storeOne_eq bl 0 L h1 h2
  obtain ⟨e1, l1, c1⟩ := storeOne_eq bl 1 _ l0 c0
  obtain ⟨e2, l2, c2⟩ := storeOne_eq bl 2 _ l1 c1
  obtain ⟨e3, l3, c3⟩ := storeOne_eq bl 3 _ l2 c2
  unfold storeMoving Ptr.ofSlice Ptr.cast
  rw [hm, show List.finRange 4 = [0, 1, 2, 3] from rfl]
  simp only [List.foldlM_cons, List.foldlM_nil]
  replace e0 : storeOne bl (⟨0, 1, 0, 256⟩, L.flatten) 0 = _ := e0
  rw [e0, ok_bind]
  refine (congrArg (fun x => (x >>= _) >>= _) e1).trans ?_
  rw [ok_bind]
  refine (congrArg (fun x => (x >>= _) >>= _) e2).trans ?_
  rw [ok_bind]
  refine (congrArg (fun x => (x >>= _) >>= _) e3).trans ?_
  rw [ok_bind]
  obtain ⟨a, b, c, d, e, f, g, i, j, k, l, m, n, o, p, q, rfl⟩ := list16 L h1
  obtain ⟨⟨rs⟩, hr⟩ := bl
  obtain ⟨r0, r1, r2, r3, rfl⟩ := list4 rs hr
  rfl

theorem rngInner_eq (dr : Nat) (V : Variant) (buffer : Bytes) (hb : buffer.length = 256) (s : State) :
    rngInner dr V buffer s =
      .ok ((leBytes (ChaCha.Neon.rngInner dr V s).1).toList, (ChaCha.Neon.rngInner dr V s).2) := by
  unfold rngInner ChaCha.Neon.rngInner
  rw [new_eq, ok_bind]
  dsimp only
  generalize ChaCha.Neon.new s = g
  generalize ChaCha.Neon.blocks 4 _ dr V g = bl
  rw [storeMoving_eq bl buffer hb, ok_bind, storeCtr_eq, ok_bind, leBytes_quad]
  obtain ⟨⟨rs⟩, hr⟩ := bl
  obtain ⟨r0, r1, r2, r3, rfl⟩ := list4 rs hr
  rfl

end Neon

/-! ## All backends -/

theorem process_eq {α : Type} (dr : Nat) (V : Variant) (e : ChaCha.Env) (f : Closure 64 α) (s : State) :
    process dr V e f s = lift (ChaCha.process dr V e f s) := by
  unfold process ChaCha.process
  cases ChaCha.Config.select e.build e.detected with
  | soft => rfl
  | sse2 => exact Sse2.inner_eq dr V e.old e.old_length f s
  | avx2 => exact Avx2.inner_eq dr V e.old e.old_length f s
  | avx512 => exact Avx512.inner_eq dr V e.old e.old_length f s
  | neon => exact Neon.inner_eq dr V e.old e.old_length f s

theorem generate_eq (dr : Nat) (V : Variant) (e : ChaCha.Env) (buffer : Bytes) (hb : buffer.length = 256) (s : State) :
    generate dr V e buffer s =
      .ok ((leBytes (ChaCha.generate dr V e s).1).toList, (ChaCha.generate dr V e s).2) := by
  unfold generate ChaCha.generate
  cases ChaCha.Config.selectRng e.build e.detected with
  | soft => rfl
  | sse2 => exact Sse2.rngInner_eq dr V buffer hb s
  | avx2 => exact Avx2.rngInner_eq dr buffer hb s
  | avx512 => exact Avx2.rngInner_eq dr buffer hb s
  | neon => exact Neon.rngInner_eq dr V buffer hb s

end Verif.Raw
