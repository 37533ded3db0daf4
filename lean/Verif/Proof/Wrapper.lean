import Verif.Spec.Cursor
import Verif.Spec.Word
/-!
# The wrapper refines the cursor

Generic in the core: any core that, under some relation `Rel s n` ("`s` is about to emit block `n`"), hands its
clients consecutive blocks `ks n, ks (n+1), …` yields a byte-level object that behaves as a cursor over
the concatenation of the blocks.
-/
namespace Verif
open Spec

variable {bs : Nat} {χ : Type}

/-- Reference semantics of a client: consecutive blocks of `ks` starting at block `n`. -/
def Prog.ref {α : Type} (ks : Nat → Vector U8 bs) (par : Nat) : Prog bs α → Nat → Except Panic (α × Nat)
  | .done a, n => .ok (a, n)
  | .block k, n => (k (ks n)).ref ks par (n + 1)
  | .par k, n => (k ((List.range par).map fun i => ks (n + i))).ref ks par (n + par)
  | .tail t k, n =>
    if t < par then (k ((List.range t).map fun i => ks (n + i))).ref ks par (n + t) else .error .assertion

theorem Prog.ref_map {α β : Type} (ks : Nat → Vector U8 bs) (par : Nat) (g : α → β) (p : Prog bs α) (n : Nat) :
    (p.map g).ref ks par n = (p.ref ks par n).map fun (a, n) => (g a, n) := by
  induction p generalizing n with
  | done a => rfl
  | block k ih => exact ih _ _
  | par k ih => exact ih _ _
  | tail t k ih =>
    simp only [Prog.map, Prog.ref]
    split
    · exact ih _ _
    · rfl

theorem Prog.ref_mono {α : Type} (ks : Nat → Vector U8 bs) (par : Nat) (p : Prog bs α) (n n' : Nat) (a : α)
    (h : p.ref ks par n = .ok (a, n')) : n ≤ n' := by
  induction p generalizing n with
  | done b => simp only [Prog.ref, Except.ok.injEq, Prod.mk.injEq] at h; omega
  | block k ih => have := ih _ _ h; omega
  | par k ih => have := ih _ _ h; omega
  | tail t k ih =>
    simp only [Prog.ref] at h
    split at h
    · have := ih _ _ h; omega
    · cases h

/-- What a wrapped core has to satisfy.  `maxBlocks = some M` says that the core supports blocks `0 … M-1`. -/
structure CoreLaw (C : Core bs χ) (usizeBits : Nat) (ks : Nat → Vector U8 bs) (Rel : C.σ → Nat → Prop)
    (maxBlocks : Option Nat) : Prop where
  process : ∀ (x : χ) (s : C.σ) (n : Nat), Rel s n → ∃ par ≥ 1, ∀ (α : Type) (f : Closure bs α) (a : α) (n' : Nat),
    (f par).ref ks par n = .ok (a, n') → Within maxBlocks n' →
    ∃ s', C.process x f s = .ok (a, s') ∧ Rel s' n'
  remaining : ∀ (s : C.σ) (n : Nat), Rel s n → Within maxBlocks n →
    C.remaining s = match maxBlocks with
      | none => none
      | some M => if M - n < 2 ^ usizeBits then some (M - n) else none

/-- What a wrapped seekable core has to satisfy in addition. -/
structure SeekLaw (C : SeekCore bs χ) (usizeBits : Nat) (ks : Nat → Vector U8 bs) (Rel : C.σ → Nat → Prop)
    (M : Nat) : Prop extends CoreLaw C.toCore usizeBits ks Rel (some M) where
  getPos : ∀ s n, Rel s n → n ≤ M → C.getPos s = n
  setPos : ∀ s n m, Rel s n → m ≤ M → Rel (C.setPos s m) m
  ctrMax : M + 1 = 2 ^ C.ctrBits

/-! ### Lists -/

theorem window_length (st : Nat → U8) (p len : Nat) : (window st p len).length = len := by simp [window]

theorem window_add (st : Nat → U8) (p a b : Nat) : window st p (a + b) = window st p a ++ window st (p + a) b := by
  simp [window, List.range_add, Nat.add_assoc]

theorem window_take (st : Nat → U8) (p a len : Nat) (h : a ≤ len) : (window st p len).take a = window st p a := by
  rw [show len = a + (len - a) by omega, window_add, List.take_left' (window_length _ _ _)]

theorem xorBytes_append (a b c d : List U8) (h : a.length = c.length) :
    xorBytes (a ++ b) (c ++ d) = xorBytes a c ++ xorBytes b d :=
  List.zipWith_append h

/-- Block `n` is a window of the stream. -/
theorem block_window (ks : Nat → Vector U8 bs) (hbs : 0 < bs) (n : Nat) :
    (ks n).toList = window (byteStream ks hbs) (bs * n) bs := by
  apply List.ext_getElem
  · simp [window]
  · intro i h1 h2
    have hi : i < bs := by simpa using h1
    have hd : (bs * n + i) / bs = n := by
      rw [Nat.mul_add_div hbs, Nat.div_eq_of_lt hi, Nat.add_zero]
    have hm : (bs * n + i) % bs = i := by
      rw [Nat.mul_add_mod, Nat.mod_eq_of_lt hi]
    simp only [window, List.getElem_map, List.getElem_range, byteStream, Vector.getElem_toList, hd, hm]

theorem blocks_window (ks : Nat → Vector U8 bs) (hbs : 0 < bs) (n k : Nat) :
    ((List.range k).map fun i => (ks (n + i)).toList).flatten = window (byteStream ks hbs) (bs * n) (bs * k) := by
  induction k with
  | zero => simp [window]
  | succ k ih =>
    rw [List.range_succ, List.map_append, List.flatten_append, ih, Nat.mul_succ, window_add]
    simp only [List.map_cons, List.map_nil, List.flatten_cons, List.flatten_nil, List.append_nil]
    rw [block_window ks hbs, Nat.mul_add]

theorem chunksOf_length (k : Nat) (l : List U8) : (chunksOf bs k l).length = k := by simp [chunksOf]

theorem chunksOf_succ (k : Nat) (l : List U8) :
    chunksOf bs (k + 1) l = l.take bs :: chunksOf bs k (l.drop bs) := by
  simp only [chunksOf, List.range_succ_eq_map, List.map_cons, List.map_map]
  congr 1
  · simp
  · apply List.map_congr_left
    intro i _
    simp [Nat.succ_mul, List.drop_drop, Nat.add_comm]

/-- XOR chunk by chunk is XOR of the concatenations. -/
theorem flatten_chunks_xor (k : Nat) (l : List U8) (g : Nat → List U8) (hg : ∀ i, (g i).length = bs)
    (hl : k * bs ≤ l.length) :
    (List.zipWith (fun d (c : List U8) => xorBytes d c) (chunksOf bs k l) ((List.range k).map g)).flatten =
      xorBytes (l.take (k * bs)) (((List.range k).map g).flatten) := by
  induction k generalizing l g with
  | zero => simp [chunksOf, xorBytes]
  | succ k ih =>
    rw [chunksOf_succ, List.range_succ_eq_map]
    simp only [List.map_cons, List.map_map, List.zipWith_cons_cons, List.flatten_cons]
    have hlen : k * bs ≤ (l.drop bs).length := by
      rw [List.length_drop]; rw [Nat.succ_mul] at hl; omega
    have := ih (l.drop bs) (g ∘ Nat.succ) (fun i => hg _) hlen
    rw [this, Nat.succ_mul, Nat.add_comm (k * bs) bs, List.take_add, xorBytes_append]
    simp only [List.length_take, hg]
    rw [Nat.succ_mul] at hl
    omega

/-! ### The closures, against the reference semantics -/

/-- The blocks `n .. n+k-1`. -/
abbrev blocksFrom (ks : Nat → Vector U8 bs) (n k : Nat) : List (Vector U8 bs) := (List.range k).map fun i => ks (n + i)

theorem blocksFrom_add (ks : Nat → Vector U8 bs) (n a b : Nat) :
    blocksFrom ks n (a + b) = blocksFrom ks n a ++ blocksFrom ks (n + a) b := by
  simp [blocksFrom, List.range_add, Nat.add_assoc]

theorem applySingles_ref (ks : Nat → Vector U8 bs) (par : Nat) (data : List (List U8)) (n : Nat) :
    (applySingles (bs := bs) data).ref ks par n =
      .ok (List.zipWith (fun d k => xorBytes d k.toList) data (blocksFrom ks n data.length), n + data.length) := by
  induction data generalizing n with
  | nil => rfl
  | cons d data ih =>
    simp only [applySingles, Prog.ref, Prog.ref_map, ih, Except.map, List.length_cons]
    rw [Nat.add_comm data.length 1, blocksFrom_add]
    have : blocksFrom ks n 1 = [ks n] := by simp [blocksFrom]
    rw [this]
    simp only [Nat.add_assoc, List.singleton_append, List.zipWith_cons_cons]

theorem applyChunks_ref (ks : Nat → Vector U8 bs) (par : Nat) (m : Nat) (data : List (List U8)) (n : Nat)
    (h1 : m * par ≤ data.length) (h2 : data.length < m * par + par) :
    (applyChunks (bs := bs) par m data).ref ks par n =
      .ok (List.zipWith (fun d k => xorBytes d k.toList) data (blocksFrom ks n data.length), n + data.length) := by
  induction m generalizing n data with
  | zero =>
    simp only [applyChunks, Prog.ref]
    rw [if_pos (by omega)]
  | succ m ih =>
    rw [Nat.succ_mul] at h1 h2
    simp only [applyChunks, Prog.ref, Prog.ref_map]
    have hl : (data.drop par).length = data.length - par := by simp
    rw [ih (data.drop par) (n + par) (by omega) (by omega)]
    simp only [Except.map, hl]
    congr 2
    · conv => rhs; rw [← List.take_append_drop par data]
      have e : (List.take par data ++ List.drop par data).length = par + (data.length - par) := by
        simp; omega
      rw [e, blocksFrom_add, List.zipWith_append]
      simp; omega
    · omega

theorem applyBlocks_ref (ks : Nat → Vector U8 bs) (par : Nat) (hpar : 1 ≤ par) (data : List (List U8)) (n : Nat) :
    (applyBlocksClosure (bs := bs) data par).ref ks par n =
      .ok (List.zipWith (fun d k => xorBytes d k.toList) data (blocksFrom ks n data.length), n + data.length) := by
  unfold applyBlocksClosure
  split
  · have h := Nat.div_add_mod data.length par
    have h' := Nat.mod_lt data.length hpar
    rw [Nat.mul_comm] at h
    exact applyChunks_ref ks par _ data n (by omega) (by omega)
  · exact applySingles_ref ks par data n

theorem writeSingles_ref (ks : Nat → Vector U8 bs) (par : Nat) (len : Nat) (n : Nat) :
    (writeSingles (bs := bs) len).ref ks par n = .ok ((blocksFrom ks n len).map (·.toList), n + len) := by
  induction len generalizing n with
  | zero => rfl
  | succ len ih =>
    simp only [writeSingles, Prog.ref, Prog.ref_map, ih, Except.map]
    rw [Nat.add_comm len 1, blocksFrom_add]
    simp [Nat.add_assoc]

theorem writeChunks_ref (ks : Nat → Vector U8 bs) (par : Nat) (m len : Nat) (n : Nat)
    (h1 : m * par ≤ len) (h2 : len < m * par + par) :
    (writeChunks (bs := bs) par m len).ref ks par n = .ok ((blocksFrom ks n len).map (·.toList), n + len) := by
  induction m generalizing n len with
  | zero =>
    simp only [writeChunks, Prog.ref]
    rw [if_pos (by omega)]
  | succ m ih =>
    rw [Nat.succ_mul] at h1 h2
    simp only [writeChunks, Prog.ref, Prog.ref_map]
    rw [ih (len - par) (n + par) (by omega) (by omega)]
    simp only [Except.map]
    have e : len = par + (len - par) := by omega
    congr 2
    · conv => rhs; rw [e, blocksFrom_add, List.map_append]
    · omega

theorem writeBlocks_ref (ks : Nat → Vector U8 bs) (par : Nat) (hpar : 1 ≤ par) (len : Nat) (n : Nat) :
    (writeBlocksClosure (bs := bs) len par).ref ks par n = .ok ((blocksFrom ks n len).map (·.toList), n + len) := by
  unfold writeBlocksClosure
  split
  · have h := Nat.div_add_mod len par
    have h' := Nat.mod_lt len hpar
    rw [Nat.mul_comm] at h
    exact writeChunks_ref ks par _ len n (by omega) (by omega)
  · exact writeSingles_ref ks par len n

/-! ### The wrapper -/

/-- `w` is at byte position `p` of the stream of `ks`: the core is about to emit block `n`, and the buffer holds
the unread rest of block `n - 1`. -/
structure At (ks : Nat → Vector U8 bs) (hbs : 0 < bs) {σ : Type} (Rel : σ → Nat → Prop) (maxBlocks : Option Nat)
    (w : Wrapper bs σ) (p : Nat) : Prop where
  ex : ∃ n, Rel w.core n ∧ p + (bs - w.pos) = bs * n ∧ Within maxBlocks n
  pos_le : w.pos ≤ bs
  pos_pos : 0 < w.pos
  buf : (w.buf.toList.drop w.pos) = window (byteStream ks hbs) p (bs - w.pos)

/-- Number of bytes available when `maxBlocks` blocks are. -/
def byteLimit (bs : Nat) (maxBlocks : Option Nat) : Option Nat := maxBlocks.map (bs * ·)

theorem within_byteLimit (hbs : 0 < bs) (mb : Option Nat) (n : Nat) :
    Within (byteLimit bs mb) (bs * n) ↔ Within mb n := by
  cases mb with
  | none => simp [Within, byteLimit]
  | some M => simp [Within, byteLimit, Nat.mul_le_mul_left_iff hbs]

theorem Spec.Within.mono {l : Option Nat} {a b : Nat} (h : Within l b) (hab : a ≤ b) : Within l a :=
  fun L e => Nat.le_trans hab (h L e)

variable {C : Core bs χ} {u : Nat} {ks : Nat → Vector U8 bs} {Rel : C.σ → Nat → Prop} {mb : Option Nat}

theorem CoreLaw.applyBlocks (law : CoreLaw C u ks Rel mb) (hbs : 0 < bs) (x : χ) (s : C.σ) (n : Nat) (hr : Rel s n)
    (k : Nat) (l : List U8) (hl : k * bs ≤ l.length) (hw : Within mb (n + k)) :
    ∃ s' mid, C.process x (applyBlocksClosure (chunksOf bs k l)) s = .ok (mid, s') ∧ Rel s' (n + k) ∧
      mid.flatten = xorBytes (l.take (k * bs)) (window (byteStream ks hbs) (bs * n) (bs * k)) := by
  obtain ⟨par, hpar, h⟩ := law.process x s n hr
  have href := applyBlocks_ref ks par hpar (chunksOf bs k l) n
  rw [chunksOf_length] at href
  obtain ⟨s', hs', hr'⟩ := h _ _ _ _ href hw
  refine ⟨s', _, hs', hr', ?_⟩
  have := flatten_chunks_xor (bs := bs) k l (fun i => (ks (n + i)).toList) (by simp) hl
  rw [← blocks_window ks hbs, ← this]
  congr 1
  simp only [blocksFrom, List.zipWith_map_right]

theorem CoreLaw.writeBlocks (law : CoreLaw C u ks Rel mb) (hbs : 0 < bs) (x : χ) (s : C.σ) (n : Nat) (hr : Rel s n)
    (k : Nat) (hw : Within mb (n + k)) :
    ∃ s' mid, C.process x (writeBlocksClosure k) s = .ok (mid, s') ∧ Rel s' (n + k) ∧
      mid.flatten = window (byteStream ks hbs) (bs * n) (bs * k) := by
  obtain ⟨par, hpar, h⟩ := law.process x s n hr
  have href := writeBlocks_ref ks par hpar k n
  obtain ⟨s', hs', hr'⟩ := h _ _ _ _ href hw
  refine ⟨s', _, hs', hr', ?_⟩
  rw [← blocks_window ks hbs]
  congr 1
  simp only [blocksFrom, List.map_map]
  rfl

theorem CoreLaw.writeBlock (law : CoreLaw C u ks Rel mb) (x : χ) (s : C.σ) (n : Nat) (hr : Rel s n)
    (hw : Within mb (n + 1)) :
    ∃ s', C.process x (writeBlockClosure bs) s = .ok (ks n, s') ∧ Rel s' (n + 1) := by
  obtain ⟨par, hpar, h⟩ := law.process x s n hr
  exact h _ _ _ _ rfl hw

theorem window_drop (st : Nat → U8) (p a len : Nat) : (window st p len).drop a = window st (p + a) (len - a) := by
  by_cases h : a ≤ len
  · conv => lhs; rw [show len = a + (len - a) by omega, window_add]
    rw [List.drop_left' (window_length _ _ _)]
  · have : len - a = 0 := by omega
    rw [this, List.drop_eq_nil_of_le (by simp [window_length]; omega)]
    rfl

/-- Arithmetic of the split of a request into buffered head, whole blocks, and tail. -/
theorem split_arith (bs p r n len : Nat) (h : p + r = bs * n) (hlen : r ≤ len) :
    p + len = bs * (n + (len - r) / bs) + (len - r) % bs := by
  have := Nat.div_add_mod (len - r) bs
  rw [Nat.mul_add]
  omega

theorem Spec.Within.of_bytes (hbs : 0 < bs) {q n : Nat} (h : Within (byteLimit bs mb) q) (hn : bs * n ≤ q) : Within mb n :=
  (within_byteLimit hbs mb n).1 (h.mono hn)

theorem Spec.Within.of_bytes_lt {q n : Nat} (h : Within (byteLimit bs mb) q) (hn : bs * n < q) :
    Within mb (n + 1) := by
  intro M hM
  have := h (bs * M) (by simp [byteLimit, hM])
  have h2 : bs * n < bs * M := by omega
  exact Nat.lt_of_mul_lt_mul_left h2

theorem uncheckedApply_spec (law : CoreLaw C u ks Rel mb) (hbs : 0 < bs) (x : χ) (w : Wrapper bs C.σ) (p : Nat)
    (hat : At ks hbs Rel mb w p) (data : List U8) (hlim : Within (byteLimit bs mb) (p + data.length)) :
    ∃ w', w.uncheckedApply C x data =
        .ok (xorBytes data (window (byteStream ks hbs) p data.length), w') ∧
      At ks hbs Rel mb w' (p + data.length) := by
  obtain ⟨⟨n, hrel, hp, hwn⟩, hple, hppos, hbuf⟩ := hat
  by_cases hcase : bs - w.pos ≤ data.length
  · -- the buffer is used up
    have hmin : min (bs - w.pos) data.length = bs - w.pos := by omega
    have hsplit := split_arith bs p (bs - w.pos) n data.length hp hcase
    have hdm := Nat.div_add_mod (data.length - (bs - w.pos)) bs
    have hmlt := Nat.mod_lt (data.length - (bs - w.pos)) hbs
    generalize hk : (data.length - (bs - w.pos)) / bs = k at *
    generalize ht : (data.length - (bs - w.pos)) % bs = t at *
    have hrestlen : (data.drop (bs - w.pos)).length = data.length - (bs - w.pos) := by simp
    have hkb : k * bs = bs * k := Nat.mul_comm _ _
    obtain ⟨s1, mid, hs1, hr1, hmid⟩ := law.applyBlocks hbs x w.core n hrel k (data.drop (bs - w.pos))
      (by omega) (hlim.of_bytes hbs (by omega))
    have hhead : xorBytes (data.take (bs - w.pos)) ((w.buf.toList.drop w.pos).take (bs - w.pos)) =
        xorBytes (data.take (bs - w.pos)) (window (byteStream ks hbs) p (bs - w.pos)) := by
      rw [hbuf, window_take _ _ _ _ (Nat.le_refl _)]
    have hjoin : ∀ m, m = t →
        xorBytes data (window (byteStream ks hbs) p data.length) =
        xorBytes (data.take (bs - w.pos)) (window (byteStream ks hbs) p (bs - w.pos)) ++
        xorBytes ((data.drop (bs - w.pos)).take (k * bs)) (window (byteStream ks hbs) (bs * n) (bs * k)) ++
        xorBytes ((data.drop (bs - w.pos)).drop (k * bs)) (window (byteStream ks hbs) (bs * (n + k)) m) := by
      intro m hm
      conv => lhs; rw [show data.length = (bs - w.pos) + (bs * k + m) by omega]
      conv =>
        lhs; arg 1
        rw [← List.take_append_drop (bs - w.pos) data,
          ← List.take_append_drop (k * bs) (data.drop (bs - w.pos))]
      rw [window_add, window_add, hp, ← Nat.mul_add, xorBytes_append, xorBytes_append, List.append_assoc]
      · simp [window_length]; omega
      · simp [window_length]; omega
    have htail : ((data.drop (bs - w.pos)).drop (k * bs)).length = t := by simp; omega
    by_cases ht0 : t = 0
    · refine ⟨⟨s1, w.buf, w.pos + (bs - w.pos)⟩, ?_, ?_⟩
      · simp only [Wrapper.uncheckedApply, hmin, hrestlen, hk, hs1, bind, Except.bind, htail, ht0, if_true, pure, Except.pure]
        rw [hhead, hmid, hjoin 0 ht0.symm]
        simp [window, xorBytes]
      · have hfull : w.pos + (bs - w.pos) = bs := by omega
        refine ⟨⟨n + k, hr1, ?_, hlim.of_bytes hbs (by omega)⟩, ?_, ?_, ?_⟩
        · show _ + (bs - (w.pos + (bs - w.pos))) = _
          omega
        · show w.pos + (bs - w.pos) ≤ bs
          omega
        · show 0 < w.pos + (bs - w.pos)
          omega
        · show w.buf.toList.drop (w.pos + (bs - w.pos)) = window _ _ (bs - (w.pos + (bs - w.pos)))
          rw [hfull, Nat.sub_self]
          simp [window]
    · obtain ⟨s2, hs2, hr2⟩ := law.writeBlock x s1 (n + k) hr1 (hlim.of_bytes_lt (by omega))
      refine ⟨⟨s2, ks (n + k), t⟩, ?_, ?_⟩
      · simp only [Wrapper.uncheckedApply, hmin, hrestlen, hk, hs1, hs2, bind, Except.bind, htail, ht0, if_false, pure, Except.pure]
        rw [hhead, hmid, hjoin t rfl, block_window ks hbs, window_take _ _ _ _ (by omega)]
      · refine ⟨⟨n + k + 1, hr2, ?_, hlim.of_bytes_lt (by omega)⟩, ?_, ?_, ?_⟩
        · show _ + (bs - t) = _
          rw [Nat.mul_succ]; omega
        · show t ≤ bs
          omega
        · show 0 < t
          omega
        · show (ks (n + k)).toList.drop t = window _ _ (bs - t)
          rw [block_window ks hbs, window_drop, hsplit]
  · -- the request fits in the buffer
    have hmin : min (bs - w.pos) data.length = data.length := by omega
    obtain ⟨s1, mid, hs1, hr1, hmid⟩ := law.applyBlocks hbs x w.core n hrel 0 (data.drop data.length)
      (by simp) hwn
    refine ⟨⟨s1, w.buf, w.pos + data.length⟩, ?_, ?_⟩
    · have hz : (List.drop data.length data).length / bs = 0 := by simp
      simp only [Wrapper.uncheckedApply, hmin, hz, hs1, bind, Except.bind, pure, Except.pure]
      have hz2 : (List.drop (0 * bs) (List.drop data.length data)).length = 0 := by simp
      rw [if_pos hz2, hmid, hbuf, window_take _ _ _ _ (by omega)]
      simp [window, xorBytes]
    · refine ⟨⟨n, hr1, ?_, hwn⟩, ?_, ?_, ?_⟩
      · show _ + (bs - (w.pos + data.length)) = _
        omega
      · show w.pos + data.length ≤ bs
        omega
      · show 0 < w.pos + data.length
        omega
      · show w.buf.toList.drop (w.pos + data.length) = window _ _ (bs - (w.pos + data.length))
        rw [← List.drop_drop, hbuf, window_drop]
        congr 1
        omega

theorem uncheckedWrite_spec (law : CoreLaw C u ks Rel mb) (hbs : 0 < bs) (x : χ) (w : Wrapper bs C.σ) (p : Nat)
    (hat : At ks hbs Rel mb w p) (len : Nat) (hlim : Within (byteLimit bs mb) (p + len)) :
    ∃ w', w.uncheckedWrite C x len = .ok (window (byteStream ks hbs) p len, w') ∧
      At ks hbs Rel mb w' (p + len) := by
  obtain ⟨⟨n, hrel, hp, hwn⟩, hple, hppos, hbuf⟩ := hat
  by_cases hcase : bs - w.pos ≤ len
  · -- the buffer is used up
    have hmin : min (bs - w.pos) len = bs - w.pos := by omega
    have hsplit := split_arith bs p (bs - w.pos) n len hp hcase
    have hdm := Nat.div_add_mod (len - (bs - w.pos)) bs
    have hmlt := Nat.mod_lt (len - (bs - w.pos)) hbs
    generalize hk : (len - (bs - w.pos)) / bs = k at *
    generalize ht : (len - (bs - w.pos)) % bs = t at *
    have hkb : k * bs = bs * k := Nat.mul_comm _ _
    obtain ⟨s1, mid, hs1, hr1, hmid⟩ := law.writeBlocks hbs x w.core n hrel k (hlim.of_bytes hbs (by omega))
    have hhead : (w.buf.toList.drop w.pos).take (bs - w.pos) = window (byteStream ks hbs) p (bs - w.pos) := by
      rw [hbuf, window_take _ _ _ _ (Nat.le_refl _)]
    have hjoin : ∀ m, m = t →
        window (byteStream ks hbs) p len =
        window (byteStream ks hbs) p (bs - w.pos) ++ window (byteStream ks hbs) (bs * n) (bs * k) ++
        window (byteStream ks hbs) (bs * (n + k)) m := by
      intro m hm
      rw [show len = (bs - w.pos) + (bs * k + m) by omega,
        window_add, window_add, hp, ← Nat.mul_add, List.append_assoc]
    have htail : len - (bs - w.pos) - k * bs = t := by omega
    by_cases ht0 : t = 0
    · refine ⟨⟨s1, w.buf, w.pos + (bs - w.pos)⟩, ?_, ?_⟩
      · simp only [Wrapper.uncheckedWrite, hmin, hk, hs1, bind, Except.bind, htail, ht0, if_true, pure, Except.pure]
        rw [hhead, hmid, hjoin 0 ht0.symm]
        simp [window]
      · have hfull : w.pos + (bs - w.pos) = bs := by omega
        refine ⟨⟨n + k, hr1, ?_, hlim.of_bytes hbs (by omega)⟩, ?_, ?_, ?_⟩
        · show _ + (bs - (w.pos + (bs - w.pos))) = _
          omega
        · show w.pos + (bs - w.pos) ≤ bs
          omega
        · show 0 < w.pos + (bs - w.pos)
          omega
        · show w.buf.toList.drop (w.pos + (bs - w.pos)) = window _ _ (bs - (w.pos + (bs - w.pos)))
          rw [hfull, Nat.sub_self]
          simp [window]
    · obtain ⟨s2, hs2, hr2⟩ := law.writeBlock x s1 (n + k) hr1 (hlim.of_bytes_lt (by omega))
      refine ⟨⟨s2, ks (n + k), t⟩, ?_, ?_⟩
      · simp only [Wrapper.uncheckedWrite, hmin, hk, hs1, hs2, bind, Except.bind, htail, ht0, if_false, pure, Except.pure]
        rw [hhead, hmid, hjoin t rfl, block_window ks hbs, window_take _ _ _ _ (by omega)]
      · refine ⟨⟨n + k + 1, hr2, ?_, hlim.of_bytes_lt (by omega)⟩, ?_, ?_, ?_⟩
        · show _ + (bs - t) = _
          rw [Nat.mul_succ]; omega
        · show t ≤ bs
          omega
        · show 0 < t
          omega
        · show (ks (n + k)).toList.drop t = window _ _ (bs - t)
          rw [block_window ks hbs, window_drop, hsplit]
  · -- the request fits in the buffer
    have hmin : min (bs - w.pos) len = len := by omega
    obtain ⟨s1, mid, hs1, hr1, hmid⟩ := law.writeBlocks hbs x w.core n hrel 0 hwn
    refine ⟨⟨s1, w.buf, w.pos + len⟩, ?_, ?_⟩
    · have hz : (len - len) / bs = 0 := by simp
      simp only [Wrapper.uncheckedWrite, hmin, hz, hs1, bind, Except.bind, pure, Except.pure]
      have hz2 : len - len - 0 * bs = 0 := by simp
      rw [if_pos hz2, hmid, hbuf, window_take _ _ _ _ (by omega)]
      simp [window]
    · refine ⟨⟨n, hr1, ?_, hwn⟩, ?_, ?_, ?_⟩
      · show _ + (bs - (w.pos + len)) = _
        omega
      · show w.pos + len ≤ bs
        omega
      · show 0 < w.pos + len
        omega
      · show w.buf.toList.drop (w.pos + len) = window _ _ (bs - (w.pos + len))
        rw [← List.drop_drop, hbuf, window_drop]
        congr 1
        omega

/-! ### The limit check -/

theorem ceil_le_iff (hbs : 0 < bs) (d r : Nat) : (d + bs - 1) / bs ≤ r ↔ d ≤ bs * r := by
  have h := Nat.div_add_mod (d + bs - 1) bs
  have hm := Nat.mod_lt (d + bs - 1) hbs
  generalize (d + bs - 1) / bs = q at *
  generalize (d + bs - 1) % bs = m at *
  constructor
  · intro hq
    have := Nat.mul_le_mul_left bs hq
    omega
  · intro hd
    rcases Nat.lt_or_ge r q with hlt | hge
    · have := Nat.mul_le_mul_left bs (Nat.succ_le_of_lt hlt)
      rw [Nat.succ_eq_add_one, Nat.mul_add] at this
      omega
    · exact hge

/-- The check accepts exactly the requests that stay within the stream, on every pointer width. -/
theorem checkRemaining_spec (law : CoreLaw C u ks Rel mb) (hbs : 0 < bs) (w : Wrapper bs C.σ) (p : Nat)
    (hat : At ks hbs Rel mb w p) (len : Nat) (hlen : len < 2 ^ u) :
    w.checkRemaining C len =
      if Within (byteLimit bs mb) (p + len) then .ok () else .error .streamCipherError := by
  obtain ⟨⟨n, hrel, hp, hwn⟩, hple, hppos, hbuf⟩ := hat
  have hrem := law.remaining _ _ hrel hwn
  unfold Wrapper.checkRemaining
  cases mb with
  | none =>
    simp only [hrem]
    rw [if_pos (by intro L h; cases h)]
  | some M =>
    have hnM : n ≤ M := hwn M rfl
    have hiff : Within (byteLimit bs (some M)) (p + len) ↔ p + len ≤ bs * M := by
      simp [Within, byteLimit]
    have hmul : bs * M = bs * n + bs * (M - n) := by
      rw [← Nat.mul_add]; congr 1; omega
    simp only [hrem, hiff]
    by_cases hfit : M - n < 2 ^ u
    · simp only [hfit, if_true]
      by_cases hl : len < bs - w.pos
      · rw [if_pos hl, if_pos (by omega)]
      · rw [if_neg hl]
        have := ceil_le_iff hbs (len - (bs - w.pos)) (M - n)
        by_cases hc : len - (bs - w.pos) ≤ bs * (M - n)
        · rw [if_neg (by omega), if_pos (by omega)]
        · rw [if_pos (by omega), if_neg (by omega)]
    · simp only [hfit, if_false]
      rw [if_pos]
      have : bs * (M - n) ≥ 1 * (M - n) := Nat.mul_le_mul_right _ hbs
      omega

/-! ### Steps -/

theorem tryApply_spec (law : CoreLaw C u ks Rel mb) (hbs : 0 < bs) (x : χ) (w : Wrapper bs C.σ) (p : Nat)
    (hat : At ks hbs Rel mb w p) (data : List U8) (hlen : data.length < 2 ^ u) :
    if Within (byteLimit bs mb) (p + data.length) then
      ∃ w', w.tryApply C x data =
        .ok (.ok (), xorBytes data (window (byteStream ks hbs) p data.length), w') ∧
        At ks hbs Rel mb w' (p + data.length)
    else w.tryApply C x data = .ok (.error .streamCipherError, data, w) := by
  have hc := checkRemaining_spec law hbs w p hat data.length hlen
  split
  · rename_i hw
    rw [if_pos hw] at hc
    obtain ⟨w', h1, h2⟩ := uncheckedApply_spec law hbs x w p hat data hw
    refine ⟨w', ?_, h2⟩
    simp only [Wrapper.tryApply, hc, h1, bind, Except.bind, pure, Except.pure]
  · rename_i hw
    rw [if_neg hw] at hc
    simp only [Wrapper.tryApply, hc]

theorem tryWrite_spec (law : CoreLaw C u ks Rel mb) (hbs : 0 < bs) (x : χ) (w : Wrapper bs C.σ) (p : Nat)
    (hat : At ks hbs Rel mb w p) (buf : List U8) (hlen : buf.length < 2 ^ u) :
    if Within (byteLimit bs mb) (p + buf.length) then
      ∃ w', w.tryWrite C x buf = .ok (.ok (), window (byteStream ks hbs) p buf.length, w') ∧
        At ks hbs Rel mb w' (p + buf.length)
    else w.tryWrite C x buf = .ok (.error .streamCipherError, buf, w) := by
  have hc := checkRemaining_spec law hbs w p hat buf.length hlen
  split
  · rename_i hw
    rw [if_pos hw] at hc
    obtain ⟨w', h1, h2⟩ := uncheckedWrite_spec law hbs x w p hat buf.length hw
    refine ⟨w', ?_, h2⟩
    simp only [Wrapper.tryWrite, hc, h1, bind, Except.bind, pure, Except.pure]
  · rename_i hw
    rw [if_neg hw] at hc
    simp only [Wrapper.tryWrite, hc]

theorem step_spec (law : CoreLaw C u ks Rel mb) (hbs : 0 < bs) (x : χ) (w : Wrapper bs C.σ) (p : Nat)
    (hat : At ks hbs Rel mb w p) (op : Op) (hop : FitsUsize u op) :
    ∃ w', w.step C x op = .ok ((Cursor.io (byteStream ks hbs) (byteLimit bs mb) p op).1, w') ∧
      At ks hbs Rel mb w' (Cursor.io (byteStream ks hbs) (byteLimit bs mb) p op).2 := by
  cases op with
  | apply data =>
    have h := tryApply_spec law hbs x w p hat data hop
    simp only [Wrapper.step, Cursor.io]
    split at h
    · rename_i hw
      obtain ⟨w', h1, h2⟩ := h
      exact ⟨w', by simp only [h1, if_pos hw, bind, Except.bind, pure, Except.pure, xorBytes], by rw [if_pos hw]; exact h2⟩
    · rename_i hw
      exact ⟨w, by simp only [h, if_neg hw, bind, Except.bind, pure, Except.pure], by rw [if_neg hw]; exact hat⟩
  | write buf =>
    have h := tryWrite_spec law hbs x w p hat buf hop
    simp only [Wrapper.step, Cursor.io]
    split at h
    · rename_i hw
      obtain ⟨w', h1, h2⟩ := h
      exact ⟨w', by simp only [h1, if_pos hw, bind, Except.bind, pure, Except.pure], by rw [if_pos hw]; exact h2⟩
    · rename_i hw
      exact ⟨w, by simp only [h, if_neg hw, bind, Except.bind, pure, Except.pure], by rw [if_neg hw]; exact hat⟩

/-- **Refinement, byte level.** Any history of reads and encryptions gives the observations of the cursor. -/
theorem history_spec (law : CoreLaw C u ks Rel mb) (hbs : 0 < bs) (h : List (χ × Op)) (w : Wrapper bs C.σ) (p : Nat)
    (hat : At ks hbs Rel mb w p) (hh : ∀ op ∈ h, FitsUsize u op.2) :
    ∃ w', runHistory (fun x w op => Wrapper.step C x w op) h w =
        .ok ((Cursor.run (Cursor.io (byteStream ks hbs) (byteLimit bs mb)) (h.map (·.2)) p).1, w') ∧
      At ks hbs Rel mb w' (Cursor.run (Cursor.io (byteStream ks hbs) (byteLimit bs mb)) (h.map (·.2)) p).2 := by
  induction h generalizing w p with
  | nil => exact ⟨w, rfl, hat⟩
  | cons e h ih =>
    obtain ⟨x, op⟩ := e
    obtain ⟨w1, h1, hat1⟩ := step_spec law hbs x w p hat op (hh (x, op) (by simp))
    obtain ⟨w2, h2, hat2⟩ := ih w1 _ hat1 (fun o ho => hh o (by simp [ho]))
    refine ⟨w2, ?_, hat2⟩
    simp only [runHistory, h1, h2, bind, Except.bind, pure, Except.pure, List.map_cons, Cursor.run]

/-! ### Seeking -/

variable {S : SeekCore bs χ} {RelS : S.σ → Nat → Prop} {M : Nat}

theorem trySeek_of_rel (law : SeekLaw S u ks RelS M) (hbs : 0 < bs) (x : χ) (w : Wrapper bs S.σ) (n : Nat)
    (hrel : RelS w.core n) (q : Nat) (hq : q ≤ bs * M) :
    ∃ w', w.trySeek S x q = .ok (.ok (), w') ∧ At ks hbs RelS (some M) w' q := by
  have hdm := Nat.div_add_mod q bs
  have hml := Nat.mod_lt q hbs
  have hblock : q / bs ≤ M := by
    rw [Nat.div_le_iff_le_mul_add_pred hbs]; omega
  have hctr := law.ctrMax
  have hset := law.setPos w.core n (q / bs) hrel hblock
  unfold Wrapper.trySeek
  rw [if_neg (by omega)]
  by_cases h0 : q % bs = 0
  · rw [if_pos h0]
    refine ⟨_, rfl, ⟨q / bs, hset, ?_, ?_⟩, ?_, ?_, ?_⟩
    · show q + (bs - bs) = _
      omega
    · intro M' e; cases e; exact hblock
    · exact Nat.le_refl _
    · exact hbs
    · show w.buf.toList.drop bs = window _ _ (bs - bs)
      rw [Nat.sub_self]; simp [window]
  · rw [if_neg h0]
    have hlt : q / bs + 1 ≤ M := by
      have h2 : bs * (q / bs) < bs * M := by omega
      exact Nat.lt_of_mul_lt_mul_left h2
    obtain ⟨s2, hs2, hr2⟩ := law.toCoreLaw.writeBlock x _ (q / bs) hset (by intro M' e; cases e; exact hlt)
    refine ⟨⟨s2, ks (q / bs), q % bs⟩, ?_, ⟨q / bs + 1, hr2, ?_, ?_⟩, ?_, ?_, ?_⟩
    · simp only [hs2, bind, Except.bind, pure, Except.pure]
    · show q + (bs - q % bs) = _
      rw [Nat.mul_succ]; omega
    · intro M' e; cases e; exact hlt
    · show q % bs ≤ bs
      omega
    · show 0 < q % bs
      omega
    · show (ks (q / bs)).toList.drop (q % bs) = window _ _ (bs - q % bs)
      rw [block_window ks hbs, window_drop, hdm]

theorem trySeek_spec (law : SeekLaw S u ks RelS M) (hbs : 0 < bs) (x : χ) (w : Wrapper bs S.σ) (p : Nat)
    (hat : At ks hbs RelS (some M) w p) (q : Nat) (hq : q ≤ bs * M) :
    ∃ w', w.trySeek S x q = .ok (.ok (), w') ∧ At ks hbs RelS (some M) w' q := by
  obtain ⟨⟨n, hrel, -, -⟩, -, -, -⟩ := hat
  exact trySeek_of_rel law hbs x w n hrel q hq

theorem trySeek_overflow (law : SeekLaw S u ks RelS M) (hbs : 0 < bs) (x : χ) (w : Wrapper bs S.σ) (q : Nat)
    (hq : bs * (M + 1) ≤ q) : w.trySeek S x q = .ok (.error .overflowError, w) := by
  have hctr := law.ctrMax
  unfold Wrapper.trySeek
  rw [if_pos]
  rw [← hctr]
  exact (Nat.le_div_iff_mul_le hbs).2 (by rw [Nat.mul_comm]; exact hq)

theorem tryCurrentPos_spec (law : SeekLaw S u ks RelS M) (hbs : 0 < bs) (w : Wrapper bs S.σ) (p : Nat)
    (hat : At ks hbs RelS (some M) w p) (snMax : Nat) :
    w.tryCurrentPos S snMax =
      if (p + bs - 1) / bs * bs ≤ snMax then .ok p else .error .overflowError := by
  obtain ⟨⟨n, hrel, hp, hwn⟩, hple, hppos, hbuf⟩ := hat
  have hg := law.getPos w.core n hrel (hwn M rfl)
  have hn : (p + bs - 1) / bs = n := by
    rw [show p + bs - 1 = bs * n + (w.pos - 1) by omega, Nat.mul_add_div hbs, Nat.div_eq_of_lt (by omega)]
    omega
  have hcomm : n * bs = bs * n := Nat.mul_comm _ _
  have hge : n ≤ n * bs := Nat.le_mul_of_pos_right _ hbs
  simp only [Wrapper.tryCurrentPos, hg, hn]
  by_cases hb : n * bs ≤ snMax
  · rw [if_neg (by omega), if_neg (by omega), if_neg (by omega), if_pos hb]
    congr 1
    omega
  · by_cases hb2 : n > snMax
    · rw [if_pos hb2, if_neg hb]
    · rw [if_neg hb2, if_pos (by omega), if_neg hb]

theorem seekStep_spec (law : SeekLaw S u ks RelS M) (hbs : 0 < bs) (x : χ) (w : Wrapper bs S.σ) (p : Nat)
    (hat : At ks hbs RelS (some M) w p) (op : SeekOp) (hop : FitsSeek u bs M op) :
    ∃ w', w.seekStep S x op = .ok ((Cursor.step bs (byteStream ks hbs) (some (bs * M)) p op).1, w') ∧
      At ks hbs RelS (some M) w' (Cursor.step bs (byteStream ks hbs) (some (bs * M)) p op).2 := by
  cases op with
  | io op => exact step_spec law.toCoreLaw hbs x w p hat op hop
  | seek q =>
    simp only [Wrapper.seekStep, Cursor.step]
    rcases hop with hq | hq
    · obtain ⟨w', h1, h2⟩ := trySeek_spec law hbs x w p hat q hq
      have hw : Within (some (bs * M)) q := by intro L e; cases e; exact hq
      exact ⟨w', by simp only [h1, if_pos hw, bind, Except.bind, pure, Except.pure], by rw [if_pos hw]; exact h2⟩
    · have hw : ¬ Within (some (bs * M)) q := by
        intro h
        have := h _ rfl
        rw [Nat.mul_succ] at hq
        omega
      exact ⟨w, by simp only [trySeek_overflow law hbs x w q hq, if_neg hw, bind, Except.bind, pure, Except.pure],
        by rw [if_neg hw]; exact hat⟩
  | pos snMax =>
    refine ⟨w, ?_, ?_⟩
    · simp only [Wrapper.seekStep, Cursor.step, tryCurrentPos_spec law hbs w p hat]
      split <;> rfl
    · simp only [Cursor.step]
      split <;> exact hat

/-- **Refinement, seekable ciphers.** -/
theorem seekHistory_spec (law : SeekLaw S u ks RelS M) (hbs : 0 < bs) (h : List (χ × SeekOp)) (w : Wrapper bs S.σ)
    (p : Nat) (hat : At ks hbs RelS (some M) w p) (hh : ∀ op ∈ h, FitsSeek u bs M op.2) :
    ∃ w', runHistory (fun x w op => Wrapper.seekStep S x w op) h w =
        .ok ((Cursor.run (Cursor.step bs (byteStream ks hbs) (some (bs * M))) (h.map (·.2)) p).1, w') ∧
      At ks hbs RelS (some M) w' (Cursor.run (Cursor.step bs (byteStream ks hbs) (some (bs * M))) (h.map (·.2)) p).2 := by
  induction h generalizing w p with
  | nil => exact ⟨w, rfl, hat⟩
  | cons e h ih =>
    obtain ⟨x, op⟩ := e
    obtain ⟨w1, h1, hat1⟩ := seekStep_spec law hbs x w p hat op (hh (x, op) (by simp))
    obtain ⟨w2, h2, hat2⟩ := ih w1 _ hat1 (fun o ho => hh o (by simp [ho]))
    refine ⟨w2, ?_, hat2⟩
    simp only [runHistory, h1, h2, bind, Except.bind, pure, Except.pure, List.map_cons, Cursor.run]

/-- A freshly wrapped core is at position 0. -/
theorem At.fromCore {σ : Type} {Rel : σ → Nat → Prop} (hbs : 0 < bs) (s : σ) (hr : Rel s 0) (mb : Option Nat) :
    At ks hbs Rel mb (Wrapper.fromCore s) 0 := by
  refine ⟨⟨0, hr, ?_, ?_⟩, Nat.le_refl _, hbs, ?_⟩
  · simp [Wrapper.fromCore]
  · intro M _; exact Nat.zero_le _
  · simp [Wrapper.fromCore, window]

end Verif
