import Verif.Proof.SrcMem
import Verif.Proof.Raw
import Verif.Rust.Closure
/-!
# Backends that are translated text
-/
namespace Verif.Rust

/-- A backend that is another one under a change of state runs closures like it. -/
theorem run_sim {bs : Nat} {σ τ α : Type} {B : Verif.Backend bs σ} {B' : Verif.Backend bs τ} (f : σ → τ)
    (hb : ∀ s, B'.genBlock (f s) = (B.genBlock s).map (Prod.map id f)) (hp : ∀ s, B'.genPar (f s) = (B.genPar s).map (Prod.map id f))
    (ht : ∀ n s, B'.genTail n (f s) = (B.genTail n s).map (Prod.map id f)) (p : Prog bs α) (s : σ) :
    p.run B' (f s) = (p.run B s).map (Prod.map id f) := by
  induction p generalizing s with
  | done a => rfl
  | block k ih =>
    rw [Prog.run, Prog.run, hb]
    cases B.genBlock s with
    | error e => rfl
    | ok r => exact ih r.1 r.2
  | par k ih =>
    rw [Prog.run, Prog.run, hp]
    cases B.genPar s with
    | error e => rfl
    | ok r => exact ih r.1 r.2
  | tail n k ih =>
    rw [Prog.run, Prog.run, ht]
    cases B.genTail n s with
    | error e => rfl
    | ok r => exact ih r.1 r.2

theorem call_sim {bs : Nat} {σ τ α : Type} {B : Verif.Backend bs σ} {B' : Verif.Backend bs τ} (f : σ → τ) (hn : B'.parSize = B.parSize)
    (hb : ∀ s, B'.genBlock (f s) = (B.genBlock s).map (Prod.map id f)) (hp : ∀ s, B'.genPar (f s) = (B.genPar s).map (Prod.map id f))
    (ht : ∀ n s, B'.genTail n (f s) = (B.genTail n s).map (Prod.map id f)) (c : Closure bs α) (s : σ) :
    B'.call c (f s) = (B.call c s).map (Prod.map id f) := by
  rw [Verif.Backend.call, Verif.Backend.call, hn]
  exact run_sim f hb hp ht _ s

theorem arrays_ok {bs : Nat} (l : List (Vector U8 bs)) : arrays bs (l.map Vector.toList) = .ok l := by
  induction l with
  | nil => rfl
  | cons b l ih =>
    rw [List.map_cons, arrays, ih, ok_bind, dif_pos (Vector.length_toList ..)]
    rfl

/-- A list of blocks of 64 bytes. -/
def Blocks64 (n : Nat) (l : List (List U8)) : Prop := l.length = n ∧ ∀ b ∈ l, b.length = 64

theorem blocks64_zero (n : Nat) : Blocks64 n (List.replicate n (List.replicate 64 0)) :=
  ⟨List.length_replicate, fun b h => by rw [(List.mem_replicate.mp h).2, List.length_replicate]⟩

section
variable {σ τ : Type} (f : σ → τ)

theorem blockOf_sim {gen : τ → List U8 → Except Panic (Unit × τ × List U8)} {g : σ → Except Panic (Vector U8 64 × σ)}
    (h : ∀ s b, b.length = 64 → gen (f s) b = (g s).map fun r => ((), f r.2, r.1.toList)) (s : σ) :
    blockOf 64 gen (f s) = (g s).map (Prod.map id f) := by
  rw [blockOf, h s _ List.length_replicate]
  cases g s with
  | error e => rfl
  | ok r =>
    show (if h : r.1.toList.length = 64 then _ else _) = _
    rw [dif_pos (Vector.length_toList ..)]
    rfl

theorem blocksOf_sim {n : Nat} {gen : τ → List (List U8) → Except Panic (Unit × τ × List (List U8))} {g : σ → Except Panic (List (Vector U8 64) × σ)}
    (h : ∀ s b, Blocks64 n b → gen (f s) b = (g s).map fun r => ((), f r.2, r.1.map Vector.toList)) (s : σ) :
    blocksOf 64 n gen (f s) = (g s).map (Prod.map id f) := by
  rw [blocksOf, h s _ (blocks64_zero n)]
  cases g s with
  | error e => rfl
  | ok r =>
    show (arrays 64 (r.1.map Vector.toList) >>= _) = _
    rw [arrays_ok]
    rfl

theorem genEach_sim {gen : τ → List U8 → Except Panic (Unit × τ × List U8)} {g : σ → Except Panic (Vector U8 64 × σ)}
    (h : ∀ s b, b.length = 64 → gen (f s) b = (g s).map fun r => ((), f r.2, r.1.toList)) (l : List (List U8)) :
    ∀ (n : Nat), Blocks64 n l → ∀ s, genEach gen (f s) l = (genMany g n s).map fun r => ((), f r.2, r.1.map Vector.toList) := by
  induction l with
  | nil =>
    intro n hn s
    obtain rfl : 0 = n := hn.1
    rfl
  | cons b l ih =>
    intro n hn s
    obtain ⟨h1, h2⟩ := hn
    obtain rfl : l.length + 1 = n := h1
    rw [genEach, genMany, h s b (h2 b (List.mem_cons_self ..))]
    cases g s with
    | error e => rfl
    | ok r =>
      show (genEach gen (f r.2) l >>= _) = _
      rw [ih l.length ⟨rfl, fun x hx => h2 x (List.mem_cons_of_mem _ hx)⟩ r.2]
      show _ = Except.map _ (genMany g l.length r.2 >>= _)
      cases genMany g l.length r.2 with
      | error e => rfl
      | ok r => rfl

theorem providedTail_sim (p : Nat) {gen : τ → List U8 → Except Panic (Unit × τ × List U8)} {g : σ → Except Panic (Vector U8 64 × σ)}
    (h : ∀ s b, b.length = 64 → gen (f s) b = (g s).map fun r => ((), f r.2, r.1.toList)) (n : Nat) (l : List (List U8)) (hl : Blocks64 n l) (s : σ) :
    providedTail p gen (f s) l = ((Verif.Backend.ofBlock p g).genTail n s).map fun r => ((), f r.2, r.1.map Vector.toList) := by
  rw [providedTail, hl.1]
  show _ = Except.map _ (if n < p then genMany g n s else .error .assertion)
  split
  · exact genEach_sim f h l n hl s
  · rfl

end

/-! ## Bytes, words and blocks in memory -/

theorem bytes_u8 (l : List U8) : Mem.bytes l = l := by
  show l.flatMap (fun x => [x]) = l
  rw [List.flatMap_singleton']

theorem size_u8 (l : List U8) : Mem.size l = l.length := by rw [Mem.size, bytes_u8]

theorem put_u8 (l b : List U8) (h : b.length = l.length) : Mem.put l b = b := by
  rw [← bytes_u8 (Mem.put l b), LawfulMem.bytes_put _ _ (by rw [size_u8, h])]

theorem size_u32 (l : List U32) : Mem.size l = 4 * l.length := by
  induction l with
  | nil => rfl
  | cons x l ih =>
    rw [size_cons, ih, List.length_cons]
    have : Mem.size x = 4 := length_toLe x
    omega

theorem put_u32 (l w : List U32) (h : w.length = l.length) : Mem.put l (Mem.bytes w) = w := by
  induction l generalizing w with
  | nil => rw [List.length_eq_zero_iff.mp h]; rfl
  | cons x l ih =>
    match w, h with
    | y :: w, h =>
      have hx : (Mem.bytes y).length = Mem.size x := (length_toLe y).trans (length_toLe x).symm
      rw [bytes_cons, put_cons, List.take_left' hx, List.drop_left' hx, ih w (by simpa using h)]
      exact congrArg (· :: w) (LawfulReg.ofBytes_bytes y)

theorem size_blocks {n : Nat} {l : List (List U8)} (h : Blocks64 n l) : Mem.size l = n * 64 := by
  obtain ⟨rfl, h⟩ := h
  induction l with
  | nil => rfl
  | cons b l ih =>
    rw [size_cons, size_u8, h b (List.mem_cons_self ..), ih fun x hx => h x (List.mem_cons_of_mem _ hx), List.length_cons, Nat.succ_mul, Nat.add_comm]

theorem put_blocks {n : Nat} {l w : List (List U8)} (h : Blocks64 n l) (hw : Blocks64 n w) : Mem.put l (Mem.bytes w) = w := by
  induction l generalizing n w with
  | nil =>
    have : w.length = 0 := hw.1.trans h.1.symm
    rw [List.length_eq_zero_iff.mp this]; rfl
  | cons x l ih =>
    obtain ⟨h1, h2⟩ := h
    obtain ⟨w1, w2⟩ := hw
    match w, w1, w2 with
    | [], w1, _ => rw [List.length_cons] at h1; rw [List.length_nil] at w1; omega
    | y :: w, w1, w2 =>
      have hx : x.length = 64 := h2 x (List.mem_cons_self ..)
      have hy : y.length = 64 := w2 y (List.mem_cons_self ..)
      have hs : (Mem.bytes y).length = Mem.size x := by rw [bytes_u8, size_u8, hx, hy]
      rw [bytes_cons, put_cons, List.take_left' hs, List.drop_left' hs, bytes_u8, put_u8 _ _ (hy.trans hx.symm),
        ih (n := l.length) ⟨rfl, fun z hz => h2 z (List.mem_cons_of_mem _ hz)⟩
          ⟨by rw [List.length_cons] at h1 w1; omega, fun z hz => w2 z (List.mem_cons_of_mem _ hz)⟩]

/-- Writing the list `x` over the list `c`, from the left. -/
theorem fill_set {β : Type} (x c : List β) (h : c.length = x.length) (m : Nat) (hm : m < x.length) :
    (x.take m ++ c.drop m).set m x[m] = x.take (m + 1) ++ c.drop (m + 1) := by
  have ht : (x.take m).length = m := by rw [List.length_take]; omega
  rw [List.set_append_right _ _ (by omega), ht, Nat.sub_self, List.drop_eq_getElem_cons (by omega : m < c.length), List.set_cons_zero,
    List.take_succ_eq_append_getElem hm, List.append_assoc]
  rfl

theorem fill_length {β : Type} (x c : List β) (h : c.length = x.length) (m : Nat) (hm : m ≤ x.length) : (x.take m ++ c.drop m).length = x.length := by
  rw [List.length_append, List.length_take, List.length_drop]; omega

section
variable {α β : Type} [Mem α] [LawfulMem α] [Reg β] [LawfulReg β]

/-- `m` registers written, from the left. -/
def filled (a : α) (xs c : List β) (m : Nat) : α := cells a (xs.take m ++ c.drop m)

omit [LawfulMem α] [LawfulReg β] in
theorem filled_all (a : α) (xs c : List β) (h : c.length = xs.length) : filled a xs c xs.length = cells a xs := by
  rw [filled, List.take_length, List.drop_of_length_le (by omega), List.append_nil]

theorem filled_size (a : α) (xs c : List β) (h : c.length = xs.length) (hs : Mem.size a = xs.length * Reg.size β) (m : Nat) (hm : m ≤ xs.length) :
    Mem.size (filled a xs c m) = Mem.size a := by
  rw [filled, size_cells]
  rw [fill_length _ _ h _ hm, hs]

theorem filled_store (a : α) (xs c : List β) (h : c.length = xs.length) (hs : Mem.size a = xs.length * Reg.size β) (m : Nat) (hm : m < xs.length)
    (off : Nat) (ho : off = m * Reg.size β) : store (filled a xs c m) off xs[m] = .ok (filled a xs c (m + 1)) := by
  have hl := fill_length xs c h m (Nat.le_of_lt hm)
  rw [filled, store_cells a _ (by rw [hl, hs]) m off (by rw [hl]; exact hm) ho, fill_set xs c h m hm]
  rfl

/-- A loop that stores one register after the other. -/
theorem store_loop (n : Nat) (a : α) (xs : List β) (hn : xs.length = n) (hs : Mem.size a = xs.length * Reg.size β)
    (f : Nat → α → Except Panic (ForInStep α))
    (hf : ∀ m (hm : m < xs.length) (s : α), Mem.size s = Mem.size a → f m s = (store s (m * Reg.size β) xs[m] >>= fun r => .ok (.yield r))) :
    forIn (List.range n) a f = .ok (cells a xs) := by
  subst hn
  obtain ⟨c, hc, ha⟩ := exists_cells (β := β) a xs.length hs
  have := forIn_range xs.length (fun m => filled a xs c m) f a (by rw [filled]; exact ha) (by
    intro m hm
    rw [hf m hm _ (filled_size a xs c hc hs m (Nat.le_of_lt hm)), filled_store a xs c hc hs m hm _ rfl]
    rfl)
  rw [this, filled_all a xs c hc]

/-- A loop over `n` groups of `w` registers. -/
theorem store_loop2 (n w : Nat) (a : α) (xs : List β) (hn : xs.length = w * n) (hs : Mem.size a = xs.length * Reg.size β)
    (f : Nat → Nat → α → Except Panic (ForInStep α))
    (hf : ∀ k i (_ : k < n) (_ : i < w) (hm : w * k + i < xs.length) (s : α), Mem.size s = Mem.size a →
      f k i s = (store s ((w * k + i) * Reg.size β) xs[w * k + i] >>= fun r => .ok (.yield r))) :
    (forIn (List.range n) a fun k s => do
      let s ← forIn (List.range w) s (f k)
      pure (ForInStep.yield s)) = .ok (cells a xs) := by
  obtain ⟨c, hc, ha⟩ := exists_cells (β := β) a xs.length hs
  have hle (k i : Nat) (hk : k < n) (hi : i < w) : w * k + i < xs.length := by
    have : w * (k + 1) ≤ w * n := Nat.mul_le_mul_left w hk
    rw [Nat.mul_succ] at this
    omega
  have := forIn_range n (fun k => filled a xs c (w * k)) (fun k s => do
      let s ← forIn (List.range w) s (f k)
      pure (ForInStep.yield s)) a (by rw [Nat.mul_zero]; exact ha) (by
    intro k hk
    have := forIn_range w (fun i => filled a xs c (w * k + i)) (f k) (filled a xs c (w * k)) rfl (by
      intro i hi
      have hm := hle k i hk hi
      rw [hf k i hk hi hm _ (filled_size a xs c hc hs _ (Nat.le_of_lt hm)), filled_store a xs c hc hs _ hm _ rfl]
      rfl)
    rw [this]
    rfl)
  rw [this, ← hn, filled_all a xs c hc]

end

end Verif.Rust
