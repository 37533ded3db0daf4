import Verif.Spec.Memory
import Verif.Proof.Requests
/-!
# Calls on buffers in memory
-/
namespace Verif
open Spec

/-! ## Memory -/

namespace Mem

theorem length_read (m : Mem) (a n : Nat) : (m.read a n).length = n := by simp [read]

theorem getElem_read (m : Mem) (a n i : Nat) (h : i < (m.read a n).length) : (m.read a n)[i] = m (a + i) := by simp [read]

theorem read_add (m : Mem) (a n k : Nat) : m.read a (n + k) = m.read a n ++ m.read (a + n) k := by
  simp only [read, List.range_add, List.map_append, List.map_map, Function.comp_def, Nat.add_assoc]

theorem read_take (m : Mem) (a n k : Nat) (h : k ≤ n) : (m.read a n).take k = m.read a k := by
  obtain ⟨d, rfl⟩ := Nat.exists_eq_add_of_le h
  rw [read_add, List.take_append_of_le_length (by rw [length_read]; exact Nat.le_refl _), List.take_of_length_le (by rw [length_read]; exact Nat.le_refl _)]

theorem read_drop (m : Mem) (a n k : Nat) (h : k ≤ n) : (m.read a n).drop k = m.read (a + k) (n - k) := by
  obtain ⟨d, rfl⟩ := Nat.exists_eq_add_of_le h
  rw [read_add, List.drop_append_of_le_length (by rw [length_read]; exact Nat.le_refl _), List.drop_of_length_le (by rw [length_read]; exact Nat.le_refl _),
    List.nil_append, Nat.add_sub_cancel_left]

theorem write_apply (l : List U8) : ∀ (m : Mem) (a x : Nat), m.write a l x = if a ≤ x ∧ x < a + l.length then l.getD (x - a) 0 else m x := by
  induction l with
  | nil => intro m a x; rw [if_neg (by simp only [List.length_nil]; omega)]; rfl
  | cons v l ih =>
    intro m a x
    rw [write, ih, List.length_cons]
    by_cases h1 : a + 1 ≤ x ∧ x < a + 1 + l.length
    · rw [if_pos h1, if_pos (by omega)]
      obtain ⟨d, rfl⟩ := Nat.exists_eq_add_of_le h1.1
      rw [show a + 1 + d - (a + 1) = d by omega, show a + 1 + d - a = d + 1 by omega]
      rfl
    · rw [if_neg h1, set]
      by_cases h2 : x = a
      · subst h2
        rw [if_pos rfl, if_pos (by omega), Nat.sub_self]
        rfl
      · rw [if_neg h2, if_neg (by omega)]

theorem write_append (l l' : List U8) : ∀ (m : Mem) (a : Nat), (m.write a l).write (a + l.length) l' = m.write a (l ++ l') := by
  induction l with
  | nil => intro m a; rfl
  | cons v l ih =>
    intro m a
    rw [List.cons_append, write, write, ← ih, List.length_cons]
    congr 1
    omega

/-- Reading elsewhere. -/
theorem read_write (m : Mem) (a : Nat) (l : List U8) (b n : Nat) (h : b + n ≤ a ∨ a + l.length ≤ b) : (m.write a l).read b n = m.read b n := by
  simp only [read]
  apply List.map_congr_left
  intro i hi
  rw [List.mem_range] at hi
  rw [write_apply, if_neg (by omega)]

theorem write_read (m : Mem) (a n : Nat) : m.write a (m.read a n) = m := by
  funext x
  rw [write_apply, length_read]
  split
  · rename_i h
    rw [List.getD_eq_getElem?_getD, List.getElem?_eq_getElem (by rw [length_read]; omega), getElem_read]
    simp only [Option.getD_some]
    rw [Nat.add_sub_cancel' h.1]
  · rfl

theorem put_eq (m : Mem) (a : Nat) (l : List U8) (n : Nat) (f : Nat → U8) (hn : l.length = n) (hf : ∀ i, i < n → l.getD i 0 = f i) :
    m.write a l = MemCursor.put m a n f := by
  funext x
  rw [write_apply, MemCursor.put, hn]
  split
  · exact hf _ (by omega)
  · rfl

end Mem

/-- Where the references point, the rest of the input is not touched by writing the first part of the output. -/
theorem InOutBuf.Ok.read {b : InOutBuf} (h : b.Ok) (m : Mem) (l : List U8) (hl : l.length ≤ b.len) :
    (m.write b.out l).read (b.inp + l.length) (b.len - l.length) = m.read (b.inp + l.length) (b.len - l.length) := by
  apply Mem.read_write
  rcases h with h | h | h <;> omega

theorem InOutBuf.Ok.drop {b : InOutBuf} (h : b.Ok) (k : Nat) (hk : k ≤ b.len) : (b.drop k).Ok := by
  rcases h with h | h | h
  · exact Or.inl (by show b.inp + k = b.out + k; omega)
  · exact Or.inr (Or.inl (by show b.inp + k + (b.len - k) ≤ b.out + k; omega))
  · exact Or.inr (Or.inr (by show b.out + k + (b.len - k) ≤ b.inp + k; omega))

theorem InOutBuf.Ok.prefix {inp out len : Nat} (h : InOutBuf.Ok ⟨inp, out, len⟩) (n : Nat) (hn : n ≤ len) : InOutBuf.Ok ⟨inp, out, n⟩ := by
  rcases h with h | h | h
  · exact Or.inl h
  · exact Or.inr (Or.inl (by have : inp + len ≤ out := h; show inp + n ≤ out; omega))
  · exact Or.inr (Or.inr (by have : out + len ≤ inp := h; show out + n ≤ inp; omega))

theorem xorBytes_length_eq (a b : List U8) (h : a.length = b.length) : (xorBytes a b).length = b.length := by
  simp only [xorBytes, List.length_zipWith, h, Nat.min_self]

/-- The loop over bytes has the effect of the array operation. -/
theorem xorLoop_eq (ks : List U8) : ∀ (inp out : Nat) (m : Mem), InOutBuf.Ok ⟨inp, out, ks.length⟩ →
    xorLoop inp out ks m = xorArray inp out ks m := by
  induction ks with
  | nil => intro inp out m _; rfl
  | cons k ks ih =>
    intro inp out m h
    have h1 : InOutBuf.Ok ⟨inp + 1, out + 1, ks.length⟩ := by
      have := h.drop 1 (by show 1 ≤ (k :: ks).length; simp)
      simpa [InOutBuf.drop] using this
    rw [xorLoop, ih _ _ _ h1]
    have hr : (m.write out [m inp ^^^ k]).read (inp + 1) ks.length = m.read (inp + 1) ks.length := by
      have := h.read m [m inp ^^^ k] (by simp)
      simpa using this
    have hs : m.set out (m inp ^^^ k) = m.write out [m inp ^^^ k] := rfl
    rw [xorArray, xorArray, hs, hr]
    rw [show out + 1 = out + [m inp ^^^ k].length from rfl, Mem.write_append]
    congr 1
    rw [List.length_cons, Nat.add_comm ks.length 1, Mem.read_add]
    rfl

/-! ## Clients that see the same blocks -/

/-- Two clients that make the same requests when given the same blocks in the number asked for. -/
def Prog.Same {bs : Nat} {α β : Type} (par : Nat) (Q : α → β → Prop) : Prog bs α → Prog bs β → Prop
  | .done a, .done b => Q a b
  | .block k, .block k' => ∀ b, Prog.Same par Q (k b) (k' b)
  | .par k, .par k' => ∀ l, l.length = par → Prog.Same par Q (k l) (k' l)
  | .tail n k, .tail n' k' => n = n' ∧ ∀ l, l.length = n → Prog.Same par Q (k l) (k' l)
  | _, _ => False

variable {bs : Nat} {χ α β γ : Type}

theorem Prog.Same.map {par : Nat} {Q : α → β → Prop} {P : α → γ → Prop} (g : β → γ) (hg : ∀ a b, Q a b → P a (g b))
    (p : Prog bs α) : ∀ p' : Prog bs β, p.Same par Q p' → p.Same par P (p'.map g) := by
  induction p with
  | done a => intro p' h; cases p' <;> first | exact hg _ _ h | exact h.elim
  | block k ih =>
    intro p' h
    cases p' <;> first | exact h.elim | skip
    exact fun b => ih b _ (h b)
  | par k ih =>
    intro p' h
    cases p' <;> first | exact h.elim | skip
    exact fun b e => ih b _ (h b e)
  | tail n k ih =>
    intro p' h
    cases p' <;> first | exact h.elim | skip
    exact ⟨h.1, fun b e => ih b _ (h.2 b e)⟩

section
variable {σ : Type} (gen : σ → Except Panic (Vector U8 bs × σ))

theorem genMany_length (n : Nat) : ∀ s, ExRel (fun r r' => r = r' ∧ r.1.length = n) (genMany gen n s) (genMany gen n s) := by
  induction n with
  | zero => intro s; exact .ok ⟨rfl, rfl⟩
  | succ n ih =>
    intro s
    simp only [genMany]
    cases gen s with
    | error e => exact .error e
    | ok r =>
      refine ExRel.bind (Q := Eq) (.ok rfl) ?_
      rintro r _ rfl
      refine ExRel.bind (ih r.2) ?_
      rintro q _ ⟨rfl, h⟩
      exact .ok ⟨rfl, by simp [h]⟩

theorem run_same (par : Nat) {Q : α → β → Prop} (p : Prog bs α) : ∀ (p' : Prog bs β) s, p.Same par Q p' →
    ExRel (fun r r' => Q r.1 r'.1 ∧ r.2 = r'.2) (p.run (.ofBlock par gen) s) (p'.run (.ofBlock par gen) s) := by
  induction p with
  | done a =>
    intro p' s h
    cases p' <;> first | exact h.elim | exact .ok ⟨h, rfl⟩
  | block k ih =>
    intro p' s h
    cases p' <;> first | exact h.elim | skip
    simp only [Prog.run, Backend.ofBlock]
    cases gen s with
    | error e => exact .error e
    | ok r => exact ih _ _ _ (h _)
  | par k ih =>
    intro p' s h
    cases p' <;> first | exact h.elim | skip
    refine ExRel.bind (genMany_length gen par s) ?_
    rintro r _ ⟨rfl, hl⟩
    exact ih _ _ _ (h _ hl)
  | tail n k ih =>
    intro p' s h
    cases p' <;> first | exact h.elim | skip
    obtain ⟨rfl, h⟩ := h
    simp only [Prog.run, Backend.ofBlock]
    split
    · refine ExRel.bind (genMany_length gen n s) ?_
      rintro r _ ⟨rfl, hl⟩
      exact ih _ _ _ (h _ hl)
    · exact .error _

end

/-- A core that runs its clients on some backend built from a block function. -/
def Plain (C : Core bs χ) : Prop := ∀ x : χ, ∃ par gen, ∀ (α : Type) (f : Closure bs α) (s : C.σ),
  C.process x f s = (f par).run (Backend.ofBlock par gen) s

theorem ChaCha.plain (u dr : Nat) (V : Variant) : Plain (core u dr V).toCore :=
  fun e => ⟨_, _, fun _ f s => process_eq dr V e f s⟩

theorem Salsa.plain (χ : Type) (u : Nat) (m : Mode) (dr : Nat) : Plain (core χ u m dr).toCore :=
  fun _ => ⟨1, genBlock m dr, fun _ _ _ => rfl⟩

theorem Hc256.plain (m : Mode) (u : Nat) : Plain (core m u) := fun _ => ⟨1, genBlock m u, fun _ _ _ => rfl⟩

theorem Rabbit.plain (m : Mode) : Plain (core m) := fun _ => ⟨1, genBlock m, fun _ _ _ => rfl⟩

/-! ## `ApplyBlocks` -/

theorem flatten_length (data : List (List U8)) (h : ∀ d ∈ data, d.length = bs) : data.flatten.length = data.length * bs := by
  induction data with
  | nil => simp
  | cons d data ih =>
    rw [List.flatten_cons, List.length_append, ih fun d hd => h d (List.mem_cons_of_mem _ hd), h d List.mem_cons_self, List.length_cons,
      Nat.succ_mul, Nat.add_comm]

theorem blocks_length (ks : List (Vector U8 bs)) : ((ks.map (·.toList)).flatten).length = ks.length * bs := by
  rw [flatten_length (bs := bs), List.length_map]
  intro d hd
  obtain ⟨k, _, rfl⟩ := List.mem_map.1 hd
  simp

theorem flatten_xor (data : List (List U8)) : ∀ (ks : List (Vector U8 bs)), (∀ d ∈ data, d.length = bs) → data.length = ks.length →
    (List.zipWith (fun d k => xorBytes d k.toList) data ks).flatten = xorBytes data.flatten (ks.map (·.toList)).flatten := by
  induction data with
  | nil =>
    intro ks _ hl
    cases ks with
    | nil => rfl
    | cons _ _ => exact absurd hl (by simp)
  | cons d data ih =>
    intro ks h hl
    cases ks with
    | nil => exact absurd hl (by simp)
    | cons k ks =>
      simp only [List.zipWith_cons_cons, List.flatten_cons, List.map_cons]
      rw [ih ks (fun d hd => h d (List.mem_cons_of_mem _ hd)) (by simpa using hl),
        xorBytes_append _ _ _ _ (by rw [h d List.mem_cons_self]; simp)]

/-- The blocks `data` lie in memory at `inp`. -/
structure Holds (bs : Nat) (m : Mem) (inp : Nat) (data : List (List U8)) : Prop where
  size : ∀ d ∈ data, d.length = bs
  here : data.flatten = m.read inp (data.length * bs)

theorem Holds.drop {m : Mem} {inp : Nat} {data : List (List U8)} (h : Holds bs m inp data) (p : Nat) (hp : p ≤ data.length) :
    (data.take p).flatten = m.read inp (p * bs) ∧ Holds bs m (inp + p * bs) (data.drop p) := by
  have h1 : (data.take p).flatten.length = p * bs := by
    rw [flatten_length (bs := bs) _ fun d hd => h.size d (List.mem_of_mem_take hd), List.length_take, Nat.min_eq_left hp]
  have h2 : data.flatten = (data.take p).flatten ++ (data.drop p).flatten := by
    rw [← List.flatten_append, List.take_append_drop]
  have h3 := h.here
  have h4 : data.length * bs = p * bs + (data.drop p).length * bs := by
    rw [List.length_drop, ← Nat.add_mul, Nat.add_sub_cancel' hp]
  rw [h2, h4, Mem.read_add] at h3
  obtain ⟨h5, h6⟩ := List.append_inj h3 (by rw [h1, Mem.length_read])
  exact ⟨h5, fun d hd => h.size d (List.mem_of_mem_drop hd), h6⟩

/-- After some blocks have been encrypted the others are still there. -/
theorem Holds.after {m : Mem} {inp out : Nat} {data : List (List U8)} (h : Holds bs m inp data) (p : Nat) (hp : p ≤ data.length)
    (hok : InOutBuf.Ok ⟨inp, out, data.length * bs⟩) (l : List U8) (hl : l.length = p * bs) :
    Holds bs (m.write out l) (inp + p * bs) (data.drop p) ∧
      InOutBuf.Ok ⟨inp + p * bs, out + p * bs, (data.drop p).length * bs⟩ := by
  have h4 : (data.drop p).length * bs = data.length * bs - p * bs := by rw [List.length_drop, Nat.sub_mul]
  have hle : p * bs ≤ data.length * bs := Nat.mul_le_mul_right _ hp
  refine ⟨⟨(h.drop p hp).2.size, ?_⟩, ?_⟩
  · rw [(h.drop p hp).2.here, h4]
    have := hok.read m l (by rw [hl]; exact hle)
    rw [hl] at this
    exact this.symm
  · rw [h4]
    exact hok.drop _ hle

theorem xorArray_chunk {m : Mem} {inp out : Nat} {data : List (List U8)} (h : Holds bs m inp data) (p : Nat) (hp : p ≤ data.length)
    (ks : List (Vector U8 bs)) (hks : ks.length = p) :
    xorArray inp out (ks.map (·.toList)).flatten m =
      m.write out (List.zipWith (fun d k => xorBytes d k.toList) (data.take p) ks).flatten ∧
    ((List.zipWith (fun d k => xorBytes d k.toList) (data.take p) ks).flatten).length = p * bs := by
  have hsz : ∀ d ∈ data.take p, d.length = bs := fun d hd => h.size d (List.mem_of_mem_take hd)
  have hlen : (data.take p).length = ks.length := by rw [List.length_take, Nat.min_eq_left hp, hks]
  rw [flatten_xor _ _ hsz hlen, (h.drop p hp).1]
  constructor
  · rw [xorArray, blocks_length, hks]
  · rw [xorBytes_length_eq _ _ (by rw [Mem.length_read, blocks_length, hks]), blocks_length, hks]

theorem xorArray_block {m : Mem} {inp out : Nat} {d : List U8} {data : List (List U8)} (h : Holds bs m inp (d :: data)) (k : Vector U8 bs) :
    xorArray inp out k.toList m = m.write out (xorBytes d k.toList) ∧ (xorBytes d k.toList).length = 1 * bs := by
  have := xorArray_chunk (out := out) h 1 (by simp) [k] rfl
  simpa using this

theorem xorBlocks_eq (data : List (List U8)) : ∀ (inp out : Nat) (m : Mem) (ks : List (Vector U8 bs)), Holds bs m inp data →
    InOutBuf.Ok ⟨inp, out, data.length * bs⟩ → ks.length = data.length →
    xorBlocks inp out ks m = m.write out (List.zipWith (fun d k => xorBytes d k.toList) data ks).flatten := by
  induction data with
  | nil =>
    intro inp out m ks _ _ hl
    cases ks with
    | nil => rfl
    | cons _ _ => exact absurd hl (by simp)
  | cons d data ih =>
    intro inp out m ks h hok hl
    cases ks with
    | nil => exact absurd hl (by simp)
    | cons k ks =>
      obtain ⟨h1, h2⟩ := xorArray_block (out := out) h k
      obtain ⟨h3, h4⟩ := h.after 1 (by simp) hok _ h2
      rw [Nat.one_mul] at h2 h3 h4
      rw [xorBlocks, h1, ih _ _ _ ks h3 h4 (by simpa using hl)]
      rw [List.zipWith_cons_cons, List.flatten_cons, ← Mem.write_append, h2]

theorem zip_length (data : List (List U8)) (ks : List (Vector U8 bs)) (h : ∀ d ∈ data, d.length = bs) (hl : ks.length = data.length) :
    ((List.zipWith (fun d k => xorBytes d k.toList) data ks).flatten).length = data.length * bs := by
  rw [flatten_xor _ _ h hl.symm, xorBytes_length_eq _ _ (by rw [flatten_length _ h, blocks_length, hl]), blocks_length, hl]

theorem applyChunksMem_same (par m : Nat) : ∀ (inp out : Nat) (mem : Mem) (data : List (List U8)), m * par ≤ data.length →
    Holds bs mem inp data → InOutBuf.Ok ⟨inp, out, data.length * bs⟩ →
    (applyChunksMem (bs := bs) par m inp out data.length mem).Same par
      (fun mem' outs => mem' = mem.write out outs.flatten ∧ outs.flatten.length = data.length * bs) (applyChunks par m data) := by
  induction m with
  | zero =>
    intro inp out mem data _ h hok
    exact ⟨rfl, fun ks hks => ⟨xorBlocks_eq data inp out mem ks h hok hks, zip_length data ks h.size hks⟩⟩
  | succ m ih =>
    intro inp out mem data hm h hok ks hks
    have hp : par ≤ data.length := by rw [Nat.succ_mul] at hm; omega
    obtain ⟨h1, h2⟩ := xorArray_chunk (out := out) h par hp ks hks
    obtain ⟨h3, h4⟩ := h.after par hp hok _ h2
    have := ih (inp + par * bs) (out + par * bs) _ (data.drop par) (by rw [List.length_drop]; rw [Nat.succ_mul] at hm; omega) h3 h4
    rw [List.length_drop] at this
    dsimp only
    rw [h1]
    refine Prog.Same.map _ ?_ _ _ this
    intro mem' outs e
    refine ⟨by rw [e.1, List.flatten_append, ← Mem.write_append, h2], ?_⟩
    rw [List.flatten_append, List.length_append, h2, e.2, ← Nat.add_mul, Nat.add_sub_cancel' hp]

theorem applySinglesMem_same (par : Nat) (data : List (List U8)) : ∀ (inp out : Nat) (mem : Mem),
    Holds bs mem inp data → InOutBuf.Ok ⟨inp, out, data.length * bs⟩ →
    (applySinglesMem (bs := bs) data.length inp out mem).Same par
      (fun mem' outs => mem' = mem.write out outs.flatten ∧ outs.flatten.length = data.length * bs) (applySingles data) := by
  induction data with
  | nil => intro inp out mem _ _; exact ⟨rfl, by simp⟩
  | cons d data ih =>
    intro inp out mem h hok k
    obtain ⟨h1, h2⟩ := xorArray_block (out := out) h k
    obtain ⟨h3, h4⟩ := h.after 1 (by simp) hok _ h2
    rw [Nat.one_mul] at h2 h3 h4
    have := ih (inp + bs) (out + bs) _ h3 h4
    dsimp only
    rw [h1]
    refine Prog.Same.map _ ?_ _ _ this
    intro mem' outs e
    refine ⟨by rw [e.1, List.flatten_cons, ← Mem.write_append, h2], ?_⟩
    rw [List.flatten_cons, List.length_append, h2, e.2, List.length_cons, Nat.succ_mul, Nat.add_comm]

theorem applyBlocksMem_same (par inp out : Nat) (mem : Mem) (data : List (List U8)) (h : Holds bs mem inp data)
    (hok : InOutBuf.Ok ⟨inp, out, data.length * bs⟩) :
    (applyBlocksMem (bs := bs) inp out data.length mem par).Same par
      (fun mem' outs => mem' = mem.write out outs.flatten ∧ outs.flatten.length = data.length * bs) (applyBlocksClosure data par) := by
  unfold applyBlocksMem applyBlocksClosure
  split
  · exact applyChunksMem_same (bs := bs) par (data.length / par) inp out mem data (Nat.div_mul_le_self _ _) h hok
  · exact applySinglesMem_same (bs := bs) par data inp out mem h hok

/-! ## The wrapper -/

theorem holds_chunks (m : Mem) (inp n : Nat) (k : Nat) (hk : k * bs ≤ n) : Holds bs m inp (chunksOf bs k (m.read inp n)) := by
  induction k generalizing inp n with
  | zero => exact ⟨by intro d hd; simp [chunksOf] at hd, by simp [chunksOf, Mem.read]⟩
  | succ k ih =>
    rw [Nat.succ_mul] at hk
    rw [chunksOf_succ, Mem.read_take _ _ _ _ (by omega), Mem.read_drop _ _ _ _ (by omega)]
    have := ih (inp + bs) (n - bs) (by omega)
    refine ⟨?_, ?_⟩
    · intro d hd
      rcases List.mem_cons.1 hd with rfl | hd
      · exact Mem.length_read ..
      · exact this.size d hd
    · rw [List.flatten_cons, this.here, List.length_cons, Nat.succ_mul, Nat.add_comm (_ * bs) bs, Mem.read_add]

theorem Plain.same {C : Core bs χ} (hp : Plain C) (x : χ) : ∃ par, ∀ {α β : Type} {Q : α → β → Prop} (f : Closure bs α) (g : Closure bs β)
    (s : C.σ), (f par).Same par Q (g par) → ExRel (fun r r' => Q r.1 r'.1 ∧ r.2 = r'.2) (C.process x f s) (C.process x g s) := by
  obtain ⟨par, gen, h⟩ := hp x
  refine ⟨par, fun f g s hs => ?_⟩
  rw [h, h]
  exact run_same gen par _ _ s hs

theorem uncheckedApplyMem_rel {C : Core bs χ} (hp : Plain C) (hbs : 0 < bs) (x : χ) (w : Wrapper bs C.σ) (b : InOutBuf) (hb : b.Ok) (mem : Mem) :
    ExRel (fun r r' => r.1 = mem.write b.out r'.1 ∧ r.2 = r'.2) (w.uncheckedApplyMem C x b mem)
      (w.uncheckedApply C x (mem.read b.inp b.len)) := by
  obtain ⟨par, hp⟩ := hp.same x
  obtain ⟨s, buf, pos⟩ := w
  unfold Wrapper.uncheckedApplyMem Wrapper.uncheckedApply
  dsimp only [InOutBuf.drop]
  rw [Mem.length_read]
  have hle : min (bs - pos) b.len ≤ b.len := Nat.min_le_right ..
  have hks : ((buf.toList.drop pos).take (min (bs - pos) b.len)).length = min (bs - pos) b.len := by
    rw [List.length_take, List.length_drop, Vector.length_toList, Nat.min_eq_left (Nat.min_le_left ..)]
  rw [xorLoop_eq _ _ _ _ (by rw [hks]; exact hb.prefix _ hle), xorArray, hks, Mem.read_take _ _ _ _ hle, Mem.read_drop _ _ _ _ hle,
    Mem.length_read]
  have hhead : (xorBytes (mem.read b.inp (min (bs - pos) b.len)) ((buf.toList.drop pos).take (min (bs - pos) b.len))).length =
      min (bs - pos) b.len := by
    rw [xorBytes_length_eq _ _ (by rw [hks, Mem.length_read]), hks]
  generalize hh : xorBytes (mem.read b.inp (min (bs - pos) b.len)) ((buf.toList.drop pos).take (min (bs - pos) b.len)) = head at hhead ⊢
  have hrd : mem.read (b.inp + min (bs - pos) b.len) (b.len - min (bs - pos) b.len) =
      (mem.write b.out head).read (b.inp + min (bs - pos) b.len) (b.len - min (bs - pos) b.len) := by
    have := hb.read mem head (by rw [hhead]; exact hle)
    rw [hhead] at this
    exact this.symm
  rw [hrd]
  have hok := hb.drop _ hle
  have hkb : (b.len - min (bs - pos) b.len) / bs * bs ≤ b.len - min (bs - pos) b.len := Nat.div_mul_le_self ..
  have hH := holds_chunks (bs := bs) (mem.write b.out head) (b.inp + min (bs - pos) b.len) (b.len - min (bs - pos) b.len)
    ((b.len - min (bs - pos) b.len) / bs) hkb
  have hS := applyBlocksMem_same par _ (b.out + min (bs - pos) b.len) _ _ hH (by
    rw [chunksOf_length]
    exact hok.prefix _ hkb)
  rw [chunksOf_length] at hS
  refine ExRel.bind (hp _ _ s hS) ?_
  rintro ⟨mem1, s1⟩ ⟨mid, s1'⟩ ⟨⟨h1, h2⟩, h3⟩
  have h3 : s1 = s1' := h3
  have h1 : mem1 = _ := h1
  have h2 : mid.flatten.length = _ := h2
  subst h3
  dsimp only
  rw [Mem.read_drop _ _ _ _ hkb, Mem.length_read]
  have hw : mem1 = mem.write b.out (head ++ mid.flatten) := by rw [h1, ← Mem.write_append, hhead]
  split
  · exact .ok ⟨hw, rfl⟩
  · rename_i hne
    refine ExRel.bind (hp (Q := Eq) _ _ s1 fun _ => rfl) ?_
    rintro ⟨kb, s2⟩ ⟨kb', s2'⟩ ⟨h4, h5⟩
    have h4 : kb = kb' := h4
    have h5 : s2 = s2' := h5
    subst h4 h5
    refine .ok ⟨?_, rfl⟩
    dsimp only
    have hlt : b.len - min (bs - pos) b.len - (b.len - min (bs - pos) b.len) / bs * bs ≤ bs := by
      have := Nat.mod_lt (b.len - min (bs - pos) b.len) hbs
      have e := Nat.div_add_mod (b.len - min (bs - pos) b.len) bs
      rw [Nat.mul_comm] at e
      omega
    have hkl : (kb.toList.take (b.len - min (bs - pos) b.len - (b.len - min (bs - pos) b.len) / bs * bs)).length =
        b.len - min (bs - pos) b.len - (b.len - min (bs - pos) b.len) / bs * bs := by
      rw [List.length_take, Vector.length_toList, Nat.min_eq_left hlt]
    have hok2 := hok.drop _ hkb
    rw [xorLoop_eq _ _ _ _ (by rw [hkl]; exact hok2), xorArray, hkl]
    have hrd2 : mem1.read (b.inp + min (bs - pos) b.len + (b.len - min (bs - pos) b.len) / bs * bs)
        (b.len - min (bs - pos) b.len - (b.len - min (bs - pos) b.len) / bs * bs) =
        (mem.write b.out head).read (b.inp + min (bs - pos) b.len + (b.len - min (bs - pos) b.len) / bs * bs)
        (b.len - min (bs - pos) b.len - (b.len - min (bs - pos) b.len) / bs * bs) := by
      rw [h1]
      have := hok.read (mem.write b.out head) mid.flatten (by rw [h2]; exact hkb)
      rw [h2] at this
      exact this
    rw [hrd2, hw]
    rw [← Mem.write_append (head ++ mid.flatten), List.length_append, hhead, h2, Nat.add_assoc]

/-- Memory after a call with output `l`. -/
def memAfter (mem : Mem) (a : Nat) (l : List U8) : Except CipherError Unit → Mem
  | .ok _ => mem.write a l
  | .error _ => mem

theorem tryApplyMem_rel {C : Core bs χ} (hp : Plain C) (hbs : 0 < bs) (x : χ) (w : Wrapper bs C.σ) (b : InOutBuf) (hb : b.Ok) (mem : Mem) :
    ExRel (fun r r' => r.1 = r'.1 ∧ r.2.1 = memAfter mem b.out r'.2.1 r'.1 ∧ r.2.2 = r'.2.2)
      (w.tryApplyMem C x b mem) (w.tryApply C x (mem.read b.inp b.len)) := by
  unfold Wrapper.tryApplyMem Wrapper.tryApply
  rw [Mem.length_read]
  cases w.checkRemaining C b.len with
  | error e => exact .ok ⟨rfl, rfl, rfl⟩
  | ok _ =>
    refine ExRel.bind (uncheckedApplyMem_rel hp hbs x w b hb mem) ?_
    rintro ⟨m1, w1⟩ ⟨out, w2⟩ ⟨h1, h2⟩
    exact .ok ⟨rfl, h1, h2⟩

/-! ## RC4 -/

theorem Rc4.applyLoop_eq (n : Nat) : ∀ (inp out : Nat) (m : Mem) (s : State), InOutBuf.Ok ⟨inp, out, n⟩ →
    applyLoop n inp out m s = (m.write out (applyKeystream (m.read inp n) s).1, (applyKeystream (m.read inp n) s).2) := by
  induction n with
  | zero => intro inp out m s _; rfl
  | succ n ih =>
    intro inp out m s h
    have h1 : InOutBuf.Ok ⟨inp + 1, out + 1, n⟩ := by
      have := h.drop 1 (by show 1 ≤ n + 1; omega)
      simpa [InOutBuf.drop] using this
    have hr : (m.write out [(prga s).1 ^^^ m inp]).read (inp + 1) n = m.read (inp + 1) n := by
      have := h.read m [(prga s).1 ^^^ m inp] (by simp)
      simpa using this
    have hs : m.set out ((prga s).1 ^^^ m inp) = m.write out [(prga s).1 ^^^ m inp] := rfl
    have hc : m.read inp (n + 1) = m inp :: m.read (inp + 1) n := by rw [Nat.add_comm, Mem.read_add]; rfl
    rw [hc]
    simp only [applyLoop, applyKeystream]
    rw [ih _ _ _ _ h1, hs, hr]
    rfl

/-! ## Histories -/

section
variable {σ ι κ : Type} {apply : χ → σ → InOutBuf → Mem → Except Panic (Except CipherError Unit × Mem × σ)}
  {step : χ → σ → κ → Except Panic (Obs × σ)} {emb : Op → κ} {nav : ι → κ} {ok : κ → Prop} {cstep : Nat → κ → Obs × Nat}
  {toSeek : κ → SeekOp} {st : Nat → U8} {limit : Option Nat} {u : Nat}

/-- The method on memory does what the method on values does. -/
def Refines (apply : χ → σ → InOutBuf → Mem → Except Panic (Except CipherError Unit × Mem × σ))
    (step : χ → σ → κ → Except Panic (Obs × σ)) (emb : Op → κ) : Prop :=
  ∀ x w b mem r out w', b.Ok → step x w (emb (.apply (mem.read b.inp b.len))) = .ok (.data r out, w') →
    apply x w b mem = .ok (r, memAfter mem b.out out r, w')

theorem Spec.Simulates.one {w : σ} {p : Nat} (hs : Simulates step ok cstep w p) (x : χ) (i : κ) (hi : ok i) :
    ∃ w', step x w i = .ok ((cstep p i).1, w') ∧ Simulates step ok cstep w' (cstep p i).2 := by
  have hh : ∀ e ∈ [(x, i)], ok e.2 := by
    intro e he
    rw [List.mem_singleton.1 he]
    exact hi
  obtain ⟨w', h1⟩ := hs [(x, i)] hh
  have h2 := (hs.after _ hh _ _ h1).2
  refine ⟨w', ?_, h2⟩
  simp only [runHistory, bind, Except.bind, pure, Except.pure, List.map_cons, List.map_nil, Cursor.run] at h1
  generalize step x w i = y at h1
  cases y with
  | error e => cases h1
  | ok r =>
    simp only [Except.ok.injEq, Prod.mk.injEq, List.cons.injEq, and_true] at h1
    rw [← h1.1, ← h1.2]

theorem apply_inout (L : IoLike u ok cstep emb toSeek st limit) (hr : Refines apply step emb) (x : χ) (w : σ) (p : Nat)
    (hs : Simulates step ok cstep w p) (b : InOutBuf) (hb : b.Ok) (hlen : b.len < 2 ^ u) (mem : Mem) :
    ∃ w', (if Within limit (p + b.len) then
        apply x w b mem = .ok (.ok (), MemCursor.put mem b.out b.len fun i => mem (b.inp + i) ^^^ st (p + i), w') ∧
          Simulates step ok cstep w' (p + b.len)
      else apply x w b mem = .ok (.error .streamCipherError, mem, w') ∧ Simulates step ok cstep w' p) := by
  obtain ⟨w', h1, h2⟩ := hs.one x (emb (.apply (mem.read b.inp b.len))) (L.okEmb _ (by show List.length _ < _; rw [Mem.length_read]; exact hlen))
  rw [L.io] at h1 h2
  refine ⟨w', ?_⟩
  simp only [Cursor.io, Mem.length_read] at h1 h2
  split
  · rename_i hw
    rw [if_pos hw] at h1 h2
    refine ⟨(hr x w b mem _ _ w' hb h1).trans ?_, h2⟩
    dsimp only [memAfter]
    rw [Mem.put_eq mem b.out _ b.len (fun i => mem (b.inp + i) ^^^ st (p + i))]
    · rw [List.length_zipWith, Mem.length_read, window_length, Nat.min_self]
    · intro i hi
      rw [List.getD_eq_getElem?_getD, List.getElem?_zipWith, List.getElem?_eq_getElem (by rw [Mem.length_read]; exact hi),
        List.getElem?_eq_getElem (by rw [window_length]; exact hi), Mem.getElem_read]
      simp [window]
  · rename_i hw
    rw [if_neg hw] at h1 h2
    exact ⟨hr x w b mem _ _ w' hb h1, h2⟩

theorem memStep_spec (L : IoLike u ok cstep emb toSeek st limit) (hr : Refines apply step emb) (x : χ) (w : σ) (p : Nat)
    (hs : Simulates step ok cstep w p) (mem : Mem) (e : MemCall ι) (he : MemCursor.Fits u (fun i => ok (nav i)) e) :
    ∃ w', memStep apply step emb nav x (w, mem) e =
        .ok ((MemCursor.step st limit (fun p i => cstep p (nav i)) (p, mem) e).1, w',
          (MemCursor.step st limit (fun p i => cstep p (nav i)) (p, mem) e).2.2) ∧
      Simulates step ok cstep w' (MemCursor.step st limit (fun p i => cstep p (nav i)) (p, mem) e).2.1 := by
  cases e with
  | inout b =>
    obtain ⟨w', h⟩ := apply_inout L hr x w p hs b he.1 he.2 mem
    refine ⟨w', ?_⟩
    simp only [memStep, MemCursor.step]
    split at h
    · rename_i hw
      rw [h.1, if_pos hw]
      exact ⟨rfl, h.2⟩
    · rename_i hw
      rw [h.1, if_neg hw]
      exact ⟨rfl, h.2⟩
  | b2b inp ilen out olen =>
    simp only [memStep, MemCursor.step]
    by_cases hl : ilen = olen
    · subst hl
      obtain ⟨w', h⟩ := apply_inout L hr x w p hs ⟨inp, out, ilen⟩ (Or.inr he.1) he.2.1 mem
      refine ⟨w', ?_⟩
      rw [if_pos rfl]
      simp only [true_and]
      split at h
      · rename_i hw
        rw [h.1, if_pos hw]
        exact ⟨rfl, h.2⟩
      · rename_i hw
        rw [h.1, if_neg hw]
        exact ⟨rfl, h.2⟩
    · refine ⟨w, ?_⟩
      rw [if_neg hl, if_neg (fun h => hl h.1)]
      exact ⟨rfl, hs⟩
  | fill a n =>
    have he : n < 2 ^ u := he
    obtain ⟨w', h1, h2⟩ := hs.one x (emb (.write (mem.read a n))) (L.okEmb _ (by show List.length _ < _; rw [Mem.length_read]; exact he))
    rw [L.io] at h1 h2
    refine ⟨w', ?_⟩
    simp only [Cursor.io, Mem.length_read] at h1 h2
    simp only [memStep, MemCursor.step]
    split at h1
    · rename_i hw
      rw [if_pos hw] at h2
      rw [h1, if_pos hw]
      refine ⟨?_, h2⟩
      show Except.ok (Obs.done (.ok ()), w', mem.write a (window st p n)) = _
      rw [Mem.put_eq mem a _ n (fun i => st (p + i)) (window_length ..)]
      intro i hi
      rw [List.getD_eq_getElem?_getD, List.getElem?_eq_getElem (by rw [window_length]; exact hi)]
      simp [window]
    · rename_i hw
      rw [if_neg hw] at h2
      rw [h1, if_neg hw]
      refine ⟨?_, h2⟩
      show Except.ok (Obs.done (.error .streamCipherError), w', mem.write a (mem.read a n)) = _
      rw [Mem.write_read]
  | store a l =>
    refine ⟨w, ?_, hs⟩
    simp only [memStep, MemCursor.step]
    rw [Mem.put_eq mem a l l.length (fun i => l.getD i 0) rfl fun _ _ => rfl]
  | other i =>
    obtain ⟨w', h1, h2⟩ := hs.one x (nav i) he
    refine ⟨w', ?_, h2⟩
    simp only [memStep, MemCursor.step]
    rw [h1]
    rfl

theorem memHistory_spec (L : IoLike u ok cstep emb toSeek st limit) (hr : Refines apply step emb) (h : List (χ × MemCall ι)) :
    ∀ (w : σ) (p : Nat) (mem : Mem), Simulates step ok cstep w p → (∀ e ∈ h, MemCursor.Fits u (fun i => ok (nav i)) e.2) →
    ∃ w', runHistory (memStep apply step emb nav) h (w, mem) =
      .ok ((MemCursor.run (MemCursor.step st limit fun p i => cstep p (nav i)) (h.map (·.2)) (p, mem)).1, w',
        (MemCursor.run (MemCursor.step st limit fun p i => cstep p (nav i)) (h.map (·.2)) (p, mem)).2.2) ∧
      Simulates step ok cstep w' (MemCursor.run (MemCursor.step st limit fun p i => cstep p (nav i)) (h.map (·.2)) (p, mem)).2.1 := by
  induction h with
  | nil => intro w p mem hs _; exact ⟨w, rfl, hs⟩
  | cons e h ih =>
    intro w p mem hs hh
    obtain ⟨x, e⟩ := e
    obtain ⟨w1, h1, h2⟩ := memStep_spec (nav := nav) L hr x w p hs mem e (hh _ List.mem_cons_self)
    obtain ⟨w2, h3, h4⟩ := ih w1 _ (MemCursor.step st limit (fun p i => cstep p (nav i)) (p, mem) e).2.2 h2
      fun e he => hh e (List.mem_cons_of_mem _ he)
    refine ⟨w2, ?_, h4⟩
    simp only [runHistory, h1, List.map_cons, MemCursor.run, bind, Except.bind, h3]
    rfl

/-- In place against from buffer to buffer, on the cursor. -/
theorem MemCursor.b2b_inout (st : Nat → U8) (limit : Option Nat) (cstep : Nat → ι → Obs × Nat) (s : Nat × Mem) (inp out n : Nat)
    (hd : inp + n ≤ out ∨ out + n ≤ inp) :
    let r := MemCursor.step st limit cstep s (.b2b inp n out n)
    let r' := MemCursor.step st limit cstep s (.inout ⟨inp, inp, n⟩)
    r.1 = r'.1 ∧ r.2.1 = r'.2.1 ∧ (r.1 = .done (.ok ()) → r.2.2.read out n = r'.2.2.read inp n) ∧
      r.2.2.read inp n = s.2.read inp n ∧ ∀ x, ¬ (out ≤ x ∧ x < out + n) → r.2.2 x = s.2 x := by
  dsimp only [MemCursor.step]
  by_cases hw : Within limit (s.1 + n)
  · rw [if_pos hw, if_pos ⟨rfl, hw⟩]
    refine ⟨rfl, rfl, fun _ => ?_, ?_, ?_⟩
    · simp only [Mem.read]
      apply List.map_congr_left
      intro i hi
      rw [List.mem_range] at hi
      simp only [MemCursor.put]
      rw [if_pos (by omega), if_pos (by omega), Nat.add_sub_cancel_left, Nat.add_sub_cancel_left]
    · simp only [Mem.read]
      apply List.map_congr_left
      intro i hi
      rw [List.mem_range] at hi
      simp only [MemCursor.put]
      rw [if_neg (by omega)]
    · intro x hx
      simp only [MemCursor.put]
      rw [if_neg hx]
  · rw [if_neg hw, if_neg fun h => hw h.2]
    exact ⟨rfl, rfl, fun h => by simp at h, rfl, fun _ _ => rfl⟩

theorem memStep_b2b (L : IoLike u ok cstep emb toSeek st limit) (hr : Refines apply step emb) (x x' : χ) (w : σ) (p : Nat)
    (hs : Simulates step ok cstep w p) (mem : Mem) (inp out n : Nat) (hd : inp + n ≤ out ∨ out + n ≤ inp) (hn : n < 2 ^ u) :
    ∃ o w1 m1 w2 m2, memStep apply step emb nav x (w, mem) (.b2b inp n out n) = .ok (o, w1, m1) ∧
      memStep apply step emb nav x' (w, mem) (.inout ⟨inp, inp, n⟩) = .ok (o, w2, m2) ∧
      (o = .done (.ok ()) → m1.read out n = m2.read inp n) ∧ m1.read inp n = mem.read inp n ∧
      ∀ a, ¬ (out ≤ a ∧ a < out + n) → m1 a = mem a := by
  obtain ⟨w1, h1, _⟩ := memStep_spec (nav := nav) L hr x w p hs mem (.b2b inp n out n) ⟨hd, hn, hn⟩
  obtain ⟨w2, h2, _⟩ := memStep_spec (nav := nav) L hr x' w p hs mem (.inout ⟨inp, inp, n⟩) ⟨Or.inl rfl, hn⟩
  have := MemCursor.b2b_inout st limit (fun p i => cstep p (nav i)) (p, mem) inp out n hd
  refine ⟨_, w1, _, w2, _, h1, ?_, this.2.2.1, this.2.2.2.1, this.2.2.2.2⟩
  rw [h2, this.1]

end

end Verif
