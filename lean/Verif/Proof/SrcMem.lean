import Verif.Proof.SrcBytes
import Verif.Rust.Mem
/-!
# Raw memory of translated text
-/
namespace Verif.Rust

theorem bind_of {α β : Type} {m : Except Panic α} {a : α} (h : m = .ok a) (f : α → Except Panic β) : (m >>= f) = f a := by rw [h, ok_bind]

/-- Laws of registers. -/
class LawfulReg (β : Type) [Reg β] : Prop where
  length_bytes : ∀ x : β, (Reg.bytes x).length = Reg.size β
  ofBytes_bytes : ∀ x : β, Reg.ofBytes (Reg.bytes x) = x
  bytes_ofBytes : ∀ b, b.length = Reg.size β → Reg.bytes (Reg.ofBytes b : β) = b

/-- Laws of memory. -/
class LawfulMem (α : Type) [Mem α] : Prop where
  size_put : ∀ (a : α) b, b.length = Mem.size a → Mem.size (Mem.put a b) = Mem.size a
  put_put : ∀ (a : α) b c, b.length = Mem.size a → Mem.put (Mem.put a b) c = Mem.put a c
  put_bytes : ∀ a : α, Mem.put a (Mem.bytes a) = a
  bytes_put : ∀ (a : α) b, b.length = Mem.size a → Mem.bytes (Mem.put a b) = b

instance : LawfulReg U8 where
  length_bytes _ := rfl
  ofBytes_bytes _ := rfl
  bytes_ofBytes b h := by
    match b, h with
    | [x], _ => rfl

theorem length_toLe (x : U32) : (toLeBytes x).length = 4 := by rw [toLeBytes_eq, Vector.length_toList]

theorem leOf_append (x : U32) (b : List U8) : leOf (toLeBytes x ++ b) = x := by
  rw [toLeBytes_eq, toList4 (toLe32 x)]
  exact le32_toLe32 x

theorem toLe_leOf (a b c d : U8) (l : List U8) : toLeBytes (leOf (a :: b :: c :: d :: l)) = [a, b, c, d] := by
  rw [toLeBytes_eq]
  show (toLe32 (le32 a b c d)).toList = _
  rw [toLe32_le32]
  rfl

instance : LawfulReg U32 where
  length_bytes := length_toLe
  ofBytes_bytes x := by
    have h := leOf_append x []
    rw [List.append_nil] at h
    exact h
  bytes_ofBytes b h := by
    match b, h with
    | [a, b, c, d], _ => exact toLe_leOf a b c d []

theorem bytes128 (x : M128) (l : List U8) : (Reg.ofBytes (Reg.bytes x ++ l) : M128) = x := by
  show (⟨leOf _, leOf _, leOf _, leOf _⟩ : M128) = _
  have e : (Reg.bytes x ++ l : List U8) = toLeBytes x.x0 ++ (toLeBytes x.x1 ++ (toLeBytes x.x2 ++ (toLeBytes x.x3 ++ l))) := by
    show (toLeBytes x.x0 ++ toLeBytes x.x1 ++ toLeBytes x.x2 ++ toLeBytes x.x3) ++ l = _
    simp only [List.append_assoc]
  have d4 (x : U32) (l : List U8) : (toLeBytes x ++ l).drop 4 = l := List.drop_left' (length_toLe x)
  have d8 (x y : U32) (l : List U8) : (toLeBytes x ++ (toLeBytes y ++ l)).drop 8 = l := by
    rw [show 8 = 4 + 4 from rfl, ← List.drop_drop, d4, d4]
  have d12 (x y z : U32) (l : List U8) : (toLeBytes x ++ (toLeBytes y ++ (toLeBytes z ++ l))).drop 12 = l := by
    rw [show 12 = 4 + 8 from rfl, ← List.drop_drop, d4, d8]
  rw [e, leOf_append, d4, leOf_append, d8, leOf_append, d12, leOf_append]

theorem length128 (x : M128) : (Reg.bytes x).length = 16 := by
  show (toLeBytes x.x0 ++ toLeBytes x.x1 ++ toLeBytes x.x2 ++ toLeBytes x.x3).length = 16
  simp only [List.length_append, length_toLe]

theorem ofBytes128_append (a b : List U8) (h : a.length = 16) : (Reg.ofBytes (a ++ b) : M128) = Reg.ofBytes a := by
  match a, h with
  | [a0, a1, a2, a3, a4, a5, a6, a7, a8, a9, a10, a11, a12, a13, a14, a15], _ => rfl

instance : LawfulReg M128 where
  length_bytes := length128
  ofBytes_bytes x := by simpa using bytes128 x []
  bytes_ofBytes b h := by
    match b, h with
    | [a0, a1, a2, a3, a4, a5, a6, a7, a8, a9, a10, a11, a12, a13, a14, a15], _ =>
      show toLeBytes (leOf _) ++ toLeBytes (leOf _) ++ toLeBytes (leOf _) ++ toLeBytes (leOf _) = _
      simp only [List.drop_succ_cons, List.drop_zero, toLe_leOf]
      rfl

/-- The pieces of 16 bytes. -/
theorem bytes_piece (b : List U8) (k n : Nat) (h : b.length = n) (hk : k + 16 ≤ n) :
    Reg.bytes (Reg.ofBytes (b.drop k) : M128) = (b.drop k).take 16 := by
  rw [← List.take_append_drop 16 (b.drop k), ofBytes128_append _ _ (by rw [List.length_take, List.length_drop]; omega),
    LawfulReg.bytes_ofBytes _ (show _ = 16 by rw [List.length_take, List.length_drop]; omega), List.take_append_drop]

theorem take_drop_succ (b : List U8) (k m : Nat) : (b.drop k).take m ++ b.drop (k + m) = b.drop k := by
  rw [← List.drop_drop, List.take_append_drop]

instance : LawfulReg M256 where
  length_bytes x := by
    show (Reg.bytes x.lo ++ Reg.bytes x.hi).length = 32
    rw [List.length_append, length128, length128]
  ofBytes_bytes x := by
    show (⟨Reg.ofBytes (Reg.bytes x.lo ++ Reg.bytes x.hi), Reg.ofBytes ((Reg.bytes x.lo ++ Reg.bytes x.hi).drop 16)⟩ : M256) = x
    rw [bytes128, List.drop_left' (length128 _), LawfulReg.ofBytes_bytes]
  bytes_ofBytes b h := by
    have h : b.length = 32 := h
    show Reg.bytes (Reg.ofBytes (b.drop 0) : M128) ++ Reg.bytes (Reg.ofBytes (b.drop 16) : M128) = b
    rw [bytes_piece b 0 32 h (by decide), bytes_piece b 16 32 h (by decide)]
    rw [List.take_of_length_le (l := b.drop 16) (by rw [List.length_drop]; omega)]
    exact take_drop_succ b 0 16

instance : LawfulReg M512 where
  length_bytes x := by
    show (Reg.bytes x.l0 ++ Reg.bytes x.l1 ++ Reg.bytes x.l2 ++ Reg.bytes x.l3).length = 64
    simp only [List.length_append, length128]
  ofBytes_bytes x := by
    show (⟨Reg.ofBytes (Reg.bytes x.l0 ++ Reg.bytes x.l1 ++ Reg.bytes x.l2 ++ Reg.bytes x.l3),
      Reg.ofBytes ((Reg.bytes x.l0 ++ Reg.bytes x.l1 ++ Reg.bytes x.l2 ++ Reg.bytes x.l3).drop 16),
      Reg.ofBytes ((Reg.bytes x.l0 ++ Reg.bytes x.l1 ++ Reg.bytes x.l2 ++ Reg.bytes x.l3).drop 32),
      Reg.ofBytes ((Reg.bytes x.l0 ++ Reg.bytes x.l1 ++ Reg.bytes x.l2 ++ Reg.bytes x.l3).drop 48)⟩ : M512) = x
    rw [List.append_assoc, List.append_assoc, bytes128, List.drop_left' (length128 _), bytes128,
      show 32 = 16 + 16 from rfl, ← List.drop_drop, List.drop_left' (length128 _), List.drop_left' (length128 _), bytes128,
      show 48 = 16 + (16 + 16) from rfl, ← List.drop_drop, List.drop_left' (length128 _), ← List.drop_drop, List.drop_left' (length128 _),
      List.drop_left' (length128 _), LawfulReg.ofBytes_bytes]
  bytes_ofBytes b h := by
    have h : b.length = 64 := h
    show Reg.bytes (Reg.ofBytes (b.drop 0) : M128) ++ Reg.bytes (Reg.ofBytes (b.drop 16) : M128) ++ Reg.bytes (Reg.ofBytes (b.drop 32) : M128)
      ++ Reg.bytes (Reg.ofBytes (b.drop 48) : M128) = b
    rw [bytes_piece b 0 64 h (by decide), bytes_piece b 16 64 h (by decide), bytes_piece b 32 64 h (by decide), bytes_piece b 48 64 h (by decide),
      List.append_assoc, List.append_assoc, List.take_of_length_le (l := b.drop 48) (by rw [List.length_drop]; omega),
      take_drop_succ b 32 16, take_drop_succ b 16 16]
    exact take_drop_succ b 0 16

instance (β : Type) [Reg β] [LawfulReg β] : LawfulMem β where
  size_put a b h := by
    show (Reg.bytes (Reg.ofBytes b : β)).length = (Reg.bytes a).length
    rw [LawfulReg.length_bytes, LawfulReg.length_bytes]
  put_put _ _ _ _ := rfl
  put_bytes a := LawfulReg.ofBytes_bytes a
  bytes_put a b h := LawfulReg.bytes_ofBytes b (h.trans (LawfulReg.length_bytes a))

section
variable {α : Type} [Mem α]

theorem size_nil : Mem.size ([] : List α) = 0 := rfl

theorem size_cons (a : α) (l : List α) : Mem.size (a :: l) = Mem.size a + Mem.size l := by
  show ((a :: l).flatMap Mem.bytes).length = _
  rw [List.flatMap_cons, List.length_append]
  rfl

theorem bytes_cons (a : α) (l : List α) : Mem.bytes (a :: l) = Mem.bytes a ++ Mem.bytes l := List.flatMap_cons ..

theorem put_cons (a : α) (l : List α) (b : List U8) : Mem.put (a :: l) b = Mem.put a (b.take (Mem.size a)) :: Mem.put l (b.drop (Mem.size a)) := rfl

instance [LawfulMem α] : LawfulMem (List α) where
  size_put l := by
    induction l with
    | nil => intros; rfl
    | cons a l ih =>
      intro b h
      rw [size_cons] at h
      rw [put_cons, size_cons, size_cons, LawfulMem.size_put _ _ (by rw [List.length_take]; omega), ih _ (by rw [List.length_drop]; omega)]
  put_put l := by
    induction l with
    | nil => intros; rfl
    | cons a l ih =>
      intro b c h
      rw [size_cons] at h
      have hl : (b.take (Mem.size a)).length = Mem.size a := by rw [List.length_take]; omega
      rw [put_cons, put_cons, put_cons, LawfulMem.put_put _ _ _ hl, LawfulMem.size_put _ _ hl, ih _ _ (by rw [List.length_drop]; omega)]
  put_bytes l := by
    induction l with
    | nil => rfl
    | cons a l ih =>
      rw [put_cons, bytes_cons]
      have h : (Mem.bytes a).length = Mem.size a := rfl
      rw [List.take_left' h, List.drop_left' h, LawfulMem.put_bytes, ih]
  bytes_put l := by
    induction l with
    | nil =>
      intro b h
      rw [List.length_eq_zero_iff.mp h]
      rfl
    | cons a l ih =>
      intro b h
      rw [size_cons] at h
      rw [put_cons, bytes_cons, LawfulMem.bytes_put _ _ (by rw [List.length_take]; omega), ih _ (by rw [List.length_drop]; omega),
        List.take_append_drop]

end

/-- The value with the bytes of these registers. -/
def cells {α β : Type} [Mem α] [Reg β] (a : α) (c : List β) : α := Mem.put a (c.flatMap Reg.bytes)

section
variable {α β : Type} [Mem α] [LawfulMem α] [Reg β] [LawfulReg β]

omit [Mem α] [LawfulMem α] in
theorem length_cells (c : List β) : (c.flatMap Reg.bytes).length = c.length * Reg.size β := by
  induction c with
  | nil => rw [List.length_nil, Nat.zero_mul]; rfl
  | cons x c ih => rw [List.flatMap_cons, List.length_append, ih, LawfulReg.length_bytes, List.length_cons, Nat.succ_mul, Nat.add_comm]

omit [Mem α] [LawfulMem α] in
theorem cells_exist (b : List U8) (n : Nat) (h : b.length = n * Reg.size β) : ∃ c : List β, c.length = n ∧ c.flatMap Reg.bytes = b := by
  induction n generalizing b with
  | zero => exact ⟨[], rfl, by rw [Nat.zero_mul] at h; rw [List.length_eq_zero_iff.mp h]; rfl⟩
  | succ n ih =>
    rw [Nat.succ_mul] at h
    obtain ⟨c, hc, hb⟩ := ih (b.drop (Reg.size β)) (by rw [List.length_drop]; omega)
    refine ⟨Reg.ofBytes (b.take (Reg.size β)) :: c, by rw [List.length_cons, hc], ?_⟩
    rw [List.flatMap_cons, hb, LawfulReg.bytes_ofBytes _ (by rw [List.length_take]; omega), List.take_append_drop]

theorem exists_cells (a : α) (n : Nat) (h : Mem.size a = n * Reg.size β) : ∃ c : List β, c.length = n ∧ a = cells a c := by
  obtain ⟨c, hc, hb⟩ := cells_exist (β := β) (Mem.bytes a) n h
  exact ⟨c, hc, by rw [cells, hb, LawfulMem.put_bytes]⟩

theorem size_cells (a : α) (c : List β) (h : Mem.size a = c.length * Reg.size β) : Mem.size (cells a c) = Mem.size a :=
  LawfulMem.size_put _ _ (by rw [length_cells, h])

omit [Mem α] [LawfulMem α] in
theorem flatMap_set (c : List β) (j : Nat) (hj : j < c.length) (x : β) :
    (c.flatMap Reg.bytes).take (j * Reg.size β) ++ Reg.bytes x ++ (c.flatMap Reg.bytes).drop (j * Reg.size β + Reg.size β) =
      (c.set j x).flatMap Reg.bytes := by
  induction c generalizing j with
  | nil => exact absurd hj (Nat.not_lt_zero _)
  | cons y c ih =>
    cases j with
    | zero =>
      rw [Nat.zero_mul, List.take_zero, List.nil_append, Nat.zero_add, List.flatMap_cons, List.drop_left' (LawfulReg.length_bytes y)]
      rfl
    | succ j =>
      rw [List.set_cons_succ, List.flatMap_cons, List.flatMap_cons, ← ih j (by simpa using hj), Nat.succ_mul, Nat.add_comm (j * _) (Reg.size β),
        Nat.add_assoc]
      rw [List.take_append, List.drop_append, LawfulReg.length_bytes, Nat.add_sub_cancel_left, Nat.add_sub_cancel_left,
        List.take_of_length_le (by rw [LawfulReg.length_bytes]; omega), List.drop_of_length_le (l := Reg.bytes y) (by rw [LawfulReg.length_bytes]; omega),
        List.nil_append, List.append_assoc, List.append_assoc, List.append_assoc, Nat.add_comm (Reg.size β) (j * _)]

/-- A store into register `j` of memory that consists of registers. -/
theorem store_cells (a : α) (c : List β) (h : Mem.size a = c.length * Reg.size β) (j off : Nat) (hj : j < c.length) (ho : off = j * Reg.size β) (x : β) :
    store (cells a c) off x = .ok (cells a (c.set j x)) := by
  have hb : Mem.bytes (cells a c) = c.flatMap Reg.bytes := LawfulMem.bytes_put _ _ (by rw [length_cells, h])
  have hle : j * Reg.size β + Reg.size β ≤ c.length * Reg.size β := by
    rw [← Nat.succ_mul]
    exact Nat.mul_le_mul_right _ hj
  rw [store, ho, LawfulReg.length_bytes, size_cells a c h, h, if_pos hle, hb, flatMap_set c j hj x, cells, cells,
    LawfulMem.put_put _ _ _ (by rw [length_cells, h])]

omit [Mem α] [LawfulMem α] in
theorem flatMap_get (c : List β) (j : Nat) (hj : j < c.length) :
    ((c.flatMap Reg.bytes).drop (j * Reg.size β)).take (Reg.size β) = Reg.bytes c[j] := by
  induction c generalizing j with
  | nil => exact absurd hj (Nat.not_lt_zero _)
  | cons y c ih =>
    cases j with
    | zero => rw [Nat.zero_mul, List.drop_zero, List.flatMap_cons, List.take_left' (LawfulReg.length_bytes y)]; rfl
    | succ j =>
      rw [List.flatMap_cons, Nat.succ_mul, Nat.add_comm, ← List.drop_drop, List.drop_left' (LawfulReg.length_bytes y), ih j (by simpa using hj)]
      rfl

omit [LawfulMem α] in
/-- A load of register `j` of memory that consists of registers. -/
theorem load_cells (a : α) (c : List β) (h : Mem.bytes a = c.flatMap Reg.bytes) (j off : Nat) (hj : j < c.length) (ho : off = j * Reg.size β) :
    (load a off : Except Panic β) = .ok c[j] := by
  have hs : Mem.size a = c.length * Reg.size β := by rw [Mem.size, h, length_cells]
  have hle : j * Reg.size β + Reg.size β ≤ c.length * Reg.size β := by
    rw [← Nat.succ_mul]
    exact Nat.mul_le_mul_right _ hj
  rw [load, ho, hs, if_pos hle, h, flatMap_get c j hj, LawfulReg.ofBytes_bytes]

end

theorem ptrAdd_ok {tgt : Target} (size unit off : Nat) (i : Usize tgt) (h : off + i.val * unit ≤ size) :
    ptrAdd size unit off i = .ok (off + i.val * unit) := if_pos h

end Verif.Rust
