import Verif.Proof.SrcClosure
import Verif.Proof.SrcChaChaRng
import Verif.Rust.Intrinsics
/-!
# Rows of registers in translated text
-/
namespace Verif.Rust.ChaCha
open Verif.ChaCha (State)

/-- Four rows, as the array they are in the source. -/
def rowsL {α : Type} (r : Rows α) : List α := [r.a, r.b, r.c, r.d]

theorem nth_rows {α : Type} (l : List (Rows α)) (k : Nat) (h : k < l.length) : nth (l.map rowsL) k = .ok (rowsL l[k]) := by
  rw [nth_ok _ _ (by rw [List.length_map]; exact h), List.getElem_map]

/-- `for x in l.iter_mut()`, for an array of rows. -/
theorem each_rows {α : Type} (f : Nat → List (List α) → Except Panic (ForInStep (List (List α)))) (g : Rows α → Rows α) (l : List (Rows α)) (n : Nat)
    (hn : n = l.length)
    (h : ∀ k (l : List (Rows α)) (hk : k < l.length), f k (l.map rowsL) = .ok (.yield ((l.map rowsL).set k (rowsL (g l[k]))))) :
    forIn (List.range n) (l.map rowsL) f = .ok ((l.map g).map rowsL) := by
  subst hn
  have := forIn_range l.length (fun k => ((l.take k).map g ++ l.drop k).map rowsL) f (l.map rowsL) rfl (by
    intro k hk
    have ht : ((l.take k).map g).length = k := by rw [List.length_map, List.length_take]; omega
    have hlen : k < ((l.take k).map g ++ l.drop k).length := by rw [List.length_append, ht, List.length_drop]; omega
    rw [h k _ hlen]
    refine congrArg (fun x => Except.ok (ForInStep.yield x)) ?_
    have hg : ((l.take k).map g ++ l.drop k)[k] = l[k] := by
      rw [List.getElem_append_right (by omega)]
      simp only [ht, Nat.sub_self, List.getElem_drop, Nat.add_zero]
    rw [hg, ← List.map_set, List.set_append_right _ _ (by omega), ht, Nat.sub_self, List.drop_eq_getElem_cons hk, List.set_cons_zero,
      List.take_succ_eq_append_getElem hk]
    simp only [List.map_append, List.map_cons, List.map_nil, List.append_assoc, List.cons_append, List.nil_append])
  rw [this, List.take_length, List.drop_length, List.append_nil]

section
variable {R V : Type} [Rounds R] [Variant V] {tgt : Target}

/-- `size_of::<V::Counter>()`. -/
theorem counter_size {v : Verif.ChaCha.Variant} (hV : Is V v) : sizeOfTy tgt (Variant.Counter V) = ⟨v.ctrBytes⟩ := congrArg Usize.mk hV

/-- `match size_of::<V::Counter>() { 4 => a, 8 => b, _ => unreachable!() }`. -/
theorem counter_match {α : Type} {v : Verif.ChaCha.Variant} (hV : Is V v) (a b c : Except Panic α) :
    (if (sizeOfTy tgt (Variant.Counter V) == 4) = true then a else if (sizeOfTy tgt (Variant.Counter V) == 8) = true then b else c) =
      if v.ctrBytes = 4 then a else b := by
  rw [counter_size hV]
  cases v <;> rfl

end

/-! ## Rows in memory -/

theorem rows_bytes (r : Rows M128) : (rowsL r).flatMap Reg.bytes = r.store.toList := by
  rw [Rows.store, Verif.Raw.leBytes_toList]
  show Reg.bytes r.a ++ (Reg.bytes r.b ++ (Reg.bytes r.c ++ (Reg.bytes r.d ++ []))) = _
  show (toLeBytes r.a.x0 ++ toLeBytes r.a.x1 ++ toLeBytes r.a.x2 ++ toLeBytes r.a.x3) ++ ((toLeBytes r.b.x0 ++ toLeBytes r.b.x1 ++ toLeBytes r.b.x2 ++ toLeBytes r.b.x3)
    ++ ((toLeBytes r.c.x0 ++ toLeBytes r.c.x1 ++ toLeBytes r.c.x2 ++ toLeBytes r.c.x3)
    ++ ((toLeBytes r.d.x0 ++ toLeBytes r.d.x1 ++ toLeBytes r.d.x2 ++ toLeBytes r.d.x3) ++ []))) = _
  simp only [toLeBytes_eq, List.append_assoc]
  rfl

theorem rows_words (r : Rows M128) : (rowsL r).flatMap Reg.bytes = Mem.bytes r.words.toList := by
  rw [rows_bytes, Rows.store, Verif.Raw.leBytes_toList, ← flatMap_bytes]
  rfl

/-- A block made of four rows. -/
theorem cells_block (b : List U8) (hb : b.length = 64) (r : Rows M128) : cells b (rowsL r) = r.store.toList := by
  rw [cells, rows_bytes, put_u8 _ _ (by rw [Vector.length_toList, hb])]

theorem flatMap_store (res : List (Rows M128)) : (res.flatMap rowsL).flatMap Reg.bytes = Mem.bytes (res.map fun r => r.store.toList) := by
  induction res with
  | nil => rfl
  | cons r res ih => rw [List.flatMap_cons, List.flatMap_append, ih, List.map_cons, bytes_cons, bytes_u8, rows_bytes]

/-- Blocks made of rows. -/
theorem cells_blocks {n : Nat} (l : List (List U8)) (hl : Blocks64 n l) (res : List (Rows M128)) (hr : res.length = n) :
    cells l (res.flatMap rowsL) = res.map fun r => r.store.toList := by
  rw [cells, flatMap_store]
  refine put_blocks hl ⟨by rw [List.length_map, hr], ?_⟩
  intro b hb
  obtain ⟨r, _, rfl⟩ := List.mem_map.mp hb
  exact Vector.length_toList ..

theorem bytes_append {α : Type} [Mem α] (a b : List α) : Mem.bytes (a ++ b) = Mem.bytes a ++ Mem.bytes b := List.flatMap_append ..

theorem flatMap_words (res : List (Rows M128)) : (res.flatMap rowsL).flatMap Reg.bytes = Mem.bytes (res.flatMap fun r => r.words.toList) := by
  induction res with
  | nil => rfl
  | cons r res ih => rw [List.flatMap_cons, List.flatMap_append, ih, List.flatMap_cons, bytes_append, rows_words]

/-- Words made of rows. -/
theorem cells_words (l : List U32) (res : List (Rows M128)) (h : l.length = 16 * res.length) :
    cells l (res.flatMap rowsL) = res.flatMap fun r => r.words.toList := by
  rw [cells, flatMap_words]
  refine put_u32 _ _ ?_
  rw [h, List.length_flatMap, List.map_congr_left (g := fun _ => 16) (fun r _ => Vector.length_toList ..), List.map_const', List.sum_replicate_nat,
    Nat.mul_comm]

theorem words_load (s : State) : (Rows.load s).words = s := by
  apply Vector.ext
  intro i hi
  rcases i with _ | _ | _ | _ | _ | _ | _ | _ | _ | _ | _ | _ | _ | _ | _ | _ | i <;> first | rfl | omega

/-- Loading row `k` of the state. -/
theorem load_state (s : State) (k off : Nat) (hk : k < 4) (ho : off = k * 16) :
    (load s.toList off : Except Panic M128) = .ok ((rowsL (Rows.load s))[k]'hk) :=
  load_cells s.toList (rowsL (Rows.load s)) (by rw [rows_words, words_load]) k off hk ho

theorem size_state (s : State) : Mem.size s.toList = 64 := by rw [size_u32, Vector.length_toList]

theorem size_flat (res : List (Rows M128)) : (res.flatMap rowsL).length = 4 * res.length := by
  rw [List.length_flatMap]
  show (res.map fun _ => 4).sum = _
  rw [List.map_const', List.sum_replicate_nat, Nat.mul_comm]

theorem flat_get (res : List (Rows M128)) (k i : Nat) (hk : k < res.length) (hi : i < 4) (h : 4 * k + i < (res.flatMap rowsL).length) :
    (res.flatMap rowsL)[4 * k + i] = (rowsL res[k])[i]'hi := by
  induction res generalizing k with
  | nil => exact absurd hk (Nat.not_lt_zero _)
  | cons r res ih =>
    simp only [List.flatMap_cons]
    cases k with
    | zero =>
      simp only [Nat.mul_zero, Nat.zero_add, List.getElem_cons_zero]
      exact List.getElem_append_left ..
    | succ k =>
      have hk' : k < res.length := by simpa using hk
      rw [List.getElem_append_right (by rw [show (rowsL r).length = 4 from rfl]; omega)]
      simp only [show (rowsL r).length = 4 from rfl, show 4 * (k + 1) + i - 4 = 4 * k + i by omega, List.getElem_cons_succ]
      exact ih k hk' (by rw [size_flat]; omega)

end Verif.Rust.ChaCha
