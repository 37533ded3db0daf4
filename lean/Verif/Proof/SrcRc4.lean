import Verif.Rust.Src.Rc4
import Verif.Rust.Lemmas
import Verif.Proof.Rc4
/-!
# The text of `rc4` computes the model
-/
namespace Verif.Rust.Rc4

/-- A state of the model as a value of the Rust structure. -/
def repr (s : Verif.Rc4.State) : Rc4 := ⟨s.state.toList, s.i, s.j⟩

variable {tgt : Target} (ht : 16 ≤ tgt.bits)
include ht

theorem s_i_eq (s : Verif.Rc4.State) : Rc4.s_i tgt (repr s) = .ok (Verif.Rc4.at_ s.state s.i) := by
  rw [Rc4.s_i, repr, cast_byte ht, idx_vec _ _ s.i.isLt]; rfl

theorem s_j_eq (s : Verif.Rc4.State) : Rc4.s_j tgt (repr s) = .ok (Verif.Rc4.at_ s.state s.j) := by
  rw [Rc4.s_j, repr, cast_byte ht, idx_vec _ _ s.j.isLt]; rfl

theorem swap_eq (t : Vector U8 256) (a b : U8) :
    swap t.toList (cast (Usize tgt) a) (cast (Usize tgt) b) = .ok (Verif.Rc4.swap t a b).toList := by
  rw [cast_byte ht, cast_byte ht, swap_vec t _ _ a.isLt b.isLt]; rfl

theorem prga_eq (s : Verif.Rc4.State) : Rc4.prga tgt (repr s) = .ok ((Verif.Rc4.prga s).1, repr (Verif.Rc4.prga s).2) := by
  have h1 := s_i_eq ht ⟨s.state, s.i + 1, s.j⟩
  have h2 := fun t j => s_i_eq ht ⟨t, s.i + 1, j⟩
  have h3 := fun t j => s_j_eq ht ⟨t, s.i + 1, j⟩
  rw [repr] at h1
  simp only [repr] at h2 h3
  rw [Rc4.prga]
  simp only [repr, show ∀ a b : U8, RInt.wadd a b = a + b from fun _ _ => rfl]
  rw [h1, ok_bind, swap_eq ht, ok_bind, h2, ok_bind, h3, ok_bind, cast_byte ht, idx_vec _ _ (BitVec.isLt _), ok_bind, pure_eq]
  rfl

omit ht in
theorem identity_eq : fromFn (tgt := tgt) 256 (fun i => (Unwrap.unwrap (TryInto.tryInto i : Option U8) : Except Panic U8)) =
    .ok (Vector.ofFn fun i : Fin 256 => BitVec.ofFin i).toList := by
  refine fromFn_vec 256 _ _ fun k hk => ?_
  have h : (TryInto.tryInto (⟨k⟩ : Usize tgt) : Option U8) = some (BitVec.ofNat 8 k) := if_pos hk
  rw [h]
  refine congrArg Except.ok ?_
  rw [Vector.getElem_ofFn]
  exact BitVec.eq_of_toNat_eq (by simp; omega)

omit ht

/-- The key schedule of the model, round by round. -/
def rounds (key : List U8) (k : Nat) : Vector U8 256 × U8 :=
  (((List.finRange 256).zip (Verif.Rc4.cycle key 256 key)).take k).foldl Verif.Rc4.ksaStep
    (Vector.ofFn fun i : Fin 256 => BitVec.ofFin i, 0)

theorem rounds_zero (key : List U8) : rounds key 0 = (Vector.ofFn fun i : Fin 256 => BitVec.ofFin i, 0) := by
  rw [rounds, List.take_zero, List.foldl_nil]

theorem rounds_succ (key : List U8) (hk : key ≠ []) (n : Nat) (hn : n < 256) (h : n % key.length < key.length) :
    rounds key (n + 1) = Verif.Rc4.ksaStep (rounds key n) (⟨n, hn⟩, key[n % key.length]) := by
  have hlen : ((List.finRange 256).zip (Verif.Rc4.cycle key 256 key)).length = 256 := by
    rw [List.length_zip, List.length_finRange, Verif.Rc4.cycle_length key hk]; rfl
  have hget : ((List.finRange 256).zip (Verif.Rc4.cycle key 256 key))[n]'(by omega) = (⟨n, hn⟩, key[n % key.length]) := by
    rw [List.getElem_zip]
    refine Prod.ext ?_ ?_
    · simp only [List.getElem_finRange, Fin.cast_mk]
    · have := Verif.Rc4.cycle_getElem? key hk 256 0 n (by omega) (by omega)
      rw [List.drop_zero, Nat.zero_add, List.getElem?_eq_getElem (by rw [Verif.Rc4.cycle_length key hk]; omega),
        List.getElem?_eq_getElem h] at this
      exact Option.some.inj this
  rw [rounds, List.take_succ_eq_append_getElem (by omega), List.foldl_append, hget]
  rfl

theorem model_new (key : List U8) (h : 1 ≤ key.length ∧ key.length ≤ 256) :
    Verif.Rc4.newFromSlice key = .ok (.ok ⟨(rounds key 256).1, 0, 0⟩) := by
  have hk : key ≠ [] := by rintro rfl; simp at h
  have hlen : ((List.finRange 256).zip (Verif.Rc4.cycle key 256 key)).length = 256 := by
    rw [List.length_zip, List.length_finRange, Verif.Rc4.cycle_length key hk]; rfl
  unfold Verif.Rc4.newFromSlice
  rw [if_neg (by omega), Verif.Rc4.identity_eq, rounds, List.take_of_length_le (by omega)]
  rfl

include ht

theorem new_from_slice_ok (key : List U8) (h : 1 ≤ key.length ∧ key.length ≤ 256) :
    Rc4.new_from_slice tgt key = .ok (.ok (repr ⟨(rounds key 256).1, 0, 0⟩)) := by
  have hk : key ≠ [] := by rintro rfl; simp at h
  have h1 : lt (len tgt key) 1 = false := decide_eq_false (show ¬ key.length < 1 by omega)
  have h2 : lt (256 : Usize tgt) (len tgt key) = false := decide_eq_false (show ¬ 256 < key.length by omega)
  simp only [Rc4.new_from_slice, MIN_KEY_SIZE, MAX_KEY_SIZE, pure_eq, ok_bind, h1, h2, Bool.false_eq_true, if_false]
  rw [identity_eq, ok_bind, cycleLen, if_neg (by omega)]
  simp only [val_lit, Nat.sub_zero, Nat.zero_add]
  rw [forIn_range 256 (fun k => ((rounds key k).1.toList, (rounds key k).2)) _
    ((Vector.ofFn fun i : Fin 256 => BitVec.ofFin i).toList, 0) (by rw [rounds_zero]), ok_bind]
  · rfl
  · intro k hk'
    have hm : k % key.length < key.length := Nat.mod_lt _ (by omega)
    dsimp only
    rw [nth_ok _ _ hm, ok_bind, idx_vec _ _ hk', ok_bind, cast_byte ht, swap_vec _ _ _ hk' (BitVec.isLt _), ok_bind, rounds_succ key hk k hk' hm]
    rfl

omit ht in
theorem new_from_slice_err (key : List U8) (h : ¬ (1 ≤ key.length ∧ key.length ≤ 256)) :
    Rc4.new_from_slice tgt key = .ok (.error ⟨⟩) := by
  simp only [Rc4.new_from_slice, MIN_KEY_SIZE, MAX_KEY_SIZE, pure_eq, ok_bind]
  by_cases h1 : key.length < 1
  · rw [show lt (len tgt key) 1 = true from decide_eq_true h1]; rfl
  · rw [show lt (len tgt key) 1 = false from decide_eq_false h1,
      show lt (256 : Usize tgt) (len tgt key) = true from decide_eq_true (show 256 < key.length by omega)]; rfl

theorem apply_eq (s : Verif.Rc4.State) (data : List (InOut U8)) :
    Rc4.unchecked_apply_keystream_inout tgt (repr s) data =
      .ok ((), repr (Verif.Rc4.applyKeystream (data.map InOut.get_in) s).2,
        List.zipWith InOut.mk (data.map InOut.get_in) (Verif.Rc4.applyKeystream (data.map InOut.get_in) s).1) := by
  rw [Rc4.unchecked_apply_keystream_inout]
  dsimp only
  rw [forIn_elems repr data s _ fun s b => ((Verif.Rc4.prga s).2, ⟨b.get_in, (Verif.Rc4.prga s).1 ^^^ b.get_in⟩), ok_bind, pure_eq]
  · refine congrArg (fun x : Rc4 × List (InOut U8) => Except.ok ((), x)) ?_
    induction data generalizing s with
    | nil => rfl
    | cons b data ih =>
      obtain ⟨e1, e2⟩ := Prod.mk.inj (ih (Verif.Rc4.prga s).2)
      dsimp only at e1 e2
      simp only [mapAccum, e1, e2, List.map_cons, Verif.Rc4.applyKeystream, List.zipWith_cons_cons]
  · intro k s l hk
    rw [nth_ok _ _ hk, ok_bind, prga_eq ht, ok_bind, pure_eq]
    rfl

theorem write_eq (s : Verif.Rc4.State) (data : List U8) :
    Rc4.unchecked_write_keystream tgt (repr s) data =
      .ok ((), repr (Verif.Rc4.writeKeystream data s).2, (Verif.Rc4.writeKeystream data s).1) := by
  rw [Rc4.unchecked_write_keystream]
  dsimp only
  rw [forIn_elems repr data s _ fun s _ => ((Verif.Rc4.prga s).2, (Verif.Rc4.prga s).1), ok_bind, pure_eq]
  · refine congrArg (fun x : Rc4 × List U8 => Except.ok ((), x)) ?_
    induction data generalizing s with
    | nil => rfl
    | cons b data ih =>
      obtain ⟨e1, e2⟩ := Prod.mk.inj (ih (Verif.Rc4.prga s).2)
      dsimp only at e1 e2
      simp only [mapAccum, e1, e2, Verif.Rc4.writeKeystream]
  · intro k s l hk
    rw [nth_ok _ _ hk, ok_bind, prga_eq ht, ok_bind, pure_eq]

end Verif.Rust.Rc4
