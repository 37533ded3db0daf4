import Verif.Model.Rc4
import Verif.Spec.Rc4
import Verif.Proof.Stream
/-!
# RC4: the code is RC4; the table stays a permutation; the step is injective; no Finney cycle
-/
namespace Verif.Rc4
open Spec

/-! ## Refinement -/

/-- The table as a function on numbers modulo 256. -/
def tab (t : Vector U8 256) : Spec.Rc4.Table := fun k => Spec.Rc4.num t[k]

def view (s : State) : Spec.Rc4.St := ⟨tab s.state, Spec.Rc4.num s.i, Spec.Rc4.num s.j⟩

theorem num_at (t : Vector U8 256) (k : U8) : Spec.Rc4.num (at_ t k) = tab t (Spec.Rc4.num k) := rfl

theorem num_add (a b : U8) : Spec.Rc4.num (a + b) = Spec.Rc4.num a + Spec.Rc4.num b := by
  simp only [Spec.Rc4.num, BitVec.toFin_add]

theorem byte_num (a : U8) : Spec.Rc4.byte (Spec.Rc4.num a) = a := rfl

theorem num_inj {a b : U8} (h : Spec.Rc4.num a = Spec.Rc4.num b) : a = b := by
  rw [← byte_num a, ← byte_num b, h]

theorem tab_inj {s t : Vector U8 256} (h : tab s = tab t) : s = t := by
  apply Vector.ext; intro i hi
  exact num_inj (congrFun h ⟨i, hi⟩)

theorem view_inj {s t : State} (h : view s = view t) : s = t := by
  cases s; cases t
  simp only [view, Spec.Rc4.St.mk.injEq] at h
  rw [tab_inj h.1, num_inj h.2.1, num_inj h.2.2]

theorem tab_swap (t : Vector U8 256) (a b : U8) :
    tab (swap t a b) = Spec.Rc4.swap (tab t) (Spec.Rc4.num a) (Spec.Rc4.num b) := by
  funext k
  simp only [tab, swap, Spec.Rc4.swap, Fin.getElem_fin, Vector.getElem_set, at_]
  have ha : (a.toNat = k.val) ↔ (k = Spec.Rc4.num a) := ⟨fun h => Fin.ext h.symm, fun h => by rw [h]; rfl⟩
  have hb : (b.toNat = k.val) ↔ (k = Spec.Rc4.num b) := ⟨fun h => Fin.ext h.symm, fun h => by rw [h]; rfl⟩
  by_cases h1 : b.toNat = k.val
  · rw [if_pos h1]
    by_cases h2 : a.toNat = k.val
    · rw [if_pos (ha.1 h2)]
      have : a = b := BitVec.eq_of_toNat_eq (by omega)
      subst this; rfl
    · rw [if_neg (fun h => h2 (ha.2 h)), if_pos (hb.1 h1)]; rfl
  · rw [if_neg h1]
    by_cases h2 : a.toNat = k.val
    · rw [if_pos h2, if_pos (ha.1 h2)]; rfl
    · rw [if_neg h2, if_neg (fun h => h2 (ha.2 h)), if_neg (fun h => h1 (hb.2 h))]

theorem prga_view (s : State) :
    view (prga s).2 = Spec.Rc4.next (view s) ∧ (prga s).1 = Spec.Rc4.out (Spec.Rc4.next (view s)) := by
  have e : view (prga s).2 = Spec.Rc4.next (view s) := by
    simp only [prga, Spec.Rc4.next, view, tab_swap, num_add, num_at]
    rfl
  refine ⟨e, ?_⟩
  rw [← e]
  unfold Spec.Rc4.out
  refine num_inj ?_
  rw [show ∀ n, Spec.Rc4.num (Spec.Rc4.byte n) = n from fun _ => rfl]
  show Spec.Rc4.num (at_ _ _) = _
  rw [num_at, num_add, num_at, num_at]
  rfl

/-! ## Key schedule -/

theorem identity_eq : identity = .ok (Vector.ofFn fun i : Fin 256 => BitVec.ofFin i) := by
  have h : (fun i : Fin 256 => tryU8 i.val) = fun i => (pure (BitVec.ofFin i) : Except Panic U8) := by
    funext i
    rw [tryU8, if_pos i.isLt]
    exact congrArg Except.ok (BitVec.eq_of_toNat_eq (by simp))
  unfold identity
  rw [h]
  exact Vector.ofFnM_pure

theorem cycle_length (key : List U8) (hk : key ≠ []) (n : Nat) (l : List U8) : (cycle key n l).length = n := by
  induction n generalizing l with
  | zero => cases l <;> rfl
  | succ n ih =>
    cases l with
    | nil =>
      cases key with
      | nil => exact absurd rfl hk
      | cons k ks => simp only [cycle, List.length_cons, ih]
    | cons k ks => simp only [cycle, List.length_cons, ih]

theorem cycle_getElem? (key : List U8) (hk : key ≠ []) (n a i : Nat) (hi : i < n) (ha : a ≤ key.length) :
    (cycle key n (key.drop a))[i]? = key[(a + i) % key.length]? := by
  have hl : 0 < key.length := List.length_pos_iff.2 hk
  induction n generalizing a i with
  | zero => omega
  | succ n ih =>
    rcases Nat.lt_or_eq_of_le ha with ha | ha
    · rw [List.drop_eq_getElem_cons ha, cycle]
      cases i with
      | zero => simp [Nat.mod_eq_of_lt ha]
      | succ i =>
        rw [List.getElem?_cons_succ, ih (a + 1) i (by omega) (by omega)]
        congr 2; omega
    · rw [ha, List.drop_length, Nat.add_comm key.length, Nat.add_mod_right]
      obtain ⟨k, ks, rfl⟩ := List.exists_cons_of_ne_nil hk
      simp only [cycle]
      cases i with
      | zero => simp
      | succ i =>
        have := ih 1 i (by omega) (by omega)
        rw [List.drop_succ_cons, List.drop_zero] at this
        rw [List.getElem?_cons_succ, this, Nat.add_comm]

/-- The loop, over the first `n` pairs. -/
theorem ksa_foldl (key : List U8) (hk : key ≠ []) (n : Nat) (hn : n ≤ 256) :
    let r := (((List.finRange 256).zip (cycle key 256 key)).take n).foldl ksaStep
      (Vector.ofFn fun i : Fin 256 => BitVec.ofFin i, 0)
    (tab r.1, Spec.Rc4.num r.2) = Spec.Rc4.ksa key n := by
  induction n with
  | zero =>
    simp only [List.take_zero, List.foldl_nil, Spec.Rc4.ksa]
    refine Prod.ext ?_ rfl
    funext k
    simp [tab, Spec.Rc4.num]
  | succ n ih =>
    have ih := ih (by omega)
    have hlen : ((List.finRange 256).zip (cycle key 256 key)).length = 256 := by
      rw [List.length_zip, List.length_finRange, cycle_length key hk]; rfl
    have hget : ((List.finRange 256).zip (cycle key 256 key))[n]'(by omega) =
        (Fin.ofNat 256 n, key[n % key.length]?.getD 0) := by
      rw [List.getElem_zip]
      refine Prod.ext ?_ ?_
      · simp only [List.getElem_finRange, Fin.cast_mk]
        apply Fin.ext; simp [Fin.ofNat]; omega
      · have := cycle_getElem? key hk 256 0 n (by omega) (by omega)
        rw [List.drop_zero, Nat.zero_add, List.getElem?_eq_getElem (by rw [cycle_length key hk]; omega)] at this
        rw [← this]; rfl
    rw [List.take_succ_eq_append_getElem (by omega), List.foldl_append, hget]
    revert ih
    generalize ((((List.finRange 256).zip (cycle key 256 key)).take n).foldl ksaStep
      (Vector.ofFn fun i : Fin 256 => BitVec.ofFin i, 0)) = r
    intro ih
    dsimp only at ih ⊢
    simp only [List.foldl_cons, List.foldl_nil, ksaStep, Spec.Rc4.ksa, ← ih, tab_swap, num_add]
    rfl

theorem newFromSlice_ok (key : List U8) (h : 1 ≤ key.length ∧ key.length ≤ 256) :
    ∃ s, newFromSlice key = .ok (.ok s) ∧ view s = Spec.Rc4.after key 0 := by
  have hk : key ≠ [] := by rintro rfl; simp at h
  have hlen : ((List.finRange 256).zip (cycle key 256 key)).length = 256 := by
    rw [List.length_zip, List.length_finRange, cycle_length key hk]; rfl
  have hf := ksa_foldl key hk 256 (Nat.le_refl _)
  rw [List.take_of_length_le (by omega)] at hf
  refine ⟨⟨(((List.finRange 256).zip (cycle key 256 key)).foldl ksaStep
    (Vector.ofFn fun i : Fin 256 => BitVec.ofFin i, 0)).1, 0, 0⟩, ?_, ?_⟩
  · unfold newFromSlice
    rw [if_neg (by omega), identity_eq]
    rfl
  · simp only [view, Spec.Rc4.after, ← hf]
    rfl

theorem newFromSlice_err (key : List U8) (h : ¬ (1 ≤ key.length ∧ key.length ≤ 256)) :
    newFromSlice key = .ok (.error .invalidLength) := by
  unfold newFromSlice
  rw [if_pos (by omega)]
  rfl

/-! ## As a stream -/

/-- State after `n` bytes. -/
def Rel (key : List U8) (s : State) (n : Nat) : Prop := view s = Spec.Rc4.after key n

theorem prga_rel (key : List U8) (s : State) (n : Nat) (h : Rel key s n) :
    (prga s).1 = Spec.Rc4.stream key n ∧ Rel key (prga s).2 (n + 1) := by
  obtain ⟨h1, h2⟩ := prga_view s
  rw [h] at h1 h2
  exact ⟨h2, h1⟩

theorem apply_rel (key : List U8) (data : List U8) (s : State) (n : Nat) (h : Rel key s n) :
    (applyKeystream data s).1 = List.zipWith (· ^^^ ·) data (window (Spec.Rc4.stream key) n data.length) ∧
      Rel key (applyKeystream data s).2 (n + data.length) := by
  induction data generalizing s n with
  | nil => exact ⟨rfl, h⟩
  | cons b data ih =>
    obtain ⟨h1, h2⟩ := prga_rel key s n h
    obtain ⟨h3, h4⟩ := ih _ _ h2
    rw [List.length_cons, Nat.add_comm data.length 1, window_add, ← Nat.add_assoc]
    refine ⟨?_, h4⟩
    show ((prga s).1 ^^^ b) :: (applyKeystream data (prga s).2).1 = _
    rw [h1, h3, BitVec.xor_comm]
    rfl

theorem write_rel (key : List U8) (data : List U8) (s : State) (n : Nat) (h : Rel key s n) :
    (writeKeystream data s).1 = window (Spec.Rc4.stream key) n data.length ∧
      Rel key (writeKeystream data s).2 (n + data.length) := by
  induction data generalizing s n with
  | nil => exact ⟨rfl, h⟩
  | cons b data ih =>
    obtain ⟨h1, h2⟩ := prga_rel key s n h
    obtain ⟨h3, h4⟩ := ih _ _ h2
    rw [List.length_cons, Nat.add_comm data.length 1, window_add, ← Nat.add_assoc]
    refine ⟨?_, h4⟩
    show (prga s).1 :: (writeKeystream data (prga s).2).1 = _
    rw [h1, h3]
    rfl

theorem within_none (n : Nat) : Within none n := by intro L h; cases h

theorem history_rel (key : List U8) (h : List (Unit × Op)) (s : State) (n : Nat) (hr : Rel key s n) :
    ∃ s', runHistory step h s =
        .ok ((Cursor.run (Cursor.io (Spec.Rc4.stream key) none) (h.map (·.2)) n).1, s') ∧
      Rel key s' (Cursor.run (Cursor.io (Spec.Rc4.stream key) none) (h.map (·.2)) n).2 := by
  induction h generalizing s n with
  | nil => exact ⟨s, rfl, hr⟩
  | cons e h ih =>
    obtain ⟨⟨⟩, op⟩ := e
    cases op with
    | apply data =>
      obtain ⟨h1, h2⟩ := apply_rel key data s n hr
      obtain ⟨s', h3, h4⟩ := ih _ _ h2
      simp only [List.map_cons, Cursor.run, Cursor.io, if_pos (within_none _)]
      refine ⟨s', ?_, h4⟩
      rw [← h1]
      simp only [runHistory, step, checkRemaining, bind, Except.bind, h3, pure, Except.pure]
    | write buf =>
      obtain ⟨h1, h2⟩ := write_rel key buf s n hr
      obtain ⟨s', h3, h4⟩ := ih _ _ h2
      simp only [List.map_cons, Cursor.run, Cursor.io, if_pos (within_none _)]
      refine ⟨s', ?_, h4⟩
      rw [← h1]
      simp only [runHistory, step, checkRemaining, bind, Except.bind, h3, pure, Except.pure]

/-! ## Permutation, injectivity, Finney -/

theorem add_cancel {a b c : Fin 256} (h : a + c = b + c) : a = b := by
  have := congrArg Fin.val h
  simp only [Fin.val_add] at this
  apply Fin.ext
  omega

theorem swap_swap (S : Spec.Rc4.Table) (a b : Fin 256) : Spec.Rc4.swap (Spec.Rc4.swap S a b) a b = S := by
  funext k
  simp only [Spec.Rc4.swap]
  by_cases h1 : k = a <;> by_cases h2 : k = b <;> by_cases h3 : b = a
  all_goals simp_all

theorem swap_comp (S : Spec.Rc4.Table) (a b k : Fin 256) :
    Spec.Rc4.swap S a b k = S (Spec.Rc4.swap (fun x => x) a b k) := by
  simp only [Spec.Rc4.swap]
  split
  · rfl
  · split <;> rfl

theorem swap_injective (S : Spec.Rc4.Table) (hS : Function.Injective S) (a b : Fin 256) :
    Function.Injective (Spec.Rc4.swap S a b) := by
  intro x y h
  rw [swap_comp, swap_comp S] at h
  have h := hS h
  have hx := congrFun (swap_swap (fun x => x) a b) x
  have hy := congrFun (swap_swap (fun x => x) a b) y
  rw [swap_comp] at hx hy
  rw [← hx, ← hy, h]

theorem next_injective (s t : Spec.Rc4.St) (h : Spec.Rc4.next s = Spec.Rc4.next t) : s = t := by
  cases s with | mk S i j
  cases t with | mk S' i' j'
  simp only [Spec.Rc4.next, Spec.Rc4.St.mk.injEq] at h
  obtain ⟨h1, h2, h3⟩ := h
  have hi : i = i' := add_cancel h2
  subst hi
  have hS : S = S' := by
    rw [← swap_swap S (i + 1) (j + S (i + 1)), h1, h3, swap_swap]
  subst hS
  rw [add_cancel h3]

theorem ksa_injective (key : List U8) (n : Nat) : Function.Injective (Spec.Rc4.ksa key n).1 := by
  induction n with
  | zero => exact fun _ _ h => h
  | succ n ih => exact swap_injective _ ih _ _

theorem after_injective (key : List U8) (n : Nat) : Function.Injective (Spec.Rc4.after key n).S := by
  induction n with
  | zero =>
    have h := ksa_injective key 256
    rw [Spec.Rc4.after]
    generalize Spec.Rc4.ksa key 256 = r at h ⊢
    exact h
  | succ n ih => exact swap_injective _ ih _ _

/-- A Finney state comes from a Finney state. -/
theorem finney_back (s : Spec.Rc4.St)
    (h : (Spec.Rc4.next s).j = (Spec.Rc4.next s).i + 1 ∧ (Spec.Rc4.next s).S (Spec.Rc4.next s).j = 1) :
    s.j = s.i + 1 ∧ s.S s.j = 1 := by
  obtain ⟨h1, h2⟩ := h
  simp only [Spec.Rc4.next] at h1 h2
  have hne : s.j + s.S (s.i + 1) ≠ s.i + 1 := by
    rw [h1]
    generalize s.i + 1 = x
    intro h
    have := congrArg Fin.val h
    simp only [Fin.val_add, Fin.val_one] at this
    omega
  have h3 : s.S (s.i + 1) = 1 := by
    rw [Spec.Rc4.swap, if_neg hne, if_pos rfl] at h2
    exact h2
  rw [h3] at h1
  have h4 : s.j = s.i + 1 := add_cancel h1
  exact ⟨h4, by rw [h4, h3]⟩

theorem no_finney (key : List U8) (n : Nat) :
    ¬ ((Spec.Rc4.after key n).j = (Spec.Rc4.after key n).i + 1 ∧ (Spec.Rc4.after key n).S (Spec.Rc4.after key n).j = 1) := by
  induction n with
  | zero =>
    rintro ⟨h, _⟩
    exact absurd h (show ¬ ((0 : Fin 256) = 0 + 1) by decide)
  | succ n ih => exact fun h => ih (finney_back _ h)

end Verif.Rc4
