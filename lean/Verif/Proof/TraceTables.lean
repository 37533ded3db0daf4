import Verif.Props.SrcTrace
import Verif.Props.Merge
/-!
# What is seen of `rc4` and `hc-256`

Erasing the record gives the text; and the records themselves, which tell where in their tables the ciphers look.
-/
namespace Verif.Rust

theorem Tr.ok_then {α β : Type} {m : Tr α} {a : α} {t : List Event} (h : m = (.ok a, t)) (k : α → Tr β) : (m >>= k) = ((k a).1, t ++ (k a).2) := by
  subst h
  rfl

theorem Tr.ext {α : Type} {m : Tr α} {r : Except Panic α} {t : List Event} (h1 : m.1 = r) (h2 : m.2 = t) : m = (r, t) := by
  obtain ⟨a, b⟩ := m
  cases h1
  cases h2
  rfl

theorem Tr.lift_ok {α : Type} (a : α) : (liftM (Except.ok a : Except Panic α) : Tr α) = pure a := rfl

/-- A loop that goes through known states and shows known things. -/
theorem Tr.forIn_range {β : Type} (n : Nat) (S : Nat → β) (e : Nat → List Event) (f : Nat → β → Tr (ForInStep β))
    (h : ∀ k, k < n → f k (S k) = (.ok (.yield (S (k + 1))), e k)) : forIn (List.range n) (S 0) f = (.ok (S n), (List.range n).flatMap e) := by
  have go : ∀ m a, a + m = n → forIn (List.range' a m) (S a) f = (.ok (S (a + m)), (List.range' a m).flatMap e) := by
    intro m
    induction m with
    | zero => intro a _; rfl
    | succ m ih =>
      intro a ha
      rw [List.range'_succ, List.forIn_cons, Tr.ok_then (h a (by omega))]
      dsimp only
      rw [ih (a + 1) (by omega), List.flatMap_cons, show a + 1 + m = a + (m + 1) by omega]
  rw [List.range_eq_range']
  have := go n 0 (by omega)
  rwa [Nat.zero_add] at this

theorem Tr.mapM_silent {α β : Type} (f : α → Tr β) (hf : ∀ a, (f a).2 = []) (l : List α) : (l.mapM f).2 = [] := by
  induction l with
  | nil => rfl
  | cons a l ih =>
    rw [List.mapM_cons]
    have h1 := hf a
    generalize f a = m at *
    obtain ⟨r, t⟩ := m
    cases h1
    cases r with
    | error p => rfl
    | ok b =>
      generalize l.mapM f = m at *
      obtain ⟨r, t⟩ := m
      cases ih
      cases r <;> rfl

theorem Tr.fromFn_silent {tgt : Target} {α : Type} (n : Usize tgt) (f : Usize tgt → Tr α) (hf : ∀ a, (f a).2 = []) : (Tr.fromFn n f).2 = [.loop n.val] := by
  rw [Tr.fromFn, Tr.ok_then (show Tr.loop n.val = (.ok (), [.loop n.val]) from rfl)]
  dsimp only
  rw [Tr.mapM_silent _ hf]
  rfl

/-- A loop that keeps a relation, and what is seen of it. -/
theorem Tr.forIn_exists {β : Type} (n : Nat) (I : Nat → β → Prop) (E : Nat → List Event → Prop) (f : Nat → β → Tr (ForInStep β))
    (h : ∀ k b, k < n → I k b → ∃ b' e, f k b = (.ok (.yield b'), e) ∧ I (k + 1) b' ∧ E k e) (b : β) (hb : I 0 b) :
    ∃ b' e, forIn (List.range n) b f = (.ok b', (List.range n).flatMap e) ∧ I n b' ∧ ∀ k, k < n → E k (e k) := by
  have go : ∀ m a b, a + m = n → I a b →
      ∃ b' e, forIn (List.range' a m) b f = (.ok b', (List.range' a m).flatMap e) ∧ I (a + m) b' ∧ ∀ k, a ≤ k → k < a + m → E k (e k) := by
    intro m
    induction m with
    | zero => exact fun a b _ hb => ⟨b, fun _ => [], rfl, hb, fun k h1 h2 => by omega⟩
    | succ m ih =>
      intro a b ha hb
      obtain ⟨b1, e1, h1, h2, h3⟩ := h a b (by omega) hb
      obtain ⟨b2, e2, h4, h5, h6⟩ := ih (a + 1) b1 (by omega) h2
      refine ⟨b2, fun k => if k = a then e1 else e2 k, ?_, by rwa [show a + (m + 1) = a + 1 + m by omega], fun k h7 h8 => ?_⟩
      · rw [List.range'_succ, List.forIn_cons, Tr.ok_then h1]
        dsimp only
        rw [h4, List.flatMap_cons, if_pos rfl]
        refine congrArg (fun l => (Except.ok b2, e1 ++ l)) ?_
        refine List.flatMap_congr fun k hk => ?_
        have := (List.mem_range'_1.1 hk).1
        rw [if_neg (by omega)]
      · dsimp only
        by_cases hk : k = a
        · subst hk
          rw [if_pos rfl]
          exact h3
        · rw [if_neg hk]
          exact h6 k (by omega) (by omega)
  obtain ⟨b', e, h1, h2, h3⟩ := go n 0 b (by omega) hb
  rw [Nat.zero_add] at h2 h3
  rw [List.range_eq_range']
  exact ⟨b', e, h1, h2, fun k hk => h3 k (by omega) hk⟩

/-- Records of steps of the same lengths that agree agree step by step. -/
theorem flatMap_inj {ε : Type} {e e' : Nat → List ε} (n : Nat) (hl : ∀ k, k < n → (e k).length = (e' k).length) (h : (List.range n).flatMap e = (List.range n).flatMap e') :
    ∀ k, k < n → e k = e' k := by
  have go : ∀ m a, a + m = n → (List.range' a m).flatMap e = (List.range' a m).flatMap e' → ∀ k, a ≤ k → k < a + m → e k = e' k := by
    intro m
    induction m with
    | zero => intro a _ _ k h1 h2; omega
    | succ m ih =>
      intro a ha h k h1 h2
      rw [List.range'_succ, List.flatMap_cons, List.flatMap_cons] at h
      obtain ⟨h3, h4⟩ := List.append_inj h (hl a (by omega))
      by_cases hk : k = a
      · rw [hk]; exact h3
      · exact ih (a + 1) (by omega) h4 k (by omega) (by omega)
  rw [List.range_eq_range'] at h
  exact fun k hk => go n 0 (by omega) h k (by omega) (by omega)

namespace Rc4

variable {tgt : Target}

@[erase] theorem Rc4_s_i_erase (x0 : Rc4) : (Rc4.s_i_tr tgt x0).1 = Rc4.s_i tgt x0 := by
  simp only [erase, Rc4.s_i_tr, Rc4.s_i]
@[erase] theorem Rc4_s_j_erase (x0 : Rc4) : (Rc4.s_j_tr tgt x0).1 = Rc4.s_j tgt x0 := by
  simp only [erase, Rc4.s_j_tr, Rc4.s_j]
@[erase] theorem Rc4_prga_erase (x0 : Rc4) : (Rc4.prga_tr tgt x0).1 = Rc4.prga tgt x0 := by
  simp only [erase, Rc4.prga_tr, Rc4.prga]
@[erase] theorem Rc4_new_from_slice_erase (key : List U8) : (Rc4.new_from_slice_tr tgt key).1 = Rc4.new_from_slice tgt key := by
  simp only [erase, Rc4.new_from_slice_tr, Rc4.new_from_slice]
@[erase] theorem Rc4_apply_erase (x0 : Rc4) (d : List (InOut U8)) : (Rc4.unchecked_apply_keystream_inout_tr tgt x0 d).1 = Rc4.unchecked_apply_keystream_inout tgt x0 d := by
  simp only [erase, Rc4.unchecked_apply_keystream_inout_tr, Rc4.unchecked_apply_keystream_inout]
@[erase] theorem Rc4_write_erase (x0 : Rc4) (d : List U8) : (Rc4.unchecked_write_keystream_tr tgt x0 d).1 = Rc4.unchecked_write_keystream tgt x0 d := by
  simp only [erase, Rc4.unchecked_write_keystream_tr, Rc4.unchecked_write_keystream]

/-- What is seen of a step. -/
def seen (s : Verif.Rc4.State) : List Event :=
  let i := s.i + 1
  let j := s.j + Verif.Rc4.at_ s.state i
  [.index i.toNat, .slice i.toNat j.toNat, .index i.toNat, .index j.toNat, .index (Verif.Rc4.at_ s.state j + Verif.Rc4.at_ s.state i).toNat]

theorem prga_seen (ht : 16 ≤ tgt.bits) (s : Verif.Rc4.State) : Rc4.prga_tr tgt (repr s) = (.ok ((Verif.Rc4.prga s).1, repr (Verif.Rc4.prga s).2), seen s) :=
  Tr.ext ((Rc4_prga_erase _).trans (prga_eq ht s)) (C90_rc4 tgt ht s.state s.i s.j)

/-- The state after `n` steps. -/
def after (s : Verif.Rc4.State) : Nat → Verif.Rc4.State
  | 0 => s
  | n + 1 => (Verif.Rc4.prga (after s n)).2

theorem after_succ (s : Verif.Rc4.State) (n : Nat) : after s (n + 1) = after (Verif.Rc4.prga s).2 n := by
  induction n with
  | zero => rfl
  | succ n ih => rw [after, ih, after]

/-- A loop over the elements of a list that is changed in place. -/
theorem run_seen {α : Type} (g : α → U8 → α) (s : Verif.Rc4.State) (l : List α) (f : Nat → Rc4 × List α → Tr (ForInStep (Rc4 × List α)))
    (hf : ∀ k s l (h : k < l.length), f k (repr s, l) = (.ok (.yield (repr (Verif.Rc4.prga s).2, l.set k (g l[k] (Verif.Rc4.prga s).1))), seen s)) :
    ∃ l', forIn (List.range l.length) (repr s, l) f = (.ok (repr (after s l.length), l'), (List.range l.length).flatMap fun k => seen (after s k)) := by
  let S : Nat → List α := fun n => Nat.rec l (fun k r => if h : k < r.length then r.set k (g r[k] (Verif.Rc4.prga (after s k)).1) else r) n
  have hS : ∀ n, (S n).length = l.length := by
    intro n
    induction n with
    | zero => rfl
    | succ n ih =>
      show (if h : n < (S n).length then (S n).set n _ else S n).length = _
      split
      · rw [List.length_set, ih]
      · exact ih
  exact ⟨S l.length, Tr.forIn_range l.length (fun k => (repr (after s k), S k)) (fun k => seen (after s k)) f (fun k hk => by
    rw [hf k (after s k) (S k) (by rw [hS]; exact hk)]
    have : S (k + 1) = if h : k < (S k).length then (S k).set k (g (S k)[k] (Verif.Rc4.prga (after s k)).1) else S k := rfl
    rw [this, dif_pos (by rw [hS]; exact hk)]
    rfl)⟩

theorem write_runs (ht : 16 ≤ tgt.bits) (s : Verif.Rc4.State) (d : List U8) : ∃ l, Rc4.unchecked_write_keystream_tr tgt (repr s) d =
    (.ok ((), repr (after s d.length), l), .loop d.length :: (List.range d.length).flatMap fun k => seen (after s k)) := by
  rw [Rc4.unchecked_write_keystream_tr]
  simp only [pure_bind]
  obtain ⟨l, h⟩ := run_seen (fun _ b => b) s d (fun k x => (liftM (nth x.2 k) : Tr U8) >>= fun _ => Rc4.prga_tr tgt x.1 >>= fun r2 => pure (ForInStep.yield (r2.2, x.2.set k r2.1))) (fun k s l hk => by
    dsimp only
    rw [nth_ok _ _ hk, prga_seen ht]
    exact congrArg (Prod.mk _) (List.append_nil _))
  rw [Tr.ok_then (show Tr.loop d.length = (.ok (), [.loop d.length]) from rfl), h]
  exact ⟨l, congrArg (Prod.mk _) (congrArg (List.cons _) (List.append_nil _))⟩

theorem write_seen (ht : 16 ≤ tgt.bits) (s : Verif.Rc4.State) (d : List U8) :
    (Rc4.unchecked_write_keystream_tr tgt (repr s) d).2 = .loop d.length :: (List.range d.length).flatMap fun k => seen (after s k) := by
  obtain ⟨l, h⟩ := write_runs ht s d
  rw [h]

theorem apply_runs (ht : 16 ≤ tgt.bits) (s : Verif.Rc4.State) (d : List (InOut U8)) : ∃ l, Rc4.unchecked_apply_keystream_inout_tr tgt (repr s) d =
    (.ok ((), repr (after s d.length), l), .loop d.length :: (List.range d.length).flatMap fun k => seen (after s k)) := by
  rw [Rc4.unchecked_apply_keystream_inout_tr]
  simp only [pure_bind]
  obtain ⟨l, h⟩ := run_seen (fun b ks => (⟨b.get_in, RInt.bxor ks b.get_in⟩ : InOut U8)) s d (fun k x => (liftM (nth x.2 k) : Tr (InOut U8)) >>= fun b => Rc4.prga_tr tgt x.1 >>= fun r2 => pure (ForInStep.yield (r2.2, x.2.set k (⟨b.get_in, RInt.bxor r2.1 b.get_in⟩ : InOut U8)))) (fun k s l hk => by
    dsimp only
    rw [nth_ok _ _ hk, prga_seen ht]
    exact congrArg (Prod.mk _) (List.append_nil _))
  rw [Tr.ok_then (show Tr.loop d.length = (.ok (), [.loop d.length]) from rfl), h]
  exact ⟨l, congrArg (Prod.mk _) (congrArg (List.cons _) (List.append_nil _))⟩

theorem apply_seen (ht : 16 ≤ tgt.bits) (s : Verif.Rc4.State) (d : List (InOut U8)) :
    (Rc4.unchecked_apply_keystream_inout_tr tgt (repr s) d).2 = .loop d.length :: (List.range d.length).flatMap fun k => seen (after s k) := by
  obtain ⟨l, h⟩ := apply_runs ht s d
  rw [h]

/-- What is seen of a round of the key schedule. -/
def round (key : List U8) (k : Nat) : List Event := [.index k, .slice k (rounds key (k + 1)).2.toNat]

theorem new_seen (ht : 16 ≤ tgt.bits) (key : List U8) (h : 1 ≤ key.length ∧ key.length ≤ 256) :
    (Rc4.new_from_slice_tr tgt key).2 = [.branch false, .branch false, .loop 256, .loop 256] ++ (List.range 256).flatMap (round key) := by
  have hk : key ≠ [] := by rintro rfl; simp at h
  have h1 : lt (len tgt key) 1 = false := decide_eq_false (show ¬ key.length < 1 by omega)
  have h2 : lt (256 : Usize tgt) (len tgt key) = false := decide_eq_false (show ¬ 256 < key.length by omega)
  have h3 : Tr.fromFn (tgt := tgt) 256 (fun i => liftM (Unwrap.unwrap (TryInto.tryInto i : Option U8) : Except Panic U8)) =
      (.ok (Vector.ofFn fun i : Fin 256 => BitVec.ofFin i).toList, [.loop 256]) := by
    refine Tr.ext ?_ ?_
    · rw [← identity_eq (tgt := tgt)]
      simp only [erase]
    · rw [Tr.fromFn_silent _ _ (fun _ => rfl), val_lit]
  rw [Rc4.new_from_slice_tr]
  simp only [MIN_KEY_SIZE, MAX_KEY_SIZE, pure_eq, Tr.lift_ok, pure_bind, h1, h2]
  rw [Tr.ok_then (show Tr.branch false = (.ok false, [.branch false]) from rfl)]
  simp only [Bool.false_eq_true, if_false, pure_bind]
  rw [Tr.ok_then (show Tr.branch false = (.ok false, [.branch false]) from rfl)]
  simp only [Bool.false_eq_true, if_false]
  rw [Tr.ok_then h3]
  simp only
  rw [cycleLen, if_neg (by omega)]
  simp only [val_lit, Nat.sub_zero, Nat.zero_add]
  rw [Tr.ok_then (show Tr.loop 256 = (.ok (), [.loop 256]) from rfl)]
  have h4 := Tr.forIn_range 256 (fun k => ((rounds key k).1.toList, (rounds key k).2)) (round key) (fun r7 x => (liftM (nth key (r7 % key.length)) : Tr U8) >>= fun k =>
      Tr.idx x.1 (⟨r7⟩ : Usize tgt) >>= fun r9 => Tr.swap x.1 (⟨r7⟩ : Usize tgt) (cast (Usize tgt) (RInt.wadd (RInt.wadd x.2 r9) k)) >>= fun r10 =>
      pure (ForInStep.yield (r10, RInt.wadd (RInt.wadd x.2 r9) k))) (fun k hk' => by
    have hm : k % key.length < key.length := Nat.mod_lt _ (by omega)
    have hr : rounds key (k + 1) = _ := rounds_succ key hk k hk' hm
    dsimp only
    rw [nth_ok _ _ hm, Tr.lift_ok, pure_bind, Tr.idx, idx_vec _ _ hk', Tr.ok_then (show Tr.see _ _ = (.ok _, _) from rfl), Tr.swap, cast_byte ht, swap_vec _ _ _ hk' (BitVec.isLt _), round, hr]
    rfl)
  rw [show (rounds key 0).1 = _ from congrArg Prod.fst (rounds_zero key), show (rounds key 0).2 = _ from congrArg Prod.snd (rounds_zero key)] at h4
  generalize h5 : (List.range 256).flatMap (round key) = ev at h4 ⊢
  generalize (rounds key 256) = fin at h4
  generalize (Vector.ofFn fun i : Fin 256 => (BitVec.ofFin i : U8)).toList = ini at h4 ⊢
  rw [h4]
  show _ ++ (_ ++ (_ ++ (_ ++ (ev ++ [])))) = _
  rw [List.append_nil]
  rfl

end Rc4
end Verif.Rust
