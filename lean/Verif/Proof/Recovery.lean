import Verif.Proof.TraceTables
import Verif.Props.Others
/-!
# What the records of `rc4` tell
-/
namespace Verif.Rust.Rc4

theorem cancel {a b c : U8} (h : a + b = a + c) : b = c := by bv_omega

theorem at_swap (t : Vector U8 256) (a b x : U8) :
    Verif.Rc4.at_ (Verif.Rc4.swap t a b) x = if b = x then Verif.Rc4.at_ t a else if a = x then Verif.Rc4.at_ t b else Verif.Rc4.at_ t x := by
  simp only [Verif.Rc4.swap, Verif.Rc4.at_, Vector.getElem_set, BitVec.toNat_inj]

theorem table_ext {t t' : Vector U8 256} (h : ∀ x, Verif.Rc4.at_ t x = Verif.Rc4.at_ t' x) : t = t' := by
  apply Vector.ext
  intro i hi
  have := h (BitVec.ofNat 8 i)
  simp only [Verif.Rc4.at_, BitVec.toNat_ofNat, Nat.mod_eq_of_lt (show i < 2 ^ 8 from hi)] at this
  exact this

/-- What the record of a step tells. -/
theorem seen_inj {s s' : Verif.Rc4.State} (h : seen s = seen s') :
    (Verif.Rc4.prga s).2.i = (Verif.Rc4.prga s').2.i ∧ (Verif.Rc4.prga s).2.j = (Verif.Rc4.prga s').2.j ∧
      Verif.Rc4.at_ s.state (Verif.Rc4.prga s).2.j + Verif.Rc4.at_ s.state (Verif.Rc4.prga s).2.i =
        Verif.Rc4.at_ s'.state (Verif.Rc4.prga s').2.j + Verif.Rc4.at_ s'.state (Verif.Rc4.prga s').2.i := by
  injection h with h1 h
  injection h with h2 h
  injection h with h3 h
  injection h with h4 h
  injection h with h5 h
  injection h1 with h1
  injection h4 with h4
  injection h5 with h5
  exact ⟨BitVec.eq_of_toNat_eq h1, BitVec.eq_of_toNat_eq h4, BitVec.eq_of_toNat_eq h5⟩

/-- Two tables that are looked at at the same places keep the places at which they differ. -/
theorem differ {s s' : Verif.Rc4.State} (hi : s.i = s'.i) (hj : s.j = s'.j) (h : seen s = seen s') :
    Verif.Rc4.at_ s.state (s.i + 1) = Verif.Rc4.at_ s'.state (s.i + 1) ∧ (Verif.Rc4.prga s).2.i = (Verif.Rc4.prga s').2.i ∧ (Verif.Rc4.prga s).2.j = (Verif.Rc4.prga s').2.j ∧
      ∀ x, Verif.Rc4.at_ s.state x = Verif.Rc4.at_ s'.state x ↔ Verif.Rc4.at_ (Verif.Rc4.prga s).2.state x = Verif.Rc4.at_ (Verif.Rc4.prga s').2.state x := by
  obtain ⟨h1, h2, h3⟩ := seen_inj h
  obtain ⟨t, i, j⟩ := s
  obtain ⟨t', i', j'⟩ := s'
  dsimp only at hi hj
  subst hi
  subst hj
  simp only [Verif.Rc4.prga] at h1 h2 h3 ⊢
  have h4 : Verif.Rc4.at_ t (i + 1) = Verif.Rc4.at_ t' (i + 1) := cancel h2
  refine ⟨h4, trivial, h2, fun x => ?_⟩
  rw [← h2, ← h4] at h3
  rw [BitVec.add_comm, BitVec.add_comm (Verif.Rc4.at_ t' _)] at h3
  have h5 := cancel h3
  rw [← h2]
  rw [at_swap, at_swap]
  split
  · rename_i e; rw [← e]; exact ⟨fun _ => h4, fun _ => h5⟩
  · split
    · rename_i e; rw [← e]; exact ⟨fun _ => h5, fun _ => h4⟩
    · exact Iff.rfl

theorem after_i (s : Verif.Rc4.State) (n : Nat) : (after s n).i = s.i + BitVec.ofNat 8 n := by
  induction n with
  | zero => exact (BitVec.add_zero _).symm
  | succ n ih =>
    show (after s n).i + 1 = _
    rw [ih, BitVec.add_assoc]
    exact congrArg (s.i + ·) (BitVec.eq_of_toNat_eq (by simp))

/-- From the same places, 256 steps tell the table. -/
theorem tables {s s' : Verif.Rc4.State} (hi : s.i = s'.i) (hj : s.j = s'.j) (h : ∀ k, k < 256 → seen (after s k) = seen (after s' k)) : s = s' := by
  have go : ∀ k, k ≤ 256 → (after s k).i = (after s' k).i ∧ (after s k).j = (after s' k).j ∧
      ∀ x, Verif.Rc4.at_ s.state x = Verif.Rc4.at_ s'.state x ↔ Verif.Rc4.at_ (after s k).state x = Verif.Rc4.at_ (after s' k).state x := by
    intro k
    induction k with
    | zero => exact fun _ => ⟨hi, hj, fun _ => Iff.rfl⟩
    | succ k ih =>
      intro hk
      obtain ⟨a, b, c⟩ := ih (by omega)
      obtain ⟨_, e, f, g⟩ := differ a b (h k (by omega))
      exact ⟨e, f, fun x => (c x).trans (g x)⟩
  have ht : s.state = s'.state := table_ext fun x => by
    have hx : (x - s.i - 1).toNat < 256 := (x - s.i - 1).isLt
    obtain ⟨a, b, c⟩ := go (x - s.i - 1).toNat (by omega)
    have d := (differ a b (h _ hx)).1
    rw [after_i, BitVec.ofNat_toNat, BitVec.setWidth_eq, show s.i + (x - s.i - 1) + 1 = x by bv_omega] at d
    exact (c x).2 d
  obtain ⟨t, i, j⟩ := s
  obtain ⟨t', i', j'⟩ := s'
  cases hi
  cases hj
  cases ht
  rfl

/-- From any places, one step more. -/
theorem states {s s' : Verif.Rc4.State} (h : ∀ k, k < 257 → seen (after s k) = seen (after s' k)) : s = s' := by
  obtain ⟨h1, h2, _⟩ := seen_inj (h 0 (by omega))
  refine Decidable.byContradiction fun hn => C40_no_merge s s' hn (tables h1 h2 fun k hk => ?_)
  rw [← after_succ, ← after_succ]
  exact h (k + 1) (by omega)

/-- The rounds of the key schedule tell the bytes of the key. -/
theorem keys {key key' : List U8} (h : 1 ≤ key.length) (h' : 1 ≤ key'.length) (e : ∀ k, k < 256 → round key k = round key' k) :
    ∀ k, k < 256 → key[k % key.length]'(Nat.mod_lt _ h) = key'[k % key'.length]'(Nat.mod_lt _ h') := by
  have hk : key ≠ [] := by rintro rfl; simp at h
  have hk' : key' ≠ [] := by rintro rfl; simp at h'
  have go : ∀ k, k < 256 → rounds key k = rounds key' k → key[k % key.length]'(Nat.mod_lt _ h) = key'[k % key'.length]'(Nat.mod_lt _ h') := by
    intro k hk1 hr
    have e := e k hk1
    injection e with _ e
    injection e with e _
    injection e with _ e
    rw [rounds_succ key hk k hk1 (Nat.mod_lt _ h), rounds_succ key' hk' k hk1 (Nat.mod_lt _ h'), hr] at e
    exact cancel (BitVec.eq_of_toNat_eq e)
  have all : ∀ k, k ≤ 256 → rounds key k = rounds key' k := by
    intro k
    induction k with
    | zero => intro _; rw [rounds_zero, rounds_zero]
    | succ k ih =>
      intro hk1
      rw [rounds_succ key hk k hk1 (Nat.mod_lt _ h), rounds_succ key' hk' k hk1 (Nat.mod_lt _ h'), ih (by omega), go k hk1 (ih (by omega))]
  exact fun k hk1 => go k hk1 (all k (by omega))

end Verif.Rust.Rc4
