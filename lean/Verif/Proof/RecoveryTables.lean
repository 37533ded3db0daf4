import Verif.Proof.RecoveryHc256
/-!
# What whole runs of `hc-256` tell
-/
namespace Verif.Rust

/-- What holds of the result, if there is one. -/
def Tr.Gives {α : Type} (P : α → Prop) (m : Tr α) : Prop := ∀ a, m.1 = .ok a → P a

theorem Tr.Gives.bind {α β : Type} {P : β → Prop} {m : Tr α} {k : α → Tr β} (h : ∀ a, m.1 = .ok a → (k a).Gives P) : (m >>= k).Gives P := by
  obtain ⟨r, t⟩ := m
  cases r with
  | error p => exact nofun
  | ok a => exact h a rfl

theorem Tr.Gives.skip {α β : Type} {P : β → Prop} {m : Tr α} {k : α → Tr β} (h : ∀ a, (k a).Gives P) : (m >>= k).Gives P := Tr.Gives.bind fun a _ => h a

theorem Tr.Gives.ite {α : Type} {P : α → Prop} {c : Prop} [Decidable c] {a b : Tr α} (h : a.Gives P) (h' : b.Gives P) : (if c then a else b).Gives P := by
  split <;> assumption

theorem Tr.Gives.forIn {α β : Type} {P : β → Prop} (f : α → β → Tr (ForInStep β)) (h : ∀ a b, P b → (f a b).Gives fun r => P r.value) (l : List α) :
    ∀ b, P b → (forIn l b f).Gives P := by
  induction l with
  | nil => intro b hb a ha; cases ha; exact hb
  | cons x l ih =>
    intro b hb
    rw [List.forIn_cons]
    refine Tr.Gives.bind fun r hr => ?_
    have := h x b hb r hr
    cases r with
    | done c => intro a ha; cases ha; exact this
    | yield c => exact ih c this

theorem upd_length {tgt : Target} {α : Type} {l l' : List α} {i : Usize tgt} {x : α} (h : (Tr.upd l i x).1 = .ok l') : l'.length = l.length := by
  rw [Tr.upd_fst, upd] at h
  split at h
  · cases h; exact List.length_set ..
  · cases h

namespace Hc256
open Verif.Hc256 (tab view)

variable {tgt : Target}

/-- `n` words, one after another. -/
def words (tgt : Target) (n : Nat) (s : Hc256Core) : Tr Hc256Core := forIn (List.range n) s fun _ s => do
  let r ← Hc256Core.gen_word_tr tgt s
  pure (.yield r.2)

theorem gen_word_length (s : Hc256Core) : (Hc256Core.gen_word_tr tgt s).Gives fun r => r.2.ptable.length = s.ptable.length ∧ r.2.qtable.length = s.qtable.length := by
  rw [Hc256Core.gen_word_tr]
  simp only [pure_bind]
  refine .skip fun _ => .skip fun _ => .skip fun _ => .skip fun _ => .ite ?_ ?_
  · refine .skip fun _ => .skip fun _ => .skip fun _ => .skip fun _ => .skip fun _ => .skip fun _ => .skip fun _ => .skip fun _ => .bind fun l hl => ?_
    refine .skip fun _ => .skip fun _ => .skip fun _ => .skip fun _ => ?_
    intro a ha
    cases ha
    exact ⟨upd_length hl, rfl⟩
  · refine .skip fun _ => .skip fun _ => .skip fun _ => .skip fun _ => .skip fun _ => .skip fun _ => .skip fun _ => .skip fun _ => .bind fun l hl => ?_
    refine .skip fun _ => .skip fun _ => .skip fun _ => .skip fun _ => ?_
    intro a ha
    cases ha
    exact ⟨rfl, upd_length hl⟩

theorem words_length (n : Nat) (s : Hc256Core) : (words tgt n s).Gives fun r => r.ptable.length = s.ptable.length ∧ r.qtable.length = s.qtable.length := by
  refine Tr.Gives.forIn (P := fun r : Hc256Core => r.ptable.length = s.ptable.length ∧ r.qtable.length = s.qtable.length) _ (fun _ b hb => ?_) _ s ⟨rfl, rfl⟩
  refine .bind fun r hr => ?_
  have := gen_word_length b r hr
  intro a ha
  cases ha
  exact ⟨this.1.trans hb.1, this.2.trans hb.2⟩

/-- The tables after `k` steps from step `a` on. -/
def run (t : Spec.Hc256.Tables) (a : Nat) : Nat → Spec.Hc256.Tables
  | 0 => t
  | k + 1 => (Spec.Hc256.step (a + k) (run t a k)).2

theorem run_injective {t t' : Spec.Hc256.Tables} {a : Nat} (n : Nat) (h : run t a n = run t' a n) : t = t' := by
  induction n with
  | zero => exact h
  | succ n ih => exact ih (Verif.Hc256.step_injective _ _ _ h)

theorem run_before (t : Spec.Hc256.Tables) (n : Nat) : run t 0 n = Spec.Hc256.before t n := by
  induction n with
  | zero => rfl
  | succ n ih => rw [run, ih, Nat.zero_add]; rfl

/-- What is seen of step `n`. -/
def Shows (n : Nat) (t : Spec.Hc256.Tables) (e : List Event) : Prop := ∃ a, e = seen (decide (n % 2048 < 1024)) (Spec.Hc256.idx n) a (shown n t)

theorem words_seen (ht : 16 ≤ tgt.bits) (N : Nat) (s : Verif.Hc256.State) (a : Nat) (h : s.idx.toNat = a % 2048) :
    ∃ s' e, words tgt N (repr s) = (.ok (repr s'), (List.range N).flatMap e) ∧ view s' = run (view s) a N ∧ s'.idx.toNat = (a + N) % 2048 ∧
      ∀ k, k < N → Shows (a + k) (run (view s) a k) (e k) := by
  obtain ⟨b, e, h1, ⟨s', rfl, h2, h3⟩, h4⟩ := Tr.forIn_exists N
    (fun k b => ∃ s' : Verif.Hc256.State, b = repr s' ∧ view s' = run (view s) a k ∧ s'.idx.toNat = (a + k) % 2048) (fun k e => Shows (a + k) (run (view s) a k) e)
    (fun _ s => Hc256Core.gen_word_tr tgt s >>= fun r => pure (.yield r.2))
    (by
      rintro k _ hk ⟨s1, rfl, h1, h2⟩
      obtain ⟨s2, x, h3, h4, h5⟩ := gen_word_seen ht s1 (a + k) h2
      rw [h1] at h3 h4
      refine ⟨repr s2, _, ?_, ⟨s2, rfl, h4, h5⟩, ⟨x, rfl⟩⟩
      rw [Tr.ok_then h3]
      exact congrArg (Prod.mk _) (List.append_nil _))
    (repr s) ⟨s, rfl, rfl, h⟩
  exact ⟨s', e, h1, h2, h3, h4⟩

theorem Shows.length {n : Nat} {t : Spec.Hc256.Tables} {e : List Event} (h : Shows n t e) : e.length = 13 := by
  obtain ⟨a, rfl⟩ := h
  rfl

theorem flatMap_length {ε : Type} (e : Nat → List ε) (c n : Nat) (h : ∀ k, k < n → (e k).length = c) : ((List.range n).flatMap e).length = n * c := by
  induction n with
  | zero => rw [List.range_zero]; simp
  | succ n ih => rw [List.range_succ, List.flatMap_append, List.length_append, ih fun k hk => h k (by omega), List.flatMap_singleton, h n (by omega), Nat.succ_mul]

theorem tables_ext {x y : Spec.Hc256.Tables} (hP : x.P = y.P) (hQ : x.Q = y.Q) : x = y := by
  obtain ⟨x1, x2⟩ := x
  obtain ⟨y1, y2⟩ := y
  cases hP
  cases hQ
  rfl

theorem repr_inj {s s' : Verif.Hc256.State} (h : repr s = repr s') : s = s' := by
  obtain ⟨p, q, i⟩ := s
  obtain ⟨p', q', i'⟩ := s'
  injection h with h1 h2 h3
  have h1 : p = p' := Vector.toList_inj.1 h1
  have h2 : q = q' := Vector.toList_inj.1 h2
  have h3 : i = i' := h3
  rw [h1, h2, h3]

/-- The words that are shown tell the tables. -/
theorem run_tables {t t' : Spec.Hc256.Tables} {a N c : Nat} (hc : a ≤ 2048 * c) (hN : 2048 * c + 3084 ≤ a + N)
    (h : ∀ k, k < N → shown (a + k) (run t a k) = shown (a + k) (run t' a k)) : t = t' := by
  have hT (t : Spec.Hc256.Tables) : ∀ n, a ≤ n → (fun n => run t a (n - a)) (n + 1) = (Spec.Hc256.step n ((fun n => run t a (n - a)) n)).2 := by
    intro n hn
    dsimp only
    rw [show n + 1 - a = (n - a) + 1 by omega, run, show a + (n - a) = n by omega]
  have hs : ∀ n, 2048 * c ≤ n → n < 2048 * c + 3084 → shown n (run t a (n - a)) = shown n (run t' a (n - a)) := by
    intro n h1 h2
    have := h (n - a) (by omega)
    rwa [show a + (n - a) = n by omega] at this
  refine run_injective (a := a) (2048 * c + 2048 - a) ?_
  -- every entry of the tables at this point is shown, at the same step in both
  have hP : (run t a (2048 * c + 2048 - a)).P = (run t' a (2048 * c + 2048 - a)).P := funext fun p => by
    obtain ⟨n, h1, h2, h3⟩ := whereP a c hc p
    have e1 := h3 (fun n => run t a (n - a)) (hT t)
    have e2 := h3 (fun n => run t' a (n - a)) (hT t')
    have e3 := hs n h1 h2
    rw [← e1, ← e2, e3]
  have hQ : (run t a (2048 * c + 2048 - a)).Q = (run t' a (2048 * c + 2048 - a)).Q := funext fun p => by
    obtain ⟨n, h1, h2, h3⟩ := whereQ a c hc p
    have e1 := h3 (fun n => run t a (n - a)) (hT t)
    have e2 := h3 (fun n => run t' a (n - a)) (hT t')
    have e3 := hs n h1 h2
    rw [← e1, ← e2, e3]
  exact tables_ext hP hQ

/-- Two runs that are seen to do the same start in the same tables. -/
theorem words_tables {e e' : Nat → List Event} {t t' : Spec.Hc256.Tables} {a N c : Nat} (hc : a ≤ 2048 * c) (hN : 2048 * c + 3084 ≤ a + N)
    (h1 : ∀ k, k < N → Shows (a + k) (run t a k) (e k)) (h2 : ∀ k, k < N → Shows (a + k) (run t' a k) (e' k)) (h : (List.range N).flatMap e = (List.range N).flatMap e') : t = t' := by
  have := flatMap_inj N (fun k hk => by rw [(h1 k hk).length, (h2 k hk).length]) h
  refine run_tables hc hN fun k hk => ?_
  obtain ⟨x, hx⟩ := h1 k hk
  obtain ⟨y, hy⟩ := h2 k hk
  have := this k hk
  rw [hx, hy] at this
  exact (seen_inj this).2.2

theorem states {tgt : Target} (ht : 16 ≤ tgt.bits) {s s' : Verif.Hc256.State} (hs : s.idx.toNat < 2048) (hs' : s'.idx.toNat < 2048) {N : Nat} (hN : 5132 ≤ N)
    (h : (words tgt N (repr s)).2 = (words tgt N (repr s')).2) : s = s' := by
  obtain ⟨_, e, h1, -, -, h2⟩ := words_seen ht N s s.idx.toNat (Nat.mod_eq_of_lt hs).symm
  obtain ⟨_, e', h1', -, -, h2'⟩ := words_seen ht N s' s'.idx.toNat (Nat.mod_eq_of_lt hs').symm
  rw [h1, h1'] at h
  have h : (List.range N).flatMap e = (List.range N).flatMap e' := h
  have hi : s.idx.toNat = s'.idx.toNat := by
    have := flatMap_inj N (fun k hk => by rw [(h2 k hk).length, (h2' k hk).length]) h 0 (by omega)
    obtain ⟨x, hx⟩ := h2 0 (by omega)
    obtain ⟨y, hy⟩ := h2' 0 (by omega)
    rw [hx, hy] at this
    obtain ⟨a, b, -⟩ := seen_inj this
    have b : (s.idx.toNat + 0) % 1024 = (s'.idx.toNat + 0) % 1024 := congrArg Fin.val b
    have a := decide_eq_decide.1 a
    omega
  rw [← hi] at h2'
  exact Verif.Hc256.view_injective s s' (words_tables (c := 1) (by omega) (by omega) h2 h2' h) (BitVec.eq_of_toNat_eq hi)

/-- The run ends with `n` words from tables at step 0. -/
def Ends (tgt : Target) (n : Nat) (m : Tr Hc256Core) : Prop :=
  ∀ a, m.1 = .ok a → ∃ out pre, out.idx = 0 ∧ (words tgt n out).1 = .ok a ∧ m.2 = pre ++ (words tgt n out).2

variable {n : Nat}

theorem Ends.skip {α : Type} {m : Tr α} {k : α → Tr Hc256Core} (h : ∀ a, Ends tgt n (k a)) : Ends tgt n (m >>= k) := by
  obtain ⟨r, t⟩ := m
  cases r with
  | error p => exact nofun
  | ok b =>
    intro a ha
    obtain ⟨out, pre, h1, h2, h3⟩ := h b a ha
    exact ⟨out, t ++ pre, h1, h2, (congrArg (t ++ ·) h3).trans (List.append_assoc ..).symm⟩

theorem Ends.words (out : Hc256Core) (h : out.idx = 0) : Ends tgt n (words tgt n out) := fun _ ha => ⟨out, [], h, ha, rfl⟩

theorem new_ends (key iv : List U8) : Ends tgt 4096 (Hc256Core.new_tr tgt key iv) := by
  rw [Hc256Core.new_tr]
  simp only [pure_bind, val_lit, Nat.sub_zero, bind_pure]
  generalize 4096 = n
  repeat first
    | exact Ends.words ⟨_, _, 0⟩ rfl
    | with_reducible refine Ends.skip fun _ => ?_

theorem list_vec {α : Type} {n : Nat} (l : List α) (h : l.length = n) : ∃ v : Vector α n, l = v.toList := ⟨⟨⟨l⟩, h⟩, rfl⟩

theorem keys (ht : 16 ≤ tgt.bits) {key iv key' iv' : Vector U8 32}
    (h : (Hc256Core.new_tr tgt key.toList iv.toList).2 = (Hc256Core.new_tr tgt key'.toList iv'.toList).2) : key = key' ∧ iv = iv' := by
  have one (key iv : Vector U8 32) : ∃ t pre e, (Hc256Core.new_tr tgt key.toList iv.toList).2 = pre ++ (List.range 4096).flatMap e ∧
      Spec.Hc256.initialise key iv = run t 0 4096 ∧ ∀ k, k < 4096 → Shows (0 + k) (run t 0 k) (e k) := by
    obtain ⟨s, h1, h2, -⟩ := Verif.Hc256.new_eq tgt.mode ht key iv
    have h3 := (new_erase key.toList iv.toList).trans (new_eq ht key iv)
    rw [h1] at h3
    obtain ⟨⟨p, q, i⟩, pre, h4, h5, h6⟩ := new_ends key.toList iv.toList _ h3
    obtain ⟨h7, h8⟩ := words_length _ _ _ h5
    obtain ⟨p, rfl⟩ := list_vec (n := 1024) p (h7.symm.trans (Vector.length_toList ..))
    obtain ⟨q, rfl⟩ := list_vec (n := 1024) q (h8.symm.trans (Vector.length_toList ..))
    dsimp only at h4
    subst h4
    generalize 4096 = N at *
    obtain ⟨s', e, g1, g2, -, g3⟩ := words_seen ht N ⟨p, q, 0⟩ 0 rfl
    have g4 : words tgt N ⟨p.toList, q.toList, 0⟩ = _ := g1
    rw [g4] at h5 h6
    refine ⟨view ⟨p, q, 0⟩, pre, e, h6, ?_, g3⟩
    rw [Spec.Hc256.before] at h2
    rw [← g2, ← h2, repr_inj (Except.ok.inj h5)]
  obtain ⟨t, pre, e, h1, h2, h3⟩ := one key iv
  obtain ⟨t', pre', e', h1', h2', h3'⟩ := one key' iv'
  rw [h1, h1'] at h
  have hl : 3084 ≤ 4096 := by decide
  have hi : ∀ key iv : Vector U8 32, Spec.Hc256.initialise key iv = Spec.Hc256.before (Spec.Hc256.tables key iv) 4096 := fun _ _ => rfl
  rw [hi] at h2 h2'
  generalize 4096 = N at *
  have h := (List.append_inj' h (by
    rw [flatMap_length e 13 N fun k hk => (h3 k hk).length, flatMap_length e' 13 N fun k hk => (h3' k hk).length])).2
  have ht := words_tables (c := 0) (by omega) (by omega) h3 h3' h
  subst ht
  exact Verif.Hc256.tables_injective _ _ _ _ (Verif.Hc256.before_injective N _ _ (h2.trans h2'.symm))

end Hc256
end Verif.Rust
