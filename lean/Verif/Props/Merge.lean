import Verif.Props.Sample
import Verif.Proof.Hc256
import Verif.Proof.LeNat
/-!
# HC-256 never merges states (C50)
-/
namespace Verif
open Spec

namespace Hc256

theorem sub_ne (j k : Fin 1024) (hk : k ≠ 0) : j - k ≠ j := by
  intro h
  apply hk
  apply Fin.ext
  have h1 := congrArg Fin.val h
  rw [Fin.sub_def] at h1
  have h2 := j.isLt
  have h3 := k.isLt
  simp only [Fin.val_zero] at *
  omega

theorem add_cancel {a b c : U32} (h : a + c = b + c) : a = b := by
  have := congrArg (· - c) h
  simpa only [BitVec.add_sub_cancel] using this

theorem upd_injective {T T' : Fin 1024 → U32} {j : Fin 1024} (e : (Fin 1024 → U32) → U32)
    (he : (∀ k, k ≠ j → T k = T' k) → e T = e T')
    (h : Spec.Hc256.upd T j (T j + e T) = Spec.Hc256.upd T' j (T' j + e T')) : T = T' := by
  have ho : ∀ k, k ≠ j → T k = T' k := by
    intro k hk
    have := congrFun h k
    simpa only [Spec.Hc256.upd, if_neg hk] using this
  funext k
  by_cases hk : k = j
  · subst hk
    have := congrFun h k
    simp only [Spec.Hc256.upd, he ho] at this
    exact add_cancel this
  · exact ho k hk

theorem step_injective (n : Nat) (t t' : Spec.Hc256.Tables) (h : (Spec.Hc256.step n t).2 = (Spec.Hc256.step n t').2) : t = t' := by
  obtain ⟨P, Q⟩ := t
  obtain ⟨P', Q'⟩ := t'
  have key : ∀ (A B A' : Fin 1024 → U32) (j : Fin 1024),
      Spec.Hc256.upd A j (A j + A (j - 10) + Spec.Hc256.g B (A (j - 3)) (A (j - 1023))) =
        Spec.Hc256.upd A' j (A' j + A' (j - 10) + Spec.Hc256.g B (A' (j - 3)) (A' (j - 1023))) → A = A' := by
    intro A B A' j h
    refine upd_injective (fun A => A (j - 10) + Spec.Hc256.g B (A (j - 3)) (A (j - 1023))) (fun ho => ?_) (j := j) ?_
    · simp only [ho _ (sub_ne j 10 (by decide)), ho _ (sub_ne j 3 (by decide)), ho _ (sub_ne j 1023 (by decide))]
    · simpa only [BitVec.add_assoc] using h
  unfold Spec.Hc256.step at h
  dsimp only at h
  split at h
  · obtain ⟨h1, h2⟩ := Spec.Hc256.Tables.mk.inj h
    subst h2
    rw [key _ _ _ _ h1]
  · obtain ⟨h1, h2⟩ := Spec.Hc256.Tables.mk.inj h
    subst h1
    rw [key _ _ _ _ h2]

theorem before_injective (n : Nat) (t t' : Spec.Hc256.Tables) (h : Spec.Hc256.before t n = Spec.Hc256.before t' n) : t = t' := by
  induction n with
  | zero => exact h
  | succ n ih => exact ih (step_injective n _ _ h)

/-- The expansion can be run backwards. -/
theorem W_back (key iv key' iv' : Vector U8 32) (h : ∀ k, 512 ≤ k → k < 2560 → Spec.Hc256.W key iv k = Spec.Hc256.W key' iv' k)
    (k : Nat) (hk : k < 2560) : Spec.Hc256.W key iv k = Spec.Hc256.W key' iv' k := by
  have down : ∀ d, ∀ k, 512 ≤ k + d → k < 2560 → Spec.Hc256.W key iv k = Spec.Hc256.W key' iv' k := by
    intro d
    induction d with
    | zero => intro k h1 h2; exact h k (by omega) h2
    | succ d ih =>
      intro k h1 h2
      by_cases hd : 512 ≤ k + d
      · exact ih k hd h2
      · have e := ih (k + 16) (by omega) (by omega)
        rw [W_rec key iv (k + 16) (by omega), W_rec key' iv' (k + 16) (by omega), show k + 16 - 2 = k + 14 by omega, show k + 16 - 7 = k + 9 by omega,
          show k + 16 - 15 = k + 1 by omega, show k + 16 - 16 = k by omega, ih (k + 14) (by omega) (by omega),
          ih (k + 9) (by omega) (by omega), ih (k + 1) (by omega) (by omega)] at e
        have e1 := add_cancel e
        rw [BitVec.add_comm _ (Spec.Hc256.W key iv k), BitVec.add_comm _ (Spec.Hc256.W key' iv' k)] at e1
        exact add_cancel e1
  exact down 512 k (by omega) hk

theorem bytes_of_words (b b' : Vector U8 32) (h : ∀ i, i < 8 → leWord b.toList i = leWord b'.toList i) : b = b' := by
  apply Vector.ext
  intro i hi
  have h1 := leByte_leWord b.toList (i / 4) (i % 4) (by omega) (by simp; omega)
  have h2 := leByte_leWord b'.toList (i / 4) (i % 4) (by omega) (by simp; omega)
  rw [h (i / 4) (by omega), h2] at h1
  simp only [Vector.getElem_toList, show 4 * (i / 4) + i % 4 = i by omega] at h1
  exact h1.symm

theorem tables_injective (key iv key' iv' : Vector U8 32) (h : Spec.Hc256.tables key iv = Spec.Hc256.tables key' iv') :
    key = key' ∧ iv = iv' := by
  obtain ⟨h1, h2⟩ := Spec.Hc256.Tables.mk.inj h
  have e : ∀ k, 512 ≤ k → k < 2560 → Spec.Hc256.W key iv k = Spec.Hc256.W key' iv' k := by
    intro k a b
    by_cases hk : k < 1536
    · have := congrFun h1 ⟨k - 512, by omega⟩
      simpa only [show k - 512 + 512 = k by omega] using this
    · have := congrFun h2 ⟨k - 1536, by omega⟩
      simpa only [show k - 1536 + 1536 = k by omega] using this
  have w := W_back _ _ _ _ e
  constructor
  · refine bytes_of_words _ _ fun i hi => ?_
    rw [← W_key key iv i hi, ← W_key key' iv' i hi, w i (by omega)]
  · refine bytes_of_words _ _ fun i hi => ?_
    rw [← W_iv key iv i hi, ← W_iv key' iv' i hi, w (i + 8) (by omega)]

theorem view_injective (s s' : State) (h : view s = view s') (hi : s.idx = s'.idx) : s = s' := by
  obtain ⟨p, q, i⟩ := s
  obtain ⟨p', q', i'⟩ := s'
  obtain ⟨h1, h2⟩ := Spec.Hc256.Tables.mk.inj h
  have tab_inj : ∀ v v' : Vector U32 1024, tab v = tab v' → v = v' := by
    intro v v' e
    apply Vector.ext
    intro i hi
    exact congrFun e ⟨i, hi⟩
  have e1 : p = p' := tab_inj _ _ h1
  have e2 : q = q' := tab_inj _ _ h2
  have e3 : i = i' := hi
  rw [e1, e2, e3]

theorem genMany_rel (m : Mode) {u : Nat} (hu : 16 ≤ u) (key iv : Vector U8 32) (k : Nat) : ∀ (s : State) (n : Nat),
    Rel (Spec.Hc256.initialise key iv) s n → ∃ l t, genMany (genBlock m u) k s = .ok (l, t) ∧
      Rel (Spec.Hc256.initialise key iv) t (n + k) := by
  induction k with
  | zero => intro s n h; exact ⟨[], s, rfl, h⟩
  | succ k ih =>
    intro s n h
    obtain ⟨s1, h1, h2⟩ := genBlock_rel m hu key iv s n h
    obtain ⟨l, t, h3, h4⟩ := ih s1 (n + 1) h2
    refine ⟨Spec.Hc256.block key iv n :: l, t, ?_, by rwa [show n + (k + 1) = n + 1 + k by omega]⟩
    rw [genMany, h1, ok_bind]
    dsimp only
    rw [h3]
    rfl

end Hc256

/-- **C50**, one step: two states with indices in range that go to the same state were the same state. -/
theorem C50_step (m m' : Mode) (u : Nat) (hu : 16 ≤ u) (s s' t : Hc256.State) (w w' : U32) (hs : s.idx.toNat < 2048)
    (hs' : s'.idx.toNat < 2048) (h : Hc256.genWord m u s = .ok (w, t)) (h' : Hc256.genWord m' u s' = .ok (w', t)) : s = s' := by
  obtain ⟨t1, a1, b1, c1⟩ := Hc256.genWord_step m hu s s.idx.toNat (Nat.mod_eq_of_lt hs).symm
  obtain ⟨t2, a2, b2, c2⟩ := Hc256.genWord_step m' hu s' s'.idx.toNat (Nat.mod_eq_of_lt hs').symm
  rw [a1] at h
  rw [a2] at h'
  simp only [Except.ok.injEq, Prod.mk.injEq] at h h'
  obtain ⟨-, rfl⟩ := h
  obtain ⟨-, rfl⟩ := h'
  have hi : s.idx = s'.idx := BitVec.eq_of_toNat_eq (by omega)
  rw [b1, hi] at b2
  exact Hc256.view_injective s s' (Hc256.step_injective _ _ _ b2) hi

/-- Two states that differ in one table entry have different successors. -/
example (p q : Vector U32 1024) : ∃ w t w' t', Hc256.genWord .debug 64 ⟨p.set 700 0, q, 5#32⟩ = .ok (w, t) ∧
    Hc256.genWord .debug 64 ⟨p.set 700 1, q, 5#32⟩ = .ok (w', t') ∧ t ≠ t' := by
  obtain ⟨t, h, -⟩ := Hc256.genWord_step .debug (u := 64) (by decide) ⟨p.set 700 0, q, 5#32⟩ 5 (by decide : (5#32).toNat = 5 % 2048)
  obtain ⟨t', h', -⟩ := Hc256.genWord_step .debug (u := 64) (by decide) ⟨p.set 700 1, q, 5#32⟩ 5 (by decide : (5#32).toNat = 5 % 2048)
  refine ⟨_, t, _, t', h, h', fun e => ?_⟩
  subst e
  have e := congrArg (fun s : Hc256.State => s.ptable[700]) (C50_step .debug .debug 64 (by decide) _ _ t _ _ (by decide : (5#32).toNat < 2048) (by decide : (5#32).toNat < 2048) h h')
  simp only [Vector.getElem_set_self] at e
  exact absurd e (by decide)

/-- The index bound of `C50_step` is needed: the mask forgets the higher bits. -/
example (p q : Vector U32 1024) : ∃ w t, Hc256.genWord .release 64 ⟨p, q, 1024#32⟩ = .ok (w, t) ∧
    Hc256.genWord .release 64 ⟨p, q, 3072#32⟩ = .ok (w, t) := by
  have e : Hc256.genWord .release 64 ⟨p, q, 3072#32⟩ = Hc256.genWord .release 64 ⟨p, q, 1024#32⟩ := by
    have a : Hc256.toUsize 64 3072#32 = 3072 := by decide
    have b : Hc256.toUsize 64 1024#32 = 1024 := by decide
    have d : Hc256.add32 .release 3072#32 1#32 = .ok 3073#32 := rfl
    have f : Hc256.add32 .release 1024#32 1#32 = .ok 1025#32 := rfl
    simp only [Hc256.genWord, a, b, d, f, Hc256.ok_bind]
    rfl
  obtain ⟨t, h, -⟩ := Hc256.genWord_step .release (u := 64) (by decide) ⟨p, q, 1024#32⟩ 1024 (by decide : (1024#32).toNat = 1024 % 2048)
  exact ⟨_, t, h, e.trans h⟩

/-- **C50**.  If two HC-256 objects are in the same state after the same number of words, they were made from the same key and the same IV:
neither the set-up (expansion and 4096 steps) nor the generation of keystream loses anything of key and IV. -/
theorem C50_no_merge (m m' : Mode) (u : Nat) (hu : 16 ≤ u) (key iv key' iv' : Vector U8 32) (n : Nat) (s s' t : Hc256.State)
    (l l' : List (Vector U8 4)) (hs : Hc256.new m u key iv = .ok s) (hs' : Hc256.new m' u key' iv' = .ok s')
    (h : genMany (Hc256.genBlock m u) n s = .ok (l, t)) (h' : genMany (Hc256.genBlock m' u) n s' = .ok (l', t)) :
    key = key' ∧ iv = iv' := by
  obtain ⟨_, a1, r1⟩ := Hc256.new_eq m hu key iv
  obtain ⟨_, a2, r2⟩ := Hc256.new_eq m' hu key' iv'
  rw [hs] at a1
  rw [hs'] at a2
  cases a1
  cases a2
  obtain ⟨_, _, b1, q1⟩ := Hc256.genMany_rel m hu key iv n s 0 r1
  obtain ⟨_, _, b2, q2⟩ := Hc256.genMany_rel m' hu key' iv' n s' 0 r2
  rw [h] at b1
  rw [h'] at b2
  simp only [Except.ok.injEq, Prod.mk.injEq] at b1 b2
  obtain ⟨-, rfl⟩ := b1
  obtain ⟨-, rfl⟩ := b2
  exact Hc256.tables_injective _ _ _ _ (Hc256.before_injective 4096 _ _ (Hc256.before_injective (0 + n) _ _ (q1.1.symm.trans q2.1)))

/-- Objects exist for all keys and IVs, and any number of words can be drawn. -/
example : ∃ s t l, Hc256.new .debug 64 (Sample.bytes 32 0) (Sample.bytes 32 7) = .ok s ∧
    genMany (Hc256.genBlock .debug 64) 1000000 s = .ok (l, t) := by
  obtain ⟨s, h1, r⟩ := Hc256.new_eq .debug (u := 64) (by decide) (Sample.bytes 32 0) (Sample.bytes 32 7)
  obtain ⟨l, t, h2, -⟩ := Hc256.genMany_rel .debug (u := 64) (by decide) _ _ 1000000 s 0 r
  exact ⟨s, t, l, h1, h2⟩

end Verif
