import Verif.Proof.TraceTables
import Verif.Proof.Erase
/-!
# What the records of `hc-256` tell
-/
namespace Verif.Rust

theorem Tr.one {α β : Type} {m : Tr α} {k : α → Tr β} {a : α} {e : Event} {r : Except Panic β} {t : List Event} (h : m = (.ok a, [e])) (h' : k a = (r, t)) :
    (m >>= k) = (r, e :: t) := by
  rw [Tr.ok_then h, h']
  rfl

theorem Tr.more {α β : Type} {m : Tr α} {k : α → Tr β} {a : α} {e : List Event} {r : Except Panic β} {t : List Event} (h : m = (.ok a, e)) (h' : k a = (r, t)) :
    (m >>= k) = (r, e ++ t) := by
  rw [Tr.ok_then h, h']

theorem Tr.none {α β : Type} {m : Except Panic α} {k : α → Tr β} {a : α} {r : Tr β} (h : m = .ok a) (h' : k a = r) : ((liftM m : Tr α) >>= k) = r := by
  rw [h, Tr.lift_ok, pure_bind, h']

namespace Hc256
open Verif.Hc256 (tab view)

variable {tgt : Target}

@[erase] theorem f1_erase (x : U32) : (f1_tr tgt x).1 = f1 tgt x := by
  simp only [erase, f1_tr, f1]
@[erase] theorem f2_erase (x : U32) : (f2_tr tgt x).1 = f2 tgt x := by
  simp only [erase, f2_tr, f2]
@[erase] theorem g1_erase (s : Hc256Core) (x y : U32) : (Hc256Core.g1_tr tgt s x y).1 = Hc256Core.g1 tgt s x y := by
  simp only [erase, Hc256Core.g1_tr, Hc256Core.g1]
@[erase] theorem g2_erase (s : Hc256Core) (x y : U32) : (Hc256Core.g2_tr tgt s x y).1 = Hc256Core.g2 tgt s x y := by
  simp only [erase, Hc256Core.g2_tr, Hc256Core.g2]
@[erase] theorem h1_erase (s : Hc256Core) (x : U32) : (Hc256Core.h1_tr tgt s x).1 = Hc256Core.h1 tgt s x := by
  simp only [erase, Hc256Core.h1_tr, Hc256Core.h1]
@[erase] theorem h2_erase (s : Hc256Core) (x : U32) : (Hc256Core.h2_tr tgt s x).1 = Hc256Core.h2 tgt s x := by
  simp only [erase, Hc256Core.h2_tr, Hc256Core.h2]
@[erase] theorem gen_word_erase (s : Hc256Core) : (Hc256Core.gen_word_tr tgt s).1 = Hc256Core.gen_word tgt s := by
  simp only [erase, Hc256Core.gen_word_tr, Hc256Core.gen_word]
theorem new_erase (k i : List U8) : (Hc256Core.new_tr tgt k i).1 = Hc256Core.new tgt k i := by
  unfold Hc256Core.new_tr Hc256Core.new
  erases
@[erase] theorem gen_ks_block_erase (s : Backend) (b : List U8) : (Backend.gen_ks_block_tr tgt s b).1 = Backend.gen_ks_block tgt s b := by
  simp only [erase, Backend.gen_ks_block_tr, Backend.gen_ks_block]

/-- What is seen of the function `h` of a word: the word. -/
def bytes (x : U32) : List Event :=
  [.index (x.toNat % 256), .index (256 + x.toNat / 2 ^ 8 % 256), .index (512 + x.toNat / 2 ^ 16 % 256), .index (768 + x.toNat / 2 ^ 24)]

theorem bytes_inj {x y : U32} (h : bytes x = bytes y) : x = y := by
  injection h with h1 h
  injection h with h2 h
  injection h with h3 h
  injection h with h4 h
  injection h1 with h1
  injection h2 with h2
  injection h3 with h3
  injection h4 with h4
  exact BitVec.eq_of_toNat_eq (by omega)

/-- What is seen of a step at place `j`: `a` is the place looked at by `g`, `x` the word looked at by `h`. -/
def seen (p : Bool) (j : Fin 1024) (a : Nat) (x : U32) : List Event :=
  .branch p :: .index j.val :: .index (j - 10).val :: .index (j - 3).val :: .index (j - 1023).val :: .index a :: .index j.val :: .index (j - 12).val :: (bytes x ++ [.index j.val])

theorem seen_inj {p p' : Bool} {j j' : Fin 1024} {a a' : Nat} {x x' : U32} (h : seen p j a x = seen p' j' a' x') : p = p' ∧ j = j' ∧ x = x' := by
  injection h with h1 h
  injection h with h2 h
  injection h with _ h
  injection h with _ h
  injection h with _ h
  injection h with _ h
  injection h with _ h
  injection h with _ h
  injection h1 with h1
  injection h2 with h2
  exact ⟨h1, Fin.ext h2, bytes_inj (List.append_inj h rfl).1⟩

theorem idx_tab (t : Vector U32 1024) (i : Usize tgt) (j : Fin 1024) (h : i.val = j.val) : Tr.idx t.toList i = (.ok (tab t j), [.index j.val]) := by
  rw [Tr.idx, idx_get, Verif.Hc256.get_tab t _ j h, h]
  rfl

theorem upd_tab (t : Vector U32 1024) (i : Usize tgt) (j : Fin 1024) (h : i.val = j.val) (x : U32) :
    ∃ t' : Vector U32 1024, Tr.upd t.toList i x = (.ok t'.toList, [.index j.val]) ∧ tab t' = Spec.Hc256.upd (tab t) j x := by
  obtain ⟨t', h1, h2⟩ := Verif.Hc256.put_tab t j x
  refine ⟨t', ?_, h2⟩
  rw [Tr.upd, upd_put, h, h1]
  rfl

theorem half_seen (ht : 16 ≤ tgt.bits) (t o : Vector U32 1024) (j : Fin 1024) (G : U32 → U32 → Tr U32) (H : List U32 → U32 → Tr U32) (mk : List U32 → Hc256Core)
    (T : Fin 1024 → U32)
    (hT : T = Spec.Hc256.upd (tab t) j (tab t j + tab t (j - 10) + Spec.Hc256.g (tab o) (tab t (j - 3)) (tab t (j - 1023))))
    (hG : ∀ x y, G x y = (.ok (Spec.Hc256.g (tab o) x y), [.index ((x ^^^ y).toNat % 1024)]))
    (hH : ∀ (v : Vector U32 1024) x, H v.toList x = (.ok (Spec.Hc256.h (tab o) x), bytes x)) :
    ∃ (t' : Vector U32 1024) (a : Nat), tab t' = T ∧
    ((do
      let r3 ← Tr.idx t.toList (⟨j.val⟩ : Usize tgt)
      let r5 ← Tr.idx t.toList (⟨Verif.Hc256.back tgt.bits j.val 10⟩ : Usize tgt)
      let r7 ← Tr.idx t.toList (⟨Verif.Hc256.back tgt.bits j.val 3⟩ : Usize tgt)
      let r9 ← Tr.idx t.toList (⟨Verif.Hc256.back tgt.bits j.val 1023⟩ : Usize tgt)
      let r10 ← G r7 r9
      let r11 ← Tr.upd t.toList (⟨j.val⟩ : Usize tgt) (RInt.wadd (RInt.wadd r3 r5) r10)
      let r13 ← Tr.idx r11 (⟨Verif.Hc256.back tgt.bits j.val 12⟩ : Usize tgt)
      let r14 ← H r11 r13
      let r15 ← Tr.idx r11 (⟨j.val⟩ : Usize tgt)
      pure (RInt.bxor r14 r15, mk r11) : Tr (U32 × Hc256Core)) =
    (.ok (Spec.Hc256.h (tab o) (T (j - 12)) ^^^ T j, mk t'.toList), .index j.val :: .index (j - 10).val :: .index (j - 3).val :: .index (j - 1023).val ::
      .index a :: .index j.val :: .index (j - 12).val :: (bytes (T (j - 12)) ++ [.index j.val]))) := by
  have hb := Verif.Hc256.back_eq ht j
  obtain ⟨t', h1, h2⟩ := upd_tab t (⟨j.val⟩ : Usize tgt) j rfl
    (tab t j + tab t (j - 10) + Spec.Hc256.g (tab o) (tab t (j - 3)) (tab t (j - 1023)))
  rw [← hT] at h2
  refine ⟨t', (tab t (j - 3) ^^^ tab t (j - 1023)).toNat % 1024, h2, ?_⟩
  refine Tr.one (idx_tab t _ j rfl) ?_
  refine Tr.one (idx_tab t _ (j - 10) (hb 10 (by decide))) ?_
  refine Tr.one (idx_tab t _ (j - 3) (hb 3 (by decide))) ?_
  refine Tr.one (idx_tab t _ (j - 1023) (hb 1023 (by decide))) ?_
  refine Tr.one (hG _ _) ?_
  refine Tr.one h1 ?_
  refine Tr.one (idx_tab t' _ (j - 12) (hb 12 (by decide))) ?_
  rw [h2]
  refine Tr.more (hH t' _) ?_
  refine Tr.one (idx_tab t' _ j rfl) ?_
  rw [h2]
  rfl

/-- The word that a step shows. -/
def shown (n : Nat) (t : Spec.Hc256.Tables) : U32 :=
  (if n % 2048 < 1024 then (Spec.Hc256.step n t).2.P else (Spec.Hc256.step n t).2.Q) (Spec.Hc256.idx n - 12)

theorem gen_word_seen (ht : 16 ≤ tgt.bits) (s : Verif.Hc256.State) (n : Nat) (hn : s.idx.toNat = n % 2048) :
    ∃ s' a, Hc256Core.gen_word_tr tgt (repr s) = (.ok ((Spec.Hc256.step n (view s)).1, repr s'), seen (decide (n % 2048 < 1024)) (Spec.Hc256.idx n) a (shown n (view s))) ∧
      view s' = (Spec.Hc256.step n (view s)).2 ∧ s'.idx.toNat = (n + 1) % 2048 := by
  have hi : Verif.Hc256.toUsize tgt.bits s.idx = n % 2048 := by rw [Verif.Hc256.toUsize_small ht _ (by omega), hn]
  have hj : Verif.Hc256.toUsize tgt.bits s.idx &&& 1023 = (Spec.Hc256.idx n).val := by
    rw [Verif.Hc256.toUsize_mask ht, hn]; simp only [Spec.Hc256.idx]; omega
  have hadd : add tgt s.idx 1 = .ok (s.idx + 1#32) := by
    rw [add32_eq]
    refine Verif.Hc256.add32_ok tgt.mode _ _ ?_
    rw [hn]
    show n % 2048 + 1 < _
    omega
  have hidx : ((s.idx + 1#32) &&& 2047#32).toNat = (n + 1) % 2048 := by
    have h : (2047#32).toNat = 2 ^ 11 - 1 := by decide
    rw [BitVec.toNat_and, h, Nat.and_two_pow_sub_one_eq_mod, BitVec.toNat_add, hn]
    simp only [BitVec.toNat_ofNat]; omega
  have hb : ∀ (j : Nat) (n : Nat), RInt.band (RInt.wsub (⟨j⟩ : Usize tgt) (OfNat.ofNat n)) ⟨1023⟩ = ⟨Verif.Hc256.back tgt.bits j n⟩ := fun _ _ => rfl
  have hj' : RInt.band (cast (Usize tgt) s.idx) (⟨1023⟩ : Usize tgt) = ⟨(Spec.Hc256.idx n).val⟩ := congrArg Usize.mk hj
  have h2 : sub tgt (2048 : U32) 1 = .ok 2047#32 := rfl
  have hlt : lt (cast (Usize tgt) s.idx) 1024 = decide (n % 2048 < 1024) := by
    rw [← hi]
    rfl
  have hg1 (q p i x y) : Hc256Core.g1_tr tgt ⟨(p : Vector U32 1024).toList, (q : Vector U32 1024).toList, i⟩ x y = (.ok (Spec.Hc256.g (tab q) x y), [.index ((x ^^^ y).toNat % 1024)]) :=
    Tr.ext (((g1_erase _ x y).trans (g1_eq ht ⟨p, q, i⟩ x y)).trans (Verif.Hc256.g_eq ht q x y)) (C90_hc256 tgt ht p q i x y).2.2.1
  have hg2 (q p i x y) : Hc256Core.g2_tr tgt ⟨(p : Vector U32 1024).toList, (q : Vector U32 1024).toList, i⟩ x y = (.ok (Spec.Hc256.g (tab p) x y), [.index ((x ^^^ y).toNat % 1024)]) :=
    Tr.ext (((g2_erase _ x y).trans (g2_eq ht ⟨p, q, i⟩ x y)).trans (Verif.Hc256.g_eq ht p x y)) (C90_hc256 tgt ht p q i x y).2.2.2
  have hh1 (q p i x) : Hc256Core.h1_tr tgt ⟨(p : Vector U32 1024).toList, (q : Vector U32 1024).toList, i⟩ x = (.ok (Spec.Hc256.h (tab q) x), bytes x) :=
    Tr.ext (((h1_erase _ x).trans (h1_eq ⟨p, q, i⟩ x)).trans (Verif.Hc256.h_eq _ ht q x)) (C90_hc256 tgt ht p q i x x).1
  have hh2 (q p i x) : Hc256Core.h2_tr tgt ⟨(p : Vector U32 1024).toList, (q : Vector U32 1024).toList, i⟩ x = (.ok (Spec.Hc256.h (tab p) x), bytes x) :=
    Tr.ext (((h2_erase _ x).trans (h2_eq ⟨p, q, i⟩ x)).trans (Verif.Hc256.h_eq _ ht p x)) (C90_hc256 tgt ht p q i x x).2.1
  rw [Hc256Core.gen_word_tr]
  simp only [table_mask_eq ht, Tr.lift_ok, pure_bind, h2]
  simp only [repr, hj', hb, hadd, Tr.lift_ok, pure_bind, hlt]
  unfold Spec.Hc256.step shown Spec.Hc256.step
  generalize s.idx + 1#32 = i' at hidx ⊢
  by_cases hc : n % 2048 < 1024
  · simp only [if_pos hc]
    obtain ⟨t', a, h3, h4⟩ := half_seen ht s.ptable s.qtable (Spec.Hc256.idx n) (Hc256Core.g1_tr tgt ⟨s.ptable.toList, s.qtable.toList, RInt.band i' 2047#32⟩)
        (fun p => Hc256Core.h1_tr tgt ⟨p, s.qtable.toList, RInt.band i' 2047#32⟩) (fun p => ⟨p, s.qtable.toList, RInt.band i' 2047#32⟩) _ rfl
        (hg1 _ _ _) (fun v x => hh1 _ v _ x)
    refine ⟨⟨t', s.qtable, i' &&& 2047#32⟩, a, ?_, by simp only [view, h3], hidx⟩
    refine Tr.one (show Tr.branch _ = (.ok _, [.branch _]) from rfl) ?_
    rw [if_pos (decide_eq_true hc)]
    exact h4
  · simp only [if_neg hc]
    obtain ⟨t', a, h3, h4⟩ := half_seen ht s.qtable s.ptable (Spec.Hc256.idx n) (Hc256Core.g2_tr tgt ⟨s.ptable.toList, s.qtable.toList, RInt.band i' 2047#32⟩)
        (fun p => Hc256Core.h2_tr tgt ⟨s.ptable.toList, p, RInt.band i' 2047#32⟩) (fun p => ⟨s.ptable.toList, p, RInt.band i' 2047#32⟩) _ rfl
        (hg2 _ _ _) (fun v x => hh2 v _ _ x)
    refine ⟨⟨s.ptable, t', i' &&& 2047#32⟩, a, ?_, by simp only [view, h3], hidx⟩
    refine Tr.one (show Tr.branch _ = (.ok _, [.branch _]) from rfl) ?_
    rw [if_neg (by simpa using hc)]
    exact h4

/-! ## The words that are shown tell the tables -/

section
variable {T : Nat → Spec.Hc256.Tables} {a : Nat} (hT : ∀ n, a ≤ n → T (n + 1) = (Spec.Hc256.step n (T n)).2)
include hT

theorem keepP (p : Fin 1024) (n m : Nat) (ha : a ≤ n) (h : ∀ k, n ≤ k → k < n + m → ¬ (k % 2048 < 1024 ∧ k % 1024 = p.val)) : (T (n + m)).P p = (T n).P p := by
  induction m with
  | zero => rfl
  | succ m ih =>
    rw [← ih fun k h1 h2 => h k h1 (by omega), ← Nat.add_assoc, hT _ (by omega), Spec.Hc256.step]
    have := h (n + m) (by omega) (by omega)
    split
    · rename_i hc
      exact if_neg fun e => this ⟨hc, (congrArg Fin.val e).symm⟩
    · rfl

theorem keepQ (p : Fin 1024) (n m : Nat) (ha : a ≤ n) (h : ∀ k, n ≤ k → k < n + m → ¬ (¬ k % 2048 < 1024 ∧ k % 1024 = p.val)) : (T (n + m)).Q p = (T n).Q p := by
  induction m with
  | zero => rfl
  | succ m ih =>
    rw [← ih fun k h1 h2 => h k h1 (by omega), ← Nat.add_assoc, hT _ (by omega), Spec.Hc256.step]
    have := h (n + m) (by omega) (by omega)
    split
    · rfl
    · rename_i hc
      exact if_neg fun e => this ⟨hc, (congrArg Fin.val e).symm⟩

theorem showP (n : Nat) (p : Fin 1024) (ha : a ≤ n) (hn : n % 2048 < 1024) (hp : n % 1024 = (p.val + 12) % 1024) : shown n (T n) = (T (n + 1)).P p := by
  have e : Spec.Hc256.idx n - 12 = p := by
    apply Fin.ext
    have := p.isLt
    rw [Fin.sub_def]
    show (1024 - 12 + n % 1024) % 1024 = p.val
    omega
  rw [shown, if_pos hn, e, hT n ha]

theorem showQ (n : Nat) (p : Fin 1024) (ha : a ≤ n) (hn : ¬ n % 2048 < 1024) (hp : n % 1024 = (p.val + 12) % 1024) : shown n (T n) = (T (n + 1)).Q p := by
  have e : Spec.Hc256.idx n - 12 = p := by
    apply Fin.ext
    have := p.isLt
    rw [Fin.sub_def]
    show (1024 - 12 + n % 1024) % 1024 = p.val
    omega
  rw [shown, if_neg hn, e, hT n ha]

end

/-- Where the entries of the tables are shown. -/
theorem whereP (a c : Nat) (ha : a ≤ 2048 * c) (p : Fin 1024) : ∃ n, 2048 * c ≤ n ∧ n < 2048 * c + 3084 ∧
    ∀ T : Nat → Spec.Hc256.Tables, (∀ n, a ≤ n → T (n + 1) = (Spec.Hc256.step n (T n)).2) → shown n (T n) = (T (2048 * c + 2048)).P p := by
  have hp := p.isLt
  by_cases h : p.val ≤ 1011
  · refine ⟨2048 * c + p.val + 12, by omega, by omega, fun T hT => ?_⟩
    rw [showP hT _ p (by omega) (by omega) (by omega), ← keepP hT p (2048 * c + p.val + 12 + 1) (2035 - p.val) (by omega) (fun k h1 h2 => by omega)]
    exact congrArg (fun n => (T n).P p) (by omega)
  · refine ⟨2048 * c + 2048 + (p.val - 1012), by omega, by omega, fun T hT => ?_⟩
    rw [showP hT _ p (by omega) (by omega) (by omega), ← keepP hT p (2048 * c + 2048) (p.val - 1012 + 1) (by omega) (fun k h1 h2 => by omega)]
    exact congrArg (fun n => (T n).P p) (by omega)

theorem whereQ (a c : Nat) (ha : a ≤ 2048 * c) (p : Fin 1024) : ∃ n, 2048 * c ≤ n ∧ n < 2048 * c + 3084 ∧
    ∀ T : Nat → Spec.Hc256.Tables, (∀ n, a ≤ n → T (n + 1) = (Spec.Hc256.step n (T n)).2) → shown n (T n) = (T (2048 * c + 2048)).Q p := by
  have hp := p.isLt
  by_cases h : p.val ≤ 1011
  · refine ⟨2048 * c + 1024 + p.val + 12, by omega, by omega, fun T hT => ?_⟩
    rw [showQ hT _ p (by omega) (by omega) (by omega), ← keepQ hT p (2048 * c + 1024 + p.val + 12 + 1) (1011 - p.val) (by omega) (fun k h1 h2 => by omega)]
    exact congrArg (fun n => (T n).Q p) (by omega)
  · refine ⟨2048 * c + 3072 + (p.val - 1012), by omega, by omega, fun T hT => ?_⟩
    rw [showQ hT _ p (by omega) (by omega) (by omega), ← keepQ hT p (2048 * c + 2048) (1024 + (p.val - 1012) + 1) (by omega) (fun k h1 h2 => by omega)]
    exact congrArg (fun n => (T n).Q p) (by omega)

end Hc256
end Verif.Rust
