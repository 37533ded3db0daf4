import Verif.Proof.Wrapper
/-!
# From single blocks to clients

A backend with the provided methods whose `gen_ks_block` emits block `n` in any state that stands for `n`
serves every client with consecutive blocks.
-/
namespace Verif
open Spec

variable {bs : Nat} {σ : Type}

theorem Spec.Within.mono' {L : Option Nat} {p q : Nat} (h : Within L q) (hpq : p ≤ q) : Within L p :=
  fun M e => Nat.le_trans hpq (h M e)

theorem genMany_ref (gen : σ → Except Panic (Vector U8 bs × σ)) (ks : Nat → Vector U8 bs) (Rel : σ → Nat → Prop)
    (mb : Option Nat)
    (hgen : ∀ s n, Rel s n → Within mb (n + 1) → ∃ s', gen s = .ok (ks n, s') ∧ Rel s' (n + 1)) (k : Nat) :
    ∀ s n, Rel s n → Within mb (n + k) →
      ∃ s', genMany gen k s = .ok ((List.range k).map fun i => ks (n + i), s') ∧ Rel s' (n + k) := by
  induction k with
  | zero => intro s n hr _; exact ⟨s, rfl, hr⟩
  | succ k ih =>
    intro s n hr hw
    obtain ⟨s1, h1, hr1⟩ := hgen s n hr (hw.mono' (by omega))
    obtain ⟨s2, h2, hr2⟩ := ih s1 (n + 1) hr1 (hw.mono' (by omega))
    refine ⟨s2, ?_, ?_⟩
    · simp only [genMany, h1, h2, bind, Except.bind, pure, Except.pure, List.range_succ_eq_map, List.map_cons,
        List.map_map]
      simp only [Nat.add_zero, Function.comp_def, Nat.succ_eq_add_one, Nat.add_assoc, Nat.add_comm 1]
    · rwa [show n + (k + 1) = n + 1 + k by omega]

theorem run_ofBlock_ref {α : Type} (par : Nat) (gen : σ → Except Panic (Vector U8 bs × σ)) (ks : Nat → Vector U8 bs)
    (Rel : σ → Nat → Prop) (mb : Option Nat)
    (hgen : ∀ s n, Rel s n → Within mb (n + 1) → ∃ s', gen s = .ok (ks n, s') ∧ Rel s' (n + 1)) (p : Prog bs α) :
    ∀ s n a n', Rel s n → p.ref ks par n = .ok (a, n') → Within mb n' →
      ∃ s', p.run (.ofBlock par gen) s = .ok (a, s') ∧ Rel s' n' := by
  induction p with
  | done b =>
    intro s n a n' hr h _
    simp only [Prog.ref, Except.ok.injEq, Prod.mk.injEq] at h
    obtain ⟨rfl, rfl⟩ := h
    exact ⟨s, rfl, hr⟩
  | block k ih =>
    intro s n a n' hr h hw
    simp only [Prog.ref] at h
    obtain ⟨s1, h1, hr1⟩ := hgen s n hr (hw.mono' (Prog.ref_mono ks par _ _ _ _ h))
    obtain ⟨s2, h2, hr2⟩ := ih _ s1 (n + 1) a n' hr1 h hw
    refine ⟨s2, ?_, hr2⟩
    simp only [Prog.run, Backend.ofBlock, h1, bind, Except.bind]
    exact h2
  | par k ih =>
    intro s n a n' hr h hw
    simp only [Prog.ref] at h
    obtain ⟨s1, h1, hr1⟩ := genMany_ref gen ks Rel mb hgen par s n hr (hw.mono' (Prog.ref_mono ks par _ _ _ _ h))
    obtain ⟨s2, h2, hr2⟩ := ih _ s1 (n + par) a n' hr1 h hw
    refine ⟨s2, ?_, hr2⟩
    simp only [Prog.run, Backend.ofBlock, h1, bind, Except.bind]
    exact h2
  | tail t k ih =>
    intro s n a n' hr h hw
    simp only [Prog.ref] at h
    split at h
    · rename_i ht
      obtain ⟨s1, h1, hr1⟩ := genMany_ref gen ks Rel mb hgen t s n hr (hw.mono' (Prog.ref_mono ks par _ _ _ _ h))
      obtain ⟨s2, h2, hr2⟩ := ih _ s1 (n + t) a n' hr1 h hw
      refine ⟨s2, ?_, hr2⟩
      simp only [Prog.run, Backend.ofBlock, if_pos ht, h1, bind, Except.bind]
      exact h2
    · cases h

end Verif
