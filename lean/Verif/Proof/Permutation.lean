import Verif.Proof.ChaChaSetup
import Verif.Proof.SalsaStream
/-!
# Rounds are injective
-/
namespace Verif

/-- Updating one word by an injective function whose parameters do not include that word is injective. -/
theorem set_injective (a : Fin 16) (g : Vector U32 16 → U32 → U32) (hg : ∀ s x y, g s x = g s y → x = y)
    (hind : ∀ s x, g (s.set a x) = g s) :
    Function.Injective (fun s : Vector U32 16 => s.set a (g s s[a])) := by
  intro s t h
  have hoff : ∀ i (hi : i < 16), i ≠ a.val → s[i] = t[i] := by
    intro i hi hne
    have := congrArg (fun v : Vector U32 16 => v[i]) h
    simpa only [Vector.getElem_set, if_neg (Ne.symm hne)] using this
  have hst : s = t.set a s[a] := by
    apply Vector.ext; intro i hi
    rw [Vector.getElem_set]
    split
    · next e => subst e; rfl
    · next e => exact hoff i hi (Ne.symm e)
  have hgs : g s = g t := by rw [hst, hind]
  have hval := congrArg (fun v : Vector U32 16 => v[a]) h
  simp only [Fin.getElem_fin, Vector.getElem_set_self] at hval
  rw [hgs] at hval
  have e := hg _ _ _ hval
  rw [hst]
  apply Vector.ext; intro i hi
  rw [Vector.getElem_set]
  split
  · next e' => subst e'; exact e
  · rfl

theorem rotateLeft_injective (k : Nat) (x y : U32) (h : x.rotateLeft k = y.rotateLeft k) : x = y := by
  apply BitVec.eq_of_getLsbD_eq
  intro j hj
  have hr : k % 32 < 32 := Nat.mod_lt _ (by decide)
  by_cases hc : j + k % 32 < 32
  · have := congrArg (fun z => z.getLsbD (j + k % 32)) h
    simp only [BitVec.getLsbD_rotateLeft] at this
    rw [decide_eq_false (show ¬ (j + k % 32 < k % 32) by omega), decide_eq_true hc, Nat.add_sub_cancel] at this
    simpa using this
  · have := congrArg (fun z => z.getLsbD (j + k % 32 - 32)) h
    simp only [BitVec.getLsbD_rotateLeft] at this
    rw [decide_eq_true (show j + k % 32 - 32 < k % 32 by omega)] at this
    rwa [cond_true, cond_true, show 32 - k % 32 + (j + k % 32 - 32) = j by omega] at this

theorem add_right_inj' (x y z : U32) (h : x + z = y + z) : x = y := by
  have := congrArg (· - z) h
  simpa using this

theorem xor_right_inj' (x y z : U32) (h : x ^^^ z = y ^^^ z) : x = y := by
  have := congrArg (· ^^^ z) h
  simpa [BitVec.xor_assoc] using this

theorem iter_injective {α : Type} (f : α → α) (hf : Function.Injective f) (n : Nat) : Function.Injective (iter n f) := by
  induction n with
  | zero => exact fun _ _ h => h
  | succ n ih => exact fun x y h => hf (ih h)

theorem get_set_ne (s : Vector U32 16) (a b : Fin 16) (x : U32) (h : a ≠ b) : (s.set a x)[b] = s[b] := by
  simp only [Fin.getElem_fin]
  rw [Vector.getElem_set, if_neg (fun e => h (Fin.ext e))]

namespace ChaCha

theorem addStep_injective (a b : Fin 16) (h : a ≠ b) :
    Function.Injective (fun s : State => s.set a (s[a] + s[b])) :=
  set_injective a (fun s x => x + s[b]) (fun _ _ _ h => add_right_inj' _ _ _ h)
    (fun s x => by funext y; rw [get_set_ne s a b x h])

theorem xorStep_injective (a b : Fin 16) (h : a ≠ b) :
    Function.Injective (fun s : State => s.set a (s[a] ^^^ s[b])) :=
  set_injective a (fun s x => x ^^^ s[b]) (fun _ _ _ h => xor_right_inj' _ _ _ h)
    (fun s x => by funext y; rw [get_set_ne s a b x h])

theorem rotStep_injective (a : Fin 16) (k : Nat) : Function.Injective (fun s : State => s.set a (s[a].rotateLeft k)) :=
  set_injective a (fun _ x => x.rotateLeft k) (fun _ _ _ h => rotateLeft_injective k _ _ h) (fun _ _ => rfl)

theorem quarterRound_injective (a b c d : Fin 16) (hab : a ≠ b) (hda : d ≠ a) (hcd : c ≠ d) (hbc : b ≠ c) :
    Function.Injective (quarterRound a b c d) := by
  intro s t h
  apply addStep_injective a b hab
  apply xorStep_injective d a hda
  apply rotStep_injective d 16
  apply addStep_injective c d hcd
  apply xorStep_injective b c hbc
  apply rotStep_injective b 12
  apply addStep_injective a b hab
  apply xorStep_injective d a hda
  apply rotStep_injective d 8
  apply addStep_injective c d hcd
  apply xorStep_injective b c hbc
  apply rotStep_injective b 7
  exact h

theorem doubleRound_injective : Function.Injective doubleRound := by
  intro s t h
  apply quarterRound_injective 0 4 8 12 (by decide) (by decide) (by decide) (by decide)
  apply quarterRound_injective 1 5 9 13 (by decide) (by decide) (by decide) (by decide)
  apply quarterRound_injective 2 6 10 14 (by decide) (by decide) (by decide) (by decide)
  apply quarterRound_injective 3 7 11 15 (by decide) (by decide) (by decide) (by decide)
  apply quarterRound_injective 0 5 10 15 (by decide) (by decide) (by decide) (by decide)
  apply quarterRound_injective 1 6 11 12 (by decide) (by decide) (by decide) (by decide)
  apply quarterRound_injective 2 7 8 13 (by decide) (by decide) (by decide) (by decide)
  apply quarterRound_injective 3 4 9 14 (by decide) (by decide) (by decide) (by decide)
  exact h

end ChaCha

namespace Salsa

theorem mixStep_injective (b a d : Fin 16) (k : Nat) (ha : b ≠ a) (hd : b ≠ d) :
    Function.Injective (fun s : State => s.set b (s[b] ^^^ (s[a] + s[d]).rotateLeft k)) :=
  set_injective b (fun s x => x ^^^ (s[a] + s[d]).rotateLeft k) (fun _ _ _ h => xor_right_inj' _ _ _ h)
    (fun s x => by funext y; rw [get_set_ne s b a x ha, get_set_ne s b d x hd])

theorem quarterRound_injective (a b c d : Fin 16) (hab : a ≠ b) (hac : a ≠ c) (had : a ≠ d) (hbc : b ≠ c) (hbd : b ≠ d)
    (hcd : c ≠ d) : Function.Injective (quarterRound a b c d) := by
  intro s t h
  apply mixStep_injective b a d 7 hab.symm hbd
  apply mixStep_injective c b a 9 hbc.symm hac.symm
  apply mixStep_injective d c b 13 hcd.symm hbd.symm
  apply mixStep_injective a d c 18 had hac
  exact h

theorem doubleRound_injective : Function.Injective doubleRound := by
  intro s t h
  apply quarterRound_injective 0 4 8 12 (by decide) (by decide) (by decide) (by decide) (by decide) (by decide)
  apply quarterRound_injective 5 9 13 1 (by decide) (by decide) (by decide) (by decide) (by decide) (by decide)
  apply quarterRound_injective 10 14 2 6 (by decide) (by decide) (by decide) (by decide) (by decide) (by decide)
  apply quarterRound_injective 15 3 7 11 (by decide) (by decide) (by decide) (by decide) (by decide) (by decide)
  apply quarterRound_injective 0 1 2 3 (by decide) (by decide) (by decide) (by decide) (by decide) (by decide)
  apply quarterRound_injective 5 6 7 4 (by decide) (by decide) (by decide) (by decide) (by decide) (by decide)
  apply quarterRound_injective 10 11 8 9 (by decide) (by decide) (by decide) (by decide) (by decide) (by decide)
  apply quarterRound_injective 15 12 13 14 (by decide) (by decide) (by decide) (by decide) (by decide) (by decide)
  exact h

end Salsa

/-! ## Set-up loses nothing -/

open Spec

theorem toLe32_injective {x y : U32} (h : toLe32 x = toLe32 y) : x = y := by
  rw [← le32_toLe32 x, ← le32_toLe32 y, h]

/-- Byte strings whose words agree are equal. -/
theorem bytes_of_words {k : Nat} (a b : Vector U8 (4 * k)) (h : ∀ j < k, leWord a.toList j = leWord b.toList j) : a = b := by
  have key : ∀ (v : Vector U8 (4 * k)) (j : Nat) (hj : j < k), toLe32 (leWord v.toList j) = #v[v[4*j], v[4*j+1], v[4*j+2], v[4*j+3]] := by
    intro v j hj
    rw [← wordAt_eq_leWord v j (by omega), wordAt, toLe32_le32]
  have all : ∀ (j : Nat) (hj : j < k), ∀ (r : Nat) (hr : r < 4), a[4 * j + r]'(by omega) = b[4 * j + r]'(by omega) := by
    intro j hj
    have e := key a j hj
    rw [h j hj, key b j hj] at e
    apply forall_lt4
    · exact (congrArg (fun v : Vector U8 4 => v[0]) e).symm
    · exact (congrArg (fun v : Vector U8 4 => v[1]) e).symm
    · exact (congrArg (fun v : Vector U8 4 => v[2]) e).symm
    · exact (congrArg (fun v : Vector U8 4 => v[3]) e).symm
  apply Vector.ext; intro i hi
  have := all (i / 4) (by omega) (i % 4) (Nat.mod_lt _ (by decide))
  simpa only [Nat.div_add_mod] using this

end Verif
