import Verif.Proof.Rabbit
import Verif.Proof.Stream
/-!
# Rabbit: stream refinement and period of the counter system

Reading the eight counters as one 256-bit number `c`, one step of the counter system maps `c + b` to `c + b + a` modulo
`2^256 - 1`, where `a` is the 256-bit number made of `A0 … A7`, and `a` is prime to `2^256 - 1`.
-/
namespace Verif.Rabbit
open Spec

theorem coreLaw (m : Mode) (u : Nat) (i0 : Spec.Rabbit.Inner) :
    CoreLaw (core m) u (Spec.Rabbit.block i0) (Rel i0) none where
  process := by
    intro e s n hr
    refine ⟨1, by decide, ?_⟩
    intro α f a n' h hw
    exact run_ofBlock_ref 1 (genBlock m) (Spec.Rabbit.block i0) (Rel i0) none
      (fun s n hr _ => genBlock_rel m i0 s n hr) _ s n a n' hr h hw
  remaining := by
    intro s n hr hw
    rfl

theorem rel_keyOnly (key : Vector U8 16) : Rel (Spec.Rabbit.keySetup key) (setupKeyPure key) 0 := view_setupKey key

theorem rel_iv (key : Vector U8 16) (iv : Vector U8 8) :
    Rel (Spec.Rabbit.ivSetup iv (Spec.Rabbit.keySetup key)) (next4Pure (ivXor iv (setupKeyPure key))) 0 := by
  obtain ⟨e, h⟩ := view_setupKey key
  obtain ⟨e', h'⟩ := view_setupIv iv _ h
  exact ⟨by rw [e', e]; rfl, h'⟩

/-! ## Period -/

/-- The counters as one number. -/
def big (c : Vector Nat 8) : Nat :=
  c[0] + 2 ^ 32 * c[1] + 2 ^ 64 * c[2] + 2 ^ 96 * c[3] + 2 ^ 128 * c[4] + 2 ^ 160 * c[5] + 2 ^ 192 * c[6] + 2 ^ 224 * c[7]

theorem big_set (c : Vector Nat 8) (j : Fin 8) (v : Nat) :
    big (c.set j v) + 2 ^ (32 * j.val) * c[j] = big c + 2 ^ (32 * j.val) * v := by
  unfold big
  rcases j with ⟨j, hj⟩
  rcases j with _ | _ | _ | _ | _ | _ | _ | _ | j
  all_goals first
    | omega
    | (simp only [Vector.getElem_set, Fin.getElem_fin, Nat.reduceAdd, Nat.reduceMul, Nat.reduceEqDiff, if_true, if_false,
        Nat.zero_add, Nat.mul_zero]
       generalize c[0] = c0
       generalize c[1] = c1
       generalize c[2] = c2
       generalize c[3] = c3
       generalize c[4] = c4
       generalize c[5] = c5
       generalize c[6] = c6
       generalize c[7] = c7
       omega)

/-- Step `j` of the counter system adds `A[j]` at weight `2^(32 j)`; the carry moves from weight `2^(32 j)` to
`2^(32 (j+1))`. -/
theorem big_counterStep (j : Fin 8) (s : Spec.Rabbit.Inner) :
    big (Spec.Rabbit.counterStep j s).C + 2 ^ (32 * (j.val + 1)) * (Spec.Rabbit.counterStep j s).b =
      big s.C + 2 ^ (32 * j.val) * s.b + 2 ^ (32 * j.val) * Spec.Rabbit.A[j] := by
  have h := big_set s.C j ((s.C[j] + Spec.Rabbit.A[j] + s.b) % Spec.Rabbit.W)
  have hd := Nat.mod_add_div (s.C[j] + Spec.Rabbit.A[j] + s.b) Spec.Rabbit.W
  have hp : 2 ^ (32 * (j.val + 1)) = 2 ^ (32 * j.val) * Spec.Rabbit.W := by rw [← Nat.pow_add]; rfl
  show big (s.C.set j ((s.C[j] + Spec.Rabbit.A[j] + s.b) % Spec.Rabbit.W))
      + 2 ^ (32 * (j.val + 1)) * ((s.C[j] + Spec.Rabbit.A[j] + s.b) / Spec.Rabbit.W) = _
  have hm := congrArg (2 ^ (32 * j.val) * ·) hd
  simp only [Nat.mul_add, ← Nat.mul_assoc] at hm
  rw [hp]
  omega

theorem big_A : big Spec.Rabbit.A = 2 ^ (32 * (0 : Fin 8).val) * Spec.Rabbit.A[(0 : Fin 8)]
    + 2 ^ (32 * (1 : Fin 8).val) * Spec.Rabbit.A[(1 : Fin 8)]
    + 2 ^ (32 * (2 : Fin 8).val) * Spec.Rabbit.A[(2 : Fin 8)]
    + 2 ^ (32 * (3 : Fin 8).val) * Spec.Rabbit.A[(3 : Fin 8)]
    + 2 ^ (32 * (4 : Fin 8).val) * Spec.Rabbit.A[(4 : Fin 8)]
    + 2 ^ (32 * (5 : Fin 8).val) * Spec.Rabbit.A[(5 : Fin 8)]
    + 2 ^ (32 * (6 : Fin 8).val) * Spec.Rabbit.A[(6 : Fin 8)]
    + 2 ^ (32 * (7 : Fin 8).val) * Spec.Rabbit.A[(7 : Fin 8)] := by decide +kernel

theorem big_counterSystem (s : Spec.Rabbit.Inner) :
    big (Spec.Rabbit.counterSystem s).C + 2 ^ 256 * (Spec.Rabbit.counterSystem s).b =
      big s.C + s.b + big Spec.Rabbit.A := by
  unfold Spec.Rabbit.counterSystem
  have e0 := big_counterStep 0 s
  generalize Spec.Rabbit.counterStep 0 s = s at e0 ⊢
  have e1 := big_counterStep 1 s
  generalize Spec.Rabbit.counterStep 1 s = s at e1 ⊢
  have e2 := big_counterStep 2 s
  generalize Spec.Rabbit.counterStep 2 s = s at e2 ⊢
  have e3 := big_counterStep 3 s
  generalize Spec.Rabbit.counterStep 3 s = s at e3 ⊢
  have e4 := big_counterStep 4 s
  generalize Spec.Rabbit.counterStep 4 s = s at e4 ⊢
  have e5 := big_counterStep 5 s
  generalize Spec.Rabbit.counterStep 5 s = s at e5 ⊢
  have e6 := big_counterStep 6 s
  generalize Spec.Rabbit.counterStep 6 s = s at e6 ⊢
  have e7 := big_counterStep 7 s
  generalize Spec.Rabbit.counterStep 7 s = s at e7 ⊢
  rw [big_A]
  simp only [show (0 : Fin 8).val = 0 from rfl, show (1 : Fin 8).val = 1 from rfl, show (2 : Fin 8).val = 2 from rfl,
    show (3 : Fin 8).val = 3 from rfl, show (4 : Fin 8).val = 4 from rfl, show (5 : Fin 8).val = 5 from rfl,
    show (6 : Fin 8).val = 6 from rfl, show (7 : Fin 8).val = 7 from rfl, Nat.reduceAdd, Nat.reduceMul] at *
  omega

/-- `2^256 - 1`. -/
abbrev N : Nat := 2 ^ 256 - 1

/-- The quantity that moves by a constant amount at every step. -/
def phase (s : Spec.Rabbit.Inner) : Nat := (big s.C + s.b) % N

theorem phase_next (s : Spec.Rabbit.Inner) : phase (Spec.Rabbit.nextState s) = (phase s + big Spec.Rabbit.A) % N := by
  have h := big_counterSystem s
  show (big (Spec.Rabbit.counterSystem s).C + (Spec.Rabbit.counterSystem s).b) % N = ((big s.C + s.b) % N + _) % N
  rw [Nat.mod_add_mod, ← h]
  generalize (Spec.Rabbit.counterSystem s).b = b
  rw [show (2:Nat) ^ 256 * b = b + N * b by
    rw [show (2:Nat) ^ 256 = 1 + N by decide, Nat.add_mul, Nat.one_mul], ← Nat.add_assoc, Nat.add_mul_mod_self_left]

theorem phase_after (s : Spec.Rabbit.Inner) (n : Nat) :
    phase (Spec.Rabbit.after n s) = (phase s + n * big Spec.Rabbit.A) % N := by
  induction n with
  | zero => simp only [Spec.Rabbit.after, Nat.zero_mul, Nat.add_zero, phase, Nat.mod_mod]
  | succ n ih =>
    rw [Spec.Rabbit.after, phase_next, ih, Nat.mod_add_mod, Nat.add_mul, Nat.one_mul, Nat.add_assoc]

theorem coprime_A : Nat.Coprime N (big Spec.Rabbit.A) := by decide +kernel

/-- Two equal inner states are a multiple of `2^256 - 1` steps apart. -/
theorem period (s : Spec.Rabbit.Inner) (i k : Nat) (h : Spec.Rabbit.after (i + k) s = Spec.Rabbit.after i s) : N ∣ k := by
  have h1 : phase (Spec.Rabbit.after (i + k) s) = phase (Spec.Rabbit.after i s) := by rw [h]
  rw [phase_after, phase_after] at h1
  rw [Nat.add_mul, ← Nat.add_assoc] at h1
  generalize phase s + i * big Spec.Rabbit.A = x at h1
  have h2 : N ∣ k * big Spec.Rabbit.A := by
    have h3 := Nat.sub_mod_eq_zero_of_mod_eq h1
    rw [Nat.add_sub_cancel_left] at h3
    exact Nat.dvd_of_mod_eq_zero h3
  exact Nat.Coprime.dvd_of_dvd_mul_right coprime_A h2

end Verif.Rabbit
