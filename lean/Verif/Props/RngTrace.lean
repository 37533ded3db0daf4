import Verif.Proof.RngTrace
import Verif.Props.Rng
import Verif.Model.Isa
/-!
# What a generator does depends on public information only (C66)
-/
namespace Verif
open Spec ChaCha
open Verif.Spec.Rng (St RngOp RngObs)

/-- **C66**.  Recording the events changes nothing: the results are those of the generator without a record. -/
theorem C66_faithful (m : Mode) (dr : Nat) (h : List (Env × RngOp)) (r : ChaCha.Rng) : (Rng.runL m dr h r).2 = Rng.run m dr h r :=
  Rng.runL_eq m dr h r

example : ∃ r os r', ChaCha.Rng.fromSeed (Sample.bytes 32 0) = .ok r ∧
    (ChaCha.Rng.runL .debug 10 Sample.rngHistory r).2 = .ok (os, r') := by
  obtain ⟨os, r', r, h0, h1⟩ := Sample.rng_exists .debug 10 (Sample.bytes 32 0)
  exact ⟨r, os, r', h0, (C66_faithful _ _ _ _).trans h1⟩

/-- **C66**.  Two fresh generators with any two seeds, called in the same way (stream numbers and the seeds and streams inside serialised generators may
differ): they refill at the same moments, read the same parts of their buffers, and either panic in the same call for the same reason or end with equal
indices and counters, hence equal word and block positions. -/
theorem C66_same (m : Mode) (dr : Nat) (seed seed' : Vector U8 32) (h h' : List (Env × RngOp)) (hh : Rng.CallsLike h h') :
    ∃ r r', Rng.fromSeed seed = .ok r ∧ Rng.fromSeed seed' = .ok r' ∧ (Rng.runL m dr h r).1 = (Rng.runL m dr h' r').1 ∧
      ExRel (fun a b => a.2.index = b.2.index ∧ a.2.getWordPos = b.2.getWordPos ∧ ∀ m', a.2.getBlockPos m' = b.2.getBlockPos m')
        (Rng.run m dr h r) (Rng.run m dr h' r') := by
  have key : ∀ s s' : State, s[12] = s'[12] → s[13] = s'[13] → Rng.PubEq (Rng.ofCore s) (Rng.ofCore s') := fun s s' h12 h13 => ⟨rfl, h12, h13⟩
  have he : ∀ seed, Rng.fromSeed seed = .ok (Rng.ofCore (base seed 0)) := by
    intro seed
    unfold Rng.fromSeed
    rw [newInternal_legacy _ _ (by simp)]
    rfl
  refine ⟨_, _, he seed, he seed', ?_⟩
  obtain ⟨h1, h2⟩ := Rng.run_blind m dr hh (key (base seed 0) (base seed' 0) rfl rfl)
  refine ⟨h1, ?_⟩
  rw [← Rng.runL_eq, ← Rng.runL_eq]
  generalize (Rng.runL m dr h _).2 = x at h2
  generalize (Rng.runL m dr h' _).2 = y at h2
  cases h2 with
  | error p => exact .error p
  | ok hp => exact .ok ⟨hp.1, hp.wordPos, hp.blockPos⟩

/-- Different streams and different serialised seeds, with everything else equal. -/
example (seed : Vector U8 32) : Rng.CallsLike
    [(Sample.avx2, .setStream 5), (Sample.soft, .load (Vector.replicate 49 3)), (Sample.avx2, .fill 70)]
    [(Sample.avx2, .setStream 7), (Sample.soft, .load (Vector.ofFn fun i => if h : i.val < 32 then seed[i.val] else 3)), (Sample.avx2, .fill 70)] := by
  refine .cons _ (.stream 5 7) (.cons _ (.load _ _ ?_) (.cons _ (.refl _) .nil))
  apply List.ext_getElem
  · simp only [List.length_drop, Vector.length_toList]
  · intro i h1 h2
    simp only [List.getElem_drop, Vector.getElem_toList, Vector.getElem_ofFn, Vector.getElem_replicate]
    rw [dif_neg (by omega)]

/-- 70 bytes and a `next_u64` on a generator whose buffer has one word left: the record. -/
example (r : ChaCha.Rng) (hr : r.index = 63) :
    (Rng.nextU64L 10 Sample.soft r).1 = [.read 63 4, .refill .soft, .read 0 4] := by
  rw [Rng.nextU64L, dif_neg (by omega), if_neg (by omega)]
  rfl

/-- **C66**.  The event of a refill fixes the vector instructions executed in it. -/
theorem C66_instructions (dr : Nat) (V : Variant) (e e' : Env) (h : Rng.evRefill e = Rng.evRefill e') :
    Isa.executedRng e.build e.detected dr V = Isa.executedRng e'.build e'.detected dr V := by
  simp only [Rng.evRefill, Rng.Ev.refill.injEq] at h
  unfold Isa.executedRng
  rw [h]

/-- Different old contents of buffers make no difference. -/
example : ChaCha.Rng.evRefill Sample.avx2 = ChaCha.Rng.evRefill { Sample.avx2 with
    old := fun n => List.replicate n (Vector.replicate 64 9), old_length := fun _ => List.length_replicate } := rfl

end Verif
