import Verif.Spec.Rng
/-!
# Specification of families of generators

Generators that are seeded from each other (`SeedableRng::from_rng`): a list of cursors, each with its number of double rounds.
-/
namespace Verif.Spec.Family
open Spec.Rng (St RngOp RngObs)

/-- Calls on a family of generators. -/
inductive Op where
  /-- a call on member `i` -/
  | call (i : Nat) (op : RngOp)
  /-- `from_rng(&mut member_i)`: a new member with `dr` double rounds -/
  | fork (i dr : Nat)

/-- The seed made of the next eight words of a generator. -/
def childSeed (dr : Nat) (a : St) : Vector U8 32 := Vector.ofFn fun k => leByte (a.word dr (k.val / 4)).toNat (k.val % 4)

/-- One call; on a member that does not exist nothing happens. -/
def step (f : List (Nat × St)) : Op → RngObs × List (Nat × St)
  | .call i op =>
    match f[i]? with
    | none => (.none, f)
    | some (dr, a) => ((Rng.step dr a op).1, f.set i (dr, (Rng.step dr a op).2))
  | .fork i dr' =>
    match f[i]? with
    | none => (.none, f)
    | some (dr, a) => (.none, f.set i (dr, a.move 8) ++ [(dr', Rng.init (childSeed dr a))])

/-- A sequence of calls. -/
def run : List Op → List (Nat × St) → List RngObs × List (Nat × St)
  | [], f => ([], f)
  | op :: h, f => ((step f op).1 :: (run h (step f op).2).1, (run h (step f op).2).2)

end Verif.Spec.Family
