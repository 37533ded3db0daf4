import Verif.Model.Endian
import Verif.Proof.Refill
import Verif.Proof.ChaChaIndep
/-!
# The NEON backend on either byte order
-/
namespace Verif.ChaCha
open Spec

theorem low_bytes (q : U64) :
    le32 (q.setWidth 8) ((q >>> 8).setWidth 8) ((q >>> 16).setWidth 8) ((q >>> 24).setWidth 8) = q.setWidth 32 := by
  apply BitVec.eq_of_toNat_eq
  rw [le32_toNat]
  simp only [BitVec.toNat_setWidth, BitVec.toNat_ushiftRight, Nat.shiftRight_eq_div_pow]
  omega

theorem high_bytes (q : U64) :
    le32 ((q >>> 32).setWidth 8) ((q >>> 40).setWidth 8) ((q >>> 48).setWidth 8) ((q >>> 56).setWidth 8) = (q >>> 32).setWidth 32 := by
  apply BitVec.eq_of_toNat_eq
  rw [le32_toNat]
  simp only [BitVec.toNat_setWidth, BitVec.toNat_ushiftRight, Nat.shiftRight_eq_div_pow]
  have := q.isLt
  omega

/-- Words 12 and 13, and words 14 and 15, exchanged. -/
def exchanged (s : State) : State := (((s.set 12 s[13]).set 13 s[12]).set 14 s[15]).set 15 s[14]

namespace Neon

/-- The four words of a stored row, as the target reads them. -/
theorem storeRow_words (s : State) (d : M128) :
    storeRow .little s d = (((s.set 12 d.x0).set 13 d.x1).set 14 d.x2).set 15 d.x3 ∧
    storeRow .big s d = (((s.set 12 d.x1).set 13 d.x0).set 14 d.x3).set 15 d.x2 := by
  have a0 : d.q0.setWidth 32 = d.x0 := setWidth_or_shift_lo _ _
  have a1 : (d.q0 >>> 32).setWidth 32 = d.x1 := setWidth_or_shift_hi _ _
  have a2 : d.q1.setWidth 32 = d.x2 := setWidth_or_shift_lo _ _
  have a3 : (d.q1 >>> 32).setWidth 32 = d.x3 := setWidth_or_shift_hi _ _
  have l0 := (low_bytes d.q0).trans a0
  have l1 := (high_bytes d.q0).trans a1
  have l2 := (low_bytes d.q1).trans a2
  have l3 := (high_bytes d.q1).trans a3
  constructor
  · rw [← l0, ← l1, ← l2, ← l3]; rfl
  · rw [← l0, ← l1, ← l2, ← l3]; rfl

theorem storeRow_big (s : State) (d : M128) : storeRow .big s d = exchanged (storeRow .little s d) := by
  rw [(storeRow_words s d).1, (storeRow_words s d).2]
  apply Vector.ext; intro i hi
  simp only [exchanged, Vector.getElem_set]
  by_cases h15 : 15 = i
  · subst h15; simp
  by_cases h14 : 14 = i
  · subst h14; simp
  by_cases h13 : 13 = i
  · subst h13; simp
  by_cases h12 : 12 = i
  · subst h12; simp
  simp [h12, h13, h14, h15]

theorem innerOn_little {α : Type} (dr : Nat) (V : Variant) (f : Closure 64 α) (s : State) : innerOn .little dr V f s = inner dr V f s := by
  unfold innerOn inner
  cases (backend dr V).call f (new s) with
  | error p => rfl
  | ok r =>
    obtain ⟨a, g⟩ := r
    exact congrArg (fun t : State => Except.ok (ε := Panic) (a, if V.ctrBytes = 4 then s.set 12 g.state.d.x0 else t)) (storeRow_words s g.state.d).1

theorem innerOn_ietf {α : Type} (e : Endian) (dr : Nat) (f : Closure 64 α) (s : State) : innerOn e dr .ietf f s = inner dr .ietf f s := by
  unfold innerOn inner
  cases (backend dr .ietf).call f (new s) with
  | error p => rfl
  | ok r => rfl

theorem innerOn_big {α : Type} (dr : Nat) (f : Closure 64 α) (s : State) :
    innerOn .big dr .legacy f s = (inner dr .legacy f s).map fun r => (r.1, exchanged r.2) := by
  rw [← innerOn_little]
  unfold innerOn
  cases (backend dr .legacy).call f (new s) with
  | error p => rfl
  | ok r =>
    obtain ⟨a, g⟩ := r
    exact congrArg (fun t : State => Except.ok (ε := Panic) (a, t)) (storeRow_big s g.state.d)

theorem bufWords_little (w : Vector U32 64) : bufWords .little (leBytes w) = w := leWords_leBytes w

theorem bufWords_big (w : Vector U32 64) (i : Nat) (h : i < 64) : toLe32 (bufWords .big (leBytes w))[i] = (toLe32 w[i]).reverse := by
  have hw : w[i] = le32 (leBytes w)[4 * i] (leBytes w)[4 * i + 1] (leBytes w)[4 * i + 2] (leBytes w)[4 * i + 3] := by
    have h1 : (bufWords .little (leBytes w))[i] = w[i] := by rw [bufWords_little]
    rw [← h1, bufWords, Vector.getElem_ofFn]; rfl
  rw [hw, toLe32_le32, bufWords, Vector.getElem_ofFn]
  refine (toLe32_le32 _ _ _ _).trans ?_
  generalize (leBytes w)[4 * i] = a
  generalize (leBytes w)[4 * i + 1] = b
  generalize (leBytes w)[4 * i + 2] = c
  generalize (leBytes w)[4 * i + 3] = d
  simp

theorem leBytes_append {n m : Nat} (a : Vector U32 n) (b : Vector U32 m) (i : Nat) (h : i < 4 * (n + m)) :
    (leBytes (a ++ b))[i] = if h' : i < 4 * n then (leBytes a)[i] else (leBytes b)[i - 4 * n] := by
  simp only [leBytes, Vector.getElem_ofFn, Vector.getElem_append]
  by_cases h' : i < 4 * n
  · rw [dif_pos h']
    have : i / 4 < n := by omega
    simp only [this, dif_pos]
  · rw [dif_neg h']
    have : ¬i / 4 < n := by omega
    simp only [this, dif_neg, not_false_iff]
    have e1 : i / 4 - n = (i - 4 * n) / 4 := by omega
    have e2 : i % 4 = (i - 4 * n) % 4 := by omega
    simp only [e1, e2]

theorem rngInnerOn_eq (e : Endian) (dr : Nat) (V : Variant) (s : State) :
    rngInnerOn e dr V s = (bufWords e (leBytes (rngInner dr V s).1),
      storeRow e s (addCounter V (new s).state.d (new s).ctrs[3])) := by
  refine Prod.ext ?_ rfl
  refine congrArg (bufWords e) ?_
  unfold rngInner
  dsimp only
  generalize blocks 4 _ dr V (new s) = bl
  apply Vector.ext; intro i hi
  have hi' : i < 4 * (16 + 16 + 16 + 16) := hi
  refine Eq.trans ?_ (leBytes_append (bl[0].words ++ bl[1].words ++ bl[2].words) bl[3].words i hi').symm
  rw [Vector.getElem_append]
  by_cases h3 : i < 64 + 64 + 64
  · rw [dif_pos h3, dif_pos (by omega)]
    refine Eq.trans ?_ (leBytes_append (bl[0].words ++ bl[1].words) bl[2].words i (by omega)).symm
    rw [Vector.getElem_append]
    by_cases h2 : i < 64 + 64
    · rw [dif_pos h2, dif_pos (by omega)]
      refine Eq.trans ?_ (leBytes_append bl[0].words bl[1].words i (by omega)).symm
      rw [Vector.getElem_append]
      rfl
    · rw [dif_neg h2, dif_neg (by omega)]; rfl
  · rw [dif_neg h3, dif_neg (by omega)]; rfl

theorem rngInnerOn_little (dr : Nat) (V : Variant) (s : State) : rngInnerOn .little dr V s = rngInner dr V s := by
  rw [rngInnerOn_eq, bufWords_little, (storeRow_words s _).1]
  rfl

theorem rngInnerOn_big (dr : Nat) (V : Variant) (s : State) :
    rngInnerOn .big dr V s = (bufWords .big (leBytes (rngInner dr V s).1), exchanged (rngInner dr V s).2) := by
  rw [rngInnerOn_eq, storeRow_big, (storeRow_words s _).1]
  rfl

end Neon

theorem processOn_little {α : Type} (dr : Nat) (V : Variant) (x : Env) (f : Closure 64 α) (s : State) :
    processOn .little dr V x f s = process dr V x f s := by
  unfold processOn process
  cases Config.select x.build x.detected <;> first | exact Neon.innerOn_little dr V f s | rfl

theorem processOn_ietf {α : Type} (e : Endian) (dr : Nat) (x : Env) (f : Closure 64 α) (s : State) :
    processOn e dr .ietf x f s = process dr .ietf x f s := by
  unfold processOn process
  cases Config.select x.build x.detected <;> first | exact Neon.innerOn_ietf e dr f s | rfl

theorem processOn_big {α : Type} (dr : Nat) (x : Env) (hx : Config.select x.build x.detected = .neon) (f : Closure 64 α) (s : State) :
    processOn .big dr .legacy x f s = (process dr .legacy x f s).map fun r => (r.1, exchanged r.2) := by
  unfold processOn process
  rw [hx]
  exact Neon.innerOn_big dr f s

theorem processOn_other {α : Type} (e : Endian) (dr : Nat) (V : Variant) (x : Env) (hx : Config.select x.build x.detected ≠ .neon)
    (f : Closure 64 α) (s : State) : processOn e dr V x f s = process dr V x f s := by
  unfold processOn
  split
  · exact absurd ‹_› hx
  · rfl

theorem generateOn_little (dr : Nat) (V : Variant) (x : Env) (s : State) : generateOn .little dr V x s = generate dr V x s := by
  by_cases hx : Config.selectRng x.build x.detected = .neon
  · unfold generateOn generate
    rw [hx]
    exact Neon.rngInnerOn_little dr V s
  · unfold generateOn
    split
    · exact absurd ‹_› hx
    · rfl

theorem generateOn_other (e : Endian) (dr : Nat) (V : Variant) (x : Env) (hx : Config.selectRng x.build x.detected ≠ .neon) (s : State) :
    generateOn e dr V x s = generate dr V x s := by
  unfold generateOn
  split
  · exact absurd ‹_› hx
  · rfl

theorem generateOn_big (dr : Nat) (V : Variant) (x : Env) (hx : Config.selectRng x.build x.detected = .neon) (s : State) :
    generateOn .big dr V x s = (Neon.bufWords .big (leBytes (generate dr V x s).1), exchanged (generate dr V x s).2) := by
  unfold generateOn generate
  rw [hx]
  exact Neon.rngInnerOn_big dr V s

/-- Replacing `process_with_backend` by an equal function. -/
theorem coreOn_congr (e : Endian) (u dr : Nat) (V : Variant)
    (h : ∀ (α : Type) (x : Env) (f : Closure 64 α) (s : State), processOn e dr V x f s = process dr V x f s) :
    coreOn e u dr V = core u dr V := by
  have : (fun (α : Type) => @processOn α e dr V) = fun α => @process α dr V := by
    funext α x f s; exact h α x f s
  exact congrArg (fun p : (α : Type) → Env → Closure 64 α → State → Except Panic (α × State) =>
    ({ core u dr V with process := fun {α} => p α } : SeekCore 64 Env)) this

end Verif.ChaCha
