import Verif.Model.Rabbit
import Verif.Spec.Rabbit
import Verif.Proof.Word
import Verif.Proof.CoreRef
/-!
# Rabbit: the code computes RFC 4503
-/
namespace Verif.Rabbit
open Spec

/-! ## No checked operation overflows -/

theorem ok_bind {α β : Type} (a : α) (f : α → Except Panic β) : (Except.ok a >>= f) = f a := rfl

theorem add64_ok {m : Mode} {a b : U64} (h : a.toNat + b.toNat < 2 ^ 64) : add64 m a b = .ok (a + b) := if_pos h
theorem mul64_ok {m : Mode} {a b : U64} (h : a.toNat * b.toNat < 2 ^ 64) : mul64 m a b = .ok (a * b) := if_pos h

/-- `counter_update` loop body without the panic paths. -/
def counterStepPure (j : Fin 8) (s : State) : State :=
  let t : U64 := s.c[j].setWidth 64 + A[j].setWidth 64 + s.carry.setWidth 64
  { s with carry := (t / wordsize).setWidth 8 &&& 1, c := s.c.set j ((t % wordsize).setWidth 32) }

theorem counterStep_eq (m : Mode) (j : Fin 8) (s : State) : counterStep m j s = .ok (counterStepPure j s) := by
  have h1 := s.c[j].isLt
  have h2 := A[j].isLt
  have h3 := s.carry.isLt
  unfold counterStep counterStepPure
  rw [add64_ok (by simp only [BitVec.toNat_setWidth]; omega)]
  simp only [bind, Except.bind]
  rw [add64_ok (by simp only [BitVec.toNat_setWidth, BitVec.toNat_add]; omega)]
  rfl

def gPure (x c : U32) : U32 :=
  let u : U64 := x.setWidth 64 + c.setWidth 64
  let sq := (u % wordsize) * (u % wordsize)
  (sq ^^^ (sq >>> 32)).setWidth 32

theorem wordsize_toNat : wordsize.toNat = 2 ^ 32 := by decide

theorem gWord_eq (m : Mode) (x c : U32) : gWord m x c = .ok (gPure x c) := by
  have h1 := x.isLt
  have h2 := c.isLt
  unfold gWord gPure
  rw [add64_ok (by simp only [BitVec.toNat_setWidth]; omega)]
  simp only [bind, Except.bind]
  rw [mul64_ok ?_]
  · rfl
  · have h : ((BitVec.setWidth 64 x + BitVec.setWidth 64 c) % wordsize).toNat < 2 ^ 32 := by
      rw [BitVec.toNat_umod, wordsize_toNat]; exact Nat.mod_lt _ (by decide)
    exact Nat.lt_of_lt_of_le (Nat.mul_lt_mul'' h h) (by decide)

def counterPure (s : State) : State :=
  counterStepPure 7 <| counterStepPure 6 <| counterStepPure 5 <| counterStepPure 4 <|
  counterStepPure 3 <| counterStepPure 2 <| counterStepPure 1 <| counterStepPure 0 s

theorem counterUpdate_eq (m : Mode) (s : State) : counterUpdate m s = .ok (counterPure s) := by
  rw [counterUpdate]
  simp only [counterStep_eq, ok_bind]
  rw [counterPure]

def mix (g : Fin 8 → U32) : Vector U32 8 := #v[
    g 0 + (g 7).rotateLeft 16 + (g 6).rotateLeft 16,
    g 1 + (g 0).rotateLeft 8 + g 7,
    g 2 + (g 1).rotateLeft 16 + (g 0).rotateLeft 16,
    g 3 + (g 2).rotateLeft 8 + g 1,
    g 4 + (g 3).rotateLeft 16 + (g 2).rotateLeft 16,
    g 5 + (g 4).rotateLeft 8 + g 3,
    g 6 + (g 5).rotateLeft 16 + (g 4).rotateLeft 16,
    g 7 + (g 6).rotateLeft 8 + g 5]

def nextPure (s : State) : State :=
  let s := counterPure s
  { s with x := mix fun j => gPure s.x[j] s.c[j] }

theorem nextState_eq (m : Mode) (s : State) : nextState m s = .ok (nextPure s) := by
  rw [nextState, nextPure]
  simp only [counterUpdate_eq, gWord_eq, ok_bind]
  generalize counterPure s = t
  rfl

def next4Pure (s : State) : State := nextPure (nextPure (nextPure (nextPure s)))

theorem nextState4_eq (m : Mode) (s : State) : nextState4 m s = .ok (next4Pure s) := by
  rw [nextState4, next4Pure]
  simp only [nextState_eq, ok_bind]

def setupKeyPure (key : Vector U8 16) : State :=
  let s := next4Pure (keyState key)
  { s with c := Vector.ofFn fun j : Fin 8 => s.c[j] ^^^ s.x[j + 4] }

theorem setupKey_eq (m : Mode) (key : Vector U8 16) : setupKey m key = .ok (setupKeyPure key) := by
  rw [setupKey, setupKeyPure, nextState4_eq, ok_bind]
  generalize next4Pure (keyState key) = t
  rfl

theorem setupIv_eq (m : Mode) (iv : Vector U8 8) (s : State) : setupIv m iv s = .ok (next4Pure (ivXor iv s)) :=
  nextState4_eq m _

theorem genBlock_eq (m : Mode) (s : State) : genBlock m s = .ok (extract (nextPure s), nextPure s) := by
  rw [genBlock, nextState_eq, ok_bind]
  generalize nextPure s = t
  rfl

/-! ## Refinement -/

/-- The state as numbers. -/
def view (s : State) : Spec.Rabbit.Inner where
  X := s.x.map BitVec.toNat
  C := s.c.map BitVec.toNat
  b := s.carry.toNat

theorem A_toNat (j : Fin 8) : A[j].toNat = Spec.Rabbit.A[j] := by
  revert j; decide

theorem view_counterStep (j : Fin 8) (s : State) (h : s.carry.toNat ≤ 1) :
    view (counterStepPure j s) = Spec.Rabbit.counterStep j (view s) ∧ (counterStepPure j s).carry.toNat ≤ 1 := by
  have h1 := s.c[j].isLt
  have h2 := A[j].isLt
  have ht : (s.c[j].setWidth 64 + A[j].setWidth 64 + s.carry.setWidth 64 : U64).toNat
      = s.c[j].toNat + A[j].toNat + s.carry.toNat := by
    simp only [BitVec.toNat_setWidth, BitVec.toNat_add]; omega
  have hc : (counterStepPure j s).carry.toNat = (s.c[j].toNat + A[j].toNat + s.carry.toNat) / 2 ^ 32 := by
    have : (1#8).toNat = 2 ^ 1 - 1 := by decide
    simp only [counterStepPure, BitVec.toNat_and, BitVec.toNat_setWidth, BitVec.toNat_udiv, ht, wordsize_toNat,
      BitVec.ofNat_eq_ofNat, this, Nat.and_two_pow_sub_one_eq_mod]
    omega
  refine ⟨?_, by omega⟩
  have hX : (view (counterStepPure j s)).X = (Spec.Rabbit.counterStep j (view s)).X := rfl
  have hb : (view (counterStepPure j s)).b = (Spec.Rabbit.counterStep j (view s)).b := by
    rw [show (view (counterStepPure j s)).b = (counterStepPure j s).carry.toNat from rfl, hc]
    have hA := A_toNat j
    simp only [Fin.getElem_fin] at hA
    simp only [Spec.Rabbit.counterStep, view, Fin.getElem_fin, Vector.getElem_map, hA]
  have hC : (view (counterStepPure j s)).C = (Spec.Rabbit.counterStep j (view s)).C := by
    apply Vector.ext; intro i hi
    have hA := A_toNat j
    simp only [Fin.getElem_fin] at ht hA
    simp only [view, counterStepPure, Spec.Rabbit.counterStep, Fin.getElem_fin, Vector.getElem_map,
      Vector.getElem_set]
    split
    · simp only [BitVec.toNat_setWidth, BitVec.toNat_umod, ht, wordsize_toNat, ← hA]
      exact Nat.mod_mod _ _
    · rfl
  cases hv : view (counterStepPure j s); cases hw : Spec.Rabbit.counterStep j (view s)
  rw [hv, hw] at hX hb hC
  simp_all

theorem view_counter (s : State) (h : s.carry.toNat ≤ 1) :
    view (counterPure s) = Spec.Rabbit.counterSystem (view s) ∧ (counterPure s).carry.toNat ≤ 1 := by
  obtain ⟨e0, h⟩ := view_counterStep 0 s h
  obtain ⟨e1, h⟩ := view_counterStep 1 _ h
  obtain ⟨e2, h⟩ := view_counterStep 2 _ h
  obtain ⟨e3, h⟩ := view_counterStep 3 _ h
  obtain ⟨e4, h⟩ := view_counterStep 4 _ h
  obtain ⟨e5, h⟩ := view_counterStep 5 _ h
  obtain ⟨e6, h⟩ := view_counterStep 6 _ h
  obtain ⟨e7, h⟩ := view_counterStep 7 _ h
  refine ⟨?_, h⟩
  simp only [counterPure, Spec.Rabbit.counterSystem, e7, e6, e5, e4, e3, e2, e1, e0]

theorem gPure_toNat (x c : U32) : (gPure x c).toNat = Spec.Rabbit.g x.toNat c.toNat := by
  have h1 := x.isLt
  have h2 := c.isLt
  have hu : ((x.setWidth 64 + c.setWidth 64 : U64) % wordsize).toNat = (x.toNat + c.toNat) % 2 ^ 32 := by
    simp only [BitVec.toNat_umod, BitVec.toNat_setWidth, BitVec.toNat_add, wordsize_toNat]; omega
  have hl : (x.toNat + c.toNat) % 2 ^ 32 < 2 ^ 32 := Nat.mod_lt _ (by decide)
  have hs : (((x.setWidth 64 + c.setWidth 64 : U64) % wordsize) * ((x.setWidth 64 + c.setWidth 64 : U64) % wordsize)).toNat
      = (x.toNat + c.toNat) % 2 ^ 32 * ((x.toNat + c.toNat) % 2 ^ 32) := by
    rw [BitVec.toNat_mul, hu, Nat.mod_eq_of_lt]
    exact Nat.lt_of_lt_of_le (Nat.mul_lt_mul'' hl hl) (by decide)
  simp only [gPure, Spec.Rabbit.g, BitVec.toNat_setWidth, BitVec.toNat_xor, BitVec.toNat_ushiftRight, hs]
  have hq : (x.toNat + c.toNat) % 2 ^ 32 * ((x.toNat + c.toNat) % 2 ^ 32) < 2 ^ 64 :=
    Nat.lt_of_lt_of_le (Nat.mul_lt_mul'' hl hl) (by decide)
  generalize (x.toNat + c.toNat) % 2 ^ 32 * ((x.toNat + c.toNat) % 2 ^ 32) = q at hq
  have hd : q / 2 ^ 32 % 2 ^ 32 = q / 2 ^ 32 := by omega
  rw [Nat.xor_mod_two_pow, Nat.shiftRight_eq_div_pow, hd]

theorem rotl_toNat (x : U32) (k : Nat) (hk : k < 32) (h0 : 0 < k) :
    (x.rotateLeft k).toNat = Spec.Rabbit.rotl x.toNat k := by
  have hx := x.isLt
  rw [BitVec.toNat_rotateLeft, Nat.mod_eq_of_lt hk, Spec.Rabbit.rotl, Nat.shiftLeft_eq, Nat.shiftRight_eq_div_pow]
  have hd : x.toNat / 2 ^ (32 - k) < 2 ^ k := by
    rw [Nat.div_lt_iff_lt_mul (Nat.two_pow_pos _), ← Nat.pow_add, show k + (32 - k) = 32 by omega]
    exact hx
  have hm : x.toNat * 2 ^ k % 2 ^ 32 = 2 ^ k * (x.toNat % 2 ^ (32 - k)) := by
    rw [Nat.mul_comm, show (2:Nat) ^ 32 = 2 ^ k * 2 ^ (32 - k) by rw [← Nat.pow_add, show k + (32 - k) = 32 by omega],
      Nat.mul_mod_mul_left]
  rw [hm, Nat.two_pow_add_eq_or_of_lt hd]

def mixNat (g : Fin 8 → Nat) : Vector Nat 8 := #v[
      (g 0 + Spec.Rabbit.rotl (g 7) 16 + Spec.Rabbit.rotl (g 6) 16) % Spec.Rabbit.W,
      (g 1 + Spec.Rabbit.rotl (g 0) 8 + g 7) % Spec.Rabbit.W,
      (g 2 + Spec.Rabbit.rotl (g 1) 16 + Spec.Rabbit.rotl (g 0) 16) % Spec.Rabbit.W,
      (g 3 + Spec.Rabbit.rotl (g 2) 8 + g 1) % Spec.Rabbit.W,
      (g 4 + Spec.Rabbit.rotl (g 3) 16 + Spec.Rabbit.rotl (g 2) 16) % Spec.Rabbit.W,
      (g 5 + Spec.Rabbit.rotl (g 4) 8 + g 3) % Spec.Rabbit.W,
      (g 6 + Spec.Rabbit.rotl (g 5) 16 + Spec.Rabbit.rotl (g 4) 16) % Spec.Rabbit.W,
      (g 7 + Spec.Rabbit.rotl (g 6) 8 + g 5) % Spec.Rabbit.W]

theorem mix_toNat (g : Fin 8 → U32) : (mix g).map BitVec.toNat = mixNat fun j => (g j).toNat := by
  have a3 (a b c : U32) : (a + b + c).toNat = (a.toNat + b.toNat + c.toNat) % 2 ^ 32 := by
    simp only [BitVec.toNat_add]; omega
  apply Vector.ext; intro i hi
  rw [Vector.getElem_map]
  rcases i with _ | _ | _ | _ | _ | _ | _ | _ | i
  all_goals first
    | omega
    | (show BitVec.toNat (_ + _ + _) = (_ + _ + _) % 2 ^ 32
       rw [a3]
       simp only [rotl_toNat _ 16 (by decide) (by decide), rotl_toNat _ 8 (by decide) (by decide)])

theorem stateStep_eq (s : Spec.Rabbit.Inner) :
    Spec.Rabbit.stateStep s = { s with X := mixNat fun j => Spec.Rabbit.g s.X[j] s.C[j] } := by
  have hG (j : Nat) (hj : j < 8) : (Vector.ofFn fun j : Fin 8 => Spec.Rabbit.g s.X[j] s.C[j])[j]
      = Spec.Rabbit.g s.X[j] s.C[j] := by
    simp only [Vector.getElem_ofFn, Fin.getElem_fin]
  rw [Spec.Rabbit.stateStep]
  simp only [hG]
  rfl

theorem view_stateStep (t : State) :
    view { t with x := mix fun j => gPure t.x[j] t.c[j] } = Spec.Rabbit.stateStep (view t) := by
  rw [stateStep_eq]
  show Spec.Rabbit.Inner.mk ((mix fun j => gPure t.x[j] t.c[j]).map BitVec.toNat) _ _ = _
  rw [mix_toNat]
  simp only [gPure_toNat, view, Fin.getElem_fin, Vector.getElem_map]

theorem view_next (s : State) (h : s.carry.toNat ≤ 1) :
    view (nextPure s) = Spec.Rabbit.nextState (view s) ∧ (nextPure s).carry.toNat ≤ 1 := by
  obtain ⟨e, h'⟩ := view_counter s h
  refine ⟨?_, h'⟩
  rw [Spec.Rabbit.nextState, ← e, ← view_stateStep, nextPure]

theorem view_next4 (s : State) (h : s.carry.toNat ≤ 1) :
    view (next4Pure s) = Spec.Rabbit.nextState (Spec.Rabbit.nextState (Spec.Rabbit.nextState
      (Spec.Rabbit.nextState (view s)))) ∧ (next4Pure s).carry.toNat ≤ 1 := by
  obtain ⟨e0, h⟩ := view_next s h
  obtain ⟨e1, h⟩ := view_next _ h
  obtain ⟨e2, h⟩ := view_next _ h
  obtain ⟨e3, h⟩ := view_next _ h
  exact ⟨by rw [next4Pure, e3, e2, e1, e0], h⟩

theorem map8 {α β : Type} (f : α → β) (a0 a1 a2 a3 a4 a5 a6 a7 : α) :
    (#v[a0, a1, a2, a3, a4, a5, a6, a7] : Vector α 8).map f = #v[f a0, f a1, f a2, f a3, f a4, f a5, f a6, f a7] := by
  simp

/-! ## Key setup -/

theorem join16_toNat (hi lo : U16) : (join16 hi lo).toNat = hi.toNat * 2 ^ 16 + lo.toNat := by
  have h1 := hi.isLt; have h2 := lo.isLt
  have : join16 hi lo = hi.setWidth 32 <<< 16 + lo.setWidth 32 := by
    rw [join16, BitVec.add_eq_or_of_and_eq_zero]
    ext i hi'
    simp only [BitVec.getElem_and, BitVec.getElem_setWidth, BitVec.getElem_shiftLeft, BitVec.getElem_zero]
    by_cases h : i < 16
    · simp [h]
    · simp [BitVec.getLsbD_of_ge lo i (by omega)]
  rw [this]
  simp only [BitVec.toNat_add, BitVec.toNat_shiftLeft, BitVec.toNat_setWidth, Nat.shiftLeft_eq]
  omega

theorem or8_toNat (a b : U8) : (a.setWidth 16 ||| (b.setWidth 16 <<< 8) : U16).toNat = a.toNat + 256 * b.toNat := by
  have h1 := a.isLt; have h2 := b.isLt
  rw [← BitVec.add_eq_or_of_and_eq_zero]
  · simp only [BitVec.toNat_add, BitVec.toNat_shiftLeft, BitVec.toNat_setWidth, Nat.shiftLeft_eq]
    omega
  · ext i hi'
    simp only [BitVec.getElem_and, BitVec.getElem_setWidth, BitVec.getElem_shiftLeft, BitVec.getElem_zero]
    by_cases h : i < 8
    · simp [h]
    · simp [BitVec.getLsbD_of_ge a i (by omega)]

theorem leNat_append (a b : List U8) : leNat (a ++ b) = leNat a + 256 ^ a.length * leNat b := by
  induction a with
  | nil => simp [leNat]
  | cons x a ih =>
    simp only [List.cons_append, leNat, ih, List.length_cons, Nat.pow_succ]
    rw [Nat.mul_add, Nat.mul_comm _ 256, Nat.mul_assoc, Nat.add_assoc]

theorem leNat_lt (a : List U8) : leNat a < 256 ^ a.length := by
  induction a with
  | nil => simp [leNat]
  | cons x a ih =>
    have := x.isLt
    simp only [leNat, List.length_cons, Nat.pow_succ]
    omega

/-- The value of a stretch of a little-endian byte string. -/
theorem leNat_slice (l : List U8) (i n : Nat) (h : i + n ≤ l.length) :
    leNat l / 2 ^ (8 * i) % 2 ^ (8 * n) = leNat ((l.drop i).take n) := by
  have e1 : l = l.take i ++ ((l.drop i).take n ++ (l.drop i).drop n) := by
    rw [List.take_append_drop, List.take_append_drop]
  have p (k : Nat) : (2:Nat) ^ (8 * k) = 256 ^ k := by rw [Nat.pow_mul]
  rw [p, p]
  conv => lhs; rw [e1]
  rw [leNat_append, leNat_append]
  have l1 : (l.take i).length = i := by simp; omega
  have l2 : ((l.drop i).take n).length = n := by simp; omega
  have b1 := leNat_lt (l.take i)
  have b2 := leNat_lt ((l.drop i).take n)
  rw [l1] at b1 ⊢
  rw [l2] at b2 ⊢
  rw [Nat.add_mul_div_left _ _ (Nat.pow_pos (by decide)), Nat.div_eq_of_lt b1, Nat.zero_add, Nat.add_mul_mod_self_left,
    Nat.mod_eq_of_lt b2]

theorem keyPart_toNat (key : Vector U8 16) (i : Fin 8) : (keyPart key i).toNat = Spec.Rabbit.keyPart key i := by
  rw [keyPart, or8_toNat, Spec.Rabbit.keyPart]
  have := leNat_slice key.toList (2 * i.val) 2 (by simp; omega)
  rw [show 16 * i.val = 8 * (2 * i.val) by omega, show (2:Nat) ^ 16 = 2 ^ (8 * 2) from rfl, this]
  have : (key.toList.drop (2 * i.val)).take 2 = [key[2 * i.val], key[2 * i.val + 1]] := by
    apply List.ext_getElem
    · simp; omega
    · intro k h1 h2
      simp at h2
      simp only [List.getElem_take, List.getElem_drop, Vector.getElem_toList]
      rcases k with _ | _ | k <;> simp; omega
  rw [this]
  simp [leNat]

theorem view_setupKey (key : Vector U8 16) :
    view (setupKeyPure key) = Spec.Rabbit.keySetup key ∧ (setupKeyPure key).carry.toNat ≤ 1 := by
  have e0 : view (keyState key) = {
    X := Vector.ofFn fun j : Fin 8 =>
      if j.val % 2 = 0 then Spec.Rabbit.keyPart key (j + 1) * 2 ^ 16 + Spec.Rabbit.keyPart key j
      else Spec.Rabbit.keyPart key (j + 5) * 2 ^ 16 + Spec.Rabbit.keyPart key (j + 4)
    C := Vector.ofFn fun j : Fin 8 =>
      if j.val % 2 = 0 then Spec.Rabbit.keyPart key (j + 4) * 2 ^ 16 + Spec.Rabbit.keyPart key (j + 5)
      else Spec.Rabbit.keyPart key j * 2 ^ 16 + Spec.Rabbit.keyPart key (j + 1)
    b := 0 } := by
    simp only [view, keyState, Spec.Rabbit.Inner.mk.injEq]
    refine ⟨?_, ?_, rfl⟩
    all_goals
      apply Vector.ext; intro i hi
      simp only [Vector.getElem_map, Vector.getElem_ofFn]
      split <;> rw [join16_toNat, keyPart_toNat, keyPart_toNat]
  obtain ⟨e, h⟩ := view_next4 (keyState key) (show (0#8).toNat ≤ 1 by decide)
  refine ⟨?_, h⟩
  rw [e0] at e
  simp only [Spec.Rabbit.keySetup]
  rw [← e]
  simp only [setupKeyPure, view, Spec.Rabbit.Inner.mk.injEq, true_and, and_true]
  apply Vector.ext; intro i hi
  simp only [Vector.getElem_map, Vector.getElem_ofFn, Fin.getElem_fin, BitVec.toNat_xor]

/-! ## IV setup -/

theorem iv_words (iv : Vector U8 8) :
    (le32 iv[0] iv[1] iv[2] iv[3]).toNat = leNat iv.toList % 2 ^ 32 ∧
    (le32 iv[4] iv[5] iv[6] iv[7]).toNat = leNat iv.toList / 2 ^ 32 ∧ leNat iv.toList < 2 ^ 64 := by
  have e : iv.toList = [iv[0], iv[1], iv[2], iv[3], iv[4], iv[5], iv[6], iv[7]] := by
    apply List.ext_getElem
    · simp
    · intro k h1 h2
      simp at h2
      simp only [Vector.getElem_toList]
      rcases k with _ | _ | _ | _ | _ | _ | _ | _ | k <;> simp; omega
  have h0 := iv[0].isLt; have h1 := iv[1].isLt; have h2 := iv[2].isLt; have h3 := iv[3].isLt
  have h4 := iv[4].isLt; have h5 := iv[5].isLt; have h6 := iv[6].isLt; have h7 := iv[7].isLt
  rw [e, le32_toNat, le32_toNat]
  simp only [leNat]
  omega

theorem mask_FFFF0000 : ∀ i : Fin 32, (0xFFFF0000#32)[i.val] = !decide (i.val < 16) := by decide
theorem mask_0000FFFF : ∀ i : Fin 32, (0x0000FFFF#32)[i.val] = decide (i.val < 16) := by decide

theorem i1_toNat (i0 i2 : U32) :
    ((i0 >>> 16) ||| (i2 &&& 0xFFFF0000#32)).toNat = i2.toNat / 2 ^ 16 * 2 ^ 16 + i0.toNat / 2 ^ 16 := by
  have h0 := i0.isLt; have h2 := i2.isLt
  have : i2 &&& 0xFFFF0000#32 = (i2 >>> 16) <<< 16 := by
    ext i hi
    simp only [BitVec.getElem_and, BitVec.getElem_shiftLeft, BitVec.getElem_ushiftRight]
    have := mask_FFFF0000 ⟨i, hi⟩
    simp only at this
    rw [this]
    by_cases h : i < 16
    · simp [h]
    · simp [h, BitVec.getLsbD_eq_getElem hi, show 16 + (i - 16) = i by omega]
  rw [this, BitVec.or_comm, ← BitVec.add_eq_or_of_and_eq_zero]
  · simp only [BitVec.toNat_add, BitVec.toNat_shiftLeft, BitVec.toNat_ushiftRight, Nat.shiftLeft_eq,
      Nat.shiftRight_eq_div_pow]
    omega
  · ext i hi
    simp only [BitVec.getElem_and, BitVec.getElem_shiftLeft, BitVec.getElem_ushiftRight, BitVec.getElem_zero]
    by_cases h : i < 16
    · simp [h]
    · simp [BitVec.getLsbD_of_ge i0 (16 + i) (by omega)]

theorem i3_toNat (i0 i2 : U32) :
    ((i2 <<< 16) ||| (i0 &&& 0x0000FFFF#32)).toNat = i2.toNat % 2 ^ 16 * 2 ^ 16 + i0.toNat % 2 ^ 16 := by
  have h0 := i0.isLt; have h2 := i2.isLt
  have hm : (0x0000FFFF#32).toNat = 2 ^ 16 - 1 := by decide
  rw [← BitVec.add_eq_or_of_and_eq_zero]
  · simp only [BitVec.toNat_add, BitVec.toNat_shiftLeft, BitVec.toNat_and, hm, Nat.and_two_pow_sub_one_eq_mod,
      Nat.shiftLeft_eq]
    omega
  · ext i hi
    have := mask_0000FFFF ⟨i, hi⟩
    simp only at this
    simp only [BitVec.getElem_and, BitVec.getElem_shiftLeft, BitVec.getElem_zero, this]
    by_cases h : i < 16 <;> simp [h]

theorem xor8 (c : Vector U32 8) (i0 i1 i2 i3 : U32) (n0 n1 n2 n3 : Nat) (h0 : i0.toNat = n0) (h1 : i1.toNat = n1)
    (h2 : i2.toNat = n2) (h3 : i3.toNat = n3) :
    (#v[c[0] ^^^ i0, c[1] ^^^ i1, c[2] ^^^ i2, c[3] ^^^ i3,
       c[4] ^^^ i0, c[5] ^^^ i1, c[6] ^^^ i2, c[7] ^^^ i3] : Vector U32 8).map BitVec.toNat
    = #v[(c.map BitVec.toNat)[0] ^^^ n0, (c.map BitVec.toNat)[1] ^^^ n1, (c.map BitVec.toNat)[2] ^^^ n2,
       (c.map BitVec.toNat)[3] ^^^ n3, (c.map BitVec.toNat)[4] ^^^ n0, (c.map BitVec.toNat)[5] ^^^ n1,
       (c.map BitVec.toNat)[6] ^^^ n2, (c.map BitVec.toNat)[7] ^^^ n3] := by
  subst h0 h1 h2 h3
  rw [map8]
  simp only [Vector.getElem_map, ← BitVec.toNat_xor]

theorem view_ivXor (iv : Vector U8 8) (s : State) (V : Nat) (hV : leNat iv.toList = V) :
    (view (ivXor iv s)).C = #v[
      (view s).C[0] ^^^ (V / 2 ^ 0 % 2 ^ 32),
      (view s).C[1] ^^^ (V / 2 ^ 48 % 2 ^ 16 * 2 ^ 16 + V / 2 ^ 16 % 2 ^ 16),
      (view s).C[2] ^^^ (V / 2 ^ 32 % 2 ^ 32),
      (view s).C[3] ^^^ (V / 2 ^ 32 % 2 ^ 16 * 2 ^ 16 + V / 2 ^ 0 % 2 ^ 16),
      (view s).C[4] ^^^ (V / 2 ^ 0 % 2 ^ 32),
      (view s).C[5] ^^^ (V / 2 ^ 48 % 2 ^ 16 * 2 ^ 16 + V / 2 ^ 16 % 2 ^ 16),
      (view s).C[6] ^^^ (V / 2 ^ 32 % 2 ^ 32),
      (view s).C[7] ^^^ (V / 2 ^ 32 % 2 ^ 16 * 2 ^ 16 + V / 2 ^ 0 % 2 ^ 16)] := by
  obtain ⟨h0, h2, hlt⟩ := iv_words iv
  rw [hV] at h0 h2 hlt
  refine xor8 s.c _ _ _ _ _ _ _ _ ?_ ?_ ?_ ?_
  · omega
  · rw [i1_toNat]; omega
  · omega
  · rw [i3_toNat]; omega

theorem view_setupIv (iv : Vector U8 8) (s : State) (h : s.carry.toNat ≤ 1) :
    view (next4Pure (ivXor iv s)) = Spec.Rabbit.ivSetup iv (view s) ∧ (next4Pure (ivXor iv s)).carry.toNat ≤ 1 := by
  obtain ⟨e, h'⟩ := view_next4 (ivXor iv s) h
  refine ⟨?_, h'⟩
  rw [e]
  have hv : view (ivXor iv s) = { view s with C := (view (ivXor iv s)).C } := rfl
  rw [hv, view_ivXor iv s _ rfl]
  simp only [Spec.Rabbit.ivSetup, Nat.reduceSub, Nat.reduceAdd]

/-! ## Extraction -/

theorem extract16_toNat (x : Vector U32 8) : (extract16 x).map BitVec.toNat = Spec.Rabbit.extract16 (x.map BitVec.toNat) := by
  have e1 (a b : U32) : ((a ^^^ (b >>> 16)).setWidth 16 : U16).toNat = a.toNat % 2 ^ 16 ^^^ b.toNat / 2 ^ 16 := by
    have := b.isLt
    have h : b.toNat / 2 ^ 16 % 2 ^ 16 = b.toNat / 2 ^ 16 := by omega
    rw [BitVec.toNat_setWidth, BitVec.toNat_xor, Nat.xor_mod_two_pow, BitVec.toNat_ushiftRight,
      Nat.shiftRight_eq_div_pow, h]
  have e2 (a b : U32) : (((a >>> 16) ^^^ b).setWidth 16 : U16).toNat = a.toNat / 2 ^ 16 ^^^ b.toNat % 2 ^ 16 := by
    rw [BitVec.xor_comm, e1, Nat.xor_comm]
  rw [extract16, map8, Spec.Rabbit.extract16]
  simp only [Vector.getElem_map, e1, e2]

theorem extract_eq (s : State) : extract s = Spec.Rabbit.extract (view s).X := by
  apply Vector.ext; intro k hk
  simp only [extract, Spec.Rabbit.extract, Vector.getElem_ofFn, view, ← extract16_toNat, Vector.getElem_map]
  generalize (extract16 s.x)[k / 2] = t
  have ht := t.isLt
  rcases Nat.mod_two_eq_zero_or_one k with h | h
  · rw [if_pos h, h]
    apply BitVec.eq_of_toNat_eq
    simp [leByte]
  · rw [if_neg (by omega), h]
    apply BitVec.eq_of_toNat_eq
    simp [leByte, Nat.shiftRight_eq_div_pow]

/-! ## As a stream -/

/-- `s` is the state after `n` blocks from `s0`. -/
def Rel (i0 : Spec.Rabbit.Inner) (s : State) (n : Nat) : Prop :=
  view s = Spec.Rabbit.after n i0 ∧ s.carry.toNat ≤ 1

theorem genBlock_rel (m : Mode) (i0 : Spec.Rabbit.Inner) (s : State) (n : Nat) (h : Rel i0 s n) :
    ∃ s', genBlock m s = .ok (Spec.Rabbit.block i0 n, s') ∧ Rel i0 s' (n + 1) := by
  obtain ⟨e, h'⟩ := view_next s h.2
  rw [genBlock_eq, extract_eq, Spec.Rabbit.block, Spec.Rabbit.after, ← h.1, ← e]
  refine ⟨nextPure s, rfl, ?_, h'⟩
  rw [Spec.Rabbit.after, ← h.1, e]

end Verif.Rabbit
