import Verif.Proof.Trace
import Verif.Proof.Rabbit
import Verif.Proof.ChaChaSetup
/-!
# Access-recording programs of Rabbit, RC4 and HC-256 compute what the models compute
-/
namespace Verif.Trace

/-! ## Rabbit -/

namespace Rabbit
open Verif.Rabbit (State)

theorem rdA_obl (j : Fin 8) : Obl (rdA j) [.rd .consts j.val] := fun _ _ _ => rfl
theorem getCarry_obl : Obl getCarry [] := fun _ _ _ => rfl
theorem setCarry_obl (b : U8) : Obl (setCarry b) [] := fun _ _ _ => rfl

theorem counterStep_const (m : Mode) (j : Fin 8) : Const (counterStep m j) :=
  ⟨_, Obl.bind (l' := _ ++ (_ ++ (_ ++ (_ ++ (_ ++ _))))) (Obl.rd _ _) fun _ => Obl.bind (rdA_obl _) fun _ => Obl.bind (Obl.lift _) fun _ =>
    Obl.bind getCarry_obl fun _ => Obl.bind (Obl.lift _) fun _ => Obl.bind (setCarry_obl _) fun _ => Obl.wr _ _ _⟩

theorem gStep_const (m : Mode) (j : Fin 8) : Const (gStep m j) := by
  apply Exists.intro
  unfold gStep
  oblivious

theorem mix_const : Const mix := by
  apply Exists.intro
  unfold mix
  oblivious

theorem fillTmp_const : Const fillTmp := by
  apply Exists.intro
  unfold fillTmp
  oblivious

theorem fillOut_const : Const fillOut := by
  unfold fillOut
  exact Const.each (fun _ => by apply Exists.intro; oblivious) _

theorem nextBlock_const (m : Mode) : Const (nextBlock m) := by
  unfold nextBlock nextState extract counterUpdate gLoop
  exact .seq (.seq (.each (counterStep_const m) _) (.seq (.each (gStep_const m) _) mix_const)) (.seq fillTmp_const fillOut_const)

/-- The cipher state in the memory. -/
def Mem.cipher (s : Mem) : State := ⟨s.x, s.c, s.carry⟩

/-- The memory with another cipher state. -/
def Mem.with (s : Mem) (t : State) : Mem := { s with x := t.x, c := t.c, carry := t.carry }

theorem counterStep_result (m : Mode) (j : Fin 8) (s : Mem) :
    (counterStep m j).result s = .ok ((), s.with (Verif.Rabbit.counterStepPure j s.cipher)) := by
  have h := Verif.Rabbit.counterStep_eq m j s.cipher
  have e : (counterStep m j).result s = (Verif.Rabbit.counterStep m j s.cipher).map fun t => ((), s.with t) := by
    unfold counterStep Verif.Rabbit.counterStep
    simp only [T.result_bind, result_rd, T.result_lift]
    show (Except.map _ (Verif.Rabbit.add64 m (BitVec.setWidth 64 s.cipher.c[j]) (BitVec.setWidth 64 Verif.Rabbit.A[j])) >>= _) = _
    rcases Verif.Rabbit.add64 m (BitVec.setWidth 64 s.cipher.c[j]) (BitVec.setWidth 64 Verif.Rabbit.A[j]) with e | t
    · rfl
    · show (Except.map _ (Verif.Rabbit.add64 m t (BitVec.setWidth 64 s.cipher.carry)) >>= _) =
        Except.map _ (Verif.Rabbit.add64 m t (BitVec.setWidth 64 s.cipher.carry) >>= _)
      rcases Verif.Rabbit.add64 m t (BitVec.setWidth 64 s.cipher.carry) with e | t <;> rfl
  rw [e, h]
  rfl

theorem counterUpdate_result (m : Mode) (s : Mem) :
    (counterUpdate m).result s = .ok ((), s.with (Verif.Rabbit.counterPure s.cipher)) := by
  unfold counterUpdate
  rw [each_result (f := fun s j => s.with (Verif.Rabbit.counterStepPure j s.cipher)) (counterStep_result m)]
  have h (j : Fin 8) (s : Mem) (t : State) : (s.with t).with (Verif.Rabbit.counterStepPure j (s.with t).cipher) =
    s.with (Verif.Rabbit.counterStepPure j t) := rfl
  simp only [List.foldl_cons, List.foldl_nil, h]
  rfl

theorem set8 {β : Type} (v : Vector β 8) (a b c d e f g h : β) :
    (((((((v.set 0 a).set 1 b).set 2 c).set 3 d).set 4 e).set 5 f).set 6 g).set 7 h = #v[a, b, c, d, e, f, g, h] := by
  apply Vector.ext
  simp only [Vector.getElem_set]
  apply Verif.ChaCha.forall_lt8 <;> simp

theorem gStep_result (m : Mode) (j : Fin 8) (s : Mem) :
    (gStep m j).result s = .ok ((), { s with g := s.g.set j (Verif.Rabbit.gPure s.x[j] s.c[j]) }) := by
  have h := Verif.Rabbit.gWord_eq m s.x[j] s.c[j]
  have e : (gStep m j).result s = (Verif.Rabbit.gWord m s.x[j] s.c[j]).map fun t => ((), { s with g := s.g.set j t }) := by
    unfold gStep Verif.Rabbit.gWord
    simp only [T.result_bind, result_rd, T.result_lift]
    show (Except.map _ (Verif.Rabbit.add64 m (BitVec.setWidth 64 s.x[j]) (BitVec.setWidth 64 s.c[j])) >>= _) = _
    rcases Verif.Rabbit.add64 m (BitVec.setWidth 64 s.x[j]) (BitVec.setWidth 64 s.c[j]) with e | t
    · rfl
    · show (Except.map _ (Verif.Rabbit.mul64 m (t % _) (t % _)) >>= _) = Except.map _ (Verif.Rabbit.mul64 m (t % _) (t % _) >>= _)
      rcases Verif.Rabbit.mul64 m (t % Verif.Rabbit.wordsize) (t % Verif.Rabbit.wordsize) with e | t <;> rfl
  rw [e, h]
  rfl

theorem gLoop_result (m : Mode) (s : Mem) : (gLoop m).result s = .ok ((), { s with g :=
    let G : Fin 8 → U32 := fun j => Verif.Rabbit.gPure s.x[j] s.c[j]
    #v[G 0, G 1, G 2, G 3, G 4, G 5, G 6, G 7] }) := by
  unfold gLoop
  rw [each_result (f := fun s j => { s with g := s.g.set j (Verif.Rabbit.gPure s.x[j] s.c[j]) }) (gStep_result m)]
  dsimp only
  rw [← set8 s.g]
  rfl

theorem mix_result (s : Mem) (G : Fin 8 → U32) (h : s.g = #v[G 0, G 1, G 2, G 3, G 4, G 5, G 6, G 7]) :
    mix.result s = .ok ((), { s with x := Verif.Rabbit.mix G }) := by
  obtain ⟨x, c, y, g, tmp, out⟩ := s
  replace h : g = _ := h
  subst h
  unfold mix Verif.Rabbit.mix
  refine Eq.trans ?_ (congrArg (fun v => Except.ok ((), Mem.mk v c y _ tmp out)) (set8 x _ _ _ _ _ _ _ _))
  rfl

theorem nextState_result (m : Mode) (s : Mem) : ∃ g, (nextState m).result s =
    .ok ((), { s.with (Verif.Rabbit.nextPure s.cipher) with g := g }) := by
  unfold nextState
  rw [T.result_bind, counterUpdate_result, ok_bind, T.result_bind, gLoop_result, ok_bind, mix_result _ (fun j => Verif.Rabbit.gPure (Verif.Rabbit.counterPure s.cipher).x[j] (Verif.Rabbit.counterPure s.cipher).c[j]) rfl]
  exact ⟨_, rfl⟩

theorem fillTmp_result (s : Mem) : fillTmp.result s = .ok ((), { s with tmp := Verif.Rabbit.extract16 s.x }) := by
  obtain ⟨x, c, y, g, tmp, out⟩ := s
  unfold fillTmp Verif.Rabbit.extract16
  refine Eq.trans ?_ (congrArg (fun v => Except.ok ((), Mem.mk x c y g v out)) (set8 tmp _ _ _ _ _ _ _ _))
  rfl

/-- The sixteen bytes of eight half-words. -/
def halves (tmp : Vector U16 8) : Vector U8 16 :=
  Vector.ofFn fun k =>
    let t := tmp[k.val / 2]'(by omega)
    if k.val % 2 = 0 then t.setWidth 8 else (t >>> 8).setWidth 8

/-- Two bytes stored. -/
def put2 (v : Vector U8 16) (i : Fin 8) (t : U16) : Vector U8 16 :=
  (v.set (2 * i.val) (t.setWidth 8)).set (2 * i.val + 1) ((t >>> 8).setWidth 8)

theorem fillOut_result (s : Mem) : fillOut.result s = .ok ((), { s with out := halves s.tmp }) := by
  obtain ⟨x, c, y, g, tmp, out⟩ := s
  unfold fillOut
  rw [each_result (f := fun (s : Mem) (i : Fin 8) => { s with out := put2 s.out i s.tmp[i] }) (fun i s => rfl)]
  simp only [List.foldl_cons, List.foldl_nil]
  refine congrArg (fun v => Except.ok ((), Mem.mk x c y g tmp v)) ?_
  unfold halves put2
  apply Vector.ext
  simp only [Vector.getElem_set, Vector.getElem_ofFn]
  apply forall_lt16 <;> rfl

theorem nextBlock_result (m : Mode) (s : Mem) : ∃ g tmp, (nextBlock m).result s =
    (Verif.Rabbit.genBlock m s.cipher).map fun p => ((), { s.with p.2 with g := g, tmp := tmp, out := p.1 }) := by
  rw [Verif.Rabbit.genBlock_eq]
  unfold nextBlock extract
  obtain ⟨g, h⟩ := nextState_result m s
  rw [T.result_bind, h, ok_bind, T.result_bind, fillTmp_result, ok_bind, fillOut_result]
  exact ⟨g, Verif.Rabbit.extract16 (Verif.Rabbit.nextPure s.cipher).x, rfl⟩

end Rabbit

/-! ## RC4 -/

namespace Rc4

theorem prga_result (s : Verif.Rc4.State) : prga.result s = .ok (Verif.Rc4.prga s) := rfl

end Rc4

/-! ## HC-256 -/

namespace Hc256
open Verif.Hc256 (State)

theorem get_result {σ : Type} {n : Nat} (L : Place σ U32 n) (i : Nat) (s : σ) :
    (get L i).result s = (Verif.Hc256.get (L.get s) i).map (·, s) := by
  unfold get Verif.Hc256.get
  by_cases h : i < n
  · rw [dif_pos h, dif_pos h]; rfl
  · rw [dif_neg h, dif_neg h]; rfl

theorem put_result {σ : Type} {n : Nat} (L : Place σ U32 n) (i : Nat) (x : U32) (s : σ) :
    (put L i x).result s = (Verif.Hc256.put (L.get s) i x).map fun v => ((), L.set s v) := by
  unfold put Verif.Hc256.put
  by_cases h : i < n
  · rw [dif_pos h, dif_pos h]; rfl
  · rw [dif_neg h, dif_neg h]; rfl

theorem map_bind {α β γ : Type} (e : Except Panic α) (f : α → β) (k : β → Except Panic γ) : (e.map f >>= k) = (e >>= fun a => k (f a)) := by
  cases e <;> rfl

theorem bind_map {α β γ : Type} (e : Except Panic α) (f : α → Except Panic β) (k : β → γ) :
    (e >>= f).map k = (e >>= fun a => (f a).map k) := by
  cases e <;> rfl

theorem g_result (u : Nat) (O : Place State U32 1024) (x y : U32) (s : State) :
    (g u O x y).result s = (Verif.Hc256.g u (O.get s) x y).map (·, s) := by
  unfold g Verif.Hc256.g
  rw [T.result_bind, get_result, map_bind, bind_map]
  rfl

theorem h_result (m : Mode) (u : Nat) (O : Place State U32 1024) (x : U32) (s : State) :
    (h m u O x).result s = (Verif.Hc256.h m u (O.get s) x).map (·, s) := by
  unfold h Verif.Hc256.h
  simp only [T.result_bind, T.result_lift, T.result_pure, get_result, map_bind, bind_map]
  rfl

theorem get_ok {n : Nat} (v : Vector U32 n) (i : Nat) (h : i < n) : Verif.Hc256.get v i = .ok v[i] := dif_pos h

theorem back_lt (u j k : Nat) : Verif.Hc256.back u j k < 1024 := by
  unfold Verif.Hc256.back
  exact Nat.lt_of_le_of_lt Nat.and_le_right (by decide)

theorem half_result (m : Mode) (u : Nat) {L O : Place State U32 1024} (hL : L.Lawful) (hO : ∀ s v, O.get (L.set s v) = O.get s) (j : Nat)
    (hj : j < 1024) (s : State) :
    (half m u L O j).result s = (Verif.Hc256.half m u (L.get s) (O.get s) j).map fun p => (p.1, L.set s p.2) := by
  unfold half Verif.Hc256.half
  simp only [T.result_bind, T.result_pure, get_result, put_result, g_result, h_result, map_bind, bind_map,
    get_ok _ _ (back_lt _ _ _), get_ok _ _ hj, ok_bind, hL.get_set, hO]
  rfl

theorem pP_lawful : pP.Lawful := ⟨fun _ _ => rfl, fun _ _ _ => rfl, fun _ => rfl⟩
theorem qP_lawful : qP.Lawful := ⟨fun _ _ => rfl, fun _ _ _ => rfl, fun _ => rfl⟩

theorem getIdx_result (s : State) : getIdx.result s = .ok (s.idx, s) := rfl
theorem setIdx_result (x : U32) (s : State) : (setIdx x).result s = .ok ((), { s with idx := x }) := rfl

theorem genWord_result (m : Mode) (u : Nat) (s : State) : (genWord m u).result s = Verif.Hc256.genWord m u s := by
  unfold genWord Verif.Hc256.genWord
  rw [T.result_bind, getIdx_result, ok_bind, T.result_bind, T.result_lift, map_bind]
  refine congrArg (Bind.bind _) (funext fun next => ?_)
  have hj : Verif.Hc256.toUsize u s.idx &&& 1023 < 1024 := Nat.lt_of_le_of_lt Nat.and_le_right (by decide)
  dsimp only
  rw [T.result_bind, setIdx_result, ok_bind]
  show T.result _ (State.mk s.ptable s.qtable (next &&& 2047#32)) = _
  by_cases h : Verif.Hc256.toUsize u s.idx < 1024
  · rw [if_pos h, if_pos h, half_result m u pP_lawful (fun _ _ => rfl) _ hj]
    show Except.map _ (Verif.Hc256.half m u s.ptable s.qtable _) = _
    generalize Verif.Hc256.half m u s.ptable s.qtable _ = e
    cases e <;> rfl
  · rw [if_neg h, if_neg h, half_result m u qP_lawful (fun _ _ => rfl) _ hj]
    show Except.map _ (Verif.Hc256.half m u s.qtable s.ptable _) = _
    generalize Verif.Hc256.half m u s.qtable s.ptable _ = e
    cases e <;> rfl

theorem get_bind_trace {σ β : Type} {n : Nat} (L : Place σ U32 n) (i : Nat) (h : i < n) (f : U32 → T σ β) (s : σ) :
    (get L i >>= f).trace s = .rd L.arr i :: (f (L.get s)[i]).trace s := by
  unfold get
  rw [dif_pos h]
  rfl

theorem g_bind_trace {β : Type} (u : Nat) (O : Place State U32 1024) (x y : U32) (f : U32 → T State β) (s : State) :
    ∃ l, (g u O x y >>= f).trace s = .rd O.arr (Verif.Hc256.toUsize u (x ^^^ y) &&& 1023) :: l := by
  have hi : Verif.Hc256.toUsize u (x ^^^ y) &&& 1023 < 1024 := Nat.lt_of_le_of_lt Nat.and_le_right (by decide)
  unfold g get
  rw [dif_pos hi]
  exact ⟨_, rfl⟩

theorem back_zero (u k : Nat) (hu : 16 ≤ u) (hk : k ≤ 1023) (h0 : 0 < k) : Verif.Hc256.back u 0 k = 1024 - k := by
  unfold Verif.Hc256.back
  obtain ⟨d, rfl⟩ : ∃ d, u = 10 + d := ⟨u - 10, by omega⟩
  have hp : 0 < 2 ^ d := Nat.two_pow_pos d
  have e : 2 ^ (10 + d) = 1024 * 2 ^ d := by rw [Nat.pow_add]
  rw [e]
  obtain ⟨t, ht⟩ : ∃ t, 2 ^ d = t + 1 := ⟨2 ^ d - 1, by omega⟩
  have h1 : (0 + 1024 * (t + 1) - k) % (1024 * (t + 1)) = 1024 * t + (1024 - k) := by
    rw [Nat.mod_eq_of_lt (by omega)]
    omega
  rw [ht, h1, show (1023 : Nat) = 2 ^ 10 - 1 from rfl, Nat.and_two_pow_sub_one_eq_mod]
  omega

theorem half_trace (m : Mode) (u : Nat) (hu : 16 ≤ u) (s : State) : ((half m u pP qP 0).trace s)[4]? =
    some (.rd .q (Verif.Hc256.toUsize u (s.ptable[1021] ^^^ s.ptable[1]) &&& 1023)) := by
  unfold half
  rw [back_zero u 10 hu (by decide) (by decide), back_zero u 3 hu (by decide) (by decide), back_zero u 1023 hu (by decide) (by decide)]
  rw [get_bind_trace _ _ (by decide), get_bind_trace _ _ (by decide)]
  dsimp only
  rw [get_bind_trace _ _ (by decide), get_bind_trace _ _ (by decide)]
  obtain ⟨l, h⟩ := g_bind_trace u qP s.ptable[1021] s.ptable[1] (fun gv => do
    put pP 0 (s.ptable[0] + s.ptable[1014] + gv)
    let hv ← Hc256.h m u qP (← get pP (Verif.Hc256.back u 0 12))
    return hv ^^^ (← get pP 0)) s
  refine Eq.trans (congrArg (fun l => (_ :: _ :: _ :: _ :: l)[4]?) h) ?_
  rfl

theorem genWord_trace (m : Mode) (u : Nat) (s : State) (h : s.idx = 0) :
    (genWord m u).trace s = (half m u pP qP 0).trace { s with idx := 1 } := by
  obtain ⟨p, q, i⟩ := s
  replace h : i = 0#32 := h
  subst h
  have h0 : Verif.Hc256.toUsize u 0#32 = 0 := Nat.zero_mod _
  unfold genWord
  rw [T.trace_bind _ _ _ _ _ (getIdx_result _)]
  dsimp only
  rw [h0]
  rfl

end Hc256

end Verif.Trace
