import Verif.Model.Packed
import Verif.Proof.Requests
/-!
# The position may live in the buffer
-/
namespace Verif

theorem ExRel.refl {α : Type} (x : Except Panic α) : ExRel Eq x x := by
  cases x with
  | ok a => exact .ok rfl
  | error e => exact .error e

theorem ExRel.map_eq {α β γ : Type} {Q : α → β → Prop} {x : Except Panic α} {y : Except Panic β} (h : ExRel Q x y) (f : α → γ) (g : β → γ)
    (hf : ∀ a b, Q a b → f a = g b) : x.map f = y.map g := by
  cases h with
  | ok h => exact congrArg Except.ok (hf _ _ h)
  | error e => rfl

namespace Packed
variable {bs : Nat} {χ : Type}

/-- The buffer `p` holds the position `pos` in its first byte, and the unread bytes of `b`. -/
structure Holds (h : 0 < bs) (b : Vector U8 bs) (pos : Nat) (p : Vector U8 bs) : Prop where
  lower : 1 ≤ pos
  upper : pos ≤ bs
  first : p[0] = BitVec.ofNat 8 pos
  unread : ∀ i (hi : i < bs), pos ≤ i → p[i] = b[i]

/-- The two representations of one object. -/
structure Rel {σ : Type} (h : 0 < bs) (w : Wrapper bs σ) (p : Packed bs σ) : Prop where
  core : p.core = w.core
  holds : Holds h w.buf w.pos p.buf

variable {h : 0 < bs}

theorem Holds.getPos {b p : Vector U8 bs} {pos : Nat} (hh : Holds h b pos p) (hb : bs ≤ 255) : Packed.getPos h p = .ok pos := by
  have e : p[0].toNat = pos := by
    rw [hh.first, BitVec.toNat_ofNat]
    have := hh.upper
    omega
  have := hh.lower
  have := hh.upper
  unfold Packed.getPos
  rw [e, if_neg (by omega)]

theorem Holds.fresh (b : Vector U8 bs) (pos : Nat) (h1 : 1 ≤ pos) (h2 : pos ≤ bs) : Holds h b pos (setPos h b pos) where
  lower := h1
  upper := h2
  first := by simp [setPos]
  unread i hi hp := by
    simp only [setPos]
    rw [Vector.getElem_set_ne _ _ (by omega)]

theorem Holds.advance {b p : Vector U8 bs} {pos : Nat} (hh : Holds h b pos p) (pos' : Nat) (h1 : pos ≤ pos') (h2 : pos' ≤ bs) :
    Holds h b pos' (setPos h p pos') where
  lower := Nat.le_trans hh.lower h1
  upper := h2
  first := by simp [setPos]
  unread i hi hp := by
    have := hh.lower
    simp only [setPos]
    rw [Vector.getElem_set_ne _ _ (by omega)]
    exact hh.unread i hi (by omega)

theorem Holds.drop {b p : Vector U8 bs} {pos : Nat} (hh : Holds h b pos p) (pos' : Nat) :
    (setPos h p pos').toList.drop pos = b.toList.drop pos := by
  apply List.ext_getElem
  · simp only [List.length_drop, Vector.length_toList]
  · intro i h1 h2
    have hi : pos + i < bs := by simp only [List.length_drop, Vector.length_toList] at h1; omega
    have := hh.lower
    simp only [List.getElem_drop, Vector.getElem_toList, setPos]
    rw [Vector.getElem_set_ne _ _ (by omega)]
    exact hh.unread _ hi (by omega)

theorem Holds.read {b p : Vector U8 bs} {pos : Nat} (hh : Holds h b pos p) (hb : bs ≤ 255) (len : Nat) :
    readCached h p len = .ok ((b.toList.drop pos).take (min (bs - pos) len), setPos h p (pos + min (bs - pos) len)) := by
  unfold readCached
  rw [hh.getPos hb]
  show Except.ok (List.take _ (List.drop pos _), _) = _
  rw [hh.drop]

theorem read_length (b : Vector U8 bs) (pos len : Nat) : ((b.toList.drop pos).take (min (bs - pos) len)).length = min (bs - pos) len := by
  simp only [List.length_take, List.length_drop, Vector.length_toList]
  omega

theorem writeBlock_ok (pos : Nat) (b : Vector U8 bs) (h1 : pos ≠ 0) (h2 : pos < bs) :
    writeBlock h pos b = .ok (b.toList.take pos, setPos h b pos) := if_pos ⟨h1, h2⟩

theorem ok_bind' {α β : Type} (a : α) (f : α → Except Panic β) : ((Except.ok a : Except Panic α) >>= f) = f a := rfl

theorem uncheckedApply_rel (C : Core bs χ) (hb : bs ≤ 255) (x : χ) (w : Wrapper bs C.σ) (p : Packed bs C.σ) (hr : Rel h w p) (data : List U8) :
    ExRel (fun a b => a.1 = b.1 ∧ Rel h a.2 b.2) (w.uncheckedApply C x data) (p.uncheckedApply h C x data) := by
  unfold Wrapper.uncheckedApply Packed.uncheckedApply
  rw [hr.holds.read hb, ok_bind']
  dsimp only
  rw [read_length, hr.core]
  have hu := hr.holds.upper
  generalize hn : min (bs - w.pos) data.length = n
  refine ExRel.bind (ExRel.refl _) ?_
  rintro ⟨mid, core⟩ _ rfl
  dsimp only
  split
  · refine .ok ⟨rfl, rfl, ?_⟩
    exact hr.holds.advance (w.pos + n) (by omega) (by omega)
  · rename_i ht
    refine ExRel.bind (ExRel.refl _) ?_
    rintro ⟨b, core'⟩ _ rfl
    have hlt : (List.drop ((data.drop n).length / bs * bs) (data.drop n)).length < bs := by
      rw [List.length_drop]
      have := Nat.mod_lt (data.drop n).length h
      have e := Nat.div_add_mod (data.drop n).length bs
      rw [Nat.mul_comm] at e
      omega
    dsimp only
    rw [writeBlock_ok _ _ ht hlt, ok_bind']
    exact .ok ⟨rfl, rfl, Holds.fresh b _ (Nat.pos_of_ne_zero ht) (Nat.le_of_lt hlt)⟩

theorem uncheckedWrite_rel (C : Core bs χ) (hb : bs ≤ 255) (x : χ) (w : Wrapper bs C.σ) (p : Packed bs C.σ) (hr : Rel h w p) (len : Nat) :
    ExRel (fun a b => a.1 = b.1 ∧ Rel h a.2 b.2) (w.uncheckedWrite C x len) (p.uncheckedWrite h C x len) := by
  unfold Wrapper.uncheckedWrite Packed.uncheckedWrite
  rw [hr.holds.read hb, ok_bind']
  dsimp only
  rw [read_length, hr.core]
  have hu := hr.holds.upper
  generalize hn : min (bs - w.pos) len = n
  refine ExRel.bind (ExRel.refl _) ?_
  rintro ⟨mid, core⟩ _ rfl
  dsimp only
  split
  · refine .ok ⟨rfl, rfl, ?_⟩
    exact hr.holds.advance (w.pos + n) (by omega) (by omega)
  · rename_i ht
    refine ExRel.bind (ExRel.refl _) ?_
    rintro ⟨b, core'⟩ _ rfl
    have hlt : len - n - (len - n) / bs * bs < bs := by
      have := Nat.mod_lt (len - n) h
      have e := Nat.div_add_mod (len - n) bs
      rw [Nat.mul_comm] at e
      omega
    dsimp only
    rw [writeBlock_ok _ _ ht hlt, ok_bind']
    exact .ok ⟨rfl, rfl, Holds.fresh b _ (Nat.pos_of_ne_zero ht) (Nat.le_of_lt hlt)⟩

theorem checkRemaining_eq (C : Core bs χ) (hb : bs ≤ 255) (w : Wrapper bs C.σ) (p : Packed bs C.σ) (hr : Rel h w p) (n : Nat) :
    p.checkRemaining h C n = .ok (w.checkRemaining C n) := by
  unfold Packed.checkRemaining Wrapper.checkRemaining
  rw [hr.core]
  cases C.remaining w.core with
  | none => rfl
  | some k =>
    dsimp only
    rw [hr.holds.getPos hb, ok_bind']
    split
    · rfl
    · rfl

theorem tryApply_rel (C : Core bs χ) (hb : bs ≤ 255) (x : χ) (w : Wrapper bs C.σ) (p : Packed bs C.σ) (hr : Rel h w p) (data : List U8) :
    ExRel (fun a b => a.1 = b.1 ∧ a.2.1 = b.2.1 ∧ Rel h a.2.2 b.2.2) (w.tryApply C x data) (p.tryApply h C x data) := by
  unfold Wrapper.tryApply Packed.tryApply
  rw [checkRemaining_eq C hb w p hr, ok_bind']
  cases w.checkRemaining C data.length with
  | error e => exact .ok ⟨rfl, rfl, hr⟩
  | ok u =>
    refine ExRel.bind (uncheckedApply_rel C hb x w p hr data) ?_
    rintro ⟨a, w'⟩ ⟨b, p'⟩ ⟨e, hr'⟩
    exact .ok ⟨rfl, e, hr'⟩

theorem tryWrite_rel (C : Core bs χ) (hb : bs ≤ 255) (x : χ) (w : Wrapper bs C.σ) (p : Packed bs C.σ) (hr : Rel h w p) (data : List U8) :
    ExRel (fun a b => a.1 = b.1 ∧ a.2.1 = b.2.1 ∧ Rel h a.2.2 b.2.2) (w.tryWrite C x data) (p.tryWrite h C x data) := by
  unfold Wrapper.tryWrite Packed.tryWrite
  rw [checkRemaining_eq C hb w p hr, ok_bind']
  cases w.checkRemaining C data.length with
  | error e => exact .ok ⟨rfl, rfl, hr⟩
  | ok u =>
    refine ExRel.bind (uncheckedWrite_rel C hb x w p hr data.length) ?_
    rintro ⟨a, w'⟩ ⟨b, p'⟩ ⟨e, hr'⟩
    exact .ok ⟨rfl, e, hr'⟩

theorem trySeek_rel (C : SeekCore bs χ) (x : χ) (w : Wrapper bs C.σ) (p : Packed bs C.σ) (hr : Rel h w p) (q : Nat) :
    ExRel (fun a b => a.1 = b.1 ∧ Rel h a.2 b.2) (w.trySeek C x q) (p.trySeek h C x q) := by
  unfold Wrapper.trySeek Packed.trySeek
  dsimp only
  rw [hr.core]
  have hl := hr.holds.lower
  have hu := hr.holds.upper
  split
  · exact .ok ⟨rfl, hr⟩
  · split
    · exact .ok ⟨rfl, rfl, hr.holds.advance _ hu (Nat.le_refl _)⟩
    · rename_i hq
      refine ExRel.bind (ExRel.refl _) ?_
      rintro ⟨b, core'⟩ _ rfl
      have hlt := Nat.mod_lt q h
      dsimp only
      rw [writeBlock_ok _ _ hq hlt, ok_bind']
      exact .ok ⟨rfl, rfl, Holds.fresh b _ (Nat.pos_of_ne_zero hq) (Nat.le_of_lt hlt)⟩

theorem tryCurrentPos_eq (C : SeekCore bs χ) (hb : bs ≤ 255) (w : Wrapper bs C.σ) (p : Packed bs C.σ) (hr : Rel h w p) (n : Nat) :
    p.tryCurrentPos h C n = .ok (w.tryCurrentPos C n) := by
  unfold Packed.tryCurrentPos Wrapper.tryCurrentPos
  dsimp only
  rw [hr.core, hr.holds.getPos hb, ok_bind']
  rfl

theorem step_rel (C : Core bs χ) (hb : bs ≤ 255) (x : χ) (w : Wrapper bs C.σ) (p : Packed bs C.σ) (hr : Rel h w p) (op : Op) :
    ExRel (fun a b => a.1 = b.1 ∧ Rel h a.2 b.2) (w.step C x op) (p.step h C x op) := by
  cases op with
  | apply data =>
    refine ExRel.bind (tryApply_rel C hb x w p hr data) ?_
    rintro ⟨a, o, w'⟩ ⟨b, o', p'⟩ ⟨e, e', hr'⟩
    exact .ok ⟨congr (congrArg Obs.data e) e', hr'⟩
  | write data =>
    refine ExRel.bind (tryWrite_rel C hb x w p hr data) ?_
    rintro ⟨a, o, w'⟩ ⟨b, o', p'⟩ ⟨e, e', hr'⟩
    exact .ok ⟨congr (congrArg Obs.data e) e', hr'⟩

theorem seekStep_rel (C : SeekCore bs χ) (hb : bs ≤ 255) (x : χ) (w : Wrapper bs C.σ) (p : Packed bs C.σ) (hr : Rel h w p) (op : SeekOp) :
    ExRel (fun a b => a.1 = b.1 ∧ Rel h a.2 b.2) (w.seekStep C x op) (p.seekStep h C x op) := by
  cases op with
  | io op => exact step_rel C.toCore hb x w p hr op
  | seek q =>
    refine ExRel.bind (trySeek_rel C x w p hr q) ?_
    rintro ⟨a, w'⟩ ⟨b, p'⟩ ⟨e, hr'⟩
    exact .ok ⟨congrArg Obs.done e, hr'⟩
  | pos n =>
    unfold Wrapper.seekStep Packed.seekStep
    dsimp only
    rw [tryCurrentPos_eq C hb w p hr]
    exact .ok ⟨rfl, hr⟩

theorem runHistory_rel {σ τ ι : Type} (R : σ → τ → Prop) (f : χ → σ → ι → Except Panic (Obs × σ)) (g : χ → τ → ι → Except Panic (Obs × τ))
    (hs : ∀ x s t op, R s t → ExRel (fun a b => a.1 = b.1 ∧ R a.2 b.2) (f x s op) (g x t op)) (l : List (χ × ι)) :
    ∀ s t, R s t → ExRel (fun a b => a.1 = b.1 ∧ R a.2 b.2) (runHistory f l s) (runHistory g l t) := by
  induction l with
  | nil => intro s t hr; exact .ok ⟨rfl, hr⟩
  | cons a l ih =>
    obtain ⟨x, op⟩ := a
    intro s t hr
    refine ExRel.bind (hs x s t op hr) ?_
    rintro ⟨o, s'⟩ ⟨o', t'⟩ ⟨e, hr'⟩
    refine ExRel.bind (ih s' t' hr') ?_
    rintro ⟨os, s''⟩ ⟨os', t''⟩ ⟨e', hr''⟩
    exact .ok ⟨congr (congrArg List.cons e) e', hr''⟩

theorem fromCore_rel {σ : Type} (s : σ) : Rel h (Wrapper.fromCore s) (fromCore h s) :=
  ⟨rfl, Holds.fresh _ _ h (Nat.le_refl _)⟩

end Packed

namespace ChaCha.PackedRng
open Verif.Spec.Rng (RngOp RngObs)

/-- Same core, same index, same unread words. -/
structure Same (r p : Rng) : Prop where
  core : p.core = r.core
  index : p.index = r.index
  unread : ∀ i (hi : i < 64), r.index ≤ i → p.results[i] = r.results[i]

/-- The two representations of one generator. -/
structure Rel (r : Rng) (p : PackedRng) : Prop where
  lower : 1 ≤ r.index
  upper : r.index ≤ 64
  core : p.core = r.core
  first : p.results[0] = BitVec.ofNat 32 r.index
  unread : ∀ i (hi : i < 64), r.index ≤ i → p.results[i] = r.results[i]

theorem Rel.index {r : Rng} {p : PackedRng} (h : Rel r p) : p.index = r.index := by
  have := h.upper
  unfold PackedRng.index
  rw [h.first, BitVec.toNat_ofNat]
  omega

theorem Rel.same {r : Rng} {p : PackedRng} (h : Rel r p) : Same r p.view := ⟨h.core, h.index, h.unread⟩

theorem Same.store {r p : Rng} (h : Same r p) (i : Nat) (h1 : 1 ≤ i) (h2 : i ≤ 64) (hi : r.index ≤ i) :
    Rel { r with index := i } (setIndex i ⟨p.core, p.results⟩) where
  lower := h1
  upper := h2
  core := h.core
  first := by simp [setIndex]
  unread j hj hij := by
    have hij : i ≤ j := hij
    show (p.results.set 0 (BitVec.ofNat 32 i))[j] = r.results[j]
    rw [Vector.getElem_set_ne _ _ (by omega)]
    exact h.unread j hj (by omega)

theorem Rel.store {r : Rng} {p : PackedRng} (h : Rel r p) (i : Nat) (h1 : r.index ≤ i) (h2 : i ≤ 64) :
    Rel { r with index := i } (p.setIndex i) := h.same.store i (Nat.le_trans h.lower h1) h2 h1

theorem store_new (core : State) (words : Vector U32 64) (i : Nat) (h1 : 1 ≤ i) (h2 : i ≤ 64) :
    Rel ⟨core, words, i⟩ (setIndex i ⟨core, words⟩) := Same.store (r := ⟨core, words, i⟩) (p := ⟨core, words, i⟩) ⟨rfl, rfl, fun _ _ _ => rfl⟩ i h1 h2 (Nat.le_refl _)

theorem refill_store (dr : Nat) (e : Env) {r : Rng} {p : PackedRng} (hc : p.core = r.core) (i : Nat) (h1 : 1 ≤ i) (h2 : i ≤ 64) :
    Rel { Rng.refill dr e r with index := i } ((refill dr e p).setIndex i) := by
  unfold Rng.refill refill
  rw [hc]
  generalize generate dr .legacy e r.core = g
  exact store_new g.2 g.1 i h1 h2

theorem refill_results (dr : Nat) (e : Env) {r : Rng} {p : PackedRng} (hc : p.core = r.core) :
    (refill dr e p).results = (Rng.refill dr e r).results := by
  unfold Rng.refill refill
  rw [hc]

theorem ofCore_rel (core : State) : Rel (Rng.ofCore core) (ofCore core) := store_new core _ 64 (by decide) (by decide)

theorem getElem_congr' {α : Type} {n : Nat} (v : Vector α n) {i j : Nat} (e : i = j) (hi : i < n) (hj : j < n) : v[i] = v[j] := by
  subst e; rfl

theorem nextWord_rel (dr : Nat) (e : Env) {r : Rng} {p : PackedRng} (h : Rel r p) :
    (Rng.nextWord dr e r).1 = (nextWord dr e p).1 ∧ Rel (Rng.nextWord dr e r).2 (nextWord dr e p).2 := by
  unfold Rng.nextWord nextWord
  by_cases hi : r.index < 64
  · have hp : p.index < 64 := by rw [h.index]; exact hi
    rw [dif_pos hi, dif_pos hp]
    refine ⟨?_, ?_⟩
    · exact ((getElem_congr' p.results h.index hp hi).trans (h.unread _ hi (Nat.le_refl _))).symm
    · show Rel _ (p.setIndex (p.index + 1))
      rw [h.index]
      exact h.store _ (by omega) (by omega)
  · have hp : ¬ p.index < 64 := by rw [h.index]; exact hi
    rw [dif_neg hi, dif_neg hp]
    refine ⟨?_, refill_store dr e h.core 1 (by decide) (by decide)⟩
    exact congrArg (fun v : Vector U32 64 => v[0]) (refill_results dr e h.core).symm

theorem nextU64_rel (dr : Nat) (e : Env) {r : Rng} {p : PackedRng} (h : Rel r p) :
    (Rng.nextU64 dr e r).1 = (nextU64 dr e p).1 ∧ Rel (Rng.nextU64 dr e r).2 (nextU64 dr e p).2 := by
  unfold Rng.nextU64 nextU64
  dsimp only
  by_cases hi : r.index < 63
  · have hp : p.index < 63 := by rw [h.index]; exact hi
    rw [dif_pos hi, dif_pos hp]
    have e0 : p.results[p.index] = r.results[r.index] :=
      (getElem_congr' p.results h.index (by omega) (by omega)).trans (h.unread _ (by omega) (Nat.le_refl _))
    have e1 : p.results[p.index + 1] = r.results[r.index + 1] :=
      (getElem_congr' p.results (by rw [h.index]) (by omega) (by omega)).trans (h.unread _ (by omega) (by omega))
    refine ⟨?_, ?_⟩
    · show _ = (p.results[p.index + 1].setWidth 64 <<< 32) ||| p.results[p.index].setWidth 64
      rw [e0, e1]
    · show Rel _ (p.setIndex (p.index + 2))
      rw [h.index]
      exact h.store _ (by omega) (by omega)
  · have hp : ¬ p.index < 63 := by rw [h.index]; exact hi
    rw [dif_neg hi, dif_neg hp]
    have hr := refill_results dr e h.core
    by_cases hj : r.index ≥ 64
    · have hq : p.index ≥ 64 := by rw [h.index]; exact hj
      rw [if_pos hj, if_pos hq]
      refine ⟨?_, refill_store dr e h.core 2 (by decide) (by decide)⟩
      exact congrArg (fun v : Vector U32 64 => (v[1].setWidth 64 <<< 32) ||| v[0].setWidth 64) hr.symm
    · have hq : ¬ p.index ≥ 64 := by rw [h.index]; exact hj
      rw [if_neg hj, if_neg hq]
      refine ⟨?_, refill_store dr e h.core 1 (by decide) (by decide)⟩
      have e63 : p.results[63] = r.results[63] := h.unread 63 (by decide) (by omega)
      show _ = ((refill dr e p).results[0].setWidth 64 <<< 32) ||| p.results[63].setWidth 64
      rw [e63]
      exact congrArg (fun v : Vector U32 64 => (v[0].setWidth 64 <<< 32) ||| r.results[63].setWidth 64) hr.symm

theorem Same.drop {r p : Rng} (h : Same r p) : p.results.toList.drop p.index = r.results.toList.drop r.index := by
  rw [h.index]
  apply List.ext_getElem
  · simp only [List.length_drop, Vector.length_toList]
  · intro i h1 h2
    have hi : r.index + i < 64 := by simp only [List.length_drop, Vector.length_toList] at h1; omega
    simp only [List.getElem_drop, Vector.getElem_toList]
    exact h.unread _ hi (by omega)

theorem Same.turn (dr : Nat) (e : Env) {r p : Rng} (h : Same r p) :
    Same (if r.index ≥ 64 then { Rng.refill dr e r with index := 0 } else r) (if p.index ≥ 64 then { Rng.refill dr e p with index := 0 } else p) := by
  rw [h.index]
  by_cases hi : r.index ≥ 64
  · rw [if_pos hi, if_pos hi]
    unfold Rng.refill
    rw [h.core]
    exact ⟨rfl, rfl, fun _ _ _ => rfl⟩
  · rw [if_neg hi, if_neg hi]
    exact h

theorem fillLoop_same (dr : Nat) (e : Env) (n : Nat) : ∀ {r p : Rng}, Same r p →
    (Rng.fillLoop dr e n r).1 = (Rng.fillLoop dr e n p).1 ∧ Same (Rng.fillLoop dr e n r).2 (Rng.fillLoop dr e n p).2 := by
  induction n using Nat.strongRecOn with
  | ind n ih =>
    intro r p h
    rw [Rng.fillLoop.eq_def dr e n r, Rng.fillLoop.eq_def dr e n p]
    by_cases hn : n = 0
    · rw [dif_pos hn, dif_pos hn]
      exact ⟨rfl, h⟩
    · rw [dif_neg hn, dif_neg hn]
      dsimp only
      have ht := h.turn dr e
      have hlt : (if r.index ≥ 64 then { Rng.refill dr e r with index := 0 } else r).index < 64 := by
        split
        · exact (by decide : 0 < 64)
        · omega
      generalize (if r.index ≥ 64 then { Rng.refill dr e r with index := 0 } else r) = r' at ht hlt ⊢
      generalize (if p.index ≥ 64 then { Rng.refill dr e p with index := 0 } else p) = p' at ht ⊢
      rw [ht.drop]
      have hout : (Rng.fillViaChunks (r'.results.toList.drop r'.index) n).2.length = min ((64 - r'.index) * 4) n := by
        rw [Rng.fillViaChunks, List.length_take, Rng.length_flatMap_toLe32, List.length_drop, Vector.length_toList]
        omega
      generalize Rng.fillViaChunks (r'.results.toList.drop r'.index) n = c at hout ⊢
      have hs : Same { r' with index := r'.index + c.1 } { p' with index := p'.index + c.1 } :=
        ⟨ht.core, congrArg (· + c.1) ht.index, fun i hi hj => ht.unread i hi (by have hj : r'.index + c.1 ≤ i := hj; omega)⟩
      obtain ⟨h1, h2⟩ := ih (n - c.2.length) (by omega) hs
      exact ⟨congrArg (c.2 ++ ·) h1, h2⟩

theorem fillLoop_index (dr : Nat) (e : Env) (n : Nat) : ∀ {r : Rng}, r.index ≤ 64 → (0 < n ∨ 1 ≤ r.index) →
    1 ≤ (Rng.fillLoop dr e n r).2.index ∧ (Rng.fillLoop dr e n r).2.index ≤ 64 := by
  induction n using Nat.strongRecOn with
  | ind n ih =>
    intro r hu hl
    rw [Rng.fillLoop.eq_def dr e n r]
    by_cases hn : n = 0
    · rw [dif_pos hn]
      have hl : 1 ≤ r.index := by omega
      exact ⟨hl, hu⟩
    · rw [dif_neg hn]
      dsimp only
      have hlt : (if r.index ≥ 64 then { Rng.refill dr e r with index := 0 } else r).index < 64 := by
        split
        · exact (by decide : 0 < 64)
        · omega
      generalize (if r.index ≥ 64 then { Rng.refill dr e r with index := 0 } else r) = r' at hlt ⊢
      have hout : (Rng.fillViaChunks (r'.results.toList.drop r'.index) n).2.length = min ((64 - r'.index) * 4) n := by
        rw [Rng.fillViaChunks, List.length_take, Rng.length_flatMap_toLe32, List.length_drop, Vector.length_toList]
        omega
      have hc : (Rng.fillViaChunks (r'.results.toList.drop r'.index) n).1 = (min ((64 - r'.index) * 4) n + 3) / 4 := by
        rw [Rng.fillViaChunks]
        dsimp only
        rw [List.length_drop, Vector.length_toList]
      generalize Rng.fillViaChunks (r'.results.toList.drop r'.index) n = c at hout hc ⊢
      refine ih (n - c.2.length) (by omega) (r := { r' with index := r'.index + c.1 }) ?_ (Or.inr ?_)
      · show r'.index + c.1 ≤ 64
        omega
      · show 1 ≤ r'.index + c.1
        omega

theorem fillBytes_rel (dr : Nat) (e : Env) (n : Nat) {r : Rng} {p : PackedRng} (h : Rel r p) :
    (Rng.fillBytes dr e n r).1 = (fillBytes dr e n p).1 ∧ Rel (Rng.fillBytes dr e n r).2 (fillBytes dr e n p).2 := by
  obtain ⟨h1, h2⟩ := fillLoop_same dr e n h.same
  obtain ⟨h3, h4⟩ := fillLoop_index dr e n h.upper (Or.inr h.lower)
  unfold Rng.fillBytes fillBytes
  refine ⟨h1, ?_⟩
  show Rel _ (setIndex (Rng.fillLoop dr e n p.view).2.index ⟨(Rng.fillLoop dr e n p.view).2.core, (Rng.fillLoop dr e n p.view).2.results⟩)
  rw [h2.index]
  exact h2.store _ h3 h4 (Nat.le_refl _)

theorem resetAndSkip_rel (dr : Nat) (e : Env) (n : Nat) {r : Rng} {p : PackedRng} (h : Rel r p) :
    ExRel Rel (Rng.resetAndSkip dr e n r) (resetAndSkip dr e n p) := by
  unfold Rng.resetAndSkip resetAndSkip
  by_cases h0 : n = 0
  · rw [if_pos h0, if_pos h0]
    exact .ok (h.store 64 h.upper (Nat.le_refl _))
  · rw [if_neg h0, if_neg h0]
    by_cases h1 : n < 64
    · rw [if_pos h1, if_pos h1]
      exact .ok (refill_store dr e h.core n (by omega) (by omega))
    · rw [if_neg h1, if_neg h1]
      exact .error _

theorem Rel.withCore {r : Rng} {p : PackedRng} (h : Rel r p) (f : State → State) :
    Rel { r with core := f r.core } { p with core := f p.core } :=
  ⟨h.lower, h.upper, congrArg f h.core, h.first, h.unread⟩

theorem setWordPos_rel (dr : Nat) (e : Env) (w : U128) {r : Rng} {p : PackedRng} (h : Rel r p) :
    ExRel Rel (Rng.setWordPos dr e w r) (setWordPos dr e w p) :=
  resetAndSkip_rel dr e _
    (h.withCore fun s => (s.set 12 ((w / 16#128).setWidth 32)).set 13 (((w / 16#128) >>> 32).setWidth 32))

theorem setBlockPos_rel (dr : Nat) (e : Env) (b : U64) {r : Rng} {p : PackedRng} (h : Rel r p) :
    ExRel Rel (Rng.setBlockPos dr e b r) (setBlockPos dr e b p) := by
  unfold Rng.setBlockPos setBlockPos
  refine ExRel.bind (resetAndSkip_rel dr e 0 h) ?_
  intro r' p' h'
  exact .ok (h'.withCore fun s => Legacy.setBlockPos s b)

theorem setStream_rel (dr : Nat) (e : Env) (b : U64) {r : Rng} {p : PackedRng} (h : Rel r p) :
    ExRel Rel (Rng.setStream dr e b r) (setStream dr e b p) :=
  setBlockPos_rel dr e 0 (h.withCore fun s => (s.set 14 (b.setWidth 32)).set 15 ((b >>> 32).setWidth 32))

theorem deserialize_rel (dr : Nat) (e : Env) (b : Vector U8 49) : ExRel Rel (Rng.deserialize dr e b) (deserialize dr e b) := by
  unfold Rng.deserialize deserialize
  refine ExRel.bind (ExRel.refl _) ?_
  rintro core _ rfl
  exact setWordPos_rel dr e _ (ofCore_rel core)

theorem fromSeed_rel (seed : Vector U8 32) : ExRel Rel (Rng.fromSeed seed) (fromSeed seed) := by
  unfold Rng.fromSeed fromSeed
  refine ExRel.bind (ExRel.refl _) ?_
  rintro core _ rfl
  exact .ok (ofCore_rel core)

theorem Same.wordOffset {r p : Rng} (h : Same r p) : p.wordOffset = r.wordOffset := by
  unfold Rng.wordOffset
  rw [h.index]

theorem Same.getWordPos {r p : Rng} (h : Same r p) : p.getWordPos = r.getWordPos := by
  unfold Rng.getWordPos
  rw [h.wordOffset, h.core]

theorem Same.getBlockPos {r p : Rng} (h : Same r p) (m : Mode) : p.getBlockPos m = r.getBlockPos m := by
  unfold Rng.getBlockPos
  rw [h.wordOffset, h.core]

theorem Same.getStream {r p : Rng} (h : Same r p) : p.getStream = r.getStream := by
  unfold Rng.getStream
  rw [h.core]

theorem Same.getSeed {r p : Rng} (h : Same r p) : p.getSeed = r.getSeed := by
  unfold Rng.getSeed
  rw [h.core]

theorem Same.serialize {r p : Rng} (h : Same r p) (m : Mode) : p.serialize m = r.serialize m := by
  unfold Rng.serialize
  rw [h.getSeed, h.getStream, h.getWordPos]

theorem step_rel (m : Mode) (dr : Nat) (e : Env) (op : RngOp) {r : Rng} {p : PackedRng} (h : Rel r p) :
    ExRel (fun a b => a.1 = b.1 ∧ Rel a.2 b.2) (Rng.step m dr e r op) (step m dr e p op) := by
  cases op with
  | nextU32 =>
    obtain ⟨h1, h2⟩ := nextWord_rel dr e h
    exact .ok ⟨congrArg RngObs.u32 h1, h2⟩
  | nextU64 =>
    obtain ⟨h1, h2⟩ := nextU64_rel dr e h
    exact .ok ⟨congrArg RngObs.u64 h1, h2⟩
  | fill n =>
    obtain ⟨h1, h2⟩ := fillBytes_rel dr e n h
    exact .ok ⟨congrArg RngObs.bytes h1, h2⟩
  | setWordPos w =>
    refine ExRel.bind (setWordPos_rel dr e w h) ?_
    intro r' p' h'
    exact .ok ⟨rfl, h'⟩
  | setBlockPos b =>
    refine ExRel.bind (setBlockPos_rel dr e b h) ?_
    intro r' p' h'
    exact .ok ⟨rfl, h'⟩
  | setStream s =>
    refine ExRel.bind (setStream_rel dr e s h) ?_
    intro r' p' h'
    exact .ok ⟨rfl, h'⟩
  | getWordPos => exact .ok ⟨congrArg RngObs.u128 h.same.getWordPos.symm, h⟩
  | getBlockPos =>
    unfold Rng.step step
    dsimp only
    rw [h.same.getBlockPos m]
    refine ExRel.bind (ExRel.refl _) ?_
    rintro v _ rfl
    exact .ok ⟨rfl, h⟩
  | getStream => exact .ok ⟨congrArg RngObs.u64 h.same.getStream.symm, h⟩
  | getSeed => exact .ok ⟨congrArg (fun v : Vector U8 32 => RngObs.bytes v.toList) h.same.getSeed.symm, h⟩
  | serialize =>
    unfold Rng.step step
    dsimp only
    rw [h.same.serialize m]
    refine ExRel.bind (ExRel.refl _) ?_
    rintro v _ rfl
    exact .ok ⟨rfl, h⟩
  | load b =>
    refine ExRel.bind (deserialize_rel dr e b) ?_
    intro r' p' h'
    exact .ok ⟨rfl, h'⟩
  | reload =>
    unfold Rng.step step
    dsimp only
    rw [h.same.serialize m]
    refine ExRel.bind (ExRel.refl _) ?_
    rintro v _ rfl
    refine ExRel.bind (deserialize_rel dr e v) ?_
    intro r' p' h'
    exact .ok ⟨rfl, h'⟩

theorem run_rel (m : Mode) (dr : Nat) (l : List (Env × RngOp)) : ∀ {r : Rng} {p : PackedRng}, Rel r p →
    ExRel (fun a b => a.1 = b.1 ∧ Rel a.2 b.2) (Rng.run m dr l r) (run m dr l p) := by
  induction l with
  | nil => intro r p h; exact .ok ⟨rfl, h⟩
  | cons a l ih =>
    obtain ⟨e, op⟩ := a
    intro r p h
    refine ExRel.bind (step_rel m dr e op h) ?_
    rintro ⟨o, r'⟩ ⟨o', p'⟩ ⟨eo, h'⟩
    refine ExRel.bind (ih h') ?_
    rintro ⟨os, r''⟩ ⟨os', p''⟩ ⟨eos, h''⟩
    exact .ok ⟨congr (congrArg List.cons eo) eos, h''⟩

end ChaCha.PackedRng
end Verif
