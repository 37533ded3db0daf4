import Verif.Proof.ChaChaIndep
import Verif.Proof.SalsaStream
/-!
# What calls cannot change

A relation between states that every generated block and every `set_block_pos` respects is respected by every history of
calls, whatever they request.
-/
namespace Verif

theorem genMany_frame {bs : Nat} {σ : Type} (gen : σ → Except Panic (Vector U8 bs × σ)) (R : σ → σ → Prop)
    (refl : ∀ s, R s s) (trans : ∀ {s t u}, R s t → R t u → R s u)
    (hgen : ∀ s b s', gen s = .ok (b, s') → R s s') (k : Nat) :
    ∀ s l s', genMany gen k s = .ok (l, s') → R s s' := by
  induction k with
  | zero =>
    intro s l s' h
    cases h
    exact refl _
  | succ k ih =>
    intro s l s' h
    simp only [genMany] at h
    cases h1 : gen s with
    | error e => rw [h1] at h; cases h
    | ok r =>
      obtain ⟨b, s1⟩ := r
      rw [h1] at h
      cases h2 : genMany gen k s1 with
      | error e => simp only [bind, Except.bind, h2] at h; cases h
      | ok r =>
        obtain ⟨l2, s2⟩ := r
        simp only [bind, Except.bind, h2] at h
        cases h
        exact trans (hgen _ _ _ h1) (ih _ _ _ h2)

theorem run_ofBlock_frame {bs : Nat} {σ α : Type} (par : Nat) (gen : σ → Except Panic (Vector U8 bs × σ)) (R : σ → σ → Prop)
    (refl : ∀ s, R s s) (trans : ∀ {s t u}, R s t → R t u → R s u)
    (hgen : ∀ s b s', gen s = .ok (b, s') → R s s') (p : Prog bs α) :
    ∀ s a s', p.run (.ofBlock par gen) s = .ok (a, s') → R s s' := by
  induction p with
  | done b => intro s a s' h; cases h; exact refl _
  | block k ih =>
    intro s a s' h
    simp only [Prog.run, Backend.ofBlock] at h
    cases h1 : gen s with
    | error e => rw [h1] at h; cases h
    | ok r =>
      rw [h1] at h
      exact trans (hgen _ _ _ h1) (ih _ _ _ _ h)
  | par k ih =>
    intro s a s' h
    simp only [Prog.run, Backend.ofBlock] at h
    cases h1 : genMany gen par s with
    | error e => rw [h1] at h; cases h
    | ok r =>
      rw [h1] at h
      exact trans (genMany_frame gen R refl trans hgen _ _ _ _ h1) (ih _ _ _ _ h)
  | tail t k ih =>
    intro s a s' h
    simp only [Prog.run, Backend.ofBlock] at h
    split at h
    · cases h1 : genMany gen t s with
      | error e => rw [h1] at h; cases h
      | ok r =>
        rw [h1] at h
        exact trans (genMany_frame gen R refl trans hgen _ _ _ _ h1) (ih _ _ _ _ h)
    · cases h

/-- `R` holds between the states before and after any use of the core. -/
structure Frame {bs : Nat} {χ : Type} (C : SeekCore bs χ) (R : C.σ → C.σ → Prop) : Prop where
  refl : ∀ s, R s s
  trans : ∀ {s t u}, R s t → R t u → R s u
  process : ∀ {α : Type} x (f : Closure bs α) s a s', C.process x f s = .ok (a, s') → R s s'
  setPos : ∀ s n, R s (C.setPos s n)

theorem bind_ok {α β : Type} {x : Except Panic α} {f : α → Except Panic β} {b : β} (h : (x >>= f) = .ok b) :
    ∃ a, x = .ok a ∧ f a = .ok b := by
  cases x with
  | error e => cases h
  | ok a => exact ⟨a, rfl, h⟩

namespace Frame
variable {bs : Nat} {χ : Type} {C : SeekCore bs χ} {R : C.σ → C.σ → Prop}

theorem apply (F : Frame C R) (x : χ) (w : Wrapper bs C.σ) (data : List U8) (out : List U8) (w' : Wrapper bs C.σ)
    (h : w.uncheckedApply C.toCore x data = .ok (out, w')) : R w.core w'.core := by
  unfold Wrapper.uncheckedApply at h
  obtain ⟨⟨mid, s1⟩, h1, h⟩ := bind_ok h
  have r1 := F.process _ _ _ _ _ h1
  dsimp only at h
  split at h
  · cases h; exact r1
  · obtain ⟨⟨b, s2⟩, h2, h⟩ := bind_ok h
    cases h
    exact F.trans r1 (F.process _ _ _ _ _ h2)

theorem write (F : Frame C R) (x : χ) (w : Wrapper bs C.σ) (len : Nat) (out : List U8) (w' : Wrapper bs C.σ)
    (h : w.uncheckedWrite C.toCore x len = .ok (out, w')) : R w.core w'.core := by
  unfold Wrapper.uncheckedWrite at h
  obtain ⟨⟨mid, s1⟩, h1, h⟩ := bind_ok h
  have r1 := F.process _ _ _ _ _ h1
  dsimp only at h
  split at h
  · cases h; exact r1
  · obtain ⟨⟨b, s2⟩, h2, h⟩ := bind_ok h
    cases h
    exact F.trans r1 (F.process _ _ _ _ _ h2)

theorem seek (F : Frame C R) (x : χ) (w : Wrapper bs C.σ) (q : Nat) (r : Except CipherError Unit) (w' : Wrapper bs C.σ)
    (h : w.trySeek C x q = .ok (r, w')) : R w.core w'.core := by
  unfold Wrapper.trySeek at h
  dsimp only at h
  split at h
  · cases h; exact F.refl _
  · split at h
    · cases h; exact F.setPos _ _
    · obtain ⟨⟨b, s2⟩, h2, h⟩ := bind_ok h
      cases h
      exact F.trans (F.setPos _ _) (F.process _ _ _ _ _ h2)

theorem step (F : Frame C R) (x : χ) (w : Wrapper bs C.σ) (op : SeekOp) (o : Obs) (w' : Wrapper bs C.σ)
    (h : w.seekStep C x op = .ok (o, w')) : R w.core w'.core := by
  cases op with
  | io op =>
    cases op with
    | apply data =>
      simp only [Wrapper.seekStep, Wrapper.step] at h
      obtain ⟨⟨r, out, w1⟩, h1, h⟩ := bind_ok h
      cases h
      unfold Wrapper.tryApply at h1
      split at h1
      · cases h1; exact F.refl _
      · obtain ⟨⟨out, w1⟩, h1, h⟩ := bind_ok h1
        cases h
        exact F.apply x w data _ _ h1
    | write buf =>
      simp only [Wrapper.seekStep, Wrapper.step] at h
      obtain ⟨⟨r, out, w1⟩, h1, h⟩ := bind_ok h
      cases h
      unfold Wrapper.tryWrite at h1
      split at h1
      · cases h1; exact F.refl _
      · obtain ⟨⟨out, w1⟩, h1, h⟩ := bind_ok h1
        cases h
        exact F.write x w _ _ _ h1
  | seek q =>
    simp only [Wrapper.seekStep] at h
    obtain ⟨⟨r, w1⟩, h1, h⟩ := bind_ok h
    cases h
    exact F.seek x w q _ _ h1
  | pos m => cases h; exact F.refl _

theorem history (F : Frame C R) (h : List (χ × SeekOp)) : ∀ (w : Wrapper bs C.σ) (os : List Obs) (w' : Wrapper bs C.σ),
    runHistory (fun x w op => Wrapper.seekStep C x w op) h w = .ok (os, w') → R w.core w'.core := by
  induction h with
  | nil => intro w os w' h; cases h; exact F.refl _
  | cons e l ih =>
    intro w os w' h
    obtain ⟨x, op⟩ := e
    simp only [runHistory] at h
    obtain ⟨⟨o, w1⟩, h1, h⟩ := bind_ok h
    obtain ⟨⟨os2, w2⟩, h2, h⟩ := bind_ok h
    cases h
    exact F.trans (F.step x w op o w1 h1) (ih _ _ _ h2)

end Frame

/-! ## ChaCha and Salsa -/

/-- All words outside `ctr` are the same. -/
def SameOutside (ctr : List Nat) (s s' : Vector U32 16) : Prop := ∀ i (hi : i < 16), i ∉ ctr → s'[i] = s[i]

namespace SameOutside
variable {ctr : List Nat}
theorem refl (s : Vector U32 16) : SameOutside ctr s s := fun _ _ _ => rfl
theorem trans {s t u : Vector U32 16} (h : SameOutside ctr s t) (h' : SameOutside ctr t u) : SameOutside ctr s u :=
  fun i hi hc => (h' i hi hc).trans (h i hi hc)
end SameOutside

/-- The counter words of a ChaCha state. -/
def ChaCha.Variant.ctrWords : ChaCha.Variant → List Nat
  | .ietf => [12]
  | .legacy => [12, 13]

namespace ChaCha

theorem Ietf.set_same (s : State) (p : U32) : SameOutside [12] s (Ietf.setBlockPos s p) := by
  intro i hi hc
  have h : i ≠ 12 := by rintro rfl; exact hc (by decide)
  unfold Ietf.setBlockPos
  rw [Vector.getElem_set, if_neg (by omega)]

theorem Legacy.set_same (s : State) (p : U64) : SameOutside [12, 13] s (Legacy.setBlockPos s p) := by
  intro i hi hc
  have h : i ≠ 12 := by rintro rfl; exact hc (by decide)
  have h' : i ≠ 13 := by rintro rfl; exact hc (by decide)
  unfold Legacy.setBlockPos
  rw [Vector.getElem_set, if_neg (by omega), Vector.getElem_set, if_neg (by omega)]

theorem setBlockPos_same (V : Variant) (s : State) (p : V.Counter) : SameOutside V.ctrWords s (setBlockPos V s p) := by
  cases V
  · exact Ietf.set_same s p
  · exact Legacy.set_same s p

theorem process_same {α : Type} (dr : Nat) (V : Variant) (e : Env) (f : Closure 64 α) (s : State) (a : α) (s' : State)
    (h : process dr V e f s = .ok (a, s')) : SameOutside V.ctrWords s s' := by
  rw [process_eq] at h
  refine run_ofBlock_frame _ (softGenBlock dr V) _ SameOutside.refl SameOutside.trans ?_ _ _ _ _ h
  intro s b s' h
  rw [softGenBlock_eq] at h
  simp only [Except.ok.injEq, Prod.mk.injEq] at h
  rw [← h.2]
  exact setBlockPos_same _ _ _

theorem frame (u dr : Nat) (V : Variant) : Frame (core u dr V) (SameOutside V.ctrWords) where
  refl := SameOutside.refl
  trans := SameOutside.trans
  process x f s a s' h := process_same dr V x f s a s' h
  setPos s _ := setBlockPos_same V s _

end ChaCha

namespace Salsa

theorem setBlockPos_same (s : State) (p : U64) : SameOutside [8, 9] s (setBlockPos s p) := by
  intro i hi hc
  exact setBlockPos_other s p i hi (by rintro rfl; exact hc (by decide)) (by rintro rfl; exact hc (by decide))

theorem genBlock_same (m : Mode) (dr : Nat) (s : State) (b : Block) (s' : State) (h : genBlock m dr s = .ok (b, s')) :
    SameOutside [8, 9] s s' := by
  unfold genBlock at h
  obtain ⟨p, _, h⟩ := bind_ok h
  simp only [pure, Except.pure, Except.ok.injEq, Prod.mk.injEq] at h
  rw [← h.2]
  exact setBlockPos_same _ _

theorem frame (χ : Type) (u : Nat) (m : Mode) (dr : Nat) : Frame (core χ u m dr) (SameOutside [8, 9]) where
  refl := SameOutside.refl
  trans := SameOutside.trans
  process _ _ _ _ _ h :=
    run_ofBlock_frame 1 (genBlock m dr) _ SameOutside.refl SameOutside.trans (genBlock_same m dr) _ _ _ _ h
  setPos s _ := setBlockPos_same s _

/-- A client whose result on the portable backend is known. -/
theorem process_of_ref {α χ : Type} (u : Nat) (m : Mode) (dr : Nat) (x : χ) (f : Closure 64 α) (s : State) (a : α) (k : Nat)
    (hm : m = .release ∨ (getBlockPos s).toNat + k ≤ 2 ^ 64 - 1)
    (h : (f 1).ref (ksOf dr s) 1 (getBlockPos s).toNat = .ok (a, (getBlockPos s).toNat + k)) :
    (core χ u m dr).process x f s = .ok (a, at' s ((getBlockPos s).toNat + k)) := by
  have hs : s = at' s (getBlockPos s).toNat := by
    simp only [at', BitVec.ofNat_toNat, BitVec.setWidth_eq, setBlockPos_getBlockPos]
  rcases hm with rfl | hm
  · obtain ⟨s', h1, h2⟩ := run_ofBlock_ref 1 (genBlock .release dr) (ksOf dr s) (Rel s) none (by
        intro t n hr _
        refine ⟨_, ?_, rfl⟩
        rw [hr]; exact genBlock_at' .release dr s n (.inl rfl)) _ s _ a _ hs h (by intro L h; cases h)
    refine h1.trans ?_
    rw [h2]; rfl
  · obtain ⟨s', h1, h2⟩ := run_ofBlock_ref 1 (genBlock m dr) (ksOf dr s) (Rel s) (some (2 ^ 64 - 1)) (by
        intro t n hr hw
        refine ⟨_, ?_, rfl⟩
        have : n + 1 ≤ 2 ^ 64 - 1 := hw _ rfl
        rw [hr]; exact genBlock_at' m dr s n (.inr (by omega))) _ s _ a _ hs h (by intro L h; cases h; exact hm)
    refine h1.trans ?_
    rw [h2]; rfl

end Salsa
end Verif
