import Verif.Model.Requests
import Verif.Proof.Ciphers
import Verif.Proof.Frame
/-!
# The requests do not depend on keys, nonces and data
-/
namespace Verif
open Spec
open ChaCha.Isa (Req)

/-- Two outcomes: the same panic, or related values. -/
inductive ExRel {α β : Type} (Q : α → β → Prop) : Except Panic α → Except Panic β → Prop
  | ok {a : α} {b : β} (h : Q a b) : ExRel Q (.ok a) (.ok b)
  | error (e : Panic) : ExRel Q (.error e) (.error e)

theorem ExRel.bind {α β γ δ : Type} {Q : α → β → Prop} {P : γ → δ → Prop} {x : Except Panic α} {y : Except Panic β}
    {f : α → Except Panic γ} {g : β → Except Panic δ} (h : ExRel Q x y) (hf : ∀ a b, Q a b → ExRel P (f a) (g b)) :
    ExRel P (x >>= f) (y >>= g) := by
  cases h with
  | ok h => exact hf _ _ h
  | error e => exact .error e

/-- Two clients that make the same requests whatever they are given, and end with related results. -/
def Prog.Rel2 {bs : Nat} {α β : Type} (Q : α → β → Prop) : Prog bs α → Prog bs β → Prop
  | .done a, .done b => Q a b
  | .block k, .block k' => ∀ b b', Prog.Rel2 Q (k b) (k' b')
  | .par k, .par k' => ∀ l l', l.length = l'.length → Prog.Rel2 Q (k l) (k' l')
  | .tail n k, .tail n' k' => n = n' ∧ ∀ l l', l.length = l'.length → Prog.Rel2 Q (k l) (k' l')
  | _, _ => False

variable {bs : Nat} {χ α β γ δ : Type}

theorem Prog.Rel2.map {Q : α → β → Prop} {P : γ → δ → Prop} (g : α → γ) (g' : β → δ) (hg : ∀ a b, Q a b → P (g a) (g' b))
    (p : Prog bs α) : ∀ p' : Prog bs β, p.Rel2 Q p' → (p.map g).Rel2 P (p'.map g') := by
  induction p with
  | done a => intro p' h; cases p' <;> first | exact hg _ _ h | exact h.elim
  | block k ih =>
    intro p' h
    cases p' <;> first | exact h.elim | skip
    exact fun b b' => ih b _ (h b b')
  | par k ih =>
    intro p' h
    cases p' <;> first | exact h.elim | skip
    exact fun b b' e => ih b _ (h b b' e)
  | tail n k ih =>
    intro p' h
    cases p' <;> first | exact h.elim | skip
    exact ⟨h.1, fun b b' e => ih b _ (h.2 b b' e)⟩

theorem Prog.Rel2.logged {Q : α → β → Prop} (p : Prog bs α) : ∀ p' : Prog bs β, p.Rel2 Q p' →
    p.logged.Rel2 (fun r r' => Q r.1 r'.1 ∧ r.2 = r'.2) p'.logged := by
  induction p with
  | done a => intro p' h; cases p' <;> first | exact ⟨h, rfl⟩ | exact h.elim
  | block k ih =>
    intro p' h
    cases p' <;> first | exact h.elim | skip
    exact fun b b' => Prog.Rel2.map _ _ (fun _ _ e => ⟨e.1, congrArg _ e.2⟩) _ _ (ih b _ (h b b'))
  | par k ih =>
    intro p' h
    cases p' <;> first | exact h.elim | skip
    exact fun b b' e => Prog.Rel2.map _ _ (fun _ _ e => ⟨e.1, congrArg _ e.2⟩) _ _ (ih b _ (h b b' e))
  | tail n k ih =>
    intro p' h
    cases p' <;> first | exact h.elim | skip
    obtain ⟨rfl, h⟩ := h
    exact ⟨rfl, fun b b' e => Prog.Rel2.map _ _ (fun _ _ e => ⟨e.1, congrArg _ e.2⟩) _ _ (ih b _ (h b b' e))⟩

/-! ## The clients in the wrapper -/

/-- Two lists of byte strings of the same lengths. -/
def SameLens (a b : List (List U8)) : Prop := a.map List.length = b.map List.length

theorem SameLens.length {a b : List (List U8)} (h : SameLens a b) : a.length = b.length := by
  have := congrArg List.length h
  simpa using this

theorem SameLens.append {a b c d : List (List U8)} (h : SameLens a b) (h' : SameLens c d) : SameLens (a ++ c) (b ++ d) := by
  simp only [SameLens, List.map_append]
  exact (congrArg (· ++ _) h).trans (congrArg (_ ++ ·) h')

theorem SameLens.cons {a b : List U8} {c d : List (List U8)} (h : a.length = b.length) (h' : SameLens c d) : SameLens (a :: c) (b :: d) := by
  simp only [SameLens, List.map_cons]
  exact (congrArg (· :: _) h).trans (congrArg (_ :: ·) h')

theorem SameLens.take {a b : List (List U8)} (h : SameLens a b) (n : Nat) : SameLens (a.take n) (b.take n) := by
  simp only [SameLens, List.map_take]
  exact congrArg (List.take n) h

theorem SameLens.drop {a b : List (List U8)} (h : SameLens a b) (n : Nat) : SameLens (a.drop n) (b.drop n) := by
  simp only [SameLens, List.map_drop]
  exact congrArg (List.drop n) h

theorem SameLens.flatten {a b : List (List U8)} (h : SameLens a b) : a.flatten.length = b.flatten.length := by
  simp only [List.length_flatten]
  exact congrArg List.sum h

theorem SameLens.xor {a b : List (List U8)} (h : SameLens a b) {k k' : List (Vector U8 bs)} (hk : k.length = k'.length) :
    SameLens (List.zipWith (fun d k => xorBytes d k.toList) a k) (List.zipWith (fun d k => xorBytes d k.toList) b k') := by
  induction a generalizing b k k' with
  | nil =>
    cases b with
    | nil => simp [SameLens]
    | cons _ _ => exact absurd h.length (by simp)
  | cons d a ih =>
    cases b with
    | nil => exact absurd h.length (by simp)
    | cons d' b =>
      simp only [SameLens, List.map_cons, List.cons.injEq] at h
      cases k with
      | nil =>
        cases k' with
        | nil => simp [SameLens]
        | cons _ _ => exact absurd hk (by simp)
      | cons c k =>
        cases k' with
        | nil => exact absurd hk (by simp)
        | cons c' k' =>
          refine SameLens.cons ?_ (ih h.2 (by simpa using hk))
          simp only [xorBytes, List.length_zipWith, h.1, Vector.length_toList]

theorem SameLens.blocks {k k' : List (Vector U8 bs)} (hk : k.length = k'.length) : SameLens (k.map (·.toList)) (k'.map (·.toList)) := by
  induction k generalizing k' with
  | nil =>
    cases k' with
    | nil => rfl
    | cons _ _ => exact absurd hk (by simp)
  | cons c k ih =>
    cases k' with
    | nil => exact absurd hk (by simp)
    | cons c' k' => exact SameLens.cons (by simp) (ih (by simpa using hk))

theorem applySingles_rel (a : List (List U8)) : ∀ b, SameLens a b → (applySingles (bs := bs) a).Rel2 SameLens (applySingles b) := by
  induction a with
  | nil =>
    intro b h
    cases b with
    | nil => exact h
    | cons _ _ => exact absurd h.length (by simp)
  | cons d a ih =>
    intro b h
    cases b with
    | nil => exact absurd h.length (by simp)
    | cons d' b =>
      simp only [SameLens, List.map_cons, List.cons.injEq] at h
      intro k k'
      refine Prog.Rel2.map _ _ (fun _ _ e => SameLens.cons ?_ e) _ _ (ih b h.2)
      simp only [xorBytes, List.length_zipWith, h.1, Vector.length_toList]

theorem applyChunks_rel (par m : Nat) : ∀ a b, SameLens a b → (applyChunks (bs := bs) par m a).Rel2 SameLens (applyChunks par m b) := by
  induction m with
  | zero => intro a b h; exact ⟨h.length, fun k k' e => h.xor e⟩
  | succ m ih =>
    intro a b h k k' e
    exact Prog.Rel2.map _ _ (fun _ _ e' => SameLens.append ((h.take par).xor e) e') _ _ (ih _ _ (h.drop par))

theorem applyBlocks_rel (par : Nat) {a b : List (List U8)} (h : SameLens a b) :
    (applyBlocksClosure (bs := bs) a par).Rel2 SameLens (applyBlocksClosure b par) := by
  unfold applyBlocksClosure
  split
  · rw [h.length]; exact applyChunks_rel par _ a b h
  · exact applySingles_rel a b h

theorem writeSingles_rel (n : Nat) : (writeSingles (bs := bs) n).Rel2 SameLens (writeSingles n) := by
  induction n with
  | zero => exact rfl
  | succ n ih => exact fun k k' => Prog.Rel2.map _ _ (fun _ _ e => SameLens.cons (by simp) e) _ _ ih

theorem writeChunks_rel (par m : Nat) : ∀ n, (writeChunks (bs := bs) par m n).Rel2 SameLens (writeChunks par m n) := by
  induction m with
  | zero => exact fun n => ⟨rfl, fun k k' e => SameLens.blocks e⟩
  | succ m ih => exact fun n k k' e => Prog.Rel2.map _ _ (fun _ _ e' => SameLens.append (SameLens.blocks e) e') _ _ (ih _)

theorem writeBlocks_rel (par n : Nat) : (writeBlocksClosure (bs := bs) n par).Rel2 SameLens (writeBlocksClosure n par) := by
  unfold writeBlocksClosure
  split
  · exact writeChunks_rel par _ n
  · exact writeSingles_rel n

/-! ## Cores -/

/-- A core whose course depends only on what `R` lets one see of its state. -/
structure Blind (C : Core bs χ) (R : C.σ → C.σ → Prop) : Prop where
  process : ∀ x : χ, ∃ par, ∀ (α : Type) (Q : α → α → Prop) (f f' : Closure bs α) (s s' : C.σ), R s s' → (f par).Rel2 Q (f' par) →
    ExRel (fun r r' => Q r.1 r'.1 ∧ R r.2 r'.2) (C.process x f s) (C.process x f' s')
  remaining : ∀ s s', R s s' → C.remaining s = C.remaining s'

/-- The same for seekable cores. -/
structure SeekBlind (C : SeekCore bs χ) (R : C.σ → C.σ → Prop) : Prop extends Blind C.toCore R where
  getPos : ∀ s s', R s s' → C.getPos s = C.getPos s'
  setPos : ∀ s s' n, R s s' → R (C.setPos s n) (C.setPos s' n)

theorem Blind.logged {C : Core bs χ} {R : C.σ → C.σ → Prop} (h : Blind C R) :
    Blind C.logged (fun s s' => R s.1 s'.1 ∧ s.2 = s'.2) where
  process x := by
    obtain ⟨par, hp⟩ := h.process x
    refine ⟨par, fun α Q f f' s s' hr hf => ?_⟩
    refine ExRel.bind (hp _ _ (fun par => (f par).logged) (fun par => (f' par).logged) s.1 s'.1 hr.1 (Prog.Rel2.logged _ _ hf)) ?_
    rintro ⟨⟨a, l⟩, t⟩ ⟨⟨a', l'⟩, t'⟩ ⟨⟨h1, h2⟩, h3⟩
    have h2 : l = l' := h2
    subst h2
    exact .ok ⟨h1, h3, congrArg (· ++ _) hr.2⟩
  remaining s s' hr := h.remaining _ _ hr.1

theorem SeekBlind.logged {C : SeekCore bs χ} {R : C.σ → C.σ → Prop} (h : SeekBlind C R) :
    SeekBlind C.logged (fun s s' => R s.1 s'.1 ∧ s.2 = s'.2) where
  toBlind := h.toBlind.logged
  getPos _ _ hr := h.getPos _ _ hr.1
  setPos _ _ n hr := ⟨h.setPos _ _ n hr.1, hr.2⟩

section
variable {σ : Type} (gen : σ → Except Panic (Vector U8 bs × σ)) (R : σ → σ → Prop)
  (hgen : ∀ s s', R s s' → ExRel (fun r r' => R r.2 r'.2) (gen s) (gen s'))
include hgen

theorem genMany_blind (n : Nat) : ∀ s s', R s s' →
    ExRel (fun r r' => r.1.length = r'.1.length ∧ R r.2 r'.2) (genMany gen n s) (genMany gen n s') := by
  induction n with
  | zero => intro s s' h; exact .ok ⟨rfl, h⟩
  | succ n ih =>
    intro s s' h
    refine ExRel.bind (hgen s s' h) fun r r' hr => ?_
    refine ExRel.bind (ih _ _ hr) fun q q' hq => ?_
    exact .ok ⟨by simp only [List.length_cons, hq.1], hq.2⟩

theorem run_blind (par : Nat) {α : Type} {Q : α → α → Prop} (p : Prog bs α) : ∀ (p' : Prog bs α) s s', R s s' → p.Rel2 Q p' →
    ExRel (fun r r' => Q r.1 r'.1 ∧ R r.2 r'.2) (p.run (.ofBlock par gen) s) (p'.run (.ofBlock par gen) s') := by
  induction p with
  | done a =>
    intro p' s s' hr h
    cases p' <;> first | exact h.elim | exact .ok ⟨h, hr⟩
  | block k ih =>
    intro p' s s' hr h
    cases p' <;> first | exact h.elim | skip
    exact ExRel.bind (hgen s s' hr) fun r r' hr' => ih _ _ _ _ hr' (h _ _)
  | par k ih =>
    intro p' s s' hr h
    cases p' <;> first | exact h.elim | skip
    exact ExRel.bind (genMany_blind gen R hgen par s s' hr) fun r r' hr' => ih _ _ _ _ hr'.2 (h _ _ hr'.1)
  | tail n k ih =>
    intro p' s s' hr h
    cases p' <;> first | exact h.elim | skip
    obtain ⟨rfl, h⟩ := h
    simp only [Prog.run, Backend.ofBlock]
    split
    · exact ExRel.bind (genMany_blind gen R hgen n s s' hr) fun r r' hr' => ih _ _ _ _ hr'.2 (h _ _ hr'.1)
    · exact .error _

end

namespace ChaCha

/-- Same counter. -/
def SameCtr (V : Variant) (s s' : State) : Prop := getBlockPos V s = getBlockPos V s'

theorem SameCtr.set (V : Variant) (s s' : State) (b : V.Counter) : SameCtr V (setBlockPos V s b) (setBlockPos V s' b) := by
  unfold SameCtr
  rw [getBlockPos_setBlockPos, getBlockPos_setBlockPos]

theorem SameCtr.gen (dr : Nat) (V : Variant) (s s' : State) (h : SameCtr V s s') :
    ExRel (fun r r' => SameCtr V r.2 r'.2) (softGenBlock dr V s) (softGenBlock dr V s') := by
  rw [softGenBlock_eq, softGenBlock_eq]
  refine .ok ?_
  show SameCtr V (advance V 1 s) (advance V 1 s')
  unfold SameCtr at *
  simp only [advance, getBlockPos_setBlockPos, h]

theorem SameCtr.process {α : Type} (dr : Nat) (V : Variant) (e : Env) (Q : α → α → Prop) (f f' : Closure 64 α) (s s' : State)
    (hr : SameCtr V s s') (hf : (f (Config.select e.build e.detected).par).Rel2 Q (f' (Config.select e.build e.detected).par)) :
    ExRel (fun r r' => Q r.1 r'.1 ∧ SameCtr V r.2 r'.2) (process dr V e f s) (process dr V e f' s') := by
  rw [process_eq, process_eq]
  exact run_blind (softGenBlock dr V) (SameCtr V) (SameCtr.gen dr V) _ _ _ s s' hr hf

theorem blind (u dr : Nat) (V : Variant) : SeekBlind (core u dr V) (SameCtr V) where
  process e := ⟨(Config.select e.build e.detected).par, fun _ Q f f' s s' hr hf => SameCtr.process dr V e Q f f' s s' hr hf⟩
  remaining s s' h := by
    show remainingBlocks u V s = remainingBlocks u V s'
    unfold SameCtr at h
    simp only [remainingBlocks, h]
  getPos _ _ h := congrArg BitVec.toNat h
  setPos s s' _ _ := SameCtr.set V s s' _

end ChaCha

namespace Salsa

/-- Same counter. -/
def SameCtr (s s' : State) : Prop := getBlockPos s = getBlockPos s'

theorem SameCtr.set (s s' : State) (b : U64) : SameCtr (setBlockPos s b) (setBlockPos s' b) := by
  unfold SameCtr
  rw [getBlockPos_setBlockPos, getBlockPos_setBlockPos]

theorem SameCtr.gen (m : Mode) (dr : Nat) (s s' : State) (h : SameCtr s s') :
    ExRel (fun r r' => SameCtr r.2 r'.2) (genBlock m dr s) (genBlock m dr s') := by
  unfold genBlock
  unfold SameCtr at h
  rw [h]
  cases incr m (getBlockPos s') with
  | error e => exact .error e
  | ok p => exact .ok (SameCtr.set s s' p)

theorem SameCtr.process {α : Type} (m : Mode) (dr : Nat) (Q : α → α → Prop) (f f' : Closure 64 α) (s s' : State)
    (hr : SameCtr s s') (hf : (f 1).Rel2 Q (f' 1)) :
    ExRel (fun r r' => Q r.1 r'.1 ∧ SameCtr r.2 r'.2) ((soft m dr).call f s) ((soft m dr).call f' s') := by
  have h := run_blind (genBlock m dr) SameCtr (SameCtr.gen m dr) 1 (f 1) (f' 1) s s' hr hf
  unfold soft Backend.call
  exact h

theorem SameCtr.remaining (u : Nat) (s s' : State) (h : SameCtr s s') : remainingBlocks u s = remainingBlocks u s' := by
  unfold SameCtr at h
  unfold remainingBlocks
  rw [h]

theorem blind (χ : Type) (u : Nat) (m : Mode) (dr : Nat) : SeekBlind (core χ u m dr) SameCtr where
  process _ := ⟨1, fun _ Q f f' s s' hr hf => SameCtr.process m dr Q f f' s s' hr hf⟩
  remaining s s' h := SameCtr.remaining u s s' h
  getPos _ _ h := congrArg BitVec.toNat h
  setPos s s' _ _ := SameCtr.set s s' _

end Salsa

/-! ## The wrapper -/

/-- What may be told apart: everything but the contents of buffers. -/
def SameShape : Obs → Obs → Prop
  | .data r out, .data r' out' => r = r' ∧ out.length = out'.length
  | .done r, .done r' => r = r'
  | .num r, .num r' => r = r'
  | _, _ => False

/-- Two objects in related states. -/
structure WRel {σ : Type} (R : σ → σ → Prop) (w w' : Wrapper bs σ) : Prop where
  core : R w.core w'.core
  pos : w.pos = w'.pos

section
variable {C : Core bs χ} {R : C.σ → C.σ → Prop} (hb : Blind C R)
include hb

theorem checkRemaining_blind (w w' : Wrapper bs C.σ) (h : WRel R w w') (n : Nat) :
    w.checkRemaining C n = w'.checkRemaining C n := by
  unfold Wrapper.checkRemaining
  rw [hb.remaining _ _ h.core, h.pos]

omit hb in
theorem chunksOf_lens (k : Nat) (a b : List U8) (h : a.length = b.length) : SameLens (chunksOf bs k a) (chunksOf bs k b) := by
  simp only [SameLens, chunksOf, List.map_map]
  apply List.map_congr_left
  intro i _
  simp only [Function.comp_def, List.length_take, List.length_drop, h]

theorem uncheckedApply_blind (x : χ) (w w' : Wrapper bs C.σ) (h : WRel R w w') (a b : List U8) (hab : a.length = b.length) :
    ExRel (fun r r' => r.1.length = r'.1.length ∧ WRel R r.2 r'.2) (w.uncheckedApply C x a) (w'.uncheckedApply C x b) := by
  obtain ⟨par, hp⟩ := hb.process x
  obtain ⟨s, buf, pos⟩ := w
  obtain ⟨s', buf', pos'⟩ := w'
  obtain ⟨hr, hpos⟩ := h
  have hpos : pos = pos' := hpos
  subst hpos
  unfold Wrapper.uncheckedApply
  dsimp only
  have hl : (a.drop (min (bs - pos) a.length)).length = (b.drop (min (bs - pos) b.length)).length := by
    simp only [List.length_drop, hab]
  have hhead : (xorBytes (a.take (min (bs - pos) a.length)) ((buf.toList.drop pos).take (min (bs - pos) a.length))).length =
      (xorBytes (b.take (min (bs - pos) b.length)) ((buf'.toList.drop pos).take (min (bs - pos) b.length))).length := by
    simp only [xorBytes, List.length_zipWith, List.length_take, List.length_drop, Vector.length_toList, hab]
  rw [hl]
  generalize a.drop (min (bs - pos) a.length) = ra at hl ⊢
  generalize b.drop (min (bs - pos) b.length) = rb at hl ⊢
  generalize xorBytes (a.take (min (bs - pos) a.length)) ((buf.toList.drop pos).take (min (bs - pos) a.length)) = xa at hhead ⊢
  generalize xorBytes (b.take (min (bs - pos) b.length)) ((buf'.toList.drop pos).take (min (bs - pos) b.length)) = xb at hhead ⊢
  refine ExRel.bind (hp _ SameLens _ _ s s' hr (applyBlocks_rel par (chunksOf_lens _ _ _ hl))) ?_
  rintro ⟨mid, t⟩ ⟨mid', t'⟩ ⟨h1, h2⟩
  dsimp only at h1 h2 ⊢
  have hmid := h1.flatten
  have ht : (ra.drop (rb.length / bs * bs)).length = (rb.drop (rb.length / bs * bs)).length := by simp only [List.length_drop, hl]
  rw [ht]
  split
  · refine .ok ⟨by simp only [List.length_append, hhead, hmid], h2, ?_⟩
    show pos + min (bs - pos) a.length = pos + min (bs - pos) b.length
    rw [hab]
  · refine ExRel.bind (hp _ (fun _ _ => True) (writeBlockClosure bs) (writeBlockClosure bs) t t' h2 (fun _ _ => trivial)) ?_
    rintro ⟨k, t⟩ ⟨k', t'⟩ ⟨-, h3⟩
    refine .ok ⟨?_, h3, rfl⟩
    simp only [List.length_append, hhead, hmid, xorBytes, List.length_zipWith, List.length_take, Vector.length_toList, ht]

theorem uncheckedWrite_blind (x : χ) (w w' : Wrapper bs C.σ) (h : WRel R w w') (n : Nat) :
    ExRel (fun r r' => r.1.length = r'.1.length ∧ WRel R r.2 r'.2) (w.uncheckedWrite C x n) (w'.uncheckedWrite C x n) := by
  obtain ⟨par, hp⟩ := hb.process x
  obtain ⟨s, buf, pos⟩ := w
  obtain ⟨s', buf', pos'⟩ := w'
  obtain ⟨hr, hpos⟩ := h
  have hpos : pos = pos' := hpos
  subst hpos
  unfold Wrapper.uncheckedWrite
  dsimp only
  have hhead : ((buf.toList.drop pos).take (min (bs - pos) n)).length = ((buf'.toList.drop pos).take (min (bs - pos) n)).length := by
    simp only [List.length_take, List.length_drop, Vector.length_toList]
  refine ExRel.bind (hp _ SameLens _ _ s s' hr (writeBlocks_rel par _)) ?_
  rintro ⟨mid, t⟩ ⟨mid', t'⟩ ⟨h1, h2⟩
  dsimp only at h1 h2 ⊢
  have hmid := h1.flatten
  split
  · exact .ok ⟨by simp only [List.length_append, hhead, hmid], h2, rfl⟩
  · refine ExRel.bind (hp _ (fun _ _ => True) (writeBlockClosure bs) (writeBlockClosure bs) t t' h2 (fun _ _ => trivial)) ?_
    rintro ⟨k, t⟩ ⟨k', t'⟩ ⟨-, h3⟩
    refine .ok ⟨?_, h3, rfl⟩
    simp only [List.length_append, hhead, hmid, List.length_take, Vector.length_toList]

/-- Calls with the same public part. -/
def Op.Like : Op → Op → Prop
  | .apply a, .apply b => a.length = b.length
  | .write a, .write b => a.length = b.length
  | _, _ => False

theorem step_blind (x : χ) (w w' : Wrapper bs C.σ) (h : WRel R w w') (op op' : Op) (hop : Op.Like op op') :
    ExRel (fun r r' => SameShape r.1 r'.1 ∧ WRel R r.2 r'.2) (w.step C x op) (w'.step C x op') := by
  cases op with
  | apply a =>
    cases op' with
    | write b => exact hop.elim
    | apply b =>
      have hop : a.length = b.length := hop
      unfold Wrapper.step Wrapper.tryApply
      dsimp only
      rw [checkRemaining_blind hb w w' h, hop]
      cases w'.checkRemaining C b.length with
      | error e => exact .ok ⟨⟨rfl, hop⟩, h⟩
      | ok _ =>
        dsimp only
        refine ExRel.bind (Q := fun r r' => r.1 = r'.1 ∧ r.2.1.length = r'.2.1.length ∧ WRel R r.2.2 r'.2.2)
          (ExRel.bind (uncheckedApply_blind hb x w w' h a b hop) ?_) ?_
        · rintro ⟨o, v⟩ ⟨o', v'⟩ ⟨h1, h2⟩
          exact .ok ⟨rfl, h1, h2⟩
        · rintro ⟨r, o, v⟩ ⟨r', o', v'⟩ ⟨h1, h2, h3⟩
          exact .ok ⟨⟨h1, h2⟩, h3⟩
  | write a =>
    cases op' with
    | apply b => exact hop.elim
    | write b =>
      have hop : a.length = b.length := hop
      unfold Wrapper.step Wrapper.tryWrite
      dsimp only
      rw [checkRemaining_blind hb w w' h, hop]
      cases w'.checkRemaining C b.length with
      | error e => exact .ok ⟨⟨rfl, hop⟩, h⟩
      | ok _ =>
        dsimp only
        refine ExRel.bind (Q := fun r r' => r.1 = r'.1 ∧ r.2.1.length = r'.2.1.length ∧ WRel R r.2.2 r'.2.2)
          (ExRel.bind (uncheckedWrite_blind hb x w w' h b.length) ?_) ?_
        · rintro ⟨o, v⟩ ⟨o', v'⟩ ⟨h1, h2⟩
          exact .ok ⟨rfl, h1, h2⟩
        · rintro ⟨r, o, v⟩ ⟨r', o', v'⟩ ⟨h1, h2, h3⟩
          exact .ok ⟨⟨h1, h2⟩, h3⟩

end

/-- Calls on seekable objects with the same public part. -/
def SeekOp.Like : SeekOp → SeekOp → Prop
  | .io op, .io op' => Op.Like op op'
  | .seek q, .seek q' => q = q'
  | .pos n, .pos n' => n = n'
  | _, _ => False

theorem seekStep_blind {C : SeekCore bs χ} {R : C.σ → C.σ → Prop} (hb : SeekBlind C R) (x : χ) (w w' : Wrapper bs C.σ) (h : WRel R w w')
    (op op' : SeekOp) (hop : SeekOp.Like op op') :
    ExRel (fun r r' => SameShape r.1 r'.1 ∧ WRel R r.2 r'.2) (w.seekStep C x op) (w'.seekStep C x op') := by
  cases op with
  | io op =>
    cases op' <;> first | exact hop.elim | skip
    exact step_blind hb.toBlind x w w' h _ _ hop
  | seek q =>
    cases op' <;> first | exact hop.elim | skip
    have hop : q = _ := hop
    subst hop
    refine ExRel.bind (Q := fun r r' => r.1 = r'.1 ∧ WRel R r.2 r'.2) ?_ ?_
    · unfold Wrapper.trySeek
      dsimp only
      split
      · exact .ok ⟨rfl, h⟩
      · split
        · exact .ok ⟨rfl, hb.setPos _ _ _ h.core, rfl⟩
        · obtain ⟨par, hp⟩ := hb.process x
          refine ExRel.bind (hp _ (fun _ _ => True) (writeBlockClosure bs) (writeBlockClosure bs) _ _ (hb.setPos _ _ _ h.core)
            (fun _ _ => trivial)) ?_
          rintro ⟨k, t⟩ ⟨k', t'⟩ ⟨-, h3⟩
          exact .ok ⟨rfl, h3, rfl⟩
    · rintro ⟨r, v⟩ ⟨r', v'⟩ ⟨h1, h2⟩
      exact .ok ⟨h1, h2⟩
  | pos n =>
    cases op' <;> first | exact hop.elim | skip
    have hop : n = _ := hop
    subst hop
    refine .ok ⟨?_, h⟩
    show w.tryCurrentPos C n = w'.tryCurrentPos C n
    unfold Wrapper.tryCurrentPos
    rw [hb.getPos _ _ h.core, h.pos]

/-- Two lists related entry by entry. -/
def Each {ι κ : Type} (P : ι → κ → Prop) : List ι → List κ → Prop
  | [], [] => True
  | a :: l, b :: l' => P a b ∧ Each P l l'
  | _, _ => False

theorem history_blind {σ ι : Type} (step : χ → σ → ι → Except Panic (Obs × σ)) (like : ι → ι → Prop) (W : σ → σ → Prop)
    (hstep : ∀ x w w' op op', W w w' → like op op' → ExRel (fun r r' => SameShape r.1 r'.1 ∧ W r.2 r'.2) (step x w op) (step x w' op'))
    (h : List (χ × ι)) : ∀ h' w w', Each (fun e e' => e.1 = e'.1 ∧ like e.2 e'.2) h h' → W w w' →
    ExRel (fun r r' => Each SameShape r.1 r'.1 ∧ W r.2 r'.2) (runHistory step h w) (runHistory step h' w') := by
  induction h with
  | nil =>
    intro h' w w' hh hw
    cases h' with
    | nil => exact .ok ⟨trivial, hw⟩
    | cons _ _ => exact hh.elim
  | cons e h ih =>
    intro h' w w' hh hw
    cases h' with
    | nil => exact hh.elim
    | cons e' h' =>
      obtain ⟨x, op⟩ := e
      obtain ⟨x', op'⟩ := e'
      obtain ⟨⟨hx, hop⟩, hh⟩ := hh
      have hx : x = x' := hx
      subst hx
      refine ExRel.bind (hstep x w w' op op' hw hop) ?_
      rintro ⟨o, v⟩ ⟨o', v'⟩ ⟨h1, h2⟩
      refine ExRel.bind (ih h' v v' hh h2) ?_
      rintro ⟨os, v⟩ ⟨os', v'⟩ ⟨h3, h4⟩
      exact .ok ⟨⟨h1, h3⟩, h4⟩

/-! ## The log does not disturb -/

/-- Post-composition commutes with running. -/
def Natural (C : Core bs χ) : Prop := ∀ (α β : Type) (g : α → β) (x : χ) (f : Closure bs α) (s : C.σ),
  C.process x (fun par => (f par).map g) s = (C.process x f s).map fun r => (g r.1, r.2)

theorem Prog.run_map {σ : Type} (B : Backend bs σ) (g : α → β) (p : Prog bs α) : ∀ s,
    (p.map g).run B s = (p.run B s).map fun r => (g r.1, r.2) := by
  have hb : ∀ {γ : Type} (e : Except Panic γ) (k : γ → Except Panic (α × σ)),
      (e >>= k).map (fun r => (g r.1, r.2)) = e >>= fun c => (k c).map fun r => (g r.1, r.2) := by
    intro γ e k; cases e <;> rfl
  induction p with
  | done a => intro s; rfl
  | block k ih => intro s; simp only [Prog.map, Prog.run, ih, hb]
  | par k ih => intro s; simp only [Prog.map, Prog.run, ih, hb]
  | tail n k ih => intro s; simp only [Prog.map, Prog.run, ih, hb]

theorem Prog.map_logged (p : Prog bs α) : p.logged.map (·.1) = p := by
  have hm : ∀ {α β γ : Type} (g : α → β) (g' : β → γ) (p : Prog bs α), (p.map g).map g' = p.map (fun a => g' (g a)) := by
    intro α β γ g g' p
    induction p with
    | done a => rfl
    | block k ih => exact congrArg Prog.block (funext ih)
    | par k ih => exact congrArg Prog.par (funext ih)
    | tail n k ih => exact congrArg (Prog.tail n) (funext ih)
  induction p with
  | done a => rfl
  | block k ih => exact congrArg Prog.block (funext fun b => (hm _ _ _).trans (ih b))
  | par k ih => exact congrArg Prog.par (funext fun b => (hm _ _ _).trans (ih b))
  | tail n k ih => exact congrArg (Prog.tail n) (funext fun b => (hm _ _ _).trans (ih b))

/-- The core with a log does what the core does. -/
theorem Natural.erase {C : Core bs χ} (h : Natural C) (x : χ) (f : Closure bs α) (s : C.logged.σ) :
    (C.logged.process x f s).map (fun r => (r.1, r.2.1)) = C.process x f s.1 := by
  have h1 := h _ _ (fun r : α × List Req => r.1) x (fun par => (f par).logged) s.1
  simp only [Prog.map_logged] at h1
  rw [h1]
  show Except.map _ (C.process x (fun par => (f par).logged) s.1 >>= fun r => pure (r.1.1, (r.2, s.2 ++ [(x, r.1.2)]))) = _
  cases C.process x (fun par => (f par).logged) s.1 <;> rfl

/-- A logged object and the object itself. -/
structure Erases {σ τ : Type} (w' : Wrapper bs (σ × τ)) (w : Wrapper bs σ) : Prop where
  core : w'.core.1 = w.core
  buf : w'.buf = w.buf
  pos : w'.pos = w.pos

theorem Natural.process {C : Core bs χ} (h : Natural C) (x : χ) (f : Closure bs α) (s' : C.logged.σ) (s : C.σ) (hs : s'.1 = s) :
    ExRel (fun r' r => r'.1 = r.1 ∧ r'.2.1 = r.2) (C.logged.process x f s') (C.process x f s) := by
  have := h.erase x f s'
  rw [hs] at this
  rw [← this]
  cases C.logged.process x f s' with
  | error e => exact .error e
  | ok r => exact .ok ⟨rfl, rfl⟩

section
variable {C : Core bs χ} (hn : Natural C)
include hn

theorem uncheckedApply_erase (x : χ) (w' : Wrapper bs C.logged.σ) (w : Wrapper bs C.σ) (h : Erases w' w) (a : List U8) :
    ExRel (fun r' r => r'.1 = r.1 ∧ Erases r'.2 r.2) (w'.uncheckedApply C.logged x a) (w.uncheckedApply C x a) := by
  obtain ⟨s', buf, pos⟩ := w'
  obtain ⟨s, buf', pos'⟩ := w
  obtain ⟨hr, hbuf, hpos⟩ := h
  have hpos : pos = pos' := hpos
  have hbuf : buf = buf' := hbuf
  subst hpos hbuf
  unfold Wrapper.uncheckedApply
  dsimp only
  refine ExRel.bind (hn.process x _ s' s hr) ?_
  rintro ⟨mid, t⟩ ⟨mid', t'⟩ ⟨h1, h2⟩
  have h1 : mid = mid' := h1
  subst h1
  dsimp only
  split
  · exact .ok ⟨rfl, h2, rfl, rfl⟩
  · refine ExRel.bind (hn.process x _ t t' h2) ?_
    rintro ⟨k, t⟩ ⟨k', t'⟩ ⟨h3, h4⟩
    have h3 : k = k' := h3
    subst h3
    exact .ok ⟨rfl, h4, rfl, rfl⟩

theorem uncheckedWrite_erase (x : χ) (w' : Wrapper bs C.logged.σ) (w : Wrapper bs C.σ) (h : Erases w' w) (n : Nat) :
    ExRel (fun r' r => r'.1 = r.1 ∧ Erases r'.2 r.2) (w'.uncheckedWrite C.logged x n) (w.uncheckedWrite C x n) := by
  obtain ⟨s', buf, pos⟩ := w'
  obtain ⟨s, buf', pos'⟩ := w
  obtain ⟨hr, hbuf, hpos⟩ := h
  have hpos : pos = pos' := hpos
  have hbuf : buf = buf' := hbuf
  subst hpos hbuf
  unfold Wrapper.uncheckedWrite
  dsimp only
  refine ExRel.bind (hn.process x _ s' s hr) ?_
  rintro ⟨mid, t⟩ ⟨mid', t'⟩ ⟨h1, h2⟩
  have h1 : mid = mid' := h1
  subst h1
  dsimp only
  split
  · exact .ok ⟨rfl, h2, rfl, rfl⟩
  · refine ExRel.bind (hn.process x _ t t' h2) ?_
    rintro ⟨k, t⟩ ⟨k', t'⟩ ⟨h3, h4⟩
    have h3 : k = k' := h3
    subst h3
    exact .ok ⟨rfl, h4, rfl, rfl⟩

omit hn in
theorem checkRemaining_erase (w' : Wrapper bs C.logged.σ) (w : Wrapper bs C.σ) (h : Erases w' w) (n : Nat) :
    w'.checkRemaining C.logged n = w.checkRemaining C n := by
  unfold Wrapper.checkRemaining
  rw [h.pos, ← h.core]
  rfl

theorem step_erase (x : χ) (w' : Wrapper bs C.logged.σ) (w : Wrapper bs C.σ) (h : Erases w' w) (op : Op) :
    ExRel (fun r' r => r'.1 = r.1 ∧ Erases r'.2 r.2) (w'.step C.logged x op) (w.step C x op) := by
  cases op with
  | apply a =>
    unfold Wrapper.step Wrapper.tryApply
    dsimp only
    rw [checkRemaining_erase w' w h]
    cases w.checkRemaining C a.length with
    | error e => exact .ok ⟨rfl, h⟩
    | ok _ =>
      dsimp only
      refine ExRel.bind (Q := fun r' r => r'.1 = r.1 ∧ r'.2.1 = r.2.1 ∧ Erases r'.2.2 r.2.2)
        (ExRel.bind (uncheckedApply_erase hn x w' w h a) ?_) ?_
      · rintro ⟨o, v⟩ ⟨o', v'⟩ ⟨h1, h2⟩
        exact .ok ⟨rfl, h1, h2⟩
      · rintro ⟨r, o, v⟩ ⟨r', o', v'⟩ ⟨h1, h2, h3⟩
        have h1 : r = r' := h1
        have h2 : o = o' := h2
        subst h1 h2
        exact .ok ⟨rfl, h3⟩
  | write a =>
    unfold Wrapper.step Wrapper.tryWrite
    dsimp only
    rw [checkRemaining_erase w' w h]
    cases w.checkRemaining C a.length with
    | error e => exact .ok ⟨rfl, h⟩
    | ok _ =>
      dsimp only
      refine ExRel.bind (Q := fun r' r => r'.1 = r.1 ∧ r'.2.1 = r.2.1 ∧ Erases r'.2.2 r.2.2)
        (ExRel.bind (uncheckedWrite_erase hn x w' w h a.length) ?_) ?_
      · rintro ⟨o, v⟩ ⟨o', v'⟩ ⟨h1, h2⟩
        exact .ok ⟨rfl, h1, h2⟩
      · rintro ⟨r, o, v⟩ ⟨r', o', v'⟩ ⟨h1, h2, h3⟩
        have h1 : r = r' := h1
        have h2 : o = o' := h2
        subst h1 h2
        exact .ok ⟨rfl, h3⟩

end

theorem seekStep_erase {C : SeekCore bs χ} (hn : Natural C.toCore) (x : χ) (w' : Wrapper bs C.logged.σ) (w : Wrapper bs C.σ)
    (h : Erases w' w) (op : SeekOp) :
    ExRel (fun r' r => r'.1 = r.1 ∧ Erases r'.2 r.2) (w'.seekStep C.logged x op) (w.seekStep C x op) := by
  cases op with
  | io op => exact step_erase hn x w' w h op
  | seek q =>
    have hset : ∀ n, (C.logged.setPos w'.core n).1 = C.setPos w.core n := by
      intro n
      rw [← h.core]
      rfl
    refine ExRel.bind (Q := fun r' r => r'.1 = r.1 ∧ Erases r'.2 r.2) ?_ ?_
    · unfold Wrapper.trySeek
      dsimp only
      show ExRel _ (if q / bs ≥ 2 ^ C.ctrBits then _ else _) _
      split
      · exact .ok ⟨rfl, h⟩
      · split
        · exact .ok ⟨rfl, hset _, h.buf, rfl⟩
        · refine ExRel.bind (hn.process x _ _ _ (hset _)) ?_
          rintro ⟨k, t⟩ ⟨k', t'⟩ ⟨h3, h4⟩
          have h3 : k = k' := h3
          subst h3
          exact .ok ⟨rfl, h4, rfl, rfl⟩
    · rintro ⟨r, v⟩ ⟨r', v'⟩ ⟨h1, h2⟩
      have h1 : r = r' := h1
      subst h1
      exact .ok ⟨rfl, h2⟩
  | pos n =>
    refine .ok ⟨?_, h⟩
    show Obs.num (w'.tryCurrentPos C.logged n) = Obs.num (w.tryCurrentPos C n)
    unfold Wrapper.tryCurrentPos
    rw [h.pos, ← h.core]
    rfl

theorem history_erase {σ σ' ι : Type} (step' : χ → σ' → ι → Except Panic (Obs × σ')) (step : χ → σ → ι → Except Panic (Obs × σ))
    (W : σ' → σ → Prop) (hstep : ∀ x w' w op, W w' w → ExRel (fun r' r => r'.1 = r.1 ∧ W r'.2 r.2) (step' x w' op) (step x w op))
    (h : List (χ × ι)) : ∀ w' w, W w' w →
    ExRel (fun r' r => r'.1 = r.1 ∧ W r'.2 r.2) (runHistory step' h w') (runHistory step h w) := by
  induction h with
  | nil => intro w' w hw; exact .ok ⟨rfl, hw⟩
  | cons e h ih =>
    intro w' w hw
    obtain ⟨x, op⟩ := e
    refine ExRel.bind (hstep x w' w op hw) ?_
    rintro ⟨o, v⟩ ⟨o', v'⟩ ⟨h1, h2⟩
    refine ExRel.bind (ih v v' h2) ?_
    rintro ⟨os, v⟩ ⟨os', v'⟩ ⟨h3, h4⟩
    exact .ok ⟨by rw [show o = o' from h1, show os = os' from h3], h4⟩

theorem ChaCha.process_map {α β : Type} (dr : Nat) (V : Variant) (g : α → β) (e : Env) (f : Closure 64 α) (s : State) :
    process dr V e (fun par => (f par).map g) s = (process dr V e f s).map fun r => (g r.1, r.2) := by
  rw [process_eq, process_eq]
  exact Prog.run_map _ g _ s

theorem ChaCha.natural (u dr : Nat) (V : Variant) : Natural (core u dr V).toCore :=
  fun _ _ g e f s => ChaCha.process_map dr V g e f s

theorem natural_ofBlock {σ : Type} (par : Nat) (gen : σ → Except Panic (Vector U8 bs × σ)) (rem : σ → Option Nat) :
    Natural (χ := χ) ⟨σ, fun _ f s => (Backend.ofBlock par gen).call f s, rem⟩ :=
  fun _ _ g _ f s => Prog.run_map _ g (f par) s

theorem Salsa.natural (χ : Type) (u : Nat) (m : Mode) (dr : Nat) : Natural (core χ u m dr).toCore :=
  fun _ _ g _ f s => Prog.run_map _ g (f 1) s

end Verif
