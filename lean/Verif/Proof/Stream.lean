import Verif.Proof.Wrapper
/-!
# Consequences of being a cursor

Everything here is about arbitrary objects that satisfy `Simulates`, whatever cipher is inside.
-/
namespace Verif
open Spec

section generic
variable {χ σ ι : Type} {step : χ → σ → ι → Except Panic (Obs × σ)} {ok : ι → Prop} {cstep : Nat → ι → Obs × Nat}

theorem runHistory_append (h₁ h₂ : List (χ × ι)) (w : σ) :
    runHistory step (h₁ ++ h₂) w = (do
      let (o₁, w) ← runHistory step h₁ w
      let (o₂, w) ← runHistory step h₂ w
      return (o₁ ++ o₂, w)) := by
  induction h₁ generalizing w with
  | nil =>
    simp only [List.nil_append, runHistory, bind, Except.bind, pure, Except.pure]
    cases runHistory step h₂ w <;> rfl
  | cons e h ih =>
    obtain ⟨x, op⟩ := e
    simp only [List.cons_append, runHistory, ih, bind, Except.bind, pure, Except.pure]
    cases step x w op with
    | error p => rfl
    | ok r =>
      dsimp only
      cases runHistory step h r.2 with
      | error p => rfl
      | ok r =>
        dsimp only
        cases runHistory step h₂ r.2 <;> rfl

theorem Cursor.run_append (h₁ h₂ : List ι) (p : Nat) :
    Cursor.run cstep (h₁ ++ h₂) p =
      ((Cursor.run cstep h₁ p).1 ++ (Cursor.run cstep h₂ (Cursor.run cstep h₁ p).2).1,
        (Cursor.run cstep h₂ (Cursor.run cstep h₁ p).2).2) := by
  induction h₁ generalizing p with
  | nil => rfl
  | cons op h ih => simp only [List.cons_append, Cursor.run, ih]

theorem Cursor.run_length (h : List ι) (p : Nat) : (Cursor.run cstep h p).1.length = h.length := by
  induction h generalizing p with
  | nil => rfl
  | cons op h ih => simp only [Cursor.run, List.length_cons, ih]

theorem runHistory_length (h : List (χ × ι)) (w w' : σ) (os : List Obs) (he : runHistory step h w = .ok (os, w')) :
    os.length = h.length := by
  induction h generalizing w os with
  | nil => simp only [runHistory, Except.ok.injEq, Prod.mk.injEq] at he; simp [← he.1]
  | cons e h ih =>
    obtain ⟨x, op⟩ := e
    simp only [runHistory, bind, Except.bind, pure, Except.pure] at he
    cases h1 : step x w op with
    | error p => rw [h1] at he; cases he
    | ok r =>
      rw [h1] at he
      dsimp only at he
      cases h2 : runHistory step h r.2 with
      | error p => rw [h2] at he; cases he
      | ok r2 =>
        rw [h2] at he
        simp only [Except.ok.injEq, Prod.mk.injEq] at he
        rw [← he.1, List.length_cons, List.length_cons, ih r.2 r2.1 (by rw [h2, ← he.2])]

/-- After any history the object is again a cursor. -/
theorem Spec.Simulates.after {w : σ} {p : Nat} (hs : Simulates step ok cstep w p) (h : List (χ × ι)) (hh : ∀ e ∈ h, ok e.2)
    (w' : σ) (os : List Obs) (he : runHistory step h w = .ok (os, w')) :
    os = (Cursor.run cstep (h.map (·.2)) p).1 ∧
      Simulates step ok cstep w' (Cursor.run cstep (h.map (·.2)) p).2 := by
  obtain ⟨w1, h1⟩ := hs h hh
  rw [h1] at he
  simp only [Except.ok.injEq, Prod.mk.injEq] at he
  obtain ⟨he1, rfl⟩ := he
  refine ⟨he1.symm, ?_⟩
  intro k hk
  obtain ⟨w2, h2⟩ := hs (h ++ k) (by
    intro e he
    rcases List.mem_append.1 he with h | h
    · exact hh e h
    · exact hk e h)
  rw [runHistory_append, h1] at h2
  simp only [bind, Except.bind, pure, Except.pure, List.map_append, Cursor.run_append] at h2
  cases h3 : runHistory step k w1 with
  | error q => rw [h3] at h2; cases h2
  | ok r =>
    rw [h3] at h2
    simp only [Except.ok.injEq, Prod.mk.injEq, List.append_cancel_left_eq] at h2
    exact ⟨w2, by rw [← h2.1, ← h2.2]⟩

/-- Objects that simulate the same cursor at the same position cannot be told apart. -/
theorem Spec.Simulates.same {χ' σ' : Type} {step' : χ' → σ' → ι → Except Panic (Obs × σ')} {w : σ} {w' : σ'} {p : Nat}
    (hs : Simulates step ok cstep w p) (hs' : Simulates step' ok cstep w' p) (h : List (χ × ι)) (h' : List (χ' × ι))
    (he : h.map (·.2) = h'.map (·.2)) (hh : ∀ e ∈ h, ok e.2) :
    ∃ os v v', runHistory step h w = .ok (os, v) ∧ runHistory step' h' w' = .ok (os, v') := by
  obtain ⟨v, h1⟩ := hs h hh
  obtain ⟨v', h2⟩ := hs' h' (by
    intro e hm
    have : e.2 ∈ h'.map (·.2) := List.mem_map_of_mem hm
    rw [← he] at this
    obtain ⟨e', hm', he'⟩ := List.mem_map.1 this
    rw [← he']; exact hh e' hm')
  exact ⟨_, v, v', h1, by rw [h2, he]⟩

end generic

/-! ### Reads and encryptions -/

theorem window_xor_window (st : Nat → U8) (data : List U8) (p : Nat) :
    List.zipWith (· ^^^ ·) (List.zipWith (· ^^^ ·) data (window st p data.length)) (window st p data.length) = data := by
  apply List.ext_getElem
  · simp [window_length]
  · intro i h1 h2
    simp only [List.getElem_zipWith, BitVec.xor_assoc, BitVec.xor_self, BitVec.xor_zero]

/-- A sequence of encryptions on the cursor, all inside the limit. -/
theorem Cursor.run_applies (st : Nat → U8) (limit : Option Nat) (cs : List (List U8)) (p : Nat)
    (h : Within limit (p + cs.flatten.length)) :
    outBytes (Cursor.run (Cursor.io st limit) (cs.map .apply) p).1 =
        some (List.zipWith (· ^^^ ·) cs.flatten (window st p cs.flatten.length)) ∧
      (Cursor.run (Cursor.io st limit) (cs.map .apply) p).2 = p + cs.flatten.length := by
  induction cs generalizing p with
  | nil => exact ⟨rfl, rfl⟩
  | cons c cs ih =>
    simp only [List.flatten_cons, List.length_append] at h ⊢
    have hc : Within limit (p + c.length) := h.mono (by omega)
    obtain ⟨h1, h2⟩ := ih (p + c.length) (h.mono (by omega))
    simp only [List.map_cons, Cursor.run, Cursor.io, if_pos hc]
    refine ⟨?_, by rw [h2]; omega⟩
    simp only [outBytes, h1, Option.map_some]
    rw [window_add, List.zipWith_append (by simp [window_length])]

theorem Cursor.run_writes (st : Nat → U8) (limit : Option Nat) (cs : List (List U8)) (p : Nat)
    (h : Within limit (p + cs.flatten.length)) :
    outBytes (Cursor.run (Cursor.io st limit) (cs.map .write) p).1 = some (window st p cs.flatten.length) ∧
      (Cursor.run (Cursor.io st limit) (cs.map .write) p).2 = p + cs.flatten.length := by
  induction cs generalizing p with
  | nil => exact ⟨rfl, rfl⟩
  | cons c cs ih =>
    simp only [List.flatten_cons, List.length_append] at h ⊢
    have hc : Within limit (p + c.length) := h.mono (by omega)
    obtain ⟨h1, h2⟩ := ih (p + c.length) (h.mono (by omega))
    simp only [List.map_cons, Cursor.run, Cursor.io, if_pos hc]
    refine ⟨?_, by rw [h2]; omega⟩
    simp only [outBytes, h1, Option.map_some]
    rw [window_add]

/-- Reads and encryptions on a seekable cursor are those of the plain cursor. -/
theorem Cursor.run_io (bs : Nat) (st : Nat → U8) (limit : Option Nat) (h : List Op) (p : Nat) :
    Cursor.run (Cursor.step bs st limit) (h.map .io) p = Cursor.run (Cursor.io st limit) h p := by
  induction h generalizing p with
  | nil => rfl
  | cons op h ih => simp only [List.map_cons, Cursor.run, Cursor.step, ih]

theorem runHistory_io {bs : Nat} {χ : Type} (C : SeekCore bs χ) (h : List (χ × Op)) (w : Wrapper bs C.σ) :
    runHistory (fun x w op => Wrapper.seekStep C x w op) (h.map fun e => (e.1, .io e.2)) w =
      runHistory (fun x w op => Wrapper.step C.toCore x w op) h w := by
  induction h generalizing w with
  | nil => rfl
  | cons e h ih =>
    simp only [List.map_cons, runHistory, ih]
    rfl

/-- A seekable stream object is in particular a stream object. -/
theorem Spec.IsSeekStream.toStream {bs u : Nat} {χ : Type} {C : SeekCore bs χ} {st : Nat → U8} {M : Nat} {w : Wrapper bs C.σ}
    {p : Nat} (hs : IsSeekStream u C st M w p) : IsStream u C.toCore st (some (bs * M)) w p := by
  intro h hh
  obtain ⟨w', h1⟩ := hs (h.map fun e => (e.1, .io e.2)) (by
    intro e he
    obtain ⟨e', hm, rfl⟩ := List.mem_map.1 he
    exact hh e' hm)
  rw [runHistory_io] at h1
  refine ⟨w', h1.trans ?_⟩
  have : (h.map fun e => (e.1, SeekOp.io e.2)).map (·.2) = (h.map (·.2)).map .io := by
    simp only [List.map_map]; rfl
  rw [this, Cursor.run_io]

/-- The caller's bookkeeping is the cursor's position. -/
theorem track_step (bs : Nat) (st : Nat → U8) (limit : Option Nat) (p : Nat) (op : SeekOp) :
    track p op (Cursor.step bs st limit p op).1 = (Cursor.step bs st limit p op).2 := by
  cases op with
  | io op =>
    cases op <;> simp only [Cursor.step, Cursor.io] <;> split <;> rfl
  | seek q => simp only [Cursor.step]; split <;> rfl
  | pos m => simp only [Cursor.step]; split <;> rfl

theorem trackAll_run (bs : Nat) (st : Nat → U8) (limit : Option Nat) (h : List SeekOp) (p : Nat) :
    trackAll p h (Cursor.run (Cursor.step bs st limit) h p).1 = (Cursor.run (Cursor.step bs st limit) h p).2 := by
  induction h generalizing p with
  | nil => rfl
  | cons op h ih => simp only [Cursor.run, trackAll, track_step, ih]

/-- The cursor stays inside the limit. -/
theorem Cursor.step_within (bs : Nat) (st : Nat → U8) (limit : Option Nat) (p : Nat) (hp : Within limit p) (op : SeekOp) :
    Within limit (Cursor.step bs st limit p op).2 := by
  cases op with
  | io op =>
    cases op <;> simp only [Cursor.step, Cursor.io] <;> split <;> assumption
  | seek q => simp only [Cursor.step]; split <;> assumption
  | pos m => simp only [Cursor.step]; split <;> exact hp

theorem Cursor.run_within (bs : Nat) (st : Nat → U8) (limit : Option Nat) (h : List SeekOp) (p : Nat) (hp : Within limit p) :
    Within limit (Cursor.run (Cursor.step bs st limit) h p).2 := by
  induction h generalizing p with
  | nil => exact hp
  | cons op h ih => exact ih _ (Cursor.step_within bs st limit p hp op)

/-! ### From the interface laws -/

theorem SeekLaw.isSeekStream {bs u M : Nat} {χ : Type} {S : SeekCore bs χ} {ks : Nat → Vector U8 bs} {Rel : S.σ → Nat → Prop}
    (law : SeekLaw S u ks Rel M) (hbs : 0 < bs) (w : Wrapper bs S.σ) (p : Nat) (hat : At ks hbs Rel (some M) w p) :
    IsSeekStream u S (byteStream ks hbs) M w p := by
  intro h hh
  obtain ⟨w', h1, _⟩ := seekHistory_spec law hbs h w p hat hh
  exact ⟨w', h1⟩

theorem CoreLaw.isStream {bs u : Nat} {mb : Option Nat} {χ : Type} {C : Core bs χ} {ks : Nat → Vector U8 bs}
    {Rel : C.σ → Nat → Prop} (law : CoreLaw C u ks Rel mb) (hbs : 0 < bs) (w : Wrapper bs C.σ) (p : Nat)
    (hat : At ks hbs Rel mb w p) : IsStream u C (byteStream ks hbs) (byteLimit bs mb) w p := by
  intro h hh
  obtain ⟨w', h1, _⟩ := history_spec law hbs h w p hat hh
  exact ⟨w', h1⟩

end Verif
