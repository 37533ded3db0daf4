import Verif.Rust.ClientTrace
import Verif.Proof.CoreHom
import Verif.Proof.TraceWrapper
import Verif.Proof.TracePlain
import Verif.Proof.TraceCiphers
/-!
# Any client code on cores that are the same, and what it may see of two cores
-/
namespace Verif

/-- The same calls: client code may differ in what it does with the blocks, but not in what it asks for. -/
inductive SameClient {bs : Nat} : ClientOp bs → ClientOp bs → Prop
  | run {α : Type} (f f' : Closure bs α) (out out' : α → List (List U8)) (h : ∀ n, (f n).Alike (f' n)) : SameClient (.run f out) (.run f' out')
  | remaining : SameClient .remaining .remaining
  | getPos : SameClient .getPos .getPos
  | setPos (b : Nat) : SameClient (.setPos b) (.setPos b)

/-- The same calls in the same circumstances. -/
inductive SameClients {bs : Nat} {χ : Type} : List (χ × ClientOp bs) → List (χ × ClientOp bs) → Prop
  | nil : SameClients [] []
  | cons (x : χ) {op op' : ClientOp bs} (ho : SameClient op op') {h h' : List (χ × ClientOp bs)} (hh : SameClients h h') : SameClients ((x, op) :: h) ((x, op') :: h')

/-- The same answers, up to what client code has made of the blocks. -/
def SameAnswer : CoreObs → CoreObs → Prop
  | .blocks _, .blocks _ => True
  | o, o' => o = o'

variable {bs : Nat} {χ χ' : Type}

theorem SeekCore.call_client (C : SeekCore bs χ) (x : χ) (s : C.σ) (op : SeekCoreOp bs) : C.call x s op = C.client x s op.client := by
  cases op with
  | io op => cases op <;> rfl
  | getPos => rfl
  | setPos b => rfl

theorem SeekCore.calls_clients (C : SeekCore bs χ) (h : List (χ × SeekCoreOp bs)) (s : C.σ) :
    runCalls C.call h s = C.clients (h.map fun e => (e.1, e.2.client)) s := by
  induction h generalizing s with
  | nil => rfl
  | cons e h ih =>
    obtain ⟨x, op⟩ := e
    simp only [runCalls, List.map_cons, SeekCore.clients, C.call_client, ih]

section
variable {C : SeekCore bs χ} {C' : SeekCore bs χ'} {e : χ' → χ} {f : C.σ → C'.σ} (H : SeekHom C C' e f)
include H

theorem SeekHom.client (x : χ') (s : C.σ) (op : ClientOp bs) : C'.client x (f s) op = (C.client (e x) s op).map (Prod.map id f) := by
  cases op with
  | run g out =>
    simp only [SeekCore.client, H.process]
    cases C.process (e x) g s <;> rfl
  | remaining => simp only [SeekCore.client, H.remaining]; rfl
  | getPos => simp only [SeekCore.client, H.getPos]; rfl
  | setPos b => simp only [SeekCore.client, H.setPos]; rfl

theorem SeekHom.clients (h : List (χ' × ClientOp bs)) (s : C.σ) :
    C'.clients h (f s) = (C.clients (h.map fun c => (e c.1, c.2)) s).map (Prod.map id f) := by
  induction h generalizing s with
  | nil => rfl
  | cons c h ih =>
    obtain ⟨x, op⟩ := c
    simp only [SeekCore.clients, List.map_cons, H.client]
    cases C.client (e x) s op with
    | error p => rfl
    | ok r =>
      show (C'.clients h (f r.2) >>= _) = ((C.clients _ r.2) >>= _).map _
      rw [ih]
      cases C.clients (h.map fun c => (e c.1, c.2)) r.2 <;> rfl

end

section
variable {C : SeekCore bs χ} {R : C.σ → C.σ → Prop} (B : SeekBlind C R)
include B

theorem SeekBlind.client (x : χ) {op op' : ClientOp bs} (ho : SameClient op op') {s s' : C.σ} (hs : R s s') :
    ExRel (fun r r' => SameAnswer r.1 r'.1 ∧ R r.2 r'.2) (C.client x s op) (C.client x s' op') := by
  cases ho with
  | run f f' out out' h =>
    obtain ⟨par, hp⟩ := B.process x
    exact (hp _ (fun _ _ => True) f f' s s' hs (h par).rel2).bind fun r r' hr => .ok ⟨trivial, hr.2⟩
  | remaining => exact .ok ⟨congrArg CoreObs.remaining (B.remaining _ _ hs), hs⟩
  | getPos => exact .ok ⟨congrArg CoreObs.pos (B.getPos _ _ hs), hs⟩
  | setPos b => exact .ok ⟨rfl, B.setPos _ _ b hs⟩

theorem SeekBlind.clients {h h' : List (χ × ClientOp bs)} (hh : SameClients h h') {s s' : C.σ} (hs : R s s') :
    ExRel (fun r r' => Each SameAnswer r.1 r'.1 ∧ R r.2 r'.2) (C.clients h s) (C.clients h' s') := by
  induction hh generalizing s s' with
  | nil => exact .ok ⟨trivial, hs⟩
  | cons x ho hh ih =>
    exact (B.client x ho hs).bind fun r r' hr => (ih hr.2).bind fun q q' hq => .ok ⟨⟨hr.1, hq.1⟩, hq.2⟩

end

theorem SameClients.map {h h' : List (χ × ClientOp bs)} (hh : SameClients h h') (e : χ → χ') :
    SameClients (h.map fun c => (e c.1, c.2)) (h'.map fun c => (e c.1, c.2)) := by
  induction hh with
  | nil => exact .nil
  | cons x ho _ ih => exact .cons _ ho ih

namespace Rust

section
variable {M : SeekCore bs χ'} {C : SeenCore bs χ} {e : χ → χ'} {f : M.σ → C.σ} (H : Faithful M C e f)
include H

theorem Faithful.client (x : χ) (s : M.σ) (op : ClientOp bs) : (C.client x (f s) op).1 = (M.client (e x) s op).map (Prod.map id f) := by
  cases op with
  | run g out =>
    rw [SeenCore.client, Tr.bind_fst, H.process, SeekCore.client]
    cases M.process (e x) g s <;> rfl
  | remaining => rw [SeenCore.client, Tr.bind_fst, H.remaining]; rfl
  | getPos => rw [SeenCore.client, Tr.bind_fst, H.getPos]; rfl
  | setPos b => rw [SeenCore.client, Tr.bind_fst, H.setPos]; rfl

theorem Faithful.clients (h : List (χ × ClientOp bs)) (s : M.σ) :
    (C.clients h (f s)).1 = (M.clients (h.map fun c => (e c.1, c.2)) s).map (Prod.map id f) := by
  induction h generalizing s with
  | nil => rfl
  | cons c h ih =>
    obtain ⟨x, op⟩ := c
    rw [SeenCore.clients, Tr.bind_fst, H.client, List.map_cons, SeekCore.clients]
    cases M.client (e x) s op with
    | error p => rfl
    | ok r =>
      show (C.clients h (f r.2) >>= _ : Tr _).1 = ((M.clients _ r.2) >>= _).map _
      rw [Tr.bind_fst, ih]
      cases M.clients (h.map fun c => (e c.1, c.2)) r.2 <;> rfl

theorem Faithful.clientLife {m : Tr C.σ} {s : M.σ} (hm : m.1 = .ok (f s)) (h : List (χ × ClientOp bs)) :
    (C.clientLife m h).1 = (M.clients (h.map fun c => (e c.1, c.2)) s).map (·.1) := by
  rw [SeenCore.clientLife, Tr.bind_fst, hm, okBind, Tr.bind_fst, H.clients]
  cases M.clients (h.map fun c => (e c.1, c.2)) s <;> rfl

theorem Faithful.clientSame {K : M.σ → M.σ → Prop} (S : SeekBlind M K) {m m' : Tr C.σ} {s s' : M.σ} (hm : m.1 = .ok (f s)) (hm' : m'.1 = .ok (f s')) (hk : K s s')
    {h h' : List (χ × ClientOp bs)} (hh : SameClients h h') : ExRel (Each SameAnswer) (C.clientLife m h).1 (C.clientLife m' h').1 := by
  rw [H.clientLife hm, H.clientLife hm']
  have := S.clients (hh.map e) hk
  generalize M.clients _ s = r at this
  generalize M.clients _ s' = r' at this
  cases this with
  | ok h => exact .ok h.1
  | error p => exact .error p

end

section
variable {M : SeekCore bs χ'} {C : SeenCore bs χ} {f : M.σ → C.σ} {K : M.σ → M.σ → Prop} {used : χ → List String} (B : BlindCore M C f K used)
include B

theorem BlindCore.client (x : χ) {op op' : ClientOp bs} (ho : SameClient op op') {s s' : M.σ} (hs : K s s') :
    Obl (used x) (fun r r' => ∃ t t', r.2 = f t ∧ r'.2 = f t' ∧ K t t') (C.client x (f s) op) (C.client x (f s') op') := by
  cases ho with
  | run g g' out out' h => exact .bind (B.process x g g' h s s' hs) fun _ _ hr => .pure hr
  | remaining => exact .bind ((B.remaining s s' hs).weaken (fun _ h => nomatch h)) fun _ _ _ => .pure ⟨s, s', rfl, rfl, hs⟩
  | getPos => exact .bind ((B.getPos s s' hs).weaken (fun _ h => nomatch h)) fun _ _ _ => .pure ⟨s, s', rfl, rfl, hs⟩
  | setPos b => exact .bind ((B.setPos s s' b hs).weaken (fun _ h => nomatch h)) fun _ _ hr => .pure hr

theorem BlindCore.clients {I : List String} {h h' : List (χ × ClientOp bs)} (hh : SameClients h h') (hI : ∀ c ∈ h, ∀ s ∈ used c.1, s ∈ I) {s s' : M.σ} (hs : K s s') :
    Obl I (fun _ _ => True) (C.clients h (f s)) (C.clients h' (f s')) := by
  induction hh generalizing s s' with
  | nil => exact .pure trivial
  | cons x ho hh ih =>
    refine .bind ((B.client x ho hs).weaken (hI _ (List.mem_cons_self ..))) fun r r' hr => ?_
    obtain ⟨o, u⟩ := r
    obtain ⟨o', u'⟩ := r'
    obtain ⟨t, t', h1, h2, h3⟩ := hr
    cases h1
    cases h2
    exact .bind (ih (fun c hc => hI c (List.mem_cons_of_mem _ hc)) h3) fun _ _ _ => .pure trivial

theorem BlindCore.clientLife {m m' : Tr C.σ} {s s' : M.σ} (hm : m.1 = .ok (f s)) (hm' : m'.1 = .ok (f s')) (hk : K s s')
    (ho : Obl [] (fun _ _ => True) m m') {I : List String} {h h' : List (χ × ClientOp bs)} (hh : SameClients h h') (hI : ∀ c ∈ h, ∀ s ∈ used c.1, s ∈ I) :
    Obl I (fun _ _ => True) (C.clientLife m h) (C.clientLife m' h') := by
  refine .bind (Q := fun a b => a = f s ∧ b = f s') ((ChaCha.Obl.and (ho.weaken (fun _ h => nomatch h)) fun a b ha hb => ?_).mono fun _ _ h => h.2) fun a b hab => ?_
  · rw [hm] at ha
    rw [hm'] at hb
    exact ⟨(Except.ok.inj ha).symm, (Except.ok.inj hb).symm⟩
  · obtain ⟨rfl, rfl⟩ := hab
    exact .bind (B.clients hh hI hk) fun _ _ _ => .pure trivial

end

end Rust
end Verif
