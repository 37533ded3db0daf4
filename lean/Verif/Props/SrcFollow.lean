import Verif.Proof.Follow
import Verif.Props.SrcClient
/-!
# C99: what is seen of client code is what is seen of its requests
-/
namespace Verif

namespace Rust

variable {tgt : Target}

theorem SeekText.faithful (ht : 16 ≤ tgt.bits) (c : SeekText) : ∃ (f : ((c.cipher tgt.mode).core tgt.bits).σ → (c.seen tgt).σ) (s : ((c.cipher tgt.mode).core tgt.bits).σ),
    Faithful ((c.cipher tgt.mode).core tgt.bits) (c.seen tgt) Circumstances.env f ∧ (c.cipher tgt.mode).create tgt.bits = .ok (Wrapper.fromCore s) ∧
      (c.create_tr tgt).1 = .ok (f s) := by
  cases c with
  | chacha R key nonce =>
    exact ⟨_, _, ChaCha.faithful_ietf ht R, Verif.ChaCha.cipherIetf_eq key nonce,
      (ChaCha.ChaChaCore_new_erase (R := R) (tgt := tgt) key.toList nonce.toList).trans (ChaCha.new_eq key nonce)⟩
  | chachaLegacy key nonce =>
    exact ⟨_, _, ChaCha.faithful_legacy ht ChaCha.R20, Verif.ChaCha.cipherLegacy_eq key nonce,
      (ChaCha.ChaCha20LegacyCore_new_erase (tgt := tgt) key.toList nonce.toList).trans (ChaCha.newLegacy_eq key nonce)⟩
  | xchacha R key nonce =>
    exact ⟨_, _, ChaCha.faithful_x ht R, Verif.ChaCha.cipherX_eq _ key nonce,
      (ChaCha.XChaChaCore_new_erase (R := R) (tgt := tgt) key.toList nonce.toList).trans (ChaCha.newX_created key nonce)⟩
  | salsa R key nonce =>
    exact ⟨_, _, Salsa.faithful (tgt := tgt) R, rfl, (Salsa.SalsaCore_new_erase (R := R) (tgt := tgt) key.toList nonce.toList).trans (Salsa.new_eq ht key nonce)⟩
  | xsalsa R key nonce =>
    exact ⟨_, _, Salsa.faithful_x (tgt := tgt) R, rfl, (Salsa.XSalsaCore_new_erase (R := R) (tgt := tgt) key.toList nonce.toList).trans (Salsa.newX_eq ht key nonce)⟩

theorem SeekText.asked_eq (ht : 16 ≤ tgt.bits) (c : SeekText) (h : List (Circumstances × ClientOp 64)) {s : ((c.cipher tgt.mode).core tgt.bits).σ}
    (hs : (c.cipher tgt.mode).create tgt.bits = .ok (Wrapper.fromCore s)) :
    c.asked tgt h = ((c.cipher tgt.mode).core tgt.bits).asked (h.map fun e => (e.1.env, e.2)) s := by
  obtain ⟨f, t, H, h1, h2⟩ := c.same ht
  have e : s = t := congrArg Wrapper.core (Except.ok.inj (hs.symm.trans h1))
  subst e
  rw [SeekText.asked, h2, ok_bind, H.asked]

end Rust

theorem SameAnswer.symm {o o' : CoreObs} (h : SameAnswer o o') : SameAnswer o' o := by
  cases o <;> cases o' <;> first | exact trivial | exact Eq.symm h

theorem SameAnswer.trans {o o' o'' : CoreObs} (h : SameAnswer o o') (h' : SameAnswer o' o'') : SameAnswer o o'' := by
  cases o <;> cases o' <;> cases o'' <;> simp_all [SameAnswer]

theorem Each.symm_of {α : Type} {Q : α → α → Prop} (hQ : ∀ a b, Q a b → Q b a) : ∀ {l l' : List α}, Each Q l l' → Each Q l' l
  | [], [], _ => trivial
  | [], _ :: _, h => nomatch h
  | _ :: _, [], h => nomatch h
  | _ :: _, _ :: _, h => ⟨hQ _ _ h.1, Each.symm_of hQ h.2⟩

theorem Each.trans_of {α : Type} {Q : α → α → Prop} (hQ : ∀ a b c, Q a b → Q b c → Q a c) : ∀ {l l' l'' : List α}, Each Q l l' → Each Q l' l'' → Each Q l l''
  | [], [], [], _, _ => trivial
  | [], _ :: _, _, h, _ => nomatch h
  | _ :: _, [], _, h, _ => nomatch h
  | _, [], _ :: _, _, h => nomatch h
  | _, _ :: _, [], _, h => nomatch h
  | _ :: _, _ :: _, _ :: _, h, h' => ⟨hQ _ _ _ h.1 h'.1, Each.trans_of hQ h.2 h'.2⟩

section
variable {bs : Nat} {χ : Type}

theorem Asked.same (q : Asked) : SameClient (bs := bs) q.client q.client := by
  cases q with
  | run l => exact .run _ _ _ _ fun _ => Prog.ofReqs_alike l
  | remaining => exact .remaining
  | getPos => exact .getPos
  | setPos b => exact .setPos b

theorem askedIn_same (h h' : List (χ × ClientOp bs)) (hx : h.map (·.1) = h'.map (·.1)) (l : List Asked) : SameClients (askedIn h l) (askedIn h' l) := by
  induction h generalizing h' l with
  | nil =>
    cases h' with
    | nil => exact .nil
    | cons => exact nomatch hx
  | cons e h ih =>
    cases h' with
    | nil => exact nomatch hx
    | cons e' h' =>
      obtain ⟨h1, h2⟩ := List.cons.inj hx
      replace h1 : e.1 = e'.1 := h1
      cases l with
      | nil => exact .nil
      | cons q l =>
        show SameClients ((e.1, q.client) :: askedIn h l) ((e'.1, q.client) :: askedIn h' l)
        rw [← h1]
        exact .cons e.1 q.same (ih h' h2 l)

theorem askedIn_mem {h : List (χ × ClientOp bs)} {l : List Asked} {e : χ × ClientOp bs} (he : e ∈ askedIn h l) : ∃ e' ∈ h, e'.1 = e.1 := by
  induction h generalizing l with
  | nil => exact nomatch he
  | cons d h ih =>
    cases l with
    | nil => exact nomatch he
    | cons q l =>
      rcases List.mem_cons.1 he with rfl | he
      · exact ⟨d, List.mem_cons_self .., rfl⟩
      · obtain ⟨e', h1, h2⟩ := ih he
        exact ⟨e', List.mem_cons_of_mem _ h1, h2⟩

/-- Two lives that are seen alike. -/
def SeenAlike (m m' : Rust.Tr (List CoreObs)) : Prop := ∃ os os' u, m = (.ok os, u) ∧ m' = (.ok os', u) ∧ Each SameAnswer os os'

theorem SeenAlike.join {m m' n n' : Rust.Tr (List CoreObs)} (h : SeenAlike m n) (h' : SeenAlike m' n') (hr : ExRel (Each SameAnswer) n.1 n'.1)
    (ht : n.1.isOk → n.2 = n'.2) : SeenAlike m m' := by
  obtain ⟨os, os1, u, rfl, rfl, e1⟩ := h
  obtain ⟨os', os1', u', rfl, rfl, e2⟩ := h'
  cases hr with
  | ok hr =>
    cases show u = u' from ht rfl
    have tr : ∀ a b c, SameAnswer a b → SameAnswer b c → SameAnswer a c := fun _ _ _ => SameAnswer.trans
    exact ⟨os, os', u, rfl, rfl, Each.trans_of tr e1 (Each.trans_of tr hr (Each.symm_of (Q := SameAnswer) (fun _ _ => SameAnswer.symm) e2))⟩

end

/-- What a history of client code asks for, by a keystream of blocks `ks`, of which the first `M` may be used, from block `n` on: client code that gets its blocks one after the
other, and asks for the same however many blocks a group has. -/
inductive Asking {bs : Nat} {χ : Type} (ks : Nat → Vector U8 bs) (M : Nat) : Nat → List (χ × ClientOp bs) → List Asked → Prop
  | nil (n : Nat) : Asking ks M n [] []
  | run (x : χ) {α : Type} (f : Closure bs α) (out : α → List (List U8)) {n n' : Nat} {l : List ChaCha.Isa.Req}
      (hf : ∀ par, 1 ≤ par → ∃ a, (f par).logged.ref ks par n = .ok ((a, l), n')) (hn : n' ≤ M)
      {h : List (χ × ClientOp bs)} {qs : List Asked} (hh : Asking ks M n' h qs) : Asking ks M n ((x, .run f out) :: h) (.run l :: qs)
  | remaining (x : χ) {n : Nat} {h : List (χ × ClientOp bs)} {qs : List Asked} (hh : Asking ks M n h qs) : Asking ks M n ((x, .remaining) :: h) (.remaining :: qs)
  | getPos (x : χ) {n : Nat} {h : List (χ × ClientOp bs)} {qs : List Asked} (hh : Asking ks M n h qs) : Asking ks M n ((x, .getPos) :: h) (.getPos :: qs)
  | setPos (x : χ) {n : Nat} (b : Nat) (hb : b ≤ M) {h : List (χ × ClientOp bs)} {qs : List Asked} (hh : Asking ks M b h qs) :
      Asking ks M n ((x, .setPos b) :: h) (.setPos b :: qs)

theorem Asking.map {bs : Nat} {χ χ' : Type} {ks : Nat → Vector U8 bs} {M n : Nat} {h : List (χ × ClientOp bs)} {qs : List Asked} (hp : Asking ks M n h qs) (e : χ → χ') :
    Asking ks M n (h.map fun c => (e c.1, c.2)) qs := by
  induction hp with
  | nil n => exact .nil n
  | run x f out hf hn _ ih => exact .run _ f out hf hn ih
  | remaining x _ ih => exact .remaining _ ih
  | getPos x _ ih => exact .getPos _ ih
  | setPos x b hb _ ih => exact .setPos _ b hb ih

theorem Asking.asked {bs : Nat} {χ : Type} {C : SeekCore bs χ} {u : Nat} {ks : Nat → Vector U8 bs} {Rel : C.σ → Nat → Prop} {M : Nat} (law : SeekLaw C u ks Rel M)
    {n : Nat} {h : List (χ × ClientOp bs)} {qs : List Asked} (hp : Asking ks M n h qs) {s : C.σ} (hs : Rel s n) : C.asked h s = .ok qs := by
  induction hp generalizing s with
  | nil n => rfl
  | run x f out hf hn' _ ih =>
    obtain ⟨par, h1, h2⟩ := law.process x s _ hs
    obtain ⟨a, ha⟩ := hf par h1
    obtain ⟨t, h3, h4⟩ := h2 _ (fun n => (f n).logged) _ _ ha (fun _ e => by cases e; exact hn')
    simp only [SeekCore.asked, SeekCore.asks, h3, bind, Except.bind, pure, Except.pure, ih h4]
  | remaining x _ ih => simp only [SeekCore.asked, SeekCore.asks, bind, Except.bind, pure, Except.pure, ih hs]
  | getPos x _ ih => simp only [SeekCore.asked, SeekCore.asks, bind, Except.bind, pure, Except.pure, ih hs]
  | setPos x b hb _ ih => simp only [SeekCore.asked, SeekCore.asks, bind, Except.bind, pure, Except.pure, ih (law.setPos s _ b hs hb)]

open Rust
open Verif.ChaCha (Config.Features)
open Verif.ChaCha.Config (detect)

/-- **C99**, to ask is to run: the requests of a history of any client code are those of a run of it, which panics if and only if it panics, for the same reason. -/
theorem C99_asked (tgt : Target) (ht : 16 ≤ tgt.bits) (c : SeekText) (h : List (Circumstances × ClientOp 64)) :
    (c.asked tgt h).map (fun _ => ()) = (c.clients tgt h).map fun _ => () := by
  obtain ⟨f, s, H, h1, h2⟩ := c.faithful ht
  have e := c.asked_eq ht h h1
  rw [← SeekText.clientLife_erase ht c h, e]
  cases ha : ((c.cipher tgt.mode).core tgt.bits).asked (h.map fun e => (e.1.env, e.2)) s with
  | error p => rw [show (c.clientLife tgt h).1 = .error p from H.clientLife_panics (c.follows tgt) h2 h ha]; rfl
  | ok l =>
    obtain ⟨os, os', u, e1, -, -⟩ := H.clientLife_asked (c.follows tgt) h2 h ha
    rw [show c.clientLife tgt h = _ from e1]
    rfl

/-- **C99**.  All that is seen of a history of any client code, whatever it does with the blocks and whatever it makes of them next, is what is seen of the list of its requests:
if the history has made the requests `l`, then it returns with the same record, and the same answers about positions, as client code that makes these requests and looks at nothing. -/
theorem C99_requests (tgt : Target) (ht : 16 ≤ tgt.bits) (c : SeekText) (h : List (Circumstances × ClientOp 64)) (l : List Asked) (ha : c.asked tgt h = .ok l) :
    ∃ os os' u, c.clientLife tgt h = (.ok os, u) ∧ c.clientLife tgt (askedIn h l) = (.ok os', u) ∧ Each SameAnswer os os' := by
  obtain ⟨f, s, H, h1, h2⟩ := c.faithful ht
  exact H.clientLife_asked (c.follows tgt) h2 h ((c.asked_eq ht h h1).symm.trans ha)

/-- **C99**, two ciphers: histories of any two pieces of client code, with results of any types, on cores of one type with any two keys and nonces in the same circumstances, that
have made the same requests, have the same conditions, places and instructions, and the same answers about positions. -/
theorem C99_blind (tgt : Target) (ht : 16 ≤ tgt.bits) (c c' : SeekText) (hc : c.SameType c') (h h' : List (Circumstances × ClientOp 64)) (hx : h.map (·.1) = h'.map (·.1))
    (l : List Asked) (ha : c.asked tgt h = .ok l) (ha' : c'.asked tgt h' = .ok l) :
    ∃ os os' u, c.clientLife tgt h = (.ok os, u) ∧ c'.clientLife tgt h' = (.ok os', u) ∧ Each SameAnswer os os' := by
  obtain ⟨hr, hs⟩ := C98_blind tgt ht c c' hc (askedIn h l) (askedIn h' l) (askedIn_same h h' hx l)
  exact SeenAlike.join (C99_requests tgt ht c h l ha) (C99_requests tgt ht c' h' l ha') hr hs

/-- **C99**, the keystream: what client code asks for is told by the published keystream; and so all that is seen of it is told by what it makes of the blocks of that. -/
theorem C99_keystream (tgt : Target) (ht : 16 ≤ tgt.bits) (c : SeekText) (h : List (Circumstances × ClientOp 64)) (l : List Asked)
    (hp : Asking (c.cipher tgt.mode).block (c.cipher tgt.mode).blocks 0 h l) :
    c.asked tgt h = .ok l ∧ (c.clientLife tgt h).2 = (c.clientLife tgt (askedIn h l)).2 := by
  obtain ⟨Rel, law, s₀, h1, h2⟩ := (c.cipher tgt.mode).law tgt.bits
  have ha : c.asked tgt h = .ok l := (c.asked_eq ht h h1).trans ((hp.map Circumstances.env).asked law h2)
  obtain ⟨_, _, _, e1, e2, -⟩ := C99_requests tgt ht c h l ha
  exact ⟨ha, (congrArg Prod.snd e1).trans (congrArg Prod.snd e2).symm⟩

/-- **C99**, the instructions: of any client code at all, every instruction executed belongs to a feature of the processor, except the one recorded in C48. -/
theorem C99_instructions (cpu : Config.Features) (hl : ChaCha.Isa.Lawful cpu) (tgt : Target) (ht : 16 ≤ tgt.bits) (c : SeekText) (h : List (Circumstances × ClientOp 64))
    (hc : ∀ e ∈ h, e.1.detected = detect cpu ∧ TextRuns e.1.build cpu) (hok : (c.clients tgt h).isOk) (s : String)
    (hs : Event.instr s ∈ (c.clientLife tgt h).2) : Spec.Isa.Has (featureNames cpu) s ∨ s = "_mm_extract_epi32" ∧ c.wide = true ∧ cpu.sse41 = false := by
  have h1 := C99_asked tgt ht c h
  cases ha : c.asked tgt h with
  | error p =>
    rw [ha] at h1
    cases h2 : c.clients tgt h with
    | error p => rw [h2] at hok; cases hok
    | ok os => rw [h2] at h1; exact nomatch h1
  | ok l =>
    obtain ⟨os, os', u, e1, e2, -⟩ := C99_requests tgt ht c h l ha
    refine C98_instructions cpu hl tgt ht c (askedIn h l) (askedIn_same h h rfl l) (fun e he => ?_) (by rw [e2]; rfl) s (by rw [e2]; rw [e1] at hs; exact hs)
    obtain ⟨e', h3, h4⟩ := askedIn_mem he
    exact h4 ▸ hc e' h3

theorem plain_asked {bs : Nat} {C T : Core bs Unit} {S : SeenCore bs Unit} {f : C.σ → T.σ} {g : C.σ → S.σ} (H : CoreHom C T id f) (F : Faithful C.still S id g) (W : S.Follows)
    {n : Except Panic T.σ} {m : Tr S.σ} {s : C.σ} (hn : n = .ok (f s)) (hm : m.1 = .ok (g s)) (h : List (Unit × ClientOp bs)) {l : List Asked}
    (ha : n >>= T.still.asked h = .ok l) : ∃ os os' u, S.clientLife m h = (.ok os, u) ∧ S.clientLife m (askedIn h l) = (.ok os', u) ∧ Each SameAnswer os os' := by
  have H' : SeekHom C.still T.still id f := { H with ctrBits := rfl, getPos := fun _ => rfl, setPos := fun _ _ => rfl }
  subst hn
  exact F.clientLife_asked W hm h ((H'.asked h s).symm.trans ha)

/-- **C99**, Rabbit: the same for its two cores, with any two keys and initialisation vectors. -/
theorem C99_rabbit (tgt : Target) (ht : 16 ≤ tgt.bits) (key key' : Vector U8 16) (iv iv' : Vector U8 8) (h h' : List (Unit × ClientOp 16)) (hx : h.map (·.1) = h'.map (·.1))
    (l : List Asked) :
    let a (key : Vector U8 16) h := (Rust.Rabbit.seenKeyOnly tgt).clientLife (Rust.Rabbit.RabbitKeyOnlyCore.new_tr tgt key.toList) h
    let b (key : Vector U8 16) (iv : Vector U8 8) h := (Rust.Rabbit.seenCore tgt).clientLife (do
      Rust.Rabbit.RabbitCore.inner_iv_init_tr tgt (← Rust.Rabbit.RabbitKeyOnlyCore.new_tr tgt key.toList) iv.toList) h
    let p (key : Vector U8 16) h := Rust.Rabbit.RabbitKeyOnlyCore.new tgt key.toList >>= (Rust.Rabbit.keyOnlyCore tgt).still.asked h
    let q (key : Vector U8 16) (iv : Vector U8 8) h := (Rust.Rabbit.RabbitKeyOnlyCore.new tgt key.toList >>= fun k => Rust.Rabbit.RabbitCore.inner_iv_init tgt k iv.toList) >>=
      (Rust.Rabbit.core tgt).still.asked h
    (p key h = .ok l → p key' h' = .ok l → ∃ os os' u, a key h = (.ok os, u) ∧ a key' h' = (.ok os', u) ∧ Each SameAnswer os os') ∧
    (q key iv h = .ok l → q key' iv' h' = .ok l → ∃ os os' u, b key iv h = (.ok os, u) ∧ b key' iv' h' = (.ok os', u) ∧ Each SameAnswer os os') := by
  dsimp only
  obtain ⟨⟨r1, r2⟩, r3, r4⟩ := C98_rabbit tgt ht key key' iv iv' (askedIn h l) (askedIn h' l) (askedIn_same h h' hx l)
  have n1 := fun key => (Rust.Rabbit.RabbitKeyOnlyCore_new_erase (tgt := tgt) _).symm.trans (Rust.Rabbit.newKeyOnly_ok ht key)
  have n2 : ∀ (key : Vector U8 16) (iv : Vector U8 8), (Rust.Rabbit.RabbitKeyOnlyCore.new tgt key.toList >>= fun k => Rust.Rabbit.RabbitCore.inner_iv_init tgt k iv.toList) = _ := fun key iv => by
    rw [n1 key, ok_bind, Rust.Rabbit.inner_iv_init_eq iv, Verif.Rabbit.setupIv_eq]
  exact ⟨fun h1 h2 => SeenAlike.join (plain_asked Rust.Rabbit.hom_keyOnly Rust.Rabbit.faithful_keyOnly (Rust.Rabbit.follows_keyOnly tgt) (n1 key) (Rust.Rabbit.newKeyOnly_ok ht key) h h1)
      (plain_asked Rust.Rabbit.hom_keyOnly Rust.Rabbit.faithful_keyOnly (Rust.Rabbit.follows_keyOnly tgt) (n1 key') (Rust.Rabbit.newKeyOnly_ok ht key') h' h2) r1 r2,
    fun h1 h2 => SeenAlike.join (plain_asked Rust.Rabbit.hom Rust.Rabbit.faithful (Rust.Rabbit.follows tgt) (n2 key iv) (Rust.Rabbit.newIv_ok ht key iv) h h1)
      (plain_asked Rust.Rabbit.hom Rust.Rabbit.faithful (Rust.Rabbit.follows tgt) (n2 key' iv') (Rust.Rabbit.newIv_ok ht key' iv') h' h2) r3 r4⟩

/-- **C99**, HC-256: the same for one key and initialisation vector and any two pieces of client code that have made the same requests. -/
theorem C99_hc256 (tgt : Target) (ht : 16 ≤ tgt.bits) (key iv : Vector U8 32) (h h' : List (Unit × ClientOp 4)) (hx : h.map (·.1) = h'.map (·.1)) (l : List Asked) :
    let a h := (Rust.Hc256.seenCore tgt).clientLife (Rust.Hc256.Hc256Core.new_tr tgt key.toList iv.toList) h
    let p h := Rust.Hc256.Hc256Core.new tgt key.toList iv.toList >>= (Rust.Hc256.core tgt).still.asked h
    p h = .ok l → p h' = .ok l → ∃ os os' u, a h = (.ok os, u) ∧ a h' = (.ok os', u) ∧ Each SameAnswer os os' := by
  dsimp only
  intro h1 h2
  obtain ⟨s, e1, -, e2⟩ := Rust.Hc256.new_ok ht key iv
  have n1 : Rust.Hc256.Hc256Core.new tgt key.toList iv.toList = .ok (Rust.Hc256.repr s) := (Rust.Hc256.new_eq ht key iv).trans (by rw [e1]; rfl)
  obtain ⟨r1, r2⟩ := C98_hc256 tgt ht key iv (askedIn h l) (askedIn h' l) (askedIn_same h h' hx l)
  exact SeenAlike.join (plain_asked (Rust.Hc256.hom ht) (Rust.Hc256.faithful ht) (Rust.Hc256.follows tgt) n1 e2 h h1)
    (plain_asked (Rust.Hc256.hom ht) (Rust.Hc256.faithful ht) (Rust.Hc256.follows tgt) n1 e2 h' h2) r1 r2

/-- Client code that asks for a block, and for another if the first byte of the first says so. -/
def Sample.adapt {bs : Nat} (again : U8 → Bool) : Closure bs (List U8) := fun _ =>
  .block fun b => if again (b.toList.headD 0) then .block fun b' => .done (b.toList.take 1 ++ b'.toList.take 2) else .done (b.toList.take 1)

/-- It may make other requests on another key.  If it makes the same, nothing tells the keys apart, though the two look at their blocks differently. -/
example (key key' : Vector U8 32) (nonce nonce' : Vector U8 12) (x : Circumstances) (b : Nat) (again again' : U8 → Bool) (l : List Asked)
    (h : (SeekText.chacha Rust.ChaCha.R8 key nonce).asked ⟨.release, 64⟩ [(x, .setPos b), (x, .run (Sample.adapt again) fun l => [l])] = .ok l)
    (h' : (SeekText.chacha Rust.ChaCha.R8 key' nonce').asked ⟨.release, 64⟩ [(x, .setPos b), (x, .run (Sample.adapt again') fun l => [l])] = .ok l) :
    ((SeekText.chacha Rust.ChaCha.R8 key nonce).clientLife ⟨.release, 64⟩ [(x, .setPos b), (x, .run (Sample.adapt again) fun l => [l])]).2 =
      ((SeekText.chacha Rust.ChaCha.R8 key' nonce').clientLife ⟨.release, 64⟩ [(x, .setPos b), (x, .run (Sample.adapt again') fun l => [l])]).2 := by
  obtain ⟨_, _, _, h1, h2, -⟩ := C99_blind ⟨.release, 64⟩ (by decide) _ _ (.chacha Rust.ChaCha.R8 key key' nonce nonce')
    [(x, .setPos b), (x, .run (Sample.adapt again) fun l => [l])] [(x, .setPos b), (x, .run (Sample.adapt again') fun l => [l])] rfl l h h'
  exact (congrArg Prod.snd h1).trans (congrArg Prod.snd h2).symm

theorem Sample.adapt_ref {bs : Nat} (ks : Nat → Vector U8 bs) (again : U8 → Bool) (n par : Nat) (_ : 1 ≤ par) : ∃ a, (Sample.adapt again par).logged.ref ks par n =
    .ok ((a, if again ((ks n).toList.headD 0) then [.block, .block] else [.block]), if again ((ks n).toList.headD 0) then n + 2 else n + 1) := by
  cases h : again ((ks n).toList.headD 0) with
  | true => exact ⟨(ks n).toList.take 1 ++ (ks (n + 1)).toList.take 2, by
      simp only [Sample.adapt, Prog.logged, Prog.map, Prog.ref, h, ↓reduceIte]⟩
  | false => exact ⟨(ks n).toList.take 1, by
      simp only [Sample.adapt, Prog.logged, Prog.map, Prog.ref, h, ↓reduceIte, Bool.false_eq_true]⟩

/-- What it asks of XSalsa20 is told by the first byte of the published block, and one or two requests are all that is seen of it. -/
example (key : Vector U8 32) (nonce : Vector U8 24) (x : Circumstances) (again : U8 → Bool) :
    let q : List ChaCha.Isa.Req := if again ((Spec.Salsa.xBlock 10 key nonce 0).toList.headD 0) then [.block, .block] else [.block]
    ((SeekText.xsalsa U10 key nonce).clientLife ⟨.debug, 64⟩ [(x, .run (Sample.adapt again) fun l => [l])]).2 =
      ((SeekText.xsalsa U10 key nonce).clientLife ⟨.debug, 64⟩ [(x, .run (fun _ => Prog.ofReqs q) fun _ => [])]).2 :=
  (C99_keystream ⟨.debug, 64⟩ (by decide) (.xsalsa U10 key nonce) _ _
    (.run x (Sample.adapt again) (fun l => [l]) (Sample.adapt_ref _ again 0) (by split <;> exact show _ ≤ 2 ^ 64 - 1 by decide) (.nil _))).2

/-- Where client code panics, so does the asking. -/
example (key : Vector U8 32) (nonce : Vector U8 8) (x : Circumstances) :
    ((SeekText.salsa U10 key nonce).asked ⟨.release, 64⟩ [(x, .run (fun par => .tail par fun l => .done (l.map (·.toList))) id)]).map (fun _ => ()) = .error .assertion := by
  rw [C99_asked ⟨.release, 64⟩ (by decide)]
  obtain ⟨s, -, h⟩ := C98_machine ⟨.release, 64⟩ (by decide) (.salsa U10 key nonce) [(x, .run (fun par => .tail par fun l => .done (l.map (·.toList))) id)]
  rw [h]
  rfl

/-- Of any client code that adapts, on a processor with SSE4.1: no instruction it lacks is executed. -/
example (cpu : Config.Features) (hl : ChaCha.Isa.Lawful cpu) (h41 : cpu.sse41 = true) (key : Vector U8 32) (nonce : Vector U8 8) (x : Circumstances) (hx : x.detected = detect cpu)
    (hb : TextRuns x.build cpu) (again : U8 → Bool) (hok : ((SeekText.chachaLegacy key nonce).clients ⟨.release, 64⟩ [(x, .run (Sample.adapt again) fun l => [l])]).isOk) (s : String)
    (hs : Event.instr s ∈ ((SeekText.chachaLegacy key nonce).clientLife ⟨.release, 64⟩ [(x, .run (Sample.adapt again) fun l => [l])]).2) : Spec.Isa.Has (featureNames cpu) s := by
  rcases C99_instructions cpu hl ⟨.release, 64⟩ (by decide) (.chachaLegacy key nonce) _ (fun e he => by cases List.mem_singleton.1 he; exact ⟨hx, hb⟩) hok s hs with h | ⟨-, -, h⟩
  · exact h
  · rw [h41] at h; cases h

/-- Rabbit: two adaptive pieces of client code that have both asked for one block. -/
example (key key' : Vector U8 16) (iv : Vector U8 8) (again again' : U8 → Bool)
    (h : Rust.Rabbit.RabbitKeyOnlyCore.new ⟨.debug, 32⟩ key.toList >>= (Rust.Rabbit.keyOnlyCore ⟨.debug, 32⟩).still.asked [((), .run (Sample.adapt again) fun l => [l])] = .ok [.run [.block]])
    (h' : Rust.Rabbit.RabbitKeyOnlyCore.new ⟨.debug, 32⟩ key'.toList >>= (Rust.Rabbit.keyOnlyCore ⟨.debug, 32⟩).still.asked [((), .run (Sample.adapt again') fun l => [l])] = .ok [.run [.block]]) :
    ((Rust.Rabbit.seenKeyOnly ⟨.debug, 32⟩).clientLife (Rust.Rabbit.RabbitKeyOnlyCore.new_tr ⟨.debug, 32⟩ key.toList) [((), .run (Sample.adapt again) fun l => [l])]).2 =
      ((Rust.Rabbit.seenKeyOnly ⟨.debug, 32⟩).clientLife (Rust.Rabbit.RabbitKeyOnlyCore.new_tr ⟨.debug, 32⟩ key'.toList) [((), .run (Sample.adapt again') fun l => [l])]).2 := by
  obtain ⟨_, _, _, h1, h2, -⟩ := (C99_rabbit ⟨.debug, 32⟩ (by decide) key key' iv iv [((), .run (Sample.adapt again) fun l => [l])] [((), .run (Sample.adapt again') fun l => [l])] rfl
    [.run [.block]]).1 h h'
  exact (congrArg Prod.snd h1).trans (congrArg Prod.snd h2).symm

/-- HC-256: the same. -/
example (key iv : Vector U8 32) (again again' : U8 → Bool) (l : List Asked)
    (h : Rust.Hc256.Hc256Core.new ⟨.debug, 32⟩ key.toList iv.toList >>= (Rust.Hc256.core ⟨.debug, 32⟩).still.asked [((), .run (Sample.adapt again) fun l => [l])] = .ok l)
    (h' : Rust.Hc256.Hc256Core.new ⟨.debug, 32⟩ key.toList iv.toList >>= (Rust.Hc256.core ⟨.debug, 32⟩).still.asked [((), .run (Sample.adapt again') fun l => [l])] = .ok l) :
    ((Rust.Hc256.seenCore ⟨.debug, 32⟩).clientLife (Rust.Hc256.Hc256Core.new_tr ⟨.debug, 32⟩ key.toList iv.toList) [((), .run (Sample.adapt again) fun l => [l])]).2 =
      ((Rust.Hc256.seenCore ⟨.debug, 32⟩).clientLife (Rust.Hc256.Hc256Core.new_tr ⟨.debug, 32⟩ key.toList iv.toList) [((), .run (Sample.adapt again') fun l => [l])]).2 := by
  obtain ⟨_, _, _, h1, h2, -⟩ := C99_hc256 ⟨.debug, 32⟩ (by decide) key iv [((), .run (Sample.adapt again) fun l => [l])] [((), .run (Sample.adapt again') fun l => [l])] rfl l h h'
  exact (congrArg Prod.snd h1).trans (congrArg Prod.snd h2).symm

end Verif
