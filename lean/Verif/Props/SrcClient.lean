import Verif.Proof.Client
import Verif.Props.SrcTracePlain
/-!
# C98: any client code on the cores of the text
-/
namespace Verif

namespace Rust

variable {tgt : Target}

theorem SeekText.clients_eq (ht : 16 ≤ tgt.bits) (c : SeekText) (h : List (Circumstances × ClientOp 64)) {s : ((c.cipher tgt.mode).core tgt.bits).σ}
    (hs : (c.cipher tgt.mode).create tgt.bits = .ok (Wrapper.fromCore s)) :
    c.clients tgt h = (((c.cipher tgt.mode).core tgt.bits).clients (h.map fun e => (e.1.env, e.2)) s).map (·.1) := by
  obtain ⟨f, t, H, h1, h2⟩ := c.same ht
  have e : s = t := congrArg Wrapper.core (Except.ok.inj (hs.symm.trans h1))
  subst e
  rw [SeekText.clients, h2, ok_bind, H.clients]
  cases ((c.cipher tgt.mode).core tgt.bits).clients (h.map fun e => (e.1.env, e.2)) s <;> rfl

theorem SeekText.clientLife_erase (ht : 16 ≤ tgt.bits) (c : SeekText) (h : List (Circumstances × ClientOp 64)) : (c.clientLife tgt h).1 = c.clients tgt h := by
  cases c with
  | chacha R key nonce =>
    exact ((ChaCha.faithful_ietf ht R).clientLife ((ChaCha.ChaChaCore_new_erase (R := R) (tgt := tgt) key.toList nonce.toList).trans (ChaCha.new_eq key nonce)) h).trans
      (clients_eq ht (.chacha R key nonce) h (Verif.ChaCha.cipherIetf_eq key nonce)).symm
  | chachaLegacy key nonce =>
    exact ((ChaCha.faithful_legacy ht ChaCha.R20).clientLife ((ChaCha.ChaCha20LegacyCore_new_erase (tgt := tgt) key.toList nonce.toList).trans (ChaCha.newLegacy_eq key nonce)) h).trans
      (clients_eq ht (.chachaLegacy key nonce) h (Verif.ChaCha.cipherLegacy_eq key nonce)).symm
  | xchacha R key nonce =>
    exact ((ChaCha.faithful_x ht R).clientLife ((ChaCha.XChaChaCore_new_erase (R := R) (tgt := tgt) key.toList nonce.toList).trans (ChaCha.newX_created key nonce)) h).trans
      (clients_eq ht (.xchacha R key nonce) h (Verif.ChaCha.cipherX_eq _ key nonce)).symm
  | salsa R key nonce =>
    exact ((Salsa.faithful (tgt := tgt) R).clientLife ((Salsa.SalsaCore_new_erase (R := R) (tgt := tgt) key.toList nonce.toList).trans (Salsa.new_eq ht key nonce)) h).trans
      (clients_eq ht (.salsa R key nonce) h rfl).symm
  | xsalsa R key nonce =>
    exact ((Salsa.faithful_x (tgt := tgt) R).clientLife ((Salsa.XSalsaCore_new_erase (R := R) (tgt := tgt) key.toList nonce.toList).trans (Salsa.newX_eq ht key nonce)) h).trans
      (clients_eq ht (.xsalsa R key nonce) h rfl).symm

/-- All that is shown of two cores of the same type. -/
theorem SeekText.clientLife_same (ht : 16 ≤ tgt.bits) {c c' : SeekText} (hc : c.SameType c') {h h' : List (Circumstances × ClientOp 64)} (hh : SameClients h h') {I : List String}
    (hI : ∀ e ∈ h, ∀ s ∈ c.used e.1, s ∈ I) :
    ExRel (Each SameAnswer) (c.clientLife tgt h).1 (c'.clientLife tgt h').1 ∧ Obl I (fun _ _ => True) (c.clientLife tgt h) (c'.clientLife tgt h') := by
  cases hc with
  | chacha R key key' nonce nonce' =>
    have H := ChaCha.faithful_ietf ht R
    have B := ChaCha.blind_of ChaCha.counts_ietf false (fun _ => ChaCha.is_ietf) H
    have n1 := (ChaCha.ChaChaCore_new_erase (R := R) (tgt := tgt) key.toList nonce.toList).trans (ChaCha.new_eq key nonce)
    have n2 := (ChaCha.ChaChaCore_new_erase (R := R) (tgt := tgt) key'.toList nonce'.toList).trans (ChaCha.new_eq key' nonce')
    exact ⟨H.clientSame (Verif.ChaCha.blind _ _ _) n1 n2 (Verif.ChaCha.ctr_ietf ..) hh, B.clientLife n1 n2 (Verif.ChaCha.ctr_ietf ..)
      ((ChaCha.ChaChaCore_new_obl _ _ (like_toList key key') _ _ (like_toList nonce nonce')).mono fun _ _ _ => trivial) hh hI⟩
  | chachaLegacy key key' nonce nonce' =>
    have H := ChaCha.faithful_legacy ht ChaCha.R20
    have B := ChaCha.blind_of ChaCha.counts_legacy true nofun H
    have n1 := (ChaCha.ChaCha20LegacyCore_new_erase (tgt := tgt) key.toList nonce.toList).trans (ChaCha.newLegacy_eq key nonce)
    have n2 := (ChaCha.ChaCha20LegacyCore_new_erase (tgt := tgt) key'.toList nonce'.toList).trans (ChaCha.newLegacy_eq key' nonce')
    exact ⟨H.clientSame (Verif.ChaCha.blind _ _ _) n1 n2 (Verif.ChaCha.ctr_legacy ..) hh, B.clientLife n1 n2 (Verif.ChaCha.ctr_legacy ..)
      ((ChaCha.ChaCha20LegacyCore_new_obl _ _ (like_toList key key') _ _ (like_toList nonce nonce')).mono fun _ _ _ => trivial) hh hI⟩
  | xchacha R key key' nonce nonce' =>
    have H := ChaCha.faithful_x ht R
    have B := ChaCha.blind_x ht R
    have n1 := (ChaCha.XChaChaCore_new_erase (R := R) (tgt := tgt) key.toList nonce.toList).trans (ChaCha.newX_created key nonce)
    have n2 := (ChaCha.XChaChaCore_new_erase (R := R) (tgt := tgt) key'.toList nonce'.toList).trans (ChaCha.newX_created key' nonce')
    exact ⟨H.clientSame (Verif.ChaCha.blind _ _ _) n1 n2 (Verif.ChaCha.ctr_ietf ..) hh, B.clientLife n1 n2 (Verif.ChaCha.ctr_ietf ..)
      ((ChaCha.XChaChaCore_new_obl _ _ (like_toList key key') _ _ (like_toList nonce nonce')).mono fun _ _ _ => trivial) hh hI⟩
  | salsa R key key' nonce nonce' =>
    have H := Salsa.faithful (tgt := tgt) R
    have B := Salsa.blind (tgt := tgt) R
    have n1 := (Salsa.SalsaCore_new_erase (R := R) (tgt := tgt) key.toList nonce.toList).trans (Salsa.new_eq ht key nonce)
    have n2 := (Salsa.SalsaCore_new_erase (R := R) (tgt := tgt) key'.toList nonce'.toList).trans (Salsa.new_eq ht key' nonce')
    exact ⟨H.clientSame (Verif.Salsa.blind _ _ _ _) n1 n2 (Verif.Salsa.ctr_new ..) hh, B.clientLife n1 n2 (Verif.Salsa.ctr_new ..)
      ((Salsa.SalsaCore_new_obl _ _ (like_toList key key') _ _ (like_toList nonce nonce')).mono fun _ _ _ => trivial) hh hI⟩
  | xsalsa R key key' nonce nonce' =>
    have H := Salsa.faithful_x (tgt := tgt) R
    have B := Salsa.blind_x (tgt := tgt) R
    have n1 := (Salsa.XSalsaCore_new_erase (R := R) (tgt := tgt) key.toList nonce.toList).trans (Salsa.newX_eq ht key nonce)
    have n2 := (Salsa.XSalsaCore_new_erase (R := R) (tgt := tgt) key'.toList nonce'.toList).trans (Salsa.newX_eq ht key' nonce')
    exact ⟨H.clientSame (Verif.Salsa.blind _ _ _ _) n1 n2 (Verif.Salsa.ctr_new ..) hh, B.clientLife n1 n2 (Verif.Salsa.ctr_new ..)
      ((Salsa.XSalsaCore_new_obl _ _ (like_toList key key') _ _ (like_toList nonce nonce')).mono fun _ _ _ => trivial) hh hI⟩

theorem Rabbit.blind_still (m : Mode) : SeekBlind (Verif.Rabbit.core m).still (fun _ _ => True) where
  process x := (blind_ofBlock (Verif.Rabbit.genBlock m) (fun _ _ => True) (fun s s' _ => by
    rw [Verif.Rabbit.genBlock_eq, Verif.Rabbit.genBlock_eq]
    exact .ok trivial)).process x
  remaining _ _ _ := rfl
  getPos _ _ _ := rfl
  setPos _ _ _ _ := trivial

theorem ExRel.same {α : Type} {Q : α → α → Prop} (h : ∀ a, Q a a) (r : Except Panic α) : ExRel Q r r := by
  cases r with
  | error p => exact .error p
  | ok a => exact .ok (h a)

theorem Hc256.blind_still (m : Mode) (u : Nat) : SeekBlind (Verif.Hc256.core m u).still (fun s s' => s = s') where
  process x := (blind_ofBlock (Verif.Hc256.genBlock m u) (fun s s' => s = s') (fun s s' h => by
    subst h
    exact ExRel.same (Q := fun (r r' : Vector U8 4 × Verif.Hc256.State) => r.2 = r'.2) (fun _ => rfl) _)).process x
  remaining _ _ _ := rfl
  getPos _ _ _ := rfl
  setPos _ _ _ h := h

/-- Of two lives that return or panic together, the same is seen if they return. -/
theorem seen_of_obl {α β : Type} {Q : α → β → Prop} {I : List String} {m : Tr α} {m' : Tr β} (h : ExRel Q m.1 m'.1) (ho : Obl I (fun _ _ => True) m m')
    (hok : m.1.isOk) : m.2 = m'.2 := by
  cases h2 : m.1 with
  | error p => rw [h2] at hok; cases hok
  | ok a =>
    cases h3 : m'.1 with
    | error p => rw [h2, h3] at h; cases h
    | ok b => exact (ho a b h2 h3).1

end Rust

/-- What client code is given, by a keystream of blocks `ks`, of which the first `M` may be used, from block `n` on, and what it is told about the position: client code that
gets its blocks one after the other, and comes to the same result `a` however many blocks a group has. -/
inductive Published {bs : Nat} {χ : Type} (ks : Nat → Vector U8 bs) (M u : Nat) : Nat → List (χ × ClientOp bs) → List CoreObs → Prop
  | nil (n : Nat) : Published ks M u n [] []
  | run (x : χ) {α : Type} (f : Closure bs α) (out : α → List (List U8)) {n n' : Nat} {a : α} (hf : ∀ par, 1 ≤ par → (f par).ref ks par n = .ok (a, n')) (hn : n' ≤ M)
      {h : List (χ × ClientOp bs)} {os : List CoreObs} (hh : Published ks M u n' h os) : Published ks M u n ((x, .run f out) :: h) (.blocks (out a) :: os)
  | remaining (x : χ) {n : Nat} {h : List (χ × ClientOp bs)} {os : List CoreObs} (hh : Published ks M u n h os) :
      Published ks M u n ((x, .remaining) :: h) (.remaining (if M - n < 2 ^ u then some (M - n) else none) :: os)
  | getPos (x : χ) {n : Nat} {h : List (χ × ClientOp bs)} {os : List CoreObs} (hh : Published ks M u n h os) : Published ks M u n ((x, .getPos) :: h) (.pos n :: os)
  | setPos (x : χ) {n : Nat} (b : Nat) (hb : b ≤ M) {h : List (χ × ClientOp bs)} {os : List CoreObs} (hh : Published ks M u b h os) :
      Published ks M u n ((x, .setPos b) :: h) (.unit :: os)

theorem Published.map {bs : Nat} {χ χ' : Type} {ks : Nat → Vector U8 bs} {M u : Nat} {n : Nat} {h : List (χ × ClientOp bs)} {os : List CoreObs} (hp : Published ks M u n h os)
    (e : χ → χ') : Published ks M u n (h.map fun c => (e c.1, c.2)) os := by
  induction hp with
  | nil n => exact .nil n
  | run x f out hf hn _ ih => exact .run _ f out hf hn ih
  | remaining x _ ih => exact .remaining _ ih
  | getPos x _ ih => exact .getPos _ ih
  | setPos x b hb _ ih => exact .setPos _ b hb ih

theorem Published.clients {bs : Nat} {χ : Type} {C : SeekCore bs χ} {u : Nat} {ks : Nat → Vector U8 bs} {Rel : C.σ → Nat → Prop} {M : Nat} (law : SeekLaw C u ks Rel M)
    {n : Nat} {h : List (χ × ClientOp bs)} {os : List CoreObs} (hp : Published ks M u n h os) (hn : n ≤ M) {s : C.σ} (hs : Rel s n) : ∃ t, C.clients h s = .ok (os, t) := by
  induction hp generalizing s with
  | nil n => exact ⟨s, rfl⟩
  | run x f out hf hn' _ ih =>
    obtain ⟨par, h1, h2⟩ := law.process x s _ hs
    obtain ⟨t, h3, h4⟩ := h2 _ f _ _ (hf par h1) (fun _ e => by cases e; exact hn')
    obtain ⟨t', h5⟩ := ih hn' h4
    refine ⟨t', ?_⟩
    simp only [SeekCore.clients, SeekCore.client, h3, bind, Except.bind, pure, Except.pure, h5]
  | remaining x _ ih =>
    obtain ⟨t', h5⟩ := ih hn hs
    have h6 := law.remaining s _ hs (fun _ e => by cases e; exact hn)
    refine ⟨t', ?_⟩
    simp only [SeekCore.clients, SeekCore.client, bind, Except.bind, pure, Except.pure, h5, h6]
  | getPos x _ ih =>
    obtain ⟨t', h5⟩ := ih hn hs
    refine ⟨t', ?_⟩
    simp only [SeekCore.clients, SeekCore.client, bind, Except.bind, pure, Except.pure, h5, law.getPos s _ hs hn]
  | setPos x b hb _ ih =>
    obtain ⟨t', h5⟩ := ih hb (law.setPos s _ b hs hb)
    refine ⟨t', ?_⟩
    simp only [SeekCore.clients, SeekCore.client, bind, Except.bind, pure, Except.pure, h5]

open Rust
open Verif.ChaCha (Config.Features)
open Verif.ChaCha.Config (detect)

/-- **C98**, the model: a core of the text answers every history of any client code, and of questions about the position, as the core of the model does, panics included. -/
theorem C98_machine (tgt : Target) (ht : 16 ≤ tgt.bits) (c : SeekText) (h : List (Circumstances × ClientOp 64)) :
    ∃ s₀, (c.cipher tgt.mode).create tgt.bits = .ok (Wrapper.fromCore s₀) ∧
      c.clients tgt h = (((c.cipher tgt.mode).core tgt.bits).clients (h.map fun e => (e.1.env, e.2)) s₀).map (·.1) := by
  obtain ⟨-, s, -, h1, -⟩ := c.same ht
  exact ⟨s, h1, SeekText.clients_eq ht c h h1⟩

/-- **C98**, the provided methods of the traits are client code. -/
theorem C98_provided (tgt : Target) (c : SeekText) (h : List (Circumstances × SeekCoreOp 64)) :
    (c.create tgt >>= runCalls (c.core tgt).call h).map (·.1) = c.clients tgt (h.map fun e => (e.1, e.2.client)) := by
  rw [SeekText.clients, show runCalls (c.core tgt).call h = (c.core tgt).clients (h.map fun e => (e.1, e.2.client)) from funext fun s => (c.core tgt).calls_clients h s]

/-- **C98**, the keystream: client code that comes to the same result however many blocks a group has gets the blocks of the published keystream, one after the other from the
position on, and is told the truth about the position, as long as it stays inside the keystream. -/
theorem C98_keystream (tgt : Target) (ht : 16 ≤ tgt.bits) (c : SeekText) (h : List (Circumstances × ClientOp 64)) (os : List CoreObs)
    (hp : Published (c.cipher tgt.mode).block (c.cipher tgt.mode).blocks tgt.bits 0 h os) : c.clients tgt h = .ok os := by
  obtain ⟨Rel, law, s₀, h1, h2⟩ := (c.cipher tgt.mode).law tgt.bits
  obtain ⟨t, h3⟩ := (hp.map Circumstances.env).clients law (Nat.zero_le _) h2
  rw [SeekText.clients_eq ht c h h1, h3]
  rfl

/-- **C98**, the record: without it, the lives of the cores are these. -/
theorem C98_erase (tgt : Target) (ht : 16 ≤ tgt.bits) (c : SeekText) (h : List (Circumstances × ClientOp 64)) : (c.clientLife tgt h).1 = c.clients tgt h :=
  SeekText.clientLife_erase ht c h

/-- **C98**.  Client code can see nothing secret of the text but the blocks it is given: two histories of client code that makes the same requests, on cores of one type with any
two keys and nonces in the same circumstances, both panic for the same reason or both return, with the same answers about positions; and if they return, they have the same
conditions, places and instructions. -/
theorem C98_blind (tgt : Target) (ht : 16 ≤ tgt.bits) (c c' : SeekText) (hc : c.SameType c') (h h' : List (Circumstances × ClientOp 64)) (hh : SameClients h h') :
    ExRel (Each SameAnswer) (c.clientLife tgt h).1 (c'.clientLife tgt h').1 ∧ ((c.clientLife tgt h).1.isOk → (c.clientLife tgt h).2 = (c'.clientLife tgt h').2) := by
  obtain ⟨h1, ho⟩ := SeekText.clientLife_same ht hc hh (I := cipherNames) fun e _ => c.mem_names e.1
  exact ⟨h1, seen_of_obl h1 ho⟩

/-- **C98**, the instructions: if the requests of the client code do not depend on the blocks, every instruction executed belongs to a feature of the processor, except the one
recorded in C48. -/
theorem C98_instructions (cpu : Config.Features) (hl : ChaCha.Isa.Lawful cpu) (tgt : Target) (ht : 16 ≤ tgt.bits) (c : SeekText) (h : List (Circumstances × ClientOp 64))
    (hh : SameClients h h) (hc : ∀ e ∈ h, e.1.detected = detect cpu ∧ TextRuns e.1.build cpu) (hok : (c.clientLife tgt h).1.isOk) (s : String)
    (hs : Event.instr s ∈ (c.clientLife tgt h).2) : Spec.Isa.Has (featureNames cpu) s ∨ s = "_mm_extract_epi32" ∧ c.wide = true ∧ cpu.sse41 = false := by
  obtain ⟨-, ho⟩ := SeekText.clientLife_same ht (.refl c) hh (I := cipherAllowed c.wide cpu) fun e hm => by
    obtain ⟨h1, h2⟩ := hc e hm
    cases c with
    | chacha R => rw [SeekText.used, h1]; exact used_allowed false _ cpu hl h2
    | chachaLegacy => rw [SeekText.used, h1]; exact used_allowed true _ cpu hl h2
    | xchacha R => rw [SeekText.used, h1]; exact used_allowed false _ cpu hl h2
    | salsa R => exact fun _ h => nomatch h
    | xsalsa R => exact fun _ h => nomatch h
  cases h1 : (c.clientLife tgt h).1 with
  | error p => rw [h1] at hok; cases hok
  | ok a => exact of_decide_eq_true (List.mem_filter.1 ((ho a a h1 h1).2.1 _ hs)).2

/-- **C98**, Rabbit: the same for its two cores, with any two keys and initialisation vectors. -/
theorem C98_rabbit (tgt : Target) (ht : 16 ≤ tgt.bits) (key key' : Vector U8 16) (iv iv' : Vector U8 8) (h h' : List (Unit × ClientOp 16)) (hh : SameClients h h') :
    let a (key : Vector U8 16) h := (Rust.Rabbit.seenKeyOnly tgt).clientLife (Rust.Rabbit.RabbitKeyOnlyCore.new_tr tgt key.toList) h
    let b (key : Vector U8 16) (iv : Vector U8 8) h := (Rust.Rabbit.seenCore tgt).clientLife (do
      Rust.Rabbit.RabbitCore.inner_iv_init_tr tgt (← Rust.Rabbit.RabbitKeyOnlyCore.new_tr tgt key.toList) iv.toList) h
    (ExRel (Each SameAnswer) (a key h).1 (a key' h').1 ∧ ((a key h).1.isOk → (a key h).2 = (a key' h').2)) ∧
    (ExRel (Each SameAnswer) (b key iv h).1 (b key' iv' h').1 ∧ ((b key iv h).1.isOk → (b key iv h).2 = (b key' iv' h').2)) := by
  dsimp only
  have h1 := Rust.Rabbit.faithful_keyOnly.clientSame (Rust.Rabbit.blind_still tgt.mode) (Rust.Rabbit.newKeyOnly_ok ht key) (Rust.Rabbit.newKeyOnly_ok ht key') trivial hh
  have h2 := Rust.Rabbit.faithful.clientSame (Rust.Rabbit.blind_still tgt.mode) (Rust.Rabbit.newIv_ok ht key iv) (Rust.Rabbit.newIv_ok ht key' iv') trivial hh
  refine ⟨⟨h1, seen_of_obl h1 (Rust.Rabbit.blind_keyOnly.clientLife (Rust.Rabbit.newKeyOnly_ok ht key) (Rust.Rabbit.newKeyOnly_ok ht key') trivial
      ((Rust.Rabbit.RabbitKeyOnlyCore_new_obl _ _ (like_toList key key')).mono fun _ _ _ => trivial) hh (I := []) fun _ _ _ h => nomatch h)⟩,
    ⟨h2, seen_of_obl h2 (Rust.Rabbit.blind.clientLife (Rust.Rabbit.newIv_ok ht key iv) (Rust.Rabbit.newIv_ok ht key' iv') trivial
      ((Obl.bind (Rust.Rabbit.RabbitKeyOnlyCore_new_obl _ _ (like_toList key key')) fun _ _ hk => Rust.Rabbit.RabbitCore_inner_iv_init_obl _ _ hk _ _ (like_toList iv iv')).mono
        fun _ _ _ => trivial) hh (I := []) fun _ _ _ h => nomatch h)⟩⟩

/-- **C98**, HC-256: the same for one key and initialisation vector and any client code that makes the same requests. -/
theorem C98_hc256 (tgt : Target) (ht : 16 ≤ tgt.bits) (key iv : Vector U8 32) (h h' : List (Unit × ClientOp 4)) (hh : SameClients h h') :
    let a h := (Rust.Hc256.seenCore tgt).clientLife (Rust.Hc256.Hc256Core.new_tr tgt key.toList iv.toList) h
    ExRel (Each SameAnswer) (a h).1 (a h').1 ∧ ((a h).1.isOk → (a h).2 = (a h').2) := by
  dsimp only
  obtain ⟨s, -, h1, h2⟩ := Rust.Hc256.new_ok ht key iv
  have h3 := (Rust.Hc256.faithful ht).clientSame (Rust.Hc256.blind_still tgt.mode tgt.bits) h2 h2 rfl hh
  exact ⟨h3, seen_of_obl h3 ((Rust.Hc256.blind ht).clientLife h2 h2 ⟨rfl, h1⟩ (Rust.Hc256.new_obl ht _ _) hh (I := []) fun _ _ _ h => nomatch h)⟩

/-- Client code that asks for one block, keeps its first byte, and then asks for another if told to. -/
def Sample.peek {bs : Nat} (again : Bool) : Closure bs (List U8) := fun _ =>
  .block fun b => if again then .block fun b' => .done (b.toList.take 1 ++ b'.toList.take 2) else .done (b.toList.take 1)

theorem Sample.peek_ref {bs : Nat} (ks : Nat → Vector U8 bs) (n par : Nat) (_ : 1 ≤ par) :
    (Sample.peek true par).ref ks par n = .ok ((ks n).toList.take 1 ++ (ks (n + 1)).toList.take 2, n + 2) := rfl

/-- It comes to the first bytes of two blocks of the published keystream of XChaCha12, in any circumstances. -/
example (key : Vector U8 32) (nonce : Vector U8 24) (x y : Circumstances) (b : Nat) (hb : b + 2 ≤ 2 ^ 32 - 1) :
    (SeekText.xchacha Rust.ChaCha.R12 key nonce).clients ⟨.debug, 32⟩ [(x, .setPos b), (y, .run (Sample.peek true) fun l => [l]), (x, .getPos)] =
      .ok [.unit, .blocks [(Spec.ChaCha.xBlock 6 key nonce b).toList.take 1 ++ (Spec.ChaCha.xBlock 6 key nonce (b + 1)).toList.take 2], .pos (b + 2)] :=
  C98_keystream ⟨.debug, 32⟩ (by decide) (.xchacha Rust.ChaCha.R12 key nonce) _ _
    (.setPos x b (Nat.le_trans (Nat.le_add_right b 2) hb) (.run y (Sample.peek true) (fun l => [l]) (Sample.peek_ref _ b) hb (.getPos x (.nil _))))

/-- Whatever it does with the blocks, it sees nothing else of the keys. -/
example (key key' : Vector U8 32) (nonce nonce' : Vector U8 8) (x : Circumstances) (again : Bool) (out out' : List U8 → List (List U8)) :
    ExRel (Each SameAnswer) ((SeekText.salsa U10 key nonce).clientLife ⟨.debug, 64⟩ [(x, .run (Sample.peek again) out), (x, .getPos)]).1
      ((SeekText.salsa U10 key' nonce').clientLife ⟨.debug, 64⟩ [(x, .run (Sample.peek again) out'), (x, .getPos)]).1 :=
  (C98_blind ⟨.debug, 64⟩ (by decide) _ _ (.salsa U10 key key' nonce nonce') _ _
    (.cons x (.run (Sample.peek again) (Sample.peek again) out out' fun _ => .block fun b b' => by
      cases again with
      | true => exact .block fun c c' => .done _ _
      | false => exact .done _ _) (.cons x .getPos .nil))).1

/-- What client code asks for can be seen: the hypothesis is needed. -/
example : let t (again : Bool) := ((SeekText.salsa U10 (Sample.bytes 32 0) (Sample.bytes 8 1)).clientLife ⟨.release, 64⟩ [(Sample.portable, .run (Sample.peek again) fun l => [l])]).2
    t true ≠ t false := fun h => absurd (congrArg List.length h) (by decide +kernel)

/-- A write of a block by the provided method, on the text of the legacy ChaCha20, is client code that gets the block at the position. -/
example (key : Vector U8 32) (nonce : Vector U8 8) (x : Circumstances) :
    ((SeekText.chachaLegacy key nonce).create ⟨.release, 64⟩ >>= runCalls ((SeekText.chachaLegacy key nonce).core ⟨.release, 64⟩).call [(x, .setPos 7), (x, .io .writeBlock)]).map (·.1) =
      .ok [.unit, .blocks [(Spec.ChaCha.djbBlock 10 key nonce 7).toList]] :=
  (C98_provided ⟨.release, 64⟩ (.chachaLegacy key nonce) _).trans (C98_keystream ⟨.release, 64⟩ (by decide) (.chachaLegacy key nonce) _ _
    (.setPos x 7 (show 7 ≤ 2 ^ 64 - 1 by decide) (.run x (writeBlockClosure 64) (fun b => [b.toList]) (n' := 8) (a := Spec.ChaCha.djbBlock 10 key nonce 7) (fun _ _ => rfl) (show 8 ≤ 2 ^ 64 - 1 by decide) (.nil _))))

/-- Client code that asks for a tail of as many blocks as a group has: the model, and so the text, panics. -/
example (key : Vector U8 32) (nonce : Vector U8 8) (x : Circumstances) :
    (SeekText.salsa U10 key nonce).clients ⟨.release, 64⟩ [(x, .run (fun par => .tail par fun l => .done (l.map (·.toList))) id)] = .error .assertion := by
  obtain ⟨s, -, h⟩ := C98_machine ⟨.release, 64⟩ (by decide) (.salsa U10 key nonce) [(x, .run (fun par => .tail par fun l => .done (l.map (·.toList))) id)]
  exact h.trans rfl

/-- Rabbit and HC-256. -/
example (key key' : Vector U8 16) (iv iv' : Vector U8 32) (out out' : List U8 → List (List U8)) :
    ExRel (Each SameAnswer) ((Rust.Rabbit.seenKeyOnly ⟨.debug, 32⟩).clientLife (Rust.Rabbit.RabbitKeyOnlyCore.new_tr ⟨.debug, 32⟩ key.toList) [((), .run (Sample.peek true) out)]).1
      ((Rust.Rabbit.seenKeyOnly ⟨.debug, 32⟩).clientLife (Rust.Rabbit.RabbitKeyOnlyCore.new_tr ⟨.debug, 32⟩ key'.toList) [((), .run (Sample.peek true) out')]).1 ∧
    ExRel (Each SameAnswer) ((Rust.Hc256.seenCore ⟨.debug, 32⟩).clientLife (Rust.Hc256.Hc256Core.new_tr ⟨.debug, 32⟩ iv.toList iv'.toList) [((), .run (Sample.peek true) out)]).1
      ((Rust.Hc256.seenCore ⟨.debug, 32⟩).clientLife (Rust.Hc256.Hc256Core.new_tr ⟨.debug, 32⟩ iv.toList iv'.toList) [((), .run (Sample.peek true) out')]).1 :=
  ⟨(C98_rabbit ⟨.debug, 32⟩ (by decide) key key' (Vector.replicate 8 0) (Vector.replicate 8 0) _ _
      (.cons () (.run (Sample.peek true) (Sample.peek true) out out' fun _ => .block fun _ _ => .block fun _ _ => .done _ _) .nil)).1.1,
    (C98_hc256 ⟨.debug, 32⟩ (by decide) iv iv' _ _
      (.cons () (.run (Sample.peek true) (Sample.peek true) out out' fun _ => .block fun _ _ => .block fun _ _ => .done _ _) .nil)).1⟩

end Verif
