import Verif.Proof.Follow
/-!
# More requests are seen as more

The record of every request is not empty, and what the text records after client code is as long whatever that has asked for: so the record of more requests is longer.
-/
namespace Verif
open ChaCha.Isa (Req)

namespace Rust

theorem Tr.bind_length {α β : Type} {m : Tr α} {k : α → Tr β} {a : α} {t : List Event} (h : m = (.ok a, t)) : (m >>= k).2.length = t.length + (k a).2.length := by
  subst h
  exact List.length_append ..

theorem Tr.le_bind {α β : Type} (m : Tr α) (k : α → Tr β) : m.2.length ≤ (m >>= k).2.length := by
  obtain ⟨r, t⟩ := m
  cases r with
  | error p => exact Nat.le_refl _
  | ok a => exact (Tr.bind_length (k := k) (rfl : ((.ok a, t) : Tr α) = _)).symm ▸ Nat.le_add_right _ _

/-- If text returns, something is seen of it. -/
def Visible {α : Type} (m : Tr α) : Prop := ∀ a, m.1 = .ok a → 0 < m.2.length

theorem Visible.bind {α β : Type} {m : Tr α} {k : α → Tr β} (h : Visible m) : Visible (m >>= k) := fun b hb => by
  obtain ⟨a, h1, h2⟩ := Tr.bind_ok hb
  exact Nat.lt_of_lt_of_le (h a (congrArg Prod.fst h1)) (Tr.le_bind m k)

theorem Visible.next {α β : Type} {m : Tr α} {k : α → Tr β} (h : ∀ a, Visible (k a)) : Visible (m >>= k) := fun b hb => by
  obtain ⟨a, h1, h2⟩ := Tr.bind_ok hb
  rw [Tr.bind_length h1]
  exact Nat.lt_of_lt_of_le (h a b h2) (Nat.le_add_left _ _)

theorem Visible.see {α : Type} (e : Event) (m : Except Panic α) : Visible (Tr.see e m) := fun _ _ => Nat.one_pos

section
variable {bs : Nat} {σ : Type} {run : (α : Type) → Prog bs α → σ → Tr (α × σ)}

theorem IsRun.append (R : IsRun run) (l l' : List Req) (s : σ) : run Unit (Prog.ofReqs (l ++ l')) s = run Unit (Prog.ofReqs l) s >>= fun r => run Unit (Prog.ofReqs l') r.2 := by
  induction l generalizing s with
  | nil => rw [List.nil_append, Prog.ofReqs, R.done, pure_bind]
  | cons q l ih =>
    cases q with
    | block =>
      obtain ⟨B, hB⟩ := R.block
      rw [List.cons_append, Prog.ofReqs, Prog.ofReqs, hB, hB, bind_assoc]
      exact congrArg _ (funext fun r => ih _)
    | par =>
      obtain ⟨B, hB⟩ := R.par
      rw [List.cons_append, Prog.ofReqs, Prog.ofReqs, hB, hB, bind_assoc]
      exact congrArg _ (funext fun r => ih _)
    | tail n =>
      obtain ⟨B, hB⟩ := R.tail
      rw [List.cons_append, Prog.ofReqs, Prog.ofReqs, hB, hB, bind_assoc]
      exact congrArg _ (funext fun r => ih _)

/-- Of every request that is answered something is seen. -/
def Busy (run : (α : Type) → Prog bs α → σ → Tr (α × σ)) : Prop := ∀ (q : Req) (s : σ), Visible (run Unit (Prog.ofReqs [q]) s)

theorem IsRun.longer (R : IsRun run) (hb : Busy run) (l : List Req) (q : Req) (l' : List Req) {s : σ} {r r' : Unit × σ} {t : List Event}
    (h : run Unit (Prog.ofReqs l) s = (.ok r, t)) (h' : (run Unit (Prog.ofReqs (l ++ q :: l')) s).1 = .ok r') : t.length < (run Unit (Prog.ofReqs (l ++ q :: l')) s).2.length := by
  rw [show q :: l' = [q] ++ l' from rfl, R.append] at h' ⊢
  obtain ⟨a, h1, h2⟩ := Tr.bind_ok h'
  have e : r = a := Except.ok.inj (congrArg Prod.fst (h.symm.trans h1))
  subst e
  rw [R.append] at h2
  rw [Tr.bind_length h, R.append]
  exact Nat.lt_add_of_pos_right ((hb q r.2).bind r' h2)

end

/-- A record of one length. -/
def Steady {β A : Type} (Q : β → Tr A) : Prop := ∃ n, ∀ b a, (Q b).1 = .ok a → (Q b).2.length = n

theorem Steady.pure {β A : Type} (a : β → A) : Steady fun b => (Pure.pure (a b) : Tr A) := ⟨0, fun _ _ _ => rfl⟩

theorem Steady.see {β A : Type} (e : β → Event) (m : β → Except Panic A) : Steady fun b => Tr.see (e b) (m b) := ⟨1, fun _ _ _ => rfl⟩

theorem Steady.lift {β A : Type} (m : β → Except Panic A) : Steady fun b => (liftM (m b) : Tr A) := ⟨0, fun _ _ _ => rfl⟩

theorem Steady.bind {β A B : Type} {m : β → Tr A} {k : β → A → Tr B} (hm : Steady m) (hk : Steady fun x : β × A => k x.1 x.2) : Steady fun b => m b >>= fun a => k b a := by
  obtain ⟨n, hn⟩ := hm
  obtain ⟨n', hn'⟩ := hk
  refine ⟨n + n', fun b c h => ?_⟩
  obtain ⟨a, h1, h2⟩ := Tr.bind_ok h
  dsimp only
  rw [Tr.bind_length h1, hn b a (congrArg Prod.fst h1), hn' (b, a) c h2]

theorem Steady.branch {β B : Type} (c : Bool) {k : β → Bool → Tr B} (hk : Steady fun b => k b c) : Steady fun b => Tr.branch c >>= fun r => k b r := by
  obtain ⟨n, hn⟩ := hk
  refine ⟨n + 1, fun b a h => ?_⟩
  exact congrArg (· + 1) (hn b a h)

theorem Steady.ite {β A : Type} (c : Prop) [Decidable c] {P Q : β → Tr A} (hp : Steady P) (hq : Steady Q) : Steady fun b => if c then P b else Q b := by
  by_cases hc : c
  · simpa only [if_pos hc] using hp
  · simpa only [if_neg hc] using hq

theorem Steady.store {β A B : Type} [Mem A] [Reg B] (name : String) (a : β → A) (off : β → Nat) (x : β → B) : Steady fun b => Tr.store name (a b) (off b) (x b) :=
  ⟨2, fun _ _ _ => rfl⟩

/-- Text whose record is longer if client code asks for more. -/
def Lengthens {A : Type} (P : Callee Unit → Tr A) : Prop := ∀ (l : List Req) (q : Req) (l' : List Req) (r r' : A),
  (P (.ready fun _ => Prog.ofReqs l)).1 = .ok r → (P (.ready fun _ => Prog.ofReqs (l ++ q :: l'))).1 = .ok r' →
    (P (.ready fun _ => Prog.ofReqs l)).2.length < (P (.ready fun _ => Prog.ofReqs (l ++ q :: l'))).2.length

theorem Lengthens.post {A B : Type} {P : Callee Unit → Tr A} (hp : Lengthens P) {Q : A → Tr B} (hq : Steady Q) : Lengthens fun f => P f >>= fun r => Q r := by
  obtain ⟨n, hn⟩ := hq
  intro l q l' r r' h h'
  obtain ⟨a, h1, h2⟩ := Tr.bind_ok h
  obtain ⟨a', h1', h2'⟩ := Tr.bind_ok h'
  have := hp l q l' a a' (congrArg Prod.fst h1) (congrArg Prod.fst h1')
  dsimp only
  rw [Tr.bind_length h1, Tr.bind_length h1', hn _ _ h2, hn _ _ h2']
  exact Nat.add_lt_add_right this n

theorem Lengthens.called {τ : Type} [StreamCipherBackend τ] {tgt : Target} (hb : Busy (σ := τ) fun _ p s => runTr tgt p s) (b : τ) :
    Lengthens fun f => StreamCipherClosure.call_tr tgt f b := by
  intro l q l' r r' h h'
  obtain ⟨a, h1, h2⟩ := Tr.bind_ok h
  obtain ⟨a', h1', h2'⟩ := Tr.bind_ok h'
  have h3 := (runTr_isRun tgt).longer hb l q l' h1 (congrArg Prod.fst h1')
  have e : (StreamCipherClosure.call_tr tgt (Callee.ready fun _ => Prog.ofReqs l) b).2.length = _ := Tr.bind_length h1
  dsimp only
  rw [e]
  exact Nat.lt_of_lt_of_le h3 (Tr.le_bind (runTr tgt (Prog.ofReqs (l ++ q :: l')) b) _)

theorem Lengthens.call {τ B : Type} [StreamCipherBackend τ] {tgt : Target} (hb : Busy (σ := τ) fun _ p s => runTr tgt p s) (b : τ) (Q : Unit × Callee Unit × τ → Tr B) (hq : Steady Q) :
    Lengthens fun f => StreamCipherClosure.call_tr tgt f b >>= fun r => Q r := (Lengthens.called hb b).post hq

theorem Lengthens.pre {A B : Type} (m : Tr A) (P : A → Callee Unit → Tr B) (h : ∀ a, Lengthens (P a)) : Lengthens fun f => m >>= fun a => P a f := by
  intro l q l' r r' h1 h1'
  obtain ⟨a, h2, h3⟩ := Tr.bind_ok h1
  obtain ⟨a', h2', h3'⟩ := Tr.bind_ok h1'
  have e : a = a' := Except.ok.inj (congrArg Prod.fst (h2.symm.trans h2'))
  subst e
  dsimp only
  rw [Tr.bind_length h2, Tr.bind_length h2]
  exact Nat.add_lt_add_left (h a l q l' r r' h3 h3') _

theorem Lengthens.ite {A : Type} (c : Prop) [Decidable c] (P Q : Callee Unit → Tr A) (hp : Lengthens P) (hq : Lengthens Q) : Lengthens fun f => if c then P f else Q f := by
  by_cases hc : c
  · simpa only [if_pos hc] using hp
  · simpa only [if_neg hc] using hq

theorem steady_returned {σ : Type} : Steady (β := Unit × σ × Callee Unit) returned := by
  refine ⟨0, fun r a h => ?_⟩
  obtain ⟨_, s, f⟩ := r
  cases f with
  | ready f => exact nomatch h
  | done u => rfl

/-- Of the rest of the text: its record has one length. -/
macro "steady" : tactic => `(tactic| repeat' first
  | exact Steady.pure _
  | exact Steady.see _ _
  | exact Steady.lift _
  | exact Steady.store _ _ _ _
  | with_reducible refine Steady.branch _ ?_
  | with_reducible refine Steady.ite _ ?_ ?_
  | with_reducible refine Steady.bind ?_ ?_
  | dsimp only)

/-- Of text that calls client code: more requests are seen as more. -/
macro "counts" h:term : tactic => `(tactic| repeat' first
  | ((with_reducible refine Lengthens.call $h _ _ ?_); steady; done)
  | with_reducible refine Lengthens.ite _ _ _ ?_ ?_
  | (with_reducible refine Lengthens.pre _ _ fun _ => ?_)
  | dsimp only)

theorem busy_run {τ : Type} [StreamCipherBackend τ] {tgt : Target} (h1 : ∀ (s : τ) b, Visible (StreamCipherBackend.gen_ks_block_tr tgt s b))
    (h2 : ∀ (s : τ) b, Visible (StreamCipherBackend.gen_par_ks_blocks_tr tgt s b)) (h3 : ∀ (s : τ) b, Visible (StreamCipherBackend.gen_tail_blocks_tr tgt s b)) :
    Busy (σ := τ) fun _ p s => runTr tgt p s := fun q s => by
  cases q with
  | block => exact (h1 _ _).bind
  | par => exact (h2 _ _).bind
  | tail n => exact (h3 _ _).bind

theorem shows_provided {σ : Type} (n : Nat) (gen : σ → List U8 → Tr (Unit × σ × List U8)) (s : σ) (l : List (List U8)) : Visible (providedTail_tr n gen s l) :=
  (Visible.see _ _).bind

theorem busy_block {n : Nat} {τ : Type} [BlockBackend n τ] {tgt : Target} (h : ∀ (s : τ) b, Visible (BlockBackend.gen_ks_block_tr n tgt s b)) :
    Busy (bs := n) (σ := τ) fun _ p s => runBlockTr n tgt p s := fun q s => by
  cases q with
  | block => exact (h _ _).bind
  | par => exact (Visible.see _ _).bind
  | tail n => exact (shows_provided _ _ _ _).bind

/-- Of text that begins with something that is seen. -/
macro "shows" : tactic => `(tactic| repeat' first | exact Visible.see _ _ | exact Visible.bind (Visible.see _ _) | with_reducible refine Visible.next fun _ => ?_ | dsimp only)

namespace ChaCha
variable {tgt : Target} {R V : Type} [Rounds R] [Variant V]

theorem shows_rounds (s : List U32) : Visible (run_rounds_tr (R := R) tgt s) := by
  unfold run_rounds_tr
  shows

theorem sse2.shows_rounds (v : List __m128i) : Visible (sse2.rounds_tr (R := R) (V := V) tgt v) := by
  unfold sse2.rounds_tr
  shows

theorem avx2.shows_rounds (v c : List __m256i) : Visible (avx2.rounds_tr (R := R) tgt v c) := by
  unfold avx2.rounds_tr
  shows

theorem busy_soft : Busy (σ := Backend R V) fun _ p s => runTr tgt p s :=
  busy_run (fun s b => by
      show Visible (Backend.gen_ks_block_tr tgt s b)
      unfold Backend.gen_ks_block_tr
      exact (shows_rounds _).bind)
    (fun _ _ => (Visible.see _ _).bind) fun _ _ => shows_provided _ _ _ _

theorem sse2.busy : Busy (σ := sse2.Backend R V) fun _ p s => runTr tgt p s :=
  busy_run (fun s b => by
      show Visible (sse2.Backend.gen_ks_block_tr tgt s b)
      unfold sse2.Backend.gen_ks_block_tr
      exact (sse2.shows_rounds _).bind)
    (fun s b => by
      show Visible (sse2.Backend.gen_par_ks_blocks_tr tgt s b)
      unfold sse2.Backend.gen_par_ks_blocks_tr
      exact (sse2.shows_rounds _).bind)
    fun _ _ => shows_provided _ _ _ _

theorem avx2.busy : Busy (σ := avx2.Backend R V) fun _ p s => runTr tgt p s :=
  busy_run (fun s b => by
      show Visible (avx2.Backend.gen_ks_block_tr tgt s b)
      unfold avx2.Backend.gen_ks_block_tr
      exact (avx2.shows_rounds _ _).bind)
    (fun s b => by
      show Visible (avx2.Backend.gen_par_ks_blocks_tr tgt s b)
      unfold avx2.Backend.gen_par_ks_blocks_tr
      exact (avx2.shows_rounds _ _).bind)
    fun _ _ => shows_provided _ _ _ _

theorem avx512.busy : Busy (σ := avx512.Backend R V) fun _ p s => runTr tgt p s :=
  busy_run (fun s b => by
      show Visible (avx512.Backend.gen_ks_block_tr tgt s b)
      unfold avx512.Backend.gen_ks_block_tr
      shows)
    (fun s b => by
      show Visible (avx512.Backend.gen_par_ks_blocks_tr tgt s b)
      unfold avx512.Backend.gen_par_ks_blocks_tr
      simp only [pure_bind]
      refine Visible.next fun _ => Visible.bind ?_
      unfold avx512.Backend.gen_blocks_fullwidth_tr
      shows)
    fun s b => by
      show Visible (avx512.Backend.gen_tail_blocks_tr tgt s b)
      unfold avx512.Backend.gen_tail_blocks_tr
      shows

theorem neon.busy : Busy (σ := neon.Backend R V) fun _ p s => runTr tgt p s :=
  busy_run (fun s b => by
      show Visible (neon.Backend.gen_ks_block_tr tgt s b)
      unfold neon.Backend.gen_ks_block_tr
      shows)
    (fun s b => by
      show Visible (neon.Backend.gen_par_ks_blocks_tr tgt s b)
      unfold neon.Backend.gen_par_ks_blocks_tr
      shows)
    fun _ _ => shows_provided _ _ _ _

theorem sse2.inner_counts (x : List U32) : Lengthens fun f => sse2.inner_tr (R := R) (V := V) tgt x f := by
  unfold sse2.inner_tr
  simp only [pure_bind]
  counts sse2.busy

theorem avx2.inner_counts (x : List U32) : Lengthens fun f => avx2.inner_tr (R := R) (V := V) tgt x f := by
  unfold avx2.inner_tr
  simp only [pure_bind]
  counts avx2.busy

theorem avx512.inner_counts (x : List U32) : Lengthens fun f => avx512.inner_tr (R := R) (V := V) tgt x f := by
  unfold avx512.inner_tr
  simp only [pure_bind]
  counts avx512.busy

theorem neon.inner_counts (x : List U32) : Lengthens fun f => neon.inner_tr (R := R) (V := V) tgt x f := by
  unfold neon.inner_tr
  simp only [pure_bind]
  counts neon.busy

theorem processTr_counts (b : Verif.ChaCha.Config.Build) (d : Verif.ChaCha.Config.Detected) (c : ChaChaCore R V) : Lengthens fun f => processTr b d tgt c f := by
  have e : (fun (f : Callee Unit) => processTr b d tgt c f) =
      fun f => (show Tr Unit from (.ok (), asked b d)) >>= fun _ => armTr (tgt := tgt) (Verif.ChaCha.Config.select b d) c f :=
    funext fun f => processTr_eq b d tgt c f
  rw [e]
  refine Lengthens.pre _ _ fun _ => ?_
  cases Verif.ChaCha.Config.select b d with
  | soft => exact Lengthens.call busy_soft _ _ (by steady)
  | sse2 => exact (sse2.inner_counts c.state).post (by steady)
  | avx2 => exact (avx2.inner_counts c.state).post (by steady)
  | avx512 => exact (avx512.inner_counts c.state).post (by steady)
  | neon => exact (neon.inner_counts c.state).post (by steady)

end ChaCha

namespace Salsa
variable {tgt : Target} {R : Type} [Unsigned R]

theorem busy : Busy (σ := Backend R) fun _ p s => runTr tgt p s :=
  busy_run (fun s b => by
      show Visible (Backend.gen_ks_block_tr tgt s b)
      unfold Backend.gen_ks_block_tr
      simp only [pure_bind]
      refine Visible.bind ?_
      unfold run_rounds_tr
      shows)
    (fun _ _ => (Visible.see _ _).bind) fun _ _ => shows_provided _ _ _ _

theorem process_counts (s : SalsaCore R) : Lengthens fun f => SalsaCore.process_with_backend_tr tgt s f := by
  unfold SalsaCore.process_with_backend_tr
  simp only [pure_bind]
  counts busy

theorem processX_counts (s : XSalsaCore R) : Lengthens fun f => XSalsaCore.process_with_backend_tr tgt s f := by
  unfold XSalsaCore.process_with_backend_tr
  simp only [pure_bind]
  exact (process_counts _).post (by steady)

end Salsa

theorem Rabbit.busy (tgt : Target) : Busy (bs := 16) (σ := Rabbit.Backend) fun _ p s => runBlockTr 16 tgt p s :=
  busy_block fun s b => by
    show Visible (Rabbit.Backend.gen_ks_block_tr tgt s b)
    unfold Rabbit.Backend.gen_ks_block_tr
    simp only [pure_bind]
    refine Visible.bind ?_
    unfold Rabbit.State.next_block_tr
    simp only [pure_bind]
    refine Visible.bind ?_
    unfold Rabbit.State.next_state_tr
    simp only [pure_bind]
    refine Visible.bind ?_
    unfold Rabbit.State.counter_update_tr
    shows

theorem Hc256.busy (tgt : Target) : Busy (bs := 4) (σ := Hc256.Backend) fun _ p s => runBlockTr 4 tgt p s :=
  busy_block fun s b => by
    show Visible (Hc256.Backend.gen_ks_block_tr tgt s b)
    unfold Hc256.Backend.gen_ks_block_tr
    simp only [pure_bind]
    refine Visible.bind ?_
    unfold Hc256.Hc256Core.gen_word_tr
    shows

/-! ### Cores and histories -/

/-- A core on which more requests have a longer record. -/
def SeenCore.Extends {bs : Nat} {χ : Type} (C : SeenCore bs χ) : Prop := ∀ (x : χ) (s : C.σ) (l : List Req) (q : Req) (l' : List Req) (r r' : Unit × C.σ),
  (C.process x (fun _ => Prog.ofReqs l) s).1 = .ok r → (C.process x (fun _ => Prog.ofReqs (l ++ q :: l')) s).1 = .ok r' →
    (C.process x (fun _ => Prog.ofReqs l) s).2.length < (C.process x (fun _ => Prog.ofReqs (l ++ q :: l')) s).2.length

theorem ChaCha.extends {tgt : Target} {R V : Type} [Rounds R] [Variant V] : (ChaCha.seenCore R V tgt).Extends :=
  fun x s => (ChaCha.processTr_counts (tgt := tgt) x.build x.detected s).post steady_returned

theorem ChaCha.extends_x {tgt : Target} {R : Type} [Rounds R] : (ChaCha.seenCoreX R tgt).Extends :=
  fun x s => Lengthens.post (P := fun f => ChaCha.processTr x.build x.detected tgt s.f0 f >>= fun r => pure ((), (⟨r.2.1⟩ : ChaCha.XChaChaCore R), r.2.2))
    ((ChaCha.processTr_counts (tgt := tgt) x.build x.detected s.f0).post (Steady.pure _)) steady_returned

theorem Salsa.extends {tgt : Target} {R : Type} [Unsigned R] : (Salsa.seenCore R tgt).Extends := fun _ s => (Salsa.process_counts s).post steady_returned

theorem Salsa.extends_x {tgt : Target} {R : Type} [Unsigned R] : (Salsa.seenCoreX R tgt).Extends := fun _ s => (Salsa.processX_counts s).post steady_returned

theorem SeekText.extends (tgt : Target) (c : SeekText) : (c.seen tgt).Extends := by
  cases c with
  | chacha R key nonce => exact ChaCha.extends
  | chachaLegacy key nonce => exact ChaCha.extends
  | xchacha R key nonce => exact ChaCha.extends_x
  | salsa R key nonce => exact Salsa.extends
  | xsalsa R key nonce => exact Salsa.extends_x

theorem blockCall_extends {n : Nat} {σ τ : Type} [BlockBackend n τ] {tgt : Target} (hb : Busy (bs := n) (σ := τ) fun _ p s => runBlockTr n tgt p s) (b : τ) (ret : τ → σ)
    (l : List Req) (q : Req) (l' : List Req) (r r' : Unit × σ) :
    let P (l : List Req) := (BlockClosure.call_tr (n := n) tgt (BlockCallee.ready (n := n) fun _ => Prog.ofReqs l) b >>= fun r => pure ((), ret r.2.2, r.2.1)) >>= blockReturned
    (P l).1 = .ok r → (P (l ++ q :: l')).1 = .ok r' → (P l).2.length < (P (l ++ q :: l')).2.length := by
  have e : ∀ l : List Req, ((BlockClosure.call_tr (n := n) tgt (BlockCallee.ready (n := n) fun _ => Prog.ofReqs l) b >>= fun r => pure ((), ret r.2.2, r.2.1)) >>= blockReturned) =
      runBlockTr n tgt (Prog.ofReqs l) b >>= fun r => pure (r.1, ret r.2) := fun l => by
    show ((runBlockTr n tgt (Prog.ofReqs l) b >>= fun r => pure ((), BlockCallee.done r.1, r.2)) >>= _) >>= _ = _
    simp only [bind_assoc, pure_bind, blockReturned]
  dsimp only
  rw [e, e]
  intro h h'
  obtain ⟨a, h1, h2⟩ := Tr.bind_ok h
  obtain ⟨a', h1', h2'⟩ := Tr.bind_ok h'
  rw [Tr.bind_length h1, Tr.bind_length h1']
  exact Nat.add_lt_add_right ((runBlockTr_isRun tgt).longer hb l q l' h1 (congrArg Prod.fst h1')) 0

theorem Rabbit.extends_keyOnly (tgt : Target) : (Rabbit.seenKeyOnly tgt).Extends :=
  fun _ s => blockCall_extends (Rabbit.busy tgt) (⟨s.state⟩ : Rabbit.Backend) fun b => (⟨b.f0⟩ : Rabbit.RabbitKeyOnlyCore)

theorem Rabbit.extends (tgt : Target) : (Rabbit.seenCore tgt).Extends :=
  fun _ s => blockCall_extends (Rabbit.busy tgt) (⟨s.state⟩ : Rabbit.Backend) fun b => (⟨b.f0⟩ : Rabbit.RabbitCore)

theorem Hc256.extends (tgt : Target) : (Hc256.seenCore tgt).Extends :=
  fun _ s => blockCall_extends (Hc256.busy tgt) (⟨s⟩ : Hc256.Backend) fun b => b.f0

section
variable {bs : Nat} {χ : Type} {C : SeenCore bs χ}

/-- The last call of a history. -/
theorem SeenCore.clients_last {h : List (χ × ClientOp bs)} {x : χ} {op : ClientOp bs} {s : C.σ} {r : List CoreObs × C.σ} (hr : (C.clients (h ++ [(x, op)]) s).1 = .ok r) :
    ∃ os t u o, C.clients h s = (.ok (os, t), u) ∧ (C.client x t op).1 = .ok o ∧ (C.clients (h ++ [(x, op)]) s).2.length = u.length + (C.client x t op).2.length := by
  induction h generalizing s r with
  | nil =>
    obtain ⟨o, h1, h2⟩ := Tr.bind_ok hr
    exact ⟨[], s, [], o, rfl, congrArg Prod.fst h1, (Tr.bind_length h1).trans (by rw [List.length_nil, Nat.zero_add]; rfl)⟩
  | cons e h ih =>
    obtain ⟨y, p⟩ := e
    obtain ⟨o, h1, h2⟩ := Tr.bind_ok hr
    obtain ⟨os, h3, h4⟩ := Tr.bind_ok h2
    obtain ⟨os', t, u, o', e1, e2, e3⟩ := ih (congrArg Prod.fst h3)
    refine ⟨o.1 :: os', t, (C.client y s p).2 ++ (u ++ []), o', Tr.bind_eq h1 (Tr.bind_eq e1 rfl), e2, ?_⟩
    refine (Tr.bind_length h1).trans ((congrArg (_ + ·) (Tr.bind_length h3)).trans ?_)
    show (C.client y s p).2.length + ((C.clients (h ++ [(x, op)]) o.2).2.length + 0) = _
    rw [e3, List.length_append, List.append_nil, Nat.add_zero, Nat.add_assoc]

/-- If only its last call asks for more, a life has a longer record. -/
theorem SeenCore.Extends.life (E : C.Extends) (m : Tr C.σ) (h : List (χ × ClientOp bs)) (x : χ) (l : List Req) (q : Req) (l' : List Req)
    (h1 : (C.clientLife m (h ++ [(x, (Asked.run l).client)])).1.isOk) (h2 : (C.clientLife m (h ++ [(x, (Asked.run (l ++ q :: l')).client)])).1.isOk) :
    (C.clientLife m (h ++ [(x, (Asked.run l).client)])).2.length < (C.clientLife m (h ++ [(x, (Asked.run (l ++ q :: l')).client)])).2.length := by
  have ex : ∀ {β : Type} {p : Except Panic β}, p.isOk → ∃ b, p = .ok b := fun {_ p} h => by
    cases p with
    | error e => exact nomatch h
    | ok b => exact ⟨b, rfl⟩
  obtain ⟨r1, h1⟩ := ex h1
  obtain ⟨r2, h2⟩ := ex h2
  obtain ⟨s, hs, h1⟩ := Tr.bind_ok h1
  obtain ⟨s', hs', h2⟩ := Tr.bind_ok h2
  have e : s = s' := Except.ok.inj (congrArg Prod.fst (hs.symm.trans hs'))
  subst e
  obtain ⟨p1, h3, h4⟩ := Tr.bind_ok h1
  obtain ⟨p2, h5, h6⟩ := Tr.bind_ok h2
  obtain ⟨os, t, u, o, e1, e2, e3⟩ := SeenCore.clients_last (congrArg Prod.fst h3)
  obtain ⟨os', t', u', o', e1', e2', e3'⟩ := SeenCore.clients_last (congrArg Prod.fst h5)
  have e : (Except.ok (os, t), u) = ((Except.ok (os', t'), u') : Tr _) := e1.symm.trans e1'
  cases e
  have k1 : (C.clientLife m (h ++ [(x, (Asked.run l).client)])).2.length = _ := (Tr.bind_length hs).trans (congrArg _ (Tr.bind_length h3))
  have k2 : (C.clientLife m (h ++ [(x, (Asked.run (l ++ q :: l')).client)])).2.length = _ := (Tr.bind_length hs).trans (congrArg _ (Tr.bind_length h5))
  rw [k1, k2, ← congrArg (fun m => m.2.length) h3, ← congrArg (fun m => m.2.length) h5, e3, e3']
  obtain ⟨a, h7, h8⟩ := Tr.bind_ok e2
  obtain ⟨a', h7', h8'⟩ := Tr.bind_ok e2'
  have k3 := E x t l q l' a a' (congrArg Prod.fst h7) (congrArg Prod.fst h7')
  have k4 : (C.client x t (Asked.run l).client).2.length = _ := Tr.bind_length h7
  have k5 : (C.client x t (Asked.run (l ++ q :: l')).client).2.length = _ := Tr.bind_length h7'
  rw [k4, k5]
  exact Nat.add_lt_add_left (Nat.add_lt_add_right (Nat.add_lt_add_left (Nat.add_lt_add_right k3 0) _) 0) _

end

theorem _root_.Verif.SeekCore.asked_length {bs : Nat} {χ : Type} {C : SeekCore bs χ} {h : List (χ × ClientOp bs)} {s : C.σ} {l : List Asked} (ha : C.asked h s = .ok l) :
    l.length = h.length := by
  induction h generalizing s l with
  | nil => cases ha; rfl
  | cons e h ih =>
    obtain ⟨x, op⟩ := e
    rw [SeekCore.asked] at ha
    cases h1 : C.asks x s op with
    | error p => rw [h1] at ha; exact nomatch ha
    | ok r =>
      rw [h1] at ha
      replace ha : (C.asked h r.2 >>= fun qs => pure (r.1 :: qs)) = Except.ok l := ha
      cases h2 : C.asked h r.2 with
      | error p => rw [h2] at ha; exact nomatch ha
      | ok qs =>
        rw [h2] at ha
        cases ha
        exact congrArg (· + 1) (ih h2)

theorem _root_.Verif.askedIn_last {bs : Nat} {χ : Type} {h : List (χ × ClientOp bs)} {e : χ × ClientOp bs} {l : List Asked} {q : Asked} (hl : (l ++ [q]).length = (h ++ [e]).length) :
    askedIn (h ++ [e]) (l ++ [q]) = askedIn h l ++ [(e.1, q.client)] := by
  refine List.zipWith_append ?_
  simp only [List.length_append, List.length_cons, List.length_nil] at hl
  omega

end Rust
end Verif
