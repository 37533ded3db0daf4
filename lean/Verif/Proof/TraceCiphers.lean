import Verif.Rust.CiphersTrace
import Verif.Proof.TraceWrapper
import Verif.Proof.Requests
import Verif.Props.SrcTraceRng
import Verif.Props.SrcRest
/-!
# What is seen of the seekable ciphers of the text
-/
namespace Verif

theorem Prog.Alike.rel2 {bs : Nat} {α : Type} {p p' : Prog bs α} (h : p.Alike p') : p.Rel2 (fun _ _ => True) p' := by
  induction h with
  | done a b => trivial
  | block _ ih => exact ih
  | par _ ih => exact fun l l' _ => ih l l'
  | tail n _ ih => exact ⟨rfl, fun l l' _ => ih l l'⟩

namespace Rust

variable {tgt : Target}

/-- A core that does what a model does and of which nothing secret is seen. -/
theorem BlindCore.of {bs : Nat} {χ χ' : Type} {M : SeekCore bs χ'} {C : SeenCore bs χ} {e : χ → χ'} {f : M.σ → C.σ} {K : M.σ → M.σ → Prop} {used : χ → List String}
    (H : Faithful M C e f) (B : SeekBlind M K)
    (process : ∀ {α : Type} (x : χ) (g g' : Closure bs α), (∀ n, (g n).Alike (g' n)) → ∀ s s',
      Obl (used x) (fun _ _ => True) (C.process x g (f s)) (C.process x g' (f s')))
    (remaining : ∀ s s', Obl [] (fun _ _ => True) (C.remaining (f s)) (C.remaining (f s')))
    (getPos : ∀ s s', Obl [] (fun _ _ => True) (C.getPos (f s)) (C.getPos (f s')))
    (setPos : ∀ s s' n, Obl [] (fun _ _ => True) (C.setPos (f s) n) (C.setPos (f s') n)) : BlindCore M C f K used where
  process x g g' hg s s' hk := by
    refine (ChaCha.Obl.and (process x g g' hg s s') fun a b ha hb => ?_).mono fun a b hab => hab.2
    rw [H.process] at ha hb
    obtain ⟨par, hp⟩ := B.process (e x)
    have hx := hp _ (fun _ _ => True) g g' s s' hk (hg par).rel2
    generalize M.process (e x) g s = r at ha hx
    generalize M.process (e x) g' s' = r' at hb hx
    cases hx with
    | error => exact nomatch ha
    | ok hq =>
      obtain rfl := Except.ok.inj ha
      obtain rfl := Except.ok.inj hb
      exact ⟨_, _, rfl, rfl, hq.2⟩
  remaining s s' hk := by
    refine (ChaCha.Obl.and (remaining s s') fun a b ha hb => ?_).mono fun a b hab => hab.2
    rw [H.remaining] at ha hb
    obtain rfl := Except.ok.inj ha
    obtain rfl := Except.ok.inj hb
    exact B.remaining s s' hk
  getPos s s' hk := by
    refine (ChaCha.Obl.and (getPos s s') fun a b ha hb => ?_).mono fun a b hab => hab.2
    rw [H.getPos] at ha hb
    obtain rfl := Except.ok.inj ha
    obtain rfl := Except.ok.inj hb
    exact B.getPos s s' hk
  setPos s s' n hk := by
    refine (ChaCha.Obl.and (setPos s s' n) fun a b ha hb => ?_).mono fun a b hab => hab.2
    rw [H.setPos] at ha hb
    obtain rfl := Except.ok.inj ha
    obtain rfl := Except.ok.inj hb
    exact ⟨_, _, rfl, rfl, B.setPos s s' n hk⟩

theorem returned_obl {α σ : Type} [Like σ] {I : List String} {m m' : Tr (Unit × σ × Callee α)} (h : Obl I like m m') :
    Obl I (fun _ _ => True) (m >>= returned) (m' >>= returned) := by
  refine .bind h fun r r' _ => ?_
  obtain ⟨_, s, c⟩ := r
  obtain ⟨_, s', c'⟩ := r'
  cases c <;> cases c' <;> first
    | exact .pure trivial
    | exact fun a b ha _ => Except.noConfusion rfl rfl (heq_of_eq (show Except.error Panic.assertion = Except.ok a from ha))
    | exact fun a b _ hb => Except.noConfusion rfl rfl (heq_of_eq (show Except.error Panic.assertion = Except.ok b from hb))

/-- A value is put together. -/
theorem obl_then {α β γ δ : Type} {I : List String} {Q : α → β → Prop} {m : Tr α} {m' : Tr β} (h : Obl I Q m m') (k : α → γ) (k' : β → δ) :
    Obl I (fun _ _ => True) (m >>= fun a => pure (k a)) (m' >>= fun a => pure (k' a)) := .bind h fun _ _ _ => .pure trivial

theorem then_fst {α γ : Type} {m : Tr α} {a : α} (h : m.1 = .ok a) (k : α → γ) : (m >>= fun a => pure (k a) : Tr γ).1 = .ok (k a) := by
  rw [Tr.bind_fst, h]
  rfl

namespace ChaCha
open Verif.ChaCha (Config.Build Config.Detected Config.Impl Config.select)

variable {I : List String} {R V : Type} [Rounds R] [Variant V]

/-! ### The counters -/

theorem Ietf_get_erase (row : List U32) : (Variant.get_block_pos_tr Ietf tgt row).1 = Variant.get_block_pos Ietf tgt row := by
  show (Ietf.get_block_pos_tr tgt row).1 = Ietf.get_block_pos tgt row
  simp only [erase, Ietf.get_block_pos_tr, Ietf.get_block_pos]

theorem Ietf_set_erase (row : List U32) (pos : U32) : (Variant.set_block_pos_tr Ietf tgt row pos).1 = Variant.set_block_pos Ietf tgt row pos := by
  show (Ietf.set_block_pos_tr tgt row pos).1 = Ietf.set_block_pos tgt row pos
  simp only [erase, Ietf.set_block_pos_tr, Ietf.set_block_pos]

/-- The counter functions of a variant with a record are those without, and nothing is seen of them. -/
structure Counts (V : Type) [Variant V] : Prop where
  get (tgt : Target) (row : List U32) : (Variant.get_block_pos_tr V tgt row).1 = Variant.get_block_pos V tgt row
  set (tgt : Target) (row : List U32) (pos : Variant.Counter V) : (Variant.set_block_pos_tr V tgt row pos).1 = Variant.set_block_pos V tgt row pos
  remaining (tgt : Target) (pos : Variant.Counter V) : (Variant.remaining_blocks_tr V tgt pos).1 = Variant.remaining_blocks V tgt pos
  getObl (tgt : Target) (x x' : List U32) (h : like x x') : Obl [] (fun _ _ => True) (Variant.get_block_pos_tr V tgt x) (Variant.get_block_pos_tr V tgt x')
  setObl (tgt : Target) (x x' : List U32) (h : like x x') (pos pos' : Variant.Counter V) :
    Obl [] like (Variant.set_block_pos_tr V tgt x pos) (Variant.set_block_pos_tr V tgt x' pos')
  remainingObl (tgt : Target) (pos pos' : Variant.Counter V) : Obl [] (fun _ _ => True) (Variant.remaining_blocks_tr V tgt pos) (Variant.remaining_blocks_tr V tgt pos')

theorem counts_ietf : Counts Ietf where
  get _ := Ietf_get_erase
  set _ := Ietf_set_erase
  remaining tgt pos := by
    show (Ietf.remaining_blocks_tr tgt pos).1 = Ietf.remaining_blocks tgt pos
    simp only [erase, Ietf.remaining_blocks_tr, Ietf.remaining_blocks]
  getObl tgt x x' h := by
    refine Obl.mono (?_ : Obl [] like (Ietf.get_block_pos_tr tgt x) (Ietf.get_block_pos_tr tgt x')) fun _ _ _ => trivial
    unfold Ietf.get_block_pos_tr
    obl
  setObl tgt x x' h pos pos' := by
    show Obl [] like (Ietf.set_block_pos_tr tgt x pos) (Ietf.set_block_pos_tr tgt x' pos')
    unfold Ietf.set_block_pos_tr
    obl
  remainingObl tgt pos pos' := by
    show Obl [] _ (Ietf.remaining_blocks_tr tgt pos) (Ietf.remaining_blocks_tr tgt pos')
    unfold Ietf.remaining_blocks_tr
    exact .bind_any fun _ _ => .bind_any fun _ _ => .pure trivial

theorem counts_legacy : Counts Legacy where
  get _ := Variant_get_block_pos_erase
  set _ := Variant_set_block_pos_erase
  remaining tgt pos := by
    show (Legacy.remaining_blocks_tr tgt pos).1 = Legacy.remaining_blocks tgt pos
    simp only [erase, Legacy.remaining_blocks_tr, Legacy.remaining_blocks]
  getObl _ := Variant_get_block_pos_obl
  setObl _ x x' h pos pos' := Variant_set_block_pos_obl pos pos' x x' h
  remainingObl tgt pos pos' := by
    show Obl [] _ (Legacy.remaining_blocks_tr tgt pos) (Legacy.remaining_blocks_tr tgt pos')
    unfold Legacy.remaining_blocks_tr
    exact .bind_any fun _ _ => .bind_any fun _ _ => .pure trivial

theorem Counts.get_erase (hc : Counts V) (c : ChaChaCore R V) : (c.get_block_pos_tr tgt).1 = c.get_block_pos tgt := by
  simp only [erase, ChaChaCore.get_block_pos_tr, ChaChaCore.get_block_pos, hc.get]

theorem Counts.set_erase (hc : Counts V) (c : ChaChaCore R V) (pos : Variant.Counter V) : (c.set_block_pos_tr tgt pos).1 = c.set_block_pos tgt pos := by
  simp only [erase, ChaChaCore.set_block_pos_tr, ChaChaCore.set_block_pos, hc.set]

theorem Counts.remaining_erase (hc : Counts V) (c : ChaChaCore R V) : (c.remaining_blocks_tr tgt).1 = c.remaining_blocks tgt := by
  simp only [erase, ChaChaCore.remaining_blocks_tr, ChaChaCore.remaining_blocks, hc.remaining, hc.get_erase]

theorem Counts.get_obl (hc : Counts V) (c c' : ChaChaCore R V) (h : like c c') : Obl [] (fun _ _ => True) (c.get_block_pos_tr tgt) (c'.get_block_pos_tr tgt) := by
  have hs : like c.state c'.state := h
  have hl : len tgt c.state = len tgt c'.state := by rw [len, len, hs.length]
  exact .bind_like (Obl.slice rfl hl hs) fun a b hab => hc.getObl tgt a b hab

theorem Counts.set_obl (hc : Counts V) (pos pos' : Variant.Counter V) (c c' : ChaChaCore R V) (h : like c c') :
    Obl [] like (c.set_block_pos_tr tgt pos) (c'.set_block_pos_tr tgt pos') := by
  have hs : like c.state c'.state := h
  have hl : len tgt c.state = len tgt c'.state := by rw [len, len, hs.length]
  exact .bind (Q := fun a b => a = c ∧ b = c') (.pure ⟨rfl, rfl⟩) fun _ _ ⟨ha, hb⟩ => ha ▸ hb ▸ .bind_like (Obl.slice rfl hl hs) fun a b hab =>
    .bind_like (hc.setObl tgt a b hab pos pos') fun r r' hr => .pure ⟨trivial, like.putSlice hs rfl hl hr.2⟩

theorem Counts.remaining_obl (hc : Counts V) (c c' : ChaChaCore R V) (h : like c c') :
    Obl [] (fun _ _ => True) (c.remaining_blocks_tr tgt) (c'.remaining_blocks_tr tgt) :=
  .bind (hc.get_obl c c' h) fun _ _ _ => hc.remainingObl tgt _ _

/-! ### The dispatcher -/

/-- The instructions in the text of the module, with a counter of 32 or of 64 bits. -/
def used (wide : Bool) : Config.Impl → List String
  | .soft => []
  | .sse2 => if wide then sse2.used41 else sse2.used
  | .avx2 => avx2.used
  | .avx512 => avx512.used
  | .neon => neon.used

theorem processTr_erase (b : Config.Build) (d : Config.Detected) {α : Type} (c : ChaChaCore R V) (f : Callee α) :
    (processTr b d tgt c f).1 = (Process.dispatch b d).run R V tgt c f := by
  rw [processTr_eq, dispatch_run]
  cases Config.select b d
  · exact erase_then (call_erase _ _) _
  · exact erase_then (sse2.inner_erase _ _) _
  · exact erase_then (avx2.inner_erase _ _) _
  · exact erase_then (avx512.inner_erase _ _) _
  · exact erase_then (neon.inner_erase _ _) _

theorem processTr_obl (b : Config.Build) (d : Config.Detected) (wide : Bool) (hV : wide = false → Is V .ietf) {α : Type} {c c' : ChaChaCore R V} (hc : like c c')
    {f f' : Callee α} (hf : like f f') : Obl (used wide (Config.select b d)) like (processTr b d tgt c f) (processTr b d tgt c' f') := by
  rw [processTr_eq, processTr_eq]
  refine obl_after (asked_conditions b d).1 ?_
  have hs : like c.state c'.state := hc
  cases Config.select b d with
  | soft => exact .bind (call_obl (I := []) (σ := Backend R V) hf (s := ⟨c⟩) (s' := ⟨c'⟩) hc) fun r r' h => .pure ⟨trivial, h.2.2, h.2.1⟩
  | sse2 =>
    cases wide with
    | true => exact .bind (sse2.inner_obl _ _ hs _ _ hf) fun r r' h => .pure ⟨trivial, h.2.1, h.2.2⟩
    | false => exact .bind (sse2.inner_obl32 (hV rfl) _ _ hs _ _ hf) fun r r' h => .pure ⟨trivial, h.2.1, h.2.2⟩
  | avx2 => exact .bind (avx2.inner_obl _ _ hs _ _ hf) fun r r' h => .pure ⟨trivial, h.2.1, h.2.2⟩
  | avx512 => exact .bind (avx512.inner_obl _ _ hs _ _ hf) fun r r' h => .pure ⟨trivial, h.2.1, h.2.2⟩
  | neon => exact .bind (neon.inner_obl _ _ hs _ _ hf) fun r r' h => .pure ⟨trivial, h.2.1, h.2.2⟩

theorem like_state (s s' : Verif.ChaCha.State) : like (repr R V s) (repr R V s') := like_toList s s'

/-! ### The cores -/

theorem faithful_of (ht : 16 ≤ tgt.bits) {v : Verif.ChaCha.Variant} (hV : Is V v) (hw : RInt.width (Variant.Counter V) = 8 * v.ctrBytes)
    (hr : ∀ s, ((seenCore R V tgt).remaining (repr R V s)).1 = .ok (Verif.ChaCha.remainingBlocks tgt.bits v s))
    (hg : ∀ s, ((seenCore R V tgt).getPos (repr R V s)).1 = .ok (Verif.ChaCha.getBlockPos v s).toNat)
    (hs : ∀ s n, ((seenCore R V tgt).setPos (repr R V s) n).1 = .ok (repr R V (Verif.ChaCha.setBlockPos v s (BitVec.ofNat _ n)))) :
    Faithful (Verif.ChaCha.core tgt.bits (Rounds.count R) v) (seenCore R V tgt) Circumstances.env (repr R V) where
  process x g s := by
    show (processTr x.build x.detected tgt (repr R V s) (Callee.ready g) >>= returned : Tr _).1 = _
    rw [Tr.bind_fst, processTr_erase, runs_dispatch_env ht x.build x.detected hV g s]
    show _ = Except.map _ (Verif.ChaCha.process (Rounds.count R) v (envOf x.build x.detected) g s)
    cases Verif.ChaCha.process (Rounds.count R) v (envOf x.build x.detected) g s <;> rfl
  remaining := hr
  ctrBits := hw
  getPos := hg
  setPos := hs

theorem faithful_ietf (ht : 16 ≤ tgt.bits) (R : Type) [Rounds R] :
    Faithful (Verif.ChaCha.core tgt.bits (Rounds.count R) .ietf) (seenCore R Ietf tgt) Circumstances.env (repr R Ietf) :=
  faithful_of ht is_ietf rfl (fun s => (then_fst ((counts_ietf.remaining_erase _).trans (remaining_ietf s)) _).trans (by rw [rem_mk]))
    (fun s => then_fst ((counts_ietf.get_erase _).trans (get_ietf s)) _) (fun s n => then_fst ((counts_ietf.set_erase _ _).trans (set_ietf s _)) _)

theorem faithful_legacy (ht : 16 ≤ tgt.bits) (R : Type) [Rounds R] :
    Faithful (Verif.ChaCha.core tgt.bits (Rounds.count R) .legacy) (seenCore R Legacy tgt) Circumstances.env (repr R Legacy) :=
  faithful_of ht is_legacy rfl (fun s => (then_fst ((counts_legacy.remaining_erase _).trans (remaining_legacy s)) _).trans (by rw [rem_mk]))
    (fun s => then_fst ((counts_legacy.get_erase _).trans (get_legacy s)) _) (fun s n => then_fst ((counts_legacy.set_erase _ _).trans (set_legacy s _)) _)

theorem blind_of {v : Verif.ChaCha.Variant} (hc : Counts V) (wide : Bool) (hV : wide = false → Is V .ietf)
    (H : Faithful (Verif.ChaCha.core tgt.bits (Rounds.count R) v) (seenCore R V tgt) Circumstances.env (repr R V)) :
    BlindCore (Verif.ChaCha.core tgt.bits (Rounds.count R) v) (seenCore R V tgt) (repr R V) (Verif.ChaCha.SameCtr v)
      (fun x => used wide (Config.select x.build x.detected)) :=
  .of H (Verif.ChaCha.blind _ _ _) (fun _ _ _ hg s s' => returned_obl (σ := ChaChaCore R V) (processTr_obl _ _ wide hV (like_state s s') hg))
    (fun s s' => obl_then (hc.remaining_obl _ _ (like_state s s')) _ _) (fun s s' => obl_then (hc.get_obl _ _ (like_state s s')) _ _)
    (fun s s' _ => obl_then (hc.set_obl _ _ _ _ (like_state s s')) _ _)

theorem faithful_x (ht : 16 ≤ tgt.bits) (R : Type) [Rounds R] :
    Faithful (Verif.ChaCha.core tgt.bits (Rounds.count R) .ietf) (seenCoreX R tgt) Circumstances.env (fun s => (⟨repr R Ietf s⟩ : XChaChaCore R)) where
  process x g s := by
    have h := runs_dispatch_env (tgt := tgt) ht x.build x.detected (R := R) is_ietf g s
    have h' := (processTr_erase (tgt := tgt) x.build x.detected (repr R Ietf s) (Callee.ready g)).trans h
    show ((processTr x.build x.detected tgt (repr R Ietf s) (Callee.ready g) >>= _) >>= returned : Tr _).1 = _
    rw [Tr.bind_fst, Tr.bind_fst, h']
    show _ = Except.map _ (Verif.ChaCha.process (Rounds.count R) .ietf (envOf x.build x.detected) g s)
    cases Verif.ChaCha.process (Rounds.count R) .ietf (envOf x.build x.detected) g s <;> rfl
  remaining s := (faithful_ietf ht R).remaining s
  ctrBits := rfl
  getPos s := (faithful_ietf ht R).getPos s
  setPos s n := by
    have h : (XChaChaCore.set_block_pos_tr tgt (⟨repr R Ietf s⟩ : XChaChaCore R) (BitVec.ofNat 32 n)).1 =
        .ok ((), ⟨repr R Ietf (Verif.ChaCha.Ietf.setBlockPos s (BitVec.ofNat 32 n))⟩) := by
      rw [XChaChaCore.set_block_pos_tr]
      simp only [erase, counts_ietf.set_erase]
      rw [show ChaChaCore.set_block_pos tgt (repr R Ietf s) (BitVec.ofNat 32 n) = _ from set_ietf s _]
      rfl
    exact then_fst h _

theorem blind_x (ht : 16 ≤ tgt.bits) (R : Type) [Rounds R] :
    BlindCore (Verif.ChaCha.core tgt.bits (Rounds.count R) .ietf) (seenCoreX R tgt) (fun s => (⟨repr R Ietf s⟩ : XChaChaCore R)) (Verif.ChaCha.SameCtr .ietf)
      (fun x => used false (Config.select x.build x.detected)) :=
  .of (faithful_x ht R) (Verif.ChaCha.blind _ _ _)
    (fun _ _ _ hg s s' => returned_obl (σ := XChaChaCore R) (.bind (Q := fun a b => a = ⟨repr R Ietf s⟩ ∧ b = ⟨repr R Ietf s'⟩) (.pure ⟨rfl, rfl⟩) fun _ _ ⟨ha, hb⟩ => ha ▸ hb ▸
      .bind (Q := like) (.pure hg) fun _ _ hf => .bind (processTr_obl _ _ false (fun _ => is_ietf) (like_state s s') hf) fun r r' h =>
        .bind (Q := like) (.pure (show like (⟨r.2.1⟩ : XChaChaCore R) ⟨r'.2.1⟩ from h.2.1)) fun _ _ h1 => .bind (Q := like) (.pure h.2.2) fun _ _ h2 => .pure ⟨trivial, h1, h2⟩))
    (fun s s' => obl_then (counts_ietf.remaining_obl _ _ (like_state s s')) _ _) (fun s s' => obl_then (counts_ietf.get_obl _ _ (like_state s s')) _ _)
    (fun s s' _ => obl_then (Q := fun _ _ => True) (.bind (Q := fun a b => a = ⟨repr R Ietf s⟩ ∧ b = ⟨repr R Ietf s'⟩) (.pure ⟨rfl, rfl⟩) fun _ _ ⟨ha, hb⟩ => ha ▸ hb ▸
      .bind (counts_ietf.set_obl _ _ _ _ (like_state s s')) fun _ _ _ => .bind (Q := fun _ _ => True) (.pure trivial) fun _ _ _ => .pure trivial) _ _)

end ChaCha

namespace Salsa

variable {R : Type} [Unsigned R]

/-- The methods of the backend. -/
instance : Erases (Backend R) where
  block _ _ _ := Backend_gen_ks_block_erase _ _
  par tgt s b := by
    show (Tr.loop _ >>= fun _ => genEach_tr _ s b : Tr _).1 = genEach _ s b
    rw [Tr.bind_fst, Tr.loop_fst, okBind, genEach_erase]
    exact congrArg (fun g => genEach g s b) (funext fun s => funext fun b => Backend_gen_ks_block_erase s b)
  tail tgt s b := (providedTail_erase s b).trans (congrArg (fun g => providedTail 1 g s b) (funext fun s => funext fun b => Backend_gen_ks_block_erase s b))

instance : OblBackend [] tgt (Backend R) where
  block s s' h b b' hb := Backend_gen_ks_block_obl s s' h b b' hb
  par s s' h b b' hb := Obl.bind (Obl.loop hb.1) fun _ _ _ => genEach_obl (fun s s' h b b' hb => Backend_gen_ks_block_obl s s' h b b' hb) s s' h b b' hb
  tail s s' h b b' hb := providedTail_obl (fun s s' h b b' hb => Backend_gen_ks_block_obl s s' h b b' hb) s s' h b b' hb

theorem process_erase {α : Type} (s : SalsaCore R) (f : Callee α) : (s.process_with_backend_tr tgt f).1 = s.process_with_backend tgt f := by
  simp only [erase, SalsaCore.process_with_backend_tr, SalsaCore.process_with_backend, call_erase]

theorem processX_erase {α : Type} (s : XSalsaCore R) (f : Callee α) : (s.process_with_backend_tr tgt f).1 = s.process_with_backend tgt f := by
  simp only [erase, XSalsaCore.process_with_backend_tr, XSalsaCore.process_with_backend, process_erase]

theorem process_obl {α : Type} {s s' : SalsaCore R} (hs : like s s') {f f' : Callee α} (hf : like f f') :
    Obl [] like (s.process_with_backend_tr tgt f) (s'.process_with_backend_tr tgt f') := by
  unfold SalsaCore.process_with_backend_tr
  obl

macro_rules | `(tactic| obl_call) => `(tactic| (with_reducible refine process_obl ?_ ?_ <;> alike))

theorem processX_obl {α : Type} {s s' : XSalsaCore R} (hs : like s s') {f f' : Callee α} (hf : like f f') :
    Obl [] like (s.process_with_backend_tr tgt f) (s'.process_with_backend_tr tgt f') := by
  unfold XSalsaCore.process_with_backend_tr
  obl

theorem remaining_erase (s : SalsaCore R) : (s.remaining_blocks_tr tgt).1 = s.remaining_blocks tgt := by
  simp only [erase, SalsaCore.remaining_blocks_tr, SalsaCore.remaining_blocks]

theorem remaining_obl {s s' : SalsaCore R} (hs : like s s') : Obl [] (fun _ _ => True) (s.remaining_blocks_tr tgt) (s'.remaining_blocks_tr tgt) :=
  .bind (SalsaCore_get_block_pos_obl s s' hs) fun _ _ _ => .bind_any fun _ _ => .bind_any fun _ _ => .pure trivial

theorem like_state (s s' : Verif.Salsa.State) : like (repr R s) (repr R s') := like_toList s s'

theorem faithful (R : Type) [Unsigned R] :
    Faithful (Verif.Salsa.core Verif.ChaCha.Env tgt.bits tgt.mode (Unsigned.value R)) (seenCore R tgt) Circumstances.env (repr R) where
  process x g s := by
    have h := (C92_salsa tgt R _ g s).1
    rw [show (core R tgt).process () g (⟨s.toList⟩ : SalsaCore R) = _ from (hom (tgt := tgt) R).process x g s] at h
    show (SalsaCore.process_with_backend_tr tgt (repr R s) (Callee.ready g) >>= returned : Tr _).1 = _
    rw [Tr.bind_fst, process_erase, show SalsaCore.process_with_backend tgt (repr R s) (Callee.ready g) = _ from h]
    cases (Verif.Salsa.core Verif.ChaCha.Env tgt.bits tgt.mode (Unsigned.value R)).process x.env g s <;> rfl
  remaining s := (then_fst ((remaining_erase _).trans (remaining_blocks_eq s)) _).trans (by rw [rem_mk]; rfl)
  ctrBits := rfl
  getPos s := then_fst ((SalsaCore_get_block_pos_erase _).trans (get_block_pos_eq s)) _
  setPos s n := then_fst ((SalsaCore_set_block_pos_erase _ _).trans (set_block_pos_eq s _)) _

theorem blind (R : Type) [Unsigned R] : BlindCore (Verif.Salsa.core Verif.ChaCha.Env tgt.bits tgt.mode (Unsigned.value R)) (seenCore R tgt) (repr R) Verif.Salsa.SameCtr
    (fun _ => []) :=
  .of (faithful R) (Verif.Salsa.blind _ _ _ _) (fun _ _ _ hg s s' => returned_obl (σ := SalsaCore R) (process_obl (like_state s s') hg))
    (fun s s' => obl_then (remaining_obl (like_state s s')) _ _) (fun s s' => obl_then (SalsaCore_get_block_pos_obl _ _ (like_state s s')) _ _)
    (fun s s' _ => obl_then (SalsaCore_set_block_pos_obl _ _ (like_state s s') _ _ trivial) _ _)

theorem faithful_x (R : Type) [Unsigned R] :
    Faithful (Verif.Salsa.core Verif.ChaCha.Env tgt.bits tgt.mode (Unsigned.value R)) (seenCoreX R tgt) Circumstances.env (fun s => (⟨repr R s⟩ : XSalsaCore R)) where
  process x g s := by
    have h := (C92_salsa tgt R _ g s).2
    rw [show (coreX R tgt).process () g (⟨⟨s.toList⟩⟩ : XSalsaCore R) = _ from (hom_x (tgt := tgt) R).process x g s] at h
    show (XSalsaCore.process_with_backend_tr tgt (⟨repr R s⟩ : XSalsaCore R) (Callee.ready g) >>= returned : Tr _).1 = _
    rw [Tr.bind_fst, processX_erase, show XSalsaCore.process_with_backend tgt (⟨repr R s⟩ : XSalsaCore R) (Callee.ready g) = _ from h]
    cases (Verif.Salsa.core Verif.ChaCha.Env tgt.bits tgt.mode (Unsigned.value R)).process x.env g s <;> rfl
  remaining s := (faithful R).remaining s
  ctrBits := rfl
  getPos s := (faithful R).getPos s
  setPos s n := by
    have h : (XSalsaCore.set_block_pos_tr tgt (⟨repr R s⟩ : XSalsaCore R) (BitVec.ofNat 64 n)).1 =
        .ok ((), ⟨repr R (Verif.Salsa.setBlockPos s (BitVec.ofNat 64 n))⟩) := by
      rw [XSalsaCore_set_block_pos_erase, XSalsaCore.set_block_pos]
      dsimp only
      rw [show SalsaCore.set_block_pos tgt (repr R s) (BitVec.ofNat 64 n) = _ from set_block_pos_eq s _]
      rfl
    exact then_fst h _

theorem blind_x (R : Type) [Unsigned R] : BlindCore (Verif.Salsa.core Verif.ChaCha.Env tgt.bits tgt.mode (Unsigned.value R)) (seenCoreX R tgt)
    (fun s => (⟨repr R s⟩ : XSalsaCore R)) Verif.Salsa.SameCtr (fun _ => []) :=
  .of (faithful_x R) (Verif.Salsa.blind _ _ _ _) (fun _ _ _ hg s s' => returned_obl (σ := XSalsaCore R) (processX_obl (like_state s s') hg))
    (fun s s' => obl_then (remaining_obl (like_state s s')) _ _) (fun s s' => obl_then (SalsaCore_get_block_pos_obl _ _ (like_state s s')) _ _)
    (fun s s' _ => obl_then (XSalsaCore_set_block_pos_obl ⟨repr R s⟩ ⟨repr R s'⟩ (like_state s s') _ _ trivial) _ _)

end Salsa

end Rust
end Verif
