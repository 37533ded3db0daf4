import Verif.Rust.PlainTrace
import Verif.Proof.TraceCiphers
import Verif.Proof.TraceRabbit
import Verif.Proof.RecoveryTables
import Verif.Props.SrcRest
/-!
# What is seen of the ciphers without seeking of the text
-/
namespace Verif

/-- A core without a counter as one with a counter that is never asked for. -/
def Core.still {bs : Nat} {χ : Type} (C : Core bs χ) : SeekCore bs χ := { C with ctrBits := 0, getPos := fun _ => 0, setPos := fun s _ => s }

theorem Core.still_run {bs : Nat} {χ : Type} (C : Core bs χ) (h : List (χ × Op)) (w : Wrapper bs C.σ) :
    runHistory (fun x w op => Wrapper.seekStep C.still x w op) (h.map fun e => (e.1, SeekOp.io e.2)) w = runHistory (fun x w op => Wrapper.step C x w op) h w := by
  induction h generalizing w with
  | nil => rfl
  | cons e h ih =>
    show (Wrapper.step C e.1 w e.2 >>= _) = (Wrapper.step C e.1 w e.2 >>= _)
    generalize Wrapper.step C e.1 w e.2 = x
    cases x with
    | error p => rfl
    | ok r =>
      show (runHistory (fun x w op => Wrapper.seekStep C.still x w op) (h.map fun e => (e.1, SeekOp.io e.2)) r.2 >>= _) = (runHistory (fun x w op => Wrapper.step C x w op) h r.2 >>= _)
      rw [show runHistory (fun x w op => Wrapper.seekStep C.still x w op) (h.map fun e => (e.1, SeekOp.io e.2)) r.2 = _ from ih r.2]
      rfl

namespace Rust

variable {tgt : Target} {I : List String}

theorem array_blockOf {n : Nat} {σ : Type} (gen : σ → List U8 → Except Panic (Unit × σ × List U8)) (s : σ) :
    blockOf n gen s = gen s (List.replicate n 0) >>= fun r => array n r.2.2 >>= fun b => pure (b, r.2.1) := by
  rw [blockOf]
  cases gen s (List.replicate n 0) with
  | error e => rfl
  | ok r =>
    simp only [okBind, array]
    split <;> rfl

/-- A run of client code, without the record. -/
theorem runBlock_erase {α σ : Type} {n : Nat} [BlockBackend n σ]
    (he : ∀ (s : σ) b, (BlockBackend.gen_ks_block_tr n tgt s b).1 = BlockBackend.gen_ks_block n tgt s b) (p : Prog n α) (s : σ) :
    (runBlockTr n tgt p s).1 = p.run (Verif.Backend.ofBlock 1 (blockOf n (BlockBackend.gen_ks_block n tgt))) s := by
  induction p generalizing s with
  | done a => rfl
  | block k ih =>
    rw [runBlockTr, Prog.run]
    show _ = blockOf n (BlockBackend.gen_ks_block n tgt) s >>= _
    simp only [erase, he, ih, array_blockOf]
    cases BlockBackend.gen_ks_block n tgt s (List.replicate n 0) with
    | error e => rfl
    | ok r =>
      simp only [okBind]
      cases array n r.2.2 <;> rfl
  | par k ih =>
    rw [runBlockTr, Prog.run]
    show _ = genMany (blockOf n (BlockBackend.gen_ks_block n tgt)) 1 s >>= _
    simp only [genMany, erase, he, ih, array_blockOf, genEach_tr]
    cases BlockBackend.gen_ks_block n tgt s (List.replicate n 0) with
    | error e => rfl
    | ok r =>
      simp only [okBind, arrays, array]
      split <;> rfl
  | tail m k ih =>
    rw [runBlockTr, Prog.run]
    show _ = (if m < 1 then genMany (blockOf n (BlockBackend.gen_ks_block n tgt)) m s else .error .assertion) >>= _
    by_cases h : m < 1
    · obtain rfl : m = 0 := by omega
      rw [if_pos h, genMany]
      simp only [erase, ih, providedTail_tr, List.replicate_zero, List.length_nil, h, ↓reduceIte, genEach_tr, arrays]
    · rw [if_neg h]
      simp only [erase, providedTail_tr, List.length_replicate, h, ↓reduceIte]
      rfl

/-- What is seen of client code, if of one block no more is seen than the states may show. -/
theorem runBlock_obl {α σ : Type} {n : Nat} [BlockBackend n σ] {K : σ → σ → Prop}
    (hg : ∀ s s', K s s' → Obl I (fun r r' => K r.2.1 r'.2.1) (BlockBackend.gen_ks_block_tr n tgt s (List.replicate n 0)) (BlockBackend.gen_ks_block_tr n tgt s' (List.replicate n 0)))
    {p p' : Prog n α} (hp : p.Alike p') (s s' : σ) (h : K s s') : Obl I (fun r r' => K r.2 r'.2) (runBlockTr n tgt p s) (runBlockTr n tgt p' s') := by
  induction hp generalizing s s' with
  | done a b => exact .pure h
  | block _ ih =>
    rw [runBlockTr, runBlockTr]
    exact .bind (hg s s' h) fun r r' hr => .bind_any fun a b => ih a b _ _ hr
  | par _ ih =>
    rw [runBlockTr, runBlockTr]
    refine .bind (Obl.loop rfl) fun _ _ _ => .bind (Q := fun r r' => K r.2.1 r'.2.1) ?_ fun r r' hr => .bind_any fun a b => ih a b _ _ hr
    exact .bind (hg s s' h) fun r r' hr => .bind (Q := fun a b => K a.2.1 b.2.1) (.pure hr) fun _ _ h => .pure h
  | tail m _ ih =>
    rw [runBlockTr, runBlockTr]
    refine .bind (Q := fun r r' => K r.2.1 r'.2.1) ?_ fun r r' hr => .bind_any fun a b => ih a b _ _ hr
    refine .bind (Obl.loop rfl) fun _ _ _ => ?_
    rw [List.length_replicate]
    by_cases hm : m < 1
    · obtain rfl : m = 0 := by omega
      rw [if_pos hm]
      exact .pure h
    · rw [if_neg hm]
      exact .error _ _

theorem blockCall_erase {α σ : Type} {n : Nat} [BlockBackend n σ]
    (he : ∀ (s : σ) b, (BlockBackend.gen_ks_block_tr n tgt s b).1 = BlockBackend.gen_ks_block n tgt s b) (f : BlockCallee n α) (s : σ) :
    (BlockClosure.call_tr n tgt f s).1 = BlockClosure.call n tgt f s := by
  cases f with
  | done a => rfl
  | ready c =>
    show (runBlockTr n tgt _ s >>= _ : Tr _).1 = (Prog.run (Verif.Backend.ofBlock 1 (blockOf n (BlockBackend.gen_ks_block n tgt))) _ s >>= _)
    rw [Tr.bind_fst, runBlock_erase he]
    rfl

theorem blockCall_obl {α σ : Type} {n : Nat} [BlockBackend n σ] {K : σ → σ → Prop}
    (hg : ∀ s s', K s s' → Obl I (fun r r' => K r.2.1 r'.2.1) (BlockBackend.gen_ks_block_tr n tgt s (List.replicate n 0)) (BlockBackend.gen_ks_block_tr n tgt s' (List.replicate n 0)))
    {c c' : Closure n α} (hc : ∀ n, (c n).Alike (c' n)) (s s' : σ) (h : K s s') :
    Obl I (fun r r' => K r.2.2 r'.2.2 ∧ (∃ a, r.2.1 = .done a) ∧ ∃ a, r'.2.1 = .done a) (BlockClosure.call_tr n tgt (BlockCallee.ready c) s)
      (BlockClosure.call_tr n tgt (BlockCallee.ready c') s') :=
  .bind (runBlock_obl hg (hc 1) s s' h) fun _ _ hr => .pure ⟨hr, ⟨_, rfl⟩, ⟨_, rfl⟩⟩

/-- The core of the text, made of the closure call. -/
theorem blockProcess_obl {α σ τ : Type} {n : Nat} [BlockBackend n τ] {K : τ → τ → Prop} (u : τ → σ)
    (hg : ∀ s s', K s s' → Obl I (fun r r' => K r.2.1 r'.2.1) (BlockBackend.gen_ks_block_tr n tgt s (List.replicate n 0)) (BlockBackend.gen_ks_block_tr n tgt s' (List.replicate n 0)))
    {c c' : Closure n α} (hc : ∀ n, (c n).Alike (c' n)) (s s' : τ) (h : K s s') :
    Obl I (fun r r' => ∃ t t', r.2 = u t ∧ r'.2 = u t' ∧ K t t')
      ((BlockClosure.call_tr n tgt (BlockCallee.ready c) s >>= fun r => pure ((), u r.2.2, r.2.1)) >>= blockReturned)
      ((BlockClosure.call_tr n tgt (BlockCallee.ready c') s' >>= fun r => pure ((), u r.2.2, r.2.1)) >>= blockReturned) := by
  refine .bind (.bind (blockCall_obl hg hc s s' h) (S := fun r r' => (∃ t t', r.2.1 = u t ∧ r'.2.1 = u t' ∧ K t t') ∧ (∃ a, r.2.2 = .done a) ∧ ∃ a, r'.2.2 = .done a)
    fun r r' hr => .pure ⟨⟨_, _, rfl, rfl, hr.1⟩, hr.2⟩) fun r r' hr => ?_
  obtain ⟨x, s, f⟩ := r
  obtain ⟨x', s', f'⟩ := r'
  obtain ⟨h1, ⟨a, h2⟩, a', h3⟩ := hr
  cases h2
  cases h3
  exact .pure h1

theorem returned_fst {α σ τ : Type} {n : Nat} {m : Tr (Unit × σ × BlockCallee n α)} {r : Except Panic (α × τ)} {f : τ → σ}
    (h : m.1 = (r.map (Prod.map id f)).map fun r => ((), r.2, BlockCallee.done r.1)) : (m >>= blockReturned).1 = r.map (Prod.map id f) := by
  rw [Tr.bind_fst, h]
  cases r <;> rfl

namespace Rabbit

theorem processKeyOnly_erase {α : Type} (s : RabbitKeyOnlyCore) (f : BlockCallee 16 α) : (s.process_with_backend_tr tgt f).1 = s.process_with_backend tgt f := by
  simp only [erase, RabbitKeyOnlyCore.process_with_backend_tr, RabbitKeyOnlyCore.process_with_backend, blockCall_erase (n := 16) (σ := Backend) (tgt := tgt) Backend_gen_ks_block_erase]

theorem process_erase {α : Type} (s : RabbitCore) (f : BlockCallee 16 α) : (s.process_with_backend_tr tgt f).1 = s.process_with_backend tgt f := by
  simp only [erase, RabbitCore.process_with_backend_tr, RabbitCore.process_with_backend, blockCall_erase (n := 16) (σ := Backend) (tgt := tgt) Backend_gen_ks_block_erase]

theorem faithful_keyOnly : Faithful (Verif.Rabbit.core tgt.mode).still (seenKeyOnly tgt) id (fun s => (⟨repr s⟩ : RabbitKeyOnlyCore)) where
  process _ g s := returned_fst (((processKeyOnly_erase _ _).trans ((C92_process tgt _).1 g ⟨repr s⟩)).trans (congrArg _ (hom_keyOnly.process () g s)))
  remaining _ := rfl
  ctrBits := rfl
  getPos _ := rfl
  setPos _ _ := rfl

theorem faithful : Faithful (Verif.Rabbit.core tgt.mode).still (seenCore tgt) id (fun s => (⟨repr s⟩ : RabbitCore)) where
  process _ g s := returned_fst (((process_erase _ _).trans ((C92_process tgt _).2.1 g ⟨repr s⟩)).trans (congrArg _ (hom.process () g s)))
  remaining _ := rfl
  ctrBits := rfl
  getPos _ := rfl
  setPos _ _ := rfl

/-- The states of backends that stand for a state. -/
def Any (b b' : Backend) : Prop := ∃ t t', b = ⟨repr t⟩ ∧ b' = ⟨repr t'⟩

theorem block_obl (b b' : Backend) (h : Any b b') : Obl [] (fun r r' => Any r.2.1 r'.2.1) (BlockBackend.gen_ks_block_tr 16 tgt b (List.replicate 16 0))
    (BlockBackend.gen_ks_block_tr 16 tgt b' (List.replicate 16 0)) := by
  obtain ⟨t, t', rfl, rfl⟩ := h
  have one (t : Verif.Rabbit.State) (r : Unit × Backend × List U8) (h : (Backend.gen_ks_block_tr tgt ⟨repr t⟩ (List.replicate 16 0)).1 = .ok r) : ∃ t', r.2.1 = ⟨repr t'⟩ := by
    rw [Backend_gen_ks_block_erase, gen_ks_block_eq t _ List.length_replicate] at h
    generalize Verif.Rabbit.genBlock tgt.mode t = x at h
    cases x with
    | error e => cases h
    | ok x => cases h; exact ⟨_, rfl⟩
  refine (ChaCha.Obl.and (Backend_gen_ks_block_obl (tgt := tgt) ⟨repr t⟩ ⟨repr t'⟩ ⟨like_toList _ _, like_toList _ _, trivial⟩ _ _ (like.replicate 16 trivial)) fun a b ha hb => ?_).mono
    fun _ _ h => h.2
  obtain ⟨u, hu⟩ := one t a ha
  obtain ⟨u', hu'⟩ := one t' b hb
  exact ⟨u, u', hu, hu'⟩

theorem blind_keyOnly : BlindCore (Verif.Rabbit.core tgt.mode).still (seenKeyOnly tgt) (fun s => (⟨repr s⟩ : RabbitKeyOnlyCore)) (fun _ _ => True) (fun _ => []) where
  process _ g g' hg s s' _ := (blockProcess_obl (fun b : Backend => (⟨b.f0⟩ : RabbitKeyOnlyCore)) block_obl hg ⟨repr s⟩ ⟨repr s'⟩ ⟨s, s', rfl, rfl⟩).mono
    fun r r' ⟨t, t', h1, h2, u, u', h3, h4⟩ => ⟨u, u', by rw [h1, h3], by rw [h2, h4], trivial⟩
  remaining _ _ _ := .pure rfl
  getPos _ _ _ := .pure rfl
  setPos s s' _ _ := .pure ⟨s, s', rfl, rfl, trivial⟩

theorem blind : BlindCore (Verif.Rabbit.core tgt.mode).still (seenCore tgt) (fun s => (⟨repr s⟩ : RabbitCore)) (fun _ _ => True) (fun _ => []) where
  process _ g g' hg s s' _ := (blockProcess_obl (fun b : Backend => (⟨b.f0⟩ : RabbitCore)) block_obl hg ⟨repr s⟩ ⟨repr s'⟩ ⟨s, s', rfl, rfl⟩).mono
    fun r r' ⟨t, t', h1, h2, u, u', h3, h4⟩ => ⟨u, u', by rw [h1, h3], by rw [h2, h4], trivial⟩
  remaining _ _ _ := .pure rfl
  getPos _ _ _ := .pure rfl
  setPos s s' _ _ := .pure ⟨s, s', rfl, rfl, trivial⟩

end Rabbit

namespace Hc256

theorem process_erase {α : Type} (s : Hc256Core) (f : BlockCallee 4 α) : (s.process_with_backend_tr tgt f).1 = s.process_with_backend tgt f := by
  simp only [erase, Hc256Core.process_with_backend_tr, Hc256Core.process_with_backend, blockCall_erase (n := 4) (σ := Backend) (tgt := tgt) gen_ks_block_erase]

theorem faithful (ht : 16 ≤ tgt.bits) : Faithful (Verif.Hc256.core tgt.mode tgt.bits).still (seenCore tgt) id repr where
  process _ g s := returned_fst (((process_erase _ _).trans ((C92_process tgt _).2.2 g (repr s))).trans (congrArg _ ((hom ht).process () g s)))
  remaining _ := rfl
  ctrBits := rfl
  getPos _ := rfl
  setPos _ _ := rfl

/-- A state that can be reached, twice. -/
def Both (b b' : Backend) : Prop := ∃ t : Verif.Hc256.State, t.idx.toNat < 2048 ∧ b = ⟨repr t⟩ ∧ b' = ⟨repr t⟩

theorem word_obl (ht : 16 ≤ tgt.bits) (t : Verif.Hc256.State) (hi : t.idx.toNat < 2048) :
    Obl [] (fun r r' => r = r' ∧ ∃ u : Verif.Hc256.State, u.idx.toNat < 2048 ∧ r.2 = repr u) (Hc256Core.gen_word_tr tgt (repr t)) (Hc256Core.gen_word_tr tgt (repr t)) := by
  obtain ⟨s', a, e, -, h2⟩ := gen_word_seen ht t t.idx.toNat (Nat.mod_eq_of_lt hi).symm
  rw [e]
  intro x y hx hy
  cases hx
  cases hy
  refine ⟨rfl, ?_, rfl, s', by omega, rfl⟩
  show ∀ e ∈ seen _ _ _ _, _
  simp only [seen, bytes, List.mem_append, List.mem_cons, List.not_mem_nil, or_false]
  rintro e h
  repeat' (first | (rcases h with h | h) | subst h)
  all_goals exact True.intro

theorem block_obl (ht : 16 ≤ tgt.bits) (b b' : Backend) (h : Both b b') : Obl [] (fun r r' => Both r.2.1 r'.2.1) (BlockBackend.gen_ks_block_tr 4 tgt b (List.replicate 4 0))
    (BlockBackend.gen_ks_block_tr 4 tgt b' (List.replicate 4 0)) := by
  obtain ⟨t, hi, rfl, rfl⟩ := h
  refine .bind (word_obl ht t hi) fun r r' hr => ?_
  obtain ⟨rfl, u, hu, h2⟩ := hr
  simp only [pure_bind]
  exact .bind_any fun _ _ => .pure ⟨u, hu, by rw [h2], by rw [h2]⟩

theorem blind (ht : 16 ≤ tgt.bits) : BlindCore (Verif.Hc256.core tgt.mode tgt.bits).still (seenCore tgt) repr (fun s s' => s = s' ∧ s.idx.toNat < 2048) (fun _ => []) where
  process _ g g' hg s s' h := (blockProcess_obl (fun b : Backend => b.f0) (block_obl ht) hg ⟨repr s⟩ ⟨repr s'⟩ ⟨s, h.2, rfl, by rw [h.1]⟩).mono
    fun r r' ⟨t, t', h1, h2, u, hu, h3, h4⟩ => ⟨u, u, by rw [h1, h3], by rw [h2, h4], rfl, hu⟩
  remaining _ _ _ := .pure rfl
  getPos _ _ _ := .pure rfl
  setPos s s' _ h := .pure ⟨s, s', rfl, rfl, h⟩

end Hc256

end Rust
end Verif
