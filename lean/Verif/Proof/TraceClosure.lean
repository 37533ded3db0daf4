import Verif.Rust.Closure
import Verif.Proof.OblTactic
import Verif.Proof.Erase
/-!
# What is seen of client code that uses a backend
-/
namespace Verif

/-- Two clients make the same requests, whatever blocks they get. -/
inductive Prog.Alike {bs : Nat} {α : Type} : Prog bs α → Prog bs α → Prop
  | done (a b : α) : Alike (.done a) (.done b)
  | block {k k' : Vector U8 bs → Prog bs α} (h : ∀ b b', Alike (k b) (k' b')) : Alike (.block k) (.block k')
  | par {k k' : List (Vector U8 bs) → Prog bs α} (h : ∀ l l', Alike (k l) (k' l')) : Alike (.par k) (.par k')
  | tail (n : Nat) {k k' : List (Vector U8 bs) → Prog bs α} (h : ∀ l l', Alike (k l) (k' l')) : Alike (.tail n k) (.tail n k')

namespace Rust

/-- The methods with a record are the methods. -/
class Erases (σ : Type) [StreamCipherBackend σ] : Prop where
  block (tgt : Target) (s : σ) (b : List U8) : (StreamCipherBackend.gen_ks_block_tr tgt s b).1 = StreamCipherBackend.gen_ks_block tgt s b
  par (tgt : Target) (s : σ) (b : List (List U8)) : (StreamCipherBackend.gen_par_ks_blocks_tr tgt s b).1 = StreamCipherBackend.gen_par_ks_blocks tgt s b
  tail (tgt : Target) (s : σ) (b : List (List U8)) : (StreamCipherBackend.gen_tail_blocks_tr tgt s b).1 = StreamCipherBackend.gen_tail_blocks tgt s b

@[erase] theorem genEach_erase {σ : Type} {gen : σ → List U8 → Tr (Unit × σ × List U8)} (s : σ) (l : List (List U8)) :
    (genEach_tr gen s l).1 = genEach (fun s b => (gen s b).1) s l := by
  induction l generalizing s with
  | nil => rfl
  | cons b l ih => simp only [genEach_tr, genEach, erase, ih]

theorem providedTail_erase {σ : Type} {n : Nat} {gen : σ → List U8 → Tr (Unit × σ × List U8)} (s : σ) (l : List (List U8)) :
    (providedTail_tr n gen s l).1 = providedTail n (fun s b => (gen s b).1) s l := by
  unfold providedTail_tr providedTail
  simp only [erase]

/-- A run of client code, without the record. -/
theorem runTr_erase {α σ : Type} {tgt : Target} [StreamCipherBackend σ] [Erases σ] (p : Prog 64 α) (s : σ) :
    (runTr tgt p s).1 = p.run (asBackend tgt σ) s := by
  induction p generalizing s with
  | done a => rfl
  | block k ih =>
    rw [runTr, Prog.run]
    simp only [erase, Erases.block, ih]
    show _ = blockOf 64 (StreamCipherBackend.gen_ks_block tgt) s >>= _
    rw [blockOf]
    cases StreamCipherBackend.gen_ks_block tgt s (List.replicate 64 0) with
    | error e => rfl
    | ok r =>
      simp only [okBind, array]
      split <;> rfl
  | par k ih =>
    rw [runTr, Prog.run]
    simp only [erase, Erases.par, ih]
    show _ = blocksOf 64 _ (StreamCipherBackend.gen_par_ks_blocks tgt) s >>= _
    rw [blocksOf]
    cases StreamCipherBackend.gen_par_ks_blocks tgt s _ with
    | error e => rfl
    | ok r =>
      simp only [okBind]
      cases arrays 64 r.2.2 <;> rfl
  | tail n k ih =>
    rw [runTr, Prog.run]
    simp only [erase, Erases.tail, ih]
    show _ = blocksOf 64 n (StreamCipherBackend.gen_tail_blocks tgt) s >>= _
    rw [blocksOf]
    cases StreamCipherBackend.gen_tail_blocks tgt s _ with
    | error e => rfl
    | ok r =>
      simp only [okBind]
      cases arrays 64 r.2.2 <;> rfl

theorem call_erase {α σ : Type} {tgt : Target} [StreamCipherBackend σ] [Erases σ] (f : Callee α) (s : σ) :
    (StreamCipherClosure.call_tr tgt f s).1 = StreamCipherClosure.call tgt f s := by
  cases f with
  | done a => rfl
  | ready c =>
    show (runTr tgt _ s >>= _ : Tr _).1 = (Prog.run (asBackend tgt σ) _ s >>= _)
    rw [Tr.bind_fst, runTr_erase]
    rfl

/-- The methods show nothing of what is secret. -/
class OblBackend (I : List String) (tgt : Target) (σ : Type) [StreamCipherBackend σ] [Like σ] : Prop where
  block (s s' : σ) (h : like s s') (b b' : List U8) (hb : like b b') :
    Obl I like (StreamCipherBackend.gen_ks_block_tr tgt s b) (StreamCipherBackend.gen_ks_block_tr tgt s' b')
  par (s s' : σ) (h : like s s') (b b' : List (List U8)) (hb : like b b') :
    Obl I like (StreamCipherBackend.gen_par_ks_blocks_tr tgt s b) (StreamCipherBackend.gen_par_ks_blocks_tr tgt s' b')
  tail (s s' : σ) (h : like s s') (b b' : List (List U8)) (hb : like b b') :
    Obl I like (StreamCipherBackend.gen_tail_blocks_tr tgt s b) (StreamCipherBackend.gen_tail_blocks_tr tgt s' b')

variable {I : List String} {tgt : Target}

theorem genEach_obl {σ : Type} [Like σ] {gen gen' : σ → List U8 → Tr (Unit × σ × List U8)}
    (hg : ∀ s s', like s s' → ∀ b b', like b b' → Obl I like (gen s b) (gen' s' b')) (s s' : σ) (h : like s s') (l l' : List (List U8)) (hl : like l l') :
    Obl I like (genEach_tr gen s l) (genEach_tr gen' s' l') := by
  induction l generalizing s s' l' with
  | nil =>
    cases l' with
    | nil => exact Obl.pure (like.prod trivial (like.prod h like.nil))
    | cons b l' => exact absurd hl.1 (by simp)
  | cons a l ih =>
    cases l' with
    | nil => exact absurd hl.1 (by simp)
    | cons b l' =>
      refine Obl.bind (hg s s' h a b hl.tail.1) fun x x' hx => ?_
      refine Obl.bind (ih x.2.1 x'.2.1 hx.2.1 l' hl.tail.2) fun y y' hy => ?_
      exact Obl.pure (like.prod trivial (like.prod hy.2.1 (hx.2.2.cons hy.2.2)))

theorem providedTail_obl {σ : Type} [Like σ] {n : Nat} {gen gen' : σ → List U8 → Tr (Unit × σ × List U8)}
    (hg : ∀ s s', like s s' → ∀ b b', like b b' → Obl I like (gen s b) (gen' s' b')) (s s' : σ) (h : like s s') (l l' : List (List U8)) (hl : like l l') :
    Obl I like (providedTail_tr n gen s l) (providedTail_tr n gen' s' l') := by
  unfold providedTail_tr
  refine Obl.bind (Obl.loop hl.1) fun _ _ _ => ?_
  rw [hl.1]
  refine Obl.ite (fun _ => genEach_obl hg s s' h l l' hl) fun _ => Obl.error _ _

theorem zeroBlock : like (List.replicate 64 (0 : U8)) (List.replicate 64 0) := like.replicate _ trivial

theorem zeroBlocks (n : Nat) : like (List.replicate n (List.replicate 64 (0 : U8))) (List.replicate n (List.replicate 64 0)) := like.replicate _ zeroBlock

/-- Clients that make the same requests show the same. -/
theorem runTr_obl {α σ : Type} [StreamCipherBackend σ] [Like σ] [OblBackend I tgt σ] {p p' : Prog 64 α} (hp : p.Alike p') (s s' : σ) (h : like s s') :
    Obl I (fun r r' => like r.2 r'.2) (runTr tgt p s) (runTr tgt p' s') := by
  induction hp generalizing s s' with
  | done a b => exact Obl.pure h
  | block _ ih =>
    rw [runTr, runTr]
    refine Obl.bind (OblBackend.block s s' h _ _ zeroBlock) fun x x' hx => ?_
    exact Obl.bind_any fun a b => ih a b _ _ hx.2.1
  | par _ ih =>
    rw [runTr, runTr]
    refine Obl.bind (OblBackend.par s s' h _ _ (zeroBlocks _)) fun x x' hx => ?_
    exact Obl.bind_any fun a b => ih a b _ _ hx.2.1
  | tail n _ ih =>
    rw [runTr, runTr]
    refine Obl.bind (OblBackend.tail s s' h _ _ (zeroBlocks _)) fun x x' hx => ?_
    exact Obl.bind_any fun a b => ih a b _ _ hx.2.1

/-- Closures that make the same requests whatever they get, and what any closures left. -/
instance (α : Type) : Like (Callee α) := ⟨fun f f' => match f, f' with
  | .ready c, .ready c' => ∀ n, (c n).Alike (c' n)
  | .done _, .done _ => True
  | _, _ => False⟩

theorem call_obl {α σ : Type} [StreamCipherBackend σ] [Like σ] [OblBackend I tgt σ] {f f' : Callee α} (hf : like f f') {s s' : σ} (h : like s s') :
    Obl I like (StreamCipherClosure.call_tr tgt f s) (StreamCipherClosure.call_tr tgt f' s') := by
  cases f with
  | done a => exact Obl.error _ _
  | ready c =>
    cases f' with
    | done a => exact hf.elim
    | ready c' => exact Obl.bind (runTr_obl (hf _) s s' h) fun x x' hx => Obl.pure (like.prod trivial (like.prod trivial hx))

macro_rules | `(tactic| obl_call) => `(tactic| (with_reducible refine call_obl ?_ ?_ <;> alike))

end Rust
end Verif
