import Verif.Rust.ChaChaBuild
import Verif.Props.SrcChaChaRng
import Verif.Proof.SrcClosure
/-!
# The cores of `chacha20` with a given `process_with_backend`
-/
namespace Verif.Rust.ChaCha
open Spec

variable {tgt : Target} {R V : Type} [Rounds R] [Variant V]

/-- The function runs client code as the model does in some environment. -/
def Runs (P : Process) (tgt : Target) : Prop :=
  ∀ (R V : Type) [Rounds R] [Variant V] (v : Verif.ChaCha.Variant), Is V v → ∃ e : Verif.ChaCha.Env, ∀ (α : Type) (f : Closure 64 α) (s : Verif.ChaCha.State),
    P.run R V tgt (repr R V s) (Callee.ready f) =
      (Verif.ChaCha.process (Rounds.count R) v e f s).map fun x => ((), repr R V x.2, Callee.done x.1)

theorem call_of {P : Process} {v : Verif.ChaCha.Variant} {e : Verif.ChaCha.Env} {α : Type} {f : Closure 64 α} {s : Verif.ChaCha.State}
    (h : P.run R V tgt (repr R V s) (Callee.ready f) = (Verif.ChaCha.process (Rounds.count R) v e f s).map fun x => ((), repr R V x.2, Callee.done x.1)) :
    P.call R V tgt f (repr R V s) = (Verif.ChaCha.process (Rounds.count R) v e f s).map fun x => (x.1, repr R V x.2) := by
  rw [Process.call, h]
  cases Verif.ChaCha.process (Rounds.count R) v e f s <;> rfl

theorem Runs.call {P : Process} (hP : Runs P tgt) {v : Verif.ChaCha.Variant} (hV : Is V v) : ∃ e : Verif.ChaCha.Env, ∀ (α : Type) (f : Closure 64 α)
    (s : Verif.ChaCha.State), P.call R V tgt f (repr R V s) = (Verif.ChaCha.process (Rounds.count R) v e f s).map fun x => (x.1, repr R V x.2) :=
  let ⟨e, he⟩ := hP R V v hV
  ⟨e, fun α f s => call_of (he α f s)⟩

theorem is_of_width (h : RInt.width (Variant.Counter V) = 32 ∨ RInt.width (Variant.Counter V) = 64) : ∃ v, Is V v := by
  rcases h with h | h
  · exact ⟨.ietf, by rw [Is, h]; rfl⟩
  · exact ⟨.legacy, by rw [Is, h]; rfl⟩

theorem coreIn_law {P : Process} (hP : Runs P tgt) {v : Verif.ChaCha.Variant} (hV : Is V v) (s0 : Verif.ChaCha.State)
    (law : SeekLaw (core R V tgt) tgt.bits (Verif.ChaCha.ksOf (Rounds.count R) v s0) (Rel R V v s0) (2 ^ (8 * v.ctrBytes) - 1)) :
    SeekLaw (coreIn P R V tgt) tgt.bits (Verif.ChaCha.ksOf (Rounds.count R) v s0) (Rel R V v s0) (2 ^ (8 * v.ctrBytes) - 1) where
  process := by
    intro _ c n hr
    obtain ⟨e, he⟩ := hP.call (R := R) hV
    obtain ⟨par, h1, h2⟩ := (Verif.ChaCha.seekLaw tgt.bits (Rounds.count R) v s0).process e (Verif.ChaCha.at' v s0 n) n rfl
    refine ⟨par, h1, fun α f a n' h hw => ?_⟩
    obtain ⟨s', h3, h4⟩ := h2 α f a n' h hw
    refine ⟨repr R V s', ?_, congrArg (repr R V) h4⟩
    rw [hr]
    refine (he α f _).trans ?_
    rw [show Verif.ChaCha.process (Rounds.count R) v e f (Verif.ChaCha.at' v s0 n) = .ok (a, s') from h3]
    rfl
  remaining := law.remaining
  getPos := law.getPos
  setPos := law.setPos
  ctrMax := law.ctrMax

theorem coreXIn_law {P : Process} (hP : Runs P tgt) (s0 : Verif.ChaCha.State) :
    SeekLaw (coreXIn P R tgt) tgt.bits (Verif.ChaCha.ksOf (Rounds.count R) .ietf s0) (fun c n => Rel R Ietf .ietf s0 c.f0 n) (2 ^ 32 - 1) where
  process := by
    intro e c n hr
    obtain ⟨par, h1, h2⟩ := (coreIn_law (R := R) hP is_ietf s0 (seekLaw_ietf s0)).process e c.f0 n hr
    refine ⟨par, h1, fun α f a n' h hw => ?_⟩
    obtain ⟨s', h3, h4⟩ := h2 α f a n' h hw
    refine ⟨⟨s'⟩, ?_, h4⟩
    have h3' : P.call R Ietf tgt f c.f0 = .ok (a, s') := h3
    simp only [coreXIn, h3']
    rfl
  remaining := (seekLawX s0).remaining
  getPos := (seekLawX s0).getPos
  setPos := (seekLawX s0).setPos
  ctrMax := (seekLawX (tgt := tgt) (R := R) s0).ctrMax

/-- The portable backend of the text, asked for `n` blocks at a time, is that of the model. -/
theorem portable_call {v : Verif.ChaCha.Variant} (hV : Is V v) (n : Nat) {α : Type} (f : Closure 64 α) (s : Verif.ChaCha.State) :
    (Verif.Backend.ofBlock n (genBlock R V tgt)).call f (repr R V s) =
      ((Verif.Backend.ofBlock n (Verif.ChaCha.softGenBlock (Rounds.count R) v)).call f s).map (Prod.map id (repr R V)) := by
  have hb (s : Verif.ChaCha.State) : genBlock R V tgt (repr R V s) = (Verif.ChaCha.softGenBlock (Rounds.count R) v s).map (Prod.map id (repr R V)) :=
    genBlock_eq hV s
  have hs (k : Nat) : ∀ s : Verif.ChaCha.State, genMany (genBlock R V tgt) k (repr R V s) =
      (genMany (Verif.ChaCha.softGenBlock (Rounds.count R) v) k s).map (Prod.map id (repr R V)) := by
    induction k with
    | zero => intro s; rfl
    | succ k ih =>
      intro s
      rw [genMany, genMany, hb]
      cases Verif.ChaCha.softGenBlock (Rounds.count R) v s with
      | error e => rfl
      | ok r =>
        show (genMany (genBlock R V tgt) k (repr R V r.2) >>= _) = Except.map _ (genMany _ k r.2 >>= _)
        rw [ih]
        cases genMany (Verif.ChaCha.softGenBlock (Rounds.count R) v) k r.2 <;> rfl
  exact call_sim (B := Verif.Backend.ofBlock n (Verif.ChaCha.softGenBlock (Rounds.count R) v)) (B' := Verif.Backend.ofBlock n (genBlock R V tgt)) (repr R V) rfl hb (hs n)
    (fun k s => by
      show (if k < n then _ else _) = Except.map _ (if k < n then _ else _)
      by_cases h : k < n
      · rw [if_pos h, if_pos h, hs]
      · rw [if_neg h, if_neg h]; rfl) f s

end Verif.Rust.ChaCha

namespace Verif
open Spec Rust

/-- What `process_with_backend` of a build has to do on a target: with it, construction succeeds for every key and nonce, and under every history of calls
and seeks the ciphers `ChaCha8/12/20`, `ChaCha20Legacy` and `XChaCha8/12/20` cannot be told from cursors over the published keystreams. -/
structure ChaChaStreams (P : Rust.ChaCha.Process) (tgt : Target) : Prop where
  ietf : ∀ (R : Type) [Rust.ChaCha.Rounds R] (key : Vector U8 32) (nonce : Vector U8 12),
    ∃ c : Rust.ChaCha.ChaChaCore R Rust.ChaCha.Ietf, Rust.ChaCha.ChaChaCore.new tgt key.toList nonce.toList = .ok c ∧
      IsSeekStream tgt.bits (Rust.ChaCha.coreIn P R Rust.ChaCha.Ietf tgt) (fun i => (Spec.ChaCha.serialize (Spec.ChaCha.core (Rust.ChaCha.Rounds.count R)
        (Spec.ChaCha.ietfInput key nonce (i / 64))))[i % 64]'(Nat.mod_lt _ (by decide))) (2 ^ 32 - 1) (Wrapper.fromCore c) 0
  legacy : ∀ (key : Vector U8 32) (nonce : Vector U8 8),
    ∃ c : Rust.ChaCha.ChaCha20LegacyCore, Rust.ChaCha.ChaCha20LegacyCore.new tgt key.toList nonce.toList = .ok c ∧
      IsSeekStream tgt.bits (Rust.ChaCha.coreIn P Rust.ChaCha.R20 Rust.ChaCha.Legacy tgt) (fun i => (Spec.ChaCha.serialize (Spec.ChaCha.core 10
        (Spec.ChaCha.djbInput key nonce (i / 64))))[i % 64]'(Nat.mod_lt _ (by decide))) (2 ^ 64 - 1) (Wrapper.fromCore c) 0
  xchacha : ∀ (R : Type) [Rust.ChaCha.Rounds R] (key : Vector U8 32) (nonce : Vector U8 24),
    ∃ c : Rust.ChaCha.XChaChaCore R, Rust.ChaCha.XChaChaCore.new tgt key.toList nonce.toList = .ok c ∧
      IsSeekStream tgt.bits (Rust.ChaCha.coreXIn P R tgt)
        (fun i => (Spec.ChaCha.xBlock (Rust.ChaCha.Rounds.count R) key nonce (i / 64))[i % 64]'(Nat.mod_lt _ (by decide))) (2 ^ 32 - 1)
        (Wrapper.fromCore c) 0

theorem _root_.Verif.Rust.ChaCha.Runs.streams {P : Rust.ChaCha.Process} {tgt : Target} (hP : Rust.ChaCha.Runs P tgt) : ChaChaStreams P tgt where
  ietf := by
    intro R _ key nonce
    refine ⟨_, Rust.ChaCha.new_eq key nonce, ?_⟩
    have law := Rust.ChaCha.coreIn_law (R := R) hP Rust.ChaCha.is_ietf (ChaCha.ietfState key nonce) (Rust.ChaCha.seekLaw_ietf _)
    rw [show ChaCha.ksOf (Rust.ChaCha.Rounds.count R) .ietf (ChaCha.ietfState key nonce) = Spec.ChaCha.ietfBlock (Rust.ChaCha.Rounds.count R) key nonce from
      funext fun n => ChaCha.ksOf_ietf _ key nonce n] at law
    exact law.isSeekStream (by decide) _ 0 (At.fromCore _ _ (congrArg (Rust.ChaCha.repr R Rust.ChaCha.Ietf) rfl) _)
  legacy := by
    intro key nonce
    refine ⟨_, Rust.ChaCha.newLegacy_eq key nonce, ?_⟩
    have law := Rust.ChaCha.coreIn_law (R := Rust.ChaCha.R20) hP Rust.ChaCha.is_legacy (ChaCha.legacyState key nonce) (Rust.ChaCha.seekLaw_legacy _)
    rw [show ChaCha.ksOf (Rust.ChaCha.Rounds.count Rust.ChaCha.R20) .legacy (ChaCha.legacyState key nonce) = Spec.ChaCha.djbBlock 10 key nonce from
      funext fun n => ChaCha.ksOf_legacy _ key nonce n] at law
    refine law.isSeekStream (by decide) _ 0 (At.fromCore _ _ (congrArg (Rust.ChaCha.repr _ _) ?_) _)
    show ChaCha.legacyState key nonce = ChaCha.at' .legacy (ChaCha.setupState key 0 0 _ _) 0
    rw [ChaCha.at'_legacy]
    rfl
  xchacha := by
    intro R _ key nonce
    have hn : ChaCha.newX (Rust.ChaCha.Rounds.count R) key nonce =
        .ok (ChaCha.ietfState (Spec.ChaCha.xSubkey (Rust.ChaCha.Rounds.count R) key nonce) (Spec.ChaCha.xNonce nonce)) := by
      simp only [ChaCha.newX_eq, ChaCha.hchacha_eq]
      rw [ChaCha.newIetf_eq]; rfl
    refine ⟨_, by rw [Rust.ChaCha.newX_eq, hn]; rfl, ?_⟩
    have law := Rust.ChaCha.coreXIn_law (R := R) hP
      (ChaCha.ietfState (Spec.ChaCha.xSubkey (Rust.ChaCha.Rounds.count R) key nonce) (Spec.ChaCha.xNonce nonce))
    rw [show ChaCha.ksOf (Rust.ChaCha.Rounds.count R) .ietf (ChaCha.ietfState (Spec.ChaCha.xSubkey (Rust.ChaCha.Rounds.count R) key nonce)
      (Spec.ChaCha.xNonce nonce)) = Spec.ChaCha.xBlock (Rust.ChaCha.Rounds.count R) key nonce from funext fun n => ChaCha.ksOf_ietf _ _ _ n] at law
    exact law.isSeekStream (by decide) _ 0 (At.fromCore _ _ (congrArg (Rust.ChaCha.repr R Rust.ChaCha.Ietf) rfl) _)

/-- A refill that gives what the model of the portable one gives. -/
theorem fourBlocks_of {B : Rust.ChaCha.Build} {tgt : Target} {g : Nat → ChaCha.State → Vector U32 64 × ChaCha.State}
    (hB : ∀ (R : Type) [Rust.ChaCha.Rounds R] (s : ChaCha.State) (buffer : List U32), buffer.length = 64 → B.generate R Rust.ChaCha.Legacy tgt
      (Rust.ChaCha.repr R Rust.ChaCha.Legacy s) buffer =
        .ok ((), Rust.ChaCha.repr R Rust.ChaCha.Legacy (g (Rust.ChaCha.Rounds.count R) s).2, (g (Rust.ChaCha.Rounds.count R) s).1.toList))
    (hg : ∀ dr s, g dr s = ChaCha.softGenKsBlocks dr s) : FourBlocks B tgt := by
  intro R _ s buffer hb
  obtain ⟨ws, h1, h2, _⟩ := C27_refill (Rust.ChaCha.Rounds.count R) s
  refine ⟨ws, h1, (hB R s buffer hb).trans ?_⟩
  rw [hg, h2]
  rfl

end Verif
