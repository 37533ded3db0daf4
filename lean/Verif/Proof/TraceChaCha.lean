import Verif.Rust.Src.ChaCha
import Verif.Proof.OblTactic
/-!
# What is seen of `chacha20`, portable backend and initialisation

Erasing the record gives the text, and what is seen does not depend on what is secret.
-/
namespace Verif.Rust.ChaCha

variable {I : List String} {tgt : Target} {R V : Type} [Rounds R] [Variant V]

@[erase] theorem quarter_round_erase (a : Usize tgt) (b : Usize tgt) (c : Usize tgt) (d : Usize tgt) (x0 : List U32) : (quarter_round_tr tgt a b c d x0).1 = quarter_round tgt a b c d x0 := by
  simp only [erase, quarter_round_tr, quarter_round] <;> rfl

theorem quarter_round_obl (a : Usize tgt) (b : Usize tgt) (c : Usize tgt) (d : Usize tgt) : ∀ x0 x0' : List U32, like x0 x0' →
    Obl I like (quarter_round_tr tgt a b c d x0) (quarter_round_tr tgt a b c d x0') := by
  elim
  unfold quarter_round_tr
  (try dsimp only)
  obl

macro_rules | `(tactic| obl_call) => `(tactic| (with_reducible refine quarter_round_obl _ _ _ _ _ _ ?_ <;> alike))

@[erase] theorem run_rounds_erase (x0 : List U32) : (run_rounds_tr (R := R) tgt x0).1 = run_rounds (R := R) tgt x0 := by
  simp only [erase, run_rounds_tr, run_rounds] <;> rfl

theorem run_rounds_obl : ∀ x0 x0' : List U32, like x0 x0' →
    Obl I like (run_rounds_tr (R := R) tgt x0) (run_rounds_tr (R := R) tgt x0') := by
  elim
  unfold run_rounds_tr
  (try dsimp only)
  obl

macro_rules | `(tactic| obl_call) => `(tactic| (with_reducible refine run_rounds_obl _ _ ?_ <;> alike))

instance : Like (ChaChaCore R V) := ⟨fun a b => like a.state b.state⟩

theorem like_ChaChaCore {a0 b0 : List U32} (h0 : like a0 b0) (t0 u0 : _) : like (⟨a0, t0⟩ : ChaChaCore R V) ⟨b0, u0⟩ := h0
macro_rules | `(tactic| like_ext) => `(tactic| (with_reducible refine like_ChaChaCore ?_ _ _ <;> alike))

theorem elim_ChaChaCore {P : ChaChaCore R V → ChaChaCore R V → Prop} (h : ∀ a0 b0, like a0 b0 → ∀ t0 u0, P ⟨a0, t0⟩ ⟨b0, u0⟩) :
    ∀ p p', like p p' → P p p' := fun _ _ h' => h _ _ (h') _ _
macro_rules | `(tactic| elim_ext) => `(tactic| (with_reducible refine elim_ChaChaCore ?_; elim; intro _ _))

instance : Like (Backend R V) := ⟨fun a b => like a.f0 b.f0⟩

theorem like_Backend {a0 b0 : ChaChaCore R V} (h0 : like a0 b0) : like (⟨a0⟩ : Backend R V) ⟨b0⟩ := h0
macro_rules | `(tactic| like_ext) => `(tactic| (with_reducible refine like_Backend ?_ <;> alike))

theorem elim_Backend {P : Backend R V → Backend R V → Prop} (h : ∀ a0 b0, like a0 b0 → P ⟨a0⟩ ⟨b0⟩) :
    ∀ p p', like p p' → P p p' := fun _ _ h' => h _ _ (h')
macro_rules | `(tactic| elim_ext) => `(tactic| (with_reducible refine elim_Backend ?_; elim))

instance : Like (XChaChaCore R) := ⟨fun a b => like a.f0 b.f0⟩

theorem like_XChaChaCore {a0 b0 : ChaChaCore R Ietf} (h0 : like a0 b0) : like (⟨a0⟩ : XChaChaCore R) ⟨b0⟩ := h0
macro_rules | `(tactic| like_ext) => `(tactic| (with_reducible refine like_XChaChaCore ?_ <;> alike))

theorem elim_XChaChaCore {P : XChaChaCore R → XChaChaCore R → Prop} (h : ∀ a0 b0, like a0 b0 → P ⟨a0⟩ ⟨b0⟩) :
    ∀ p p', like p p' → P p p' := fun _ _ h' => h _ _ (h')
macro_rules | `(tactic| elim_ext) => `(tactic| (with_reducible refine elim_XChaChaCore ?_; elim))

@[erase] theorem Backend_gen_ks_block_erase (x0 : Backend R V) (x1 : List U8) : (Backend.gen_ks_block_tr tgt x0 x1).1 = Backend.gen_ks_block tgt x0 x1 := by
  simp only [erase, Backend.gen_ks_block_tr, Backend.gen_ks_block] <;> rfl

theorem Backend_gen_ks_block_obl : ∀ x0 x0' : Backend R V, like x0 x0' → ∀ x1 x1' : List U8, like x1 x1' →
    Obl I like (Backend.gen_ks_block_tr tgt x0 x1) (Backend.gen_ks_block_tr tgt x0' x1') := by
  elim; elim
  unfold Backend.gen_ks_block_tr
  (try dsimp only)
  obl

macro_rules | `(tactic| obl_call) => `(tactic| (with_reducible refine Backend_gen_ks_block_obl _ _ ?_ _ _ ?_ <;> alike))

@[erase] theorem Backend_gen_ks_blocks_erase (x0 : Backend R V) (x1 : List U32) : (Backend.gen_ks_blocks_tr tgt x0 x1).1 = Backend.gen_ks_blocks tgt x0 x1 := by
  simp only [erase, Backend.gen_ks_blocks_tr, Backend.gen_ks_blocks] <;> rfl

theorem Backend_gen_ks_blocks_obl : ∀ x0 x0' : Backend R V, like x0 x0' → ∀ x1 x1' : List U32, like x1 x1' →
    Obl I like (Backend.gen_ks_blocks_tr tgt x0 x1) (Backend.gen_ks_blocks_tr tgt x0' x1') := by
  elim; elim
  unfold Backend.gen_ks_blocks_tr
  (try dsimp only)
  obl

macro_rules | `(tactic| obl_call) => `(tactic| (with_reducible refine Backend_gen_ks_blocks_obl _ _ ?_ _ _ ?_ <;> alike))

@[erase] theorem hchacha_erase (x0 : List U8) (x1 : List U8) : (hchacha_tr (R := R) tgt x0 x1).1 = hchacha (R := R) tgt x0 x1 := by
  simp only [erase, hchacha_tr, hchacha] <;> rfl

theorem hchacha_obl : ∀ x0 x0' : List U8, like x0 x0' → ∀ x1 x1' : List U8, like x1 x1' →
    Obl I like (hchacha_tr (R := R) tgt x0 x1) (hchacha_tr (R := R) tgt x0' x1') := by
  elim; elim
  unfold hchacha_tr
  (try dsimp only)
  obl

macro_rules | `(tactic| obl_call) => `(tactic| (with_reducible refine hchacha_obl _ _ ?_ _ _ ?_ <;> alike))

@[erase] theorem ChaChaCore_new_internal_erase (x0 : List U8) (x1 : List U8) : (ChaChaCore.new_internal_tr (R := R) (V := V) tgt x0 x1).1 = ChaChaCore.new_internal (R := R) (V := V) tgt x0 x1 := by
  simp only [erase, ChaChaCore.new_internal_tr, ChaChaCore.new_internal] <;> rfl

theorem ChaChaCore_new_internal_obl : ∀ x0 x0' : List U8, like x0 x0' → ∀ x1 x1' : List U8, like x1 x1' →
    Obl I like (ChaChaCore.new_internal_tr (R := R) (V := V) tgt x0 x1) (ChaChaCore.new_internal_tr (R := R) (V := V) tgt x0' x1') := by
  elim; elim
  unfold ChaChaCore.new_internal_tr
  (try dsimp only)
  obl

macro_rules | `(tactic| obl_call) => `(tactic| (with_reducible refine ChaChaCore_new_internal_obl _ _ ?_ _ _ ?_ <;> alike))

@[erase] theorem ChaChaCore_new_erase (x0 : List U8) (x1 : List U8) : (ChaChaCore.new_tr (R := R) tgt x0 x1).1 = ChaChaCore.new (R := R) tgt x0 x1 := by
  simp only [erase, ChaChaCore.new_tr, ChaChaCore.new] <;> rfl

theorem ChaChaCore_new_obl : ∀ x0 x0' : List U8, like x0 x0' → ∀ x1 x1' : List U8, like x1 x1' →
    Obl I like (ChaChaCore.new_tr (R := R) tgt x0 x1) (ChaChaCore.new_tr (R := R) tgt x0' x1') := by
  elim; elim
  unfold ChaChaCore.new_tr
  (try dsimp only)
  obl

macro_rules | `(tactic| obl_call) => `(tactic| (with_reducible refine ChaChaCore_new_obl _ _ ?_ _ _ ?_ <;> alike))

@[erase] theorem ChaCha20LegacyCore_new_erase (x0 : List U8) (x1 : List U8) : (ChaCha20LegacyCore.new_tr tgt x0 x1).1 = ChaCha20LegacyCore.new tgt x0 x1 := by
  simp only [erase, ChaCha20LegacyCore.new_tr, ChaCha20LegacyCore.new] <;> rfl

theorem ChaCha20LegacyCore_new_obl : ∀ x0 x0' : List U8, like x0 x0' → ∀ x1 x1' : List U8, like x1 x1' →
    Obl I like (ChaCha20LegacyCore.new_tr tgt x0 x1) (ChaCha20LegacyCore.new_tr tgt x0' x1') := by
  elim; elim
  unfold ChaCha20LegacyCore.new_tr
  (try dsimp only)
  obl

macro_rules | `(tactic| obl_call) => `(tactic| (with_reducible refine ChaCha20LegacyCore_new_obl _ _ ?_ _ _ ?_ <;> alike))

@[erase] theorem XChaChaCore_new_erase (x0 : List U8) (x1 : List U8) : (XChaChaCore.new_tr (R := R) tgt x0 x1).1 = XChaChaCore.new (R := R) tgt x0 x1 := by
  simp only [erase, XChaChaCore.new_tr, XChaChaCore.new] <;> rfl

theorem XChaChaCore_new_obl : ∀ x0 x0' : List U8, like x0 x0' → ∀ x1 x1' : List U8, like x1 x1' →
    Obl I like (XChaChaCore.new_tr (R := R) tgt x0 x1) (XChaChaCore.new_tr (R := R) tgt x0' x1') := by
  elim; elim
  unfold XChaChaCore.new_tr
  (try dsimp only)
  obl

macro_rules | `(tactic| obl_call) => `(tactic| (with_reducible refine XChaChaCore_new_obl _ _ ?_ _ _ ?_ <;> alike))

end Verif.Rust.ChaCha
