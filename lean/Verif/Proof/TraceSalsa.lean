import Verif.Rust.Src.Salsa
import Verif.Proof.OblTactic
/-!
# What is seen of `salsa20`

Erasing the record gives the text, and what is seen does not depend on what is secret.
-/
namespace Verif.Rust.Salsa

variable {I : List String} {tgt : Target} {R : Type} [Unsigned R]

instance : Like (SalsaCore R) := ⟨fun a b => like a.state b.state⟩

theorem like_SalsaCore {a0 b0 : List U32} (h0 : like a0 b0) : like (⟨a0⟩ : SalsaCore R) ⟨b0⟩ := h0
macro_rules | `(tactic| like_ext) => `(tactic| (with_reducible refine like_SalsaCore ?_ <;> alike))

theorem elim_SalsaCore {P : SalsaCore R → SalsaCore R → Prop} (h : ∀ a0 b0, like a0 b0 → P ⟨a0⟩ ⟨b0⟩) :
    ∀ p p', like p p' → P p p' := fun _ _ h' => h _ _ (h')
macro_rules | `(tactic| elim_ext) => `(tactic| (with_reducible refine elim_SalsaCore ?_; elim))

instance : Like (Backend R) := ⟨fun a b => like a.f0 b.f0⟩

theorem like_Backend {a0 b0 : SalsaCore R} (h0 : like a0 b0) : like (⟨a0⟩ : Backend R) ⟨b0⟩ := h0
macro_rules | `(tactic| like_ext) => `(tactic| (with_reducible refine like_Backend ?_ <;> alike))

theorem elim_Backend {P : Backend R → Backend R → Prop} (h : ∀ a0 b0, like a0 b0 → P ⟨a0⟩ ⟨b0⟩) :
    ∀ p p', like p p' → P p p' := fun _ _ h' => h _ _ (h')
macro_rules | `(tactic| elim_ext) => `(tactic| (with_reducible refine elim_Backend ?_; elim))

instance : Like (XSalsaCore R) := ⟨fun a b => like a.f0 b.f0⟩

theorem like_XSalsaCore {a0 b0 : SalsaCore R} (h0 : like a0 b0) : like (⟨a0⟩ : XSalsaCore R) ⟨b0⟩ := h0
macro_rules | `(tactic| like_ext) => `(tactic| (with_reducible refine like_XSalsaCore ?_ <;> alike))

theorem elim_XSalsaCore {P : XSalsaCore R → XSalsaCore R → Prop} (h : ∀ a0 b0, like a0 b0 → P ⟨a0⟩ ⟨b0⟩) :
    ∀ p p', like p p' → P p p' := fun _ _ h' => h _ _ (h')
macro_rules | `(tactic| elim_ext) => `(tactic| (with_reducible refine elim_XSalsaCore ?_; elim))

@[erase] theorem quarter_round_erase (a : Usize tgt) (b : Usize tgt) (c : Usize tgt) (d : Usize tgt) (x0 : List U32) : (quarter_round_tr tgt a b c d x0).1 = quarter_round tgt a b c d x0 := by
  simp only [erase, quarter_round_tr, quarter_round] <;> rfl

theorem quarter_round_obl (a : Usize tgt) (b : Usize tgt) (c : Usize tgt) (d : Usize tgt) : ∀ x0 x0' : List U32, like x0 x0' →
    Obl I like (quarter_round_tr tgt a b c d x0) (quarter_round_tr tgt a b c d x0') := by
  elim
  unfold quarter_round_tr
  (try dsimp only)
  obl

macro_rules | `(tactic| obl_call) => `(tactic| (with_reducible refine quarter_round_obl _ _ _ _ _ _ ?_ <;> alike))

@[erase] theorem run_rounds_erase (x0 : List U32) : (run_rounds_tr (R := R) tgt x0).1 = run_rounds (R := R) tgt x0 := by
  simp only [erase, run_rounds_tr, run_rounds] <;> rfl

theorem run_rounds_obl : ∀ x0 x0' : List U32, like x0 x0' →
    Obl I like (run_rounds_tr (R := R) tgt x0) (run_rounds_tr (R := R) tgt x0') := by
  elim
  unfold run_rounds_tr
  (try dsimp only)
  obl

macro_rules | `(tactic| obl_call) => `(tactic| (with_reducible refine run_rounds_obl _ _ ?_ <;> alike))

@[erase] theorem to_u32_erase (x0 : List U8) : (to_u32_tr tgt x0).1 = to_u32 tgt x0 := by
  simp only [erase, to_u32_tr, to_u32] <;> rfl

theorem to_u32_obl : ∀ x0 x0' : List U8, like x0 x0' →
    Obl I like (to_u32_tr tgt x0) (to_u32_tr tgt x0') := by
  elim
  unfold to_u32_tr
  (try dsimp only)
  obl

macro_rules | `(tactic| obl_call) => `(tactic| (with_reducible refine to_u32_obl _ _ ?_ <;> alike))

@[erase] theorem SalsaCore_from_raw_state_erase (x0 : List U32) : (SalsaCore.from_raw_state_tr (R := R) tgt x0).1 = SalsaCore.from_raw_state (R := R) tgt x0 := by
  simp only [erase, SalsaCore.from_raw_state_tr, SalsaCore.from_raw_state] <;> rfl

theorem SalsaCore_from_raw_state_obl : ∀ x0 x0' : List U32, like x0 x0' →
    Obl I like (SalsaCore.from_raw_state_tr (R := R) tgt x0) (SalsaCore.from_raw_state_tr (R := R) tgt x0') := by
  elim
  unfold SalsaCore.from_raw_state_tr
  (try dsimp only)
  obl

macro_rules | `(tactic| obl_call) => `(tactic| (with_reducible refine SalsaCore_from_raw_state_obl _ _ ?_ <;> alike))

@[erase] theorem SalsaCore_new_erase (x0 : List U8) (x1 : List U8) : (SalsaCore.new_tr (R := R) tgt x0 x1).1 = SalsaCore.new (R := R) tgt x0 x1 := by
  simp only [erase, SalsaCore.new_tr, SalsaCore.new] <;> rfl

theorem SalsaCore_new_obl : ∀ x0 x0' : List U8, like x0 x0' → ∀ x1 x1' : List U8, like x1 x1' →
    Obl I like (SalsaCore.new_tr (R := R) tgt x0 x1) (SalsaCore.new_tr (R := R) tgt x0' x1') := by
  elim; elim
  unfold SalsaCore.new_tr
  (try dsimp only)
  obl

macro_rules | `(tactic| obl_call) => `(tactic| (with_reducible refine SalsaCore_new_obl _ _ ?_ _ _ ?_ <;> alike))

@[erase] theorem SalsaCore_get_block_pos_erase (x0 : SalsaCore R) : (SalsaCore.get_block_pos_tr tgt x0).1 = SalsaCore.get_block_pos tgt x0 := by
  simp only [erase, SalsaCore.get_block_pos_tr, SalsaCore.get_block_pos] <;> rfl

theorem SalsaCore_get_block_pos_obl : ∀ x0 x0' : SalsaCore R, like x0 x0' →
    Obl I like (SalsaCore.get_block_pos_tr tgt x0) (SalsaCore.get_block_pos_tr tgt x0') := by
  elim
  unfold SalsaCore.get_block_pos_tr
  (try dsimp only)
  obl

macro_rules | `(tactic| obl_call) => `(tactic| (with_reducible refine SalsaCore_get_block_pos_obl _ _ ?_ <;> alike))

@[erase] theorem SalsaCore_set_block_pos_erase (x0 : SalsaCore R) (x1 : U64) : (SalsaCore.set_block_pos_tr tgt x0 x1).1 = SalsaCore.set_block_pos tgt x0 x1 := by
  simp only [erase, SalsaCore.set_block_pos_tr, SalsaCore.set_block_pos] <;> rfl

theorem SalsaCore_set_block_pos_obl : ∀ x0 x0' : SalsaCore R, like x0 x0' → ∀ x1 x1' : U64, like x1 x1' →
    Obl I like (SalsaCore.set_block_pos_tr tgt x0 x1) (SalsaCore.set_block_pos_tr tgt x0' x1') := by
  elim; elim
  unfold SalsaCore.set_block_pos_tr
  (try dsimp only)
  obl

macro_rules | `(tactic| obl_call) => `(tactic| (with_reducible refine SalsaCore_set_block_pos_obl _ _ ?_ _ _ ?_ <;> alike))

@[erase] theorem Backend_gen_ks_block_erase (x0 : Backend R) (x1 : List U8) : (Backend.gen_ks_block_tr tgt x0 x1).1 = Backend.gen_ks_block tgt x0 x1 := by
  simp only [erase, Backend.gen_ks_block_tr, Backend.gen_ks_block] <;> rfl

theorem Backend_gen_ks_block_obl : ∀ x0 x0' : Backend R, like x0 x0' → ∀ x1 x1' : List U8, like x1 x1' →
    Obl I like (Backend.gen_ks_block_tr tgt x0 x1) (Backend.gen_ks_block_tr tgt x0' x1') := by
  elim; elim
  unfold Backend.gen_ks_block_tr
  (try dsimp only)
  obl

macro_rules | `(tactic| obl_call) => `(tactic| (with_reducible refine Backend_gen_ks_block_obl _ _ ?_ _ _ ?_ <;> alike))

@[erase] theorem hsalsa_erase (x0 : List U8) (x1 : List U8) : (hsalsa_tr (R := R) tgt x0 x1).1 = hsalsa (R := R) tgt x0 x1 := by
  simp only [erase, hsalsa_tr, hsalsa] <;> rfl

theorem hsalsa_obl : ∀ x0 x0' : List U8, like x0 x0' → ∀ x1 x1' : List U8, like x1 x1' →
    Obl I like (hsalsa_tr (R := R) tgt x0 x1) (hsalsa_tr (R := R) tgt x0' x1') := by
  elim; elim
  unfold hsalsa_tr
  (try dsimp only)
  obl

macro_rules | `(tactic| obl_call) => `(tactic| (with_reducible refine hsalsa_obl _ _ ?_ _ _ ?_ <;> alike))

@[erase] theorem XSalsaCore_new_erase (x0 : List U8) (x1 : List U8) : (XSalsaCore.new_tr (R := R) tgt x0 x1).1 = XSalsaCore.new (R := R) tgt x0 x1 := by
  simp only [erase, XSalsaCore.new_tr, XSalsaCore.new] <;> rfl

theorem XSalsaCore_new_obl : ∀ x0 x0' : List U8, like x0 x0' → ∀ x1 x1' : List U8, like x1 x1' →
    Obl I like (XSalsaCore.new_tr (R := R) tgt x0 x1) (XSalsaCore.new_tr (R := R) tgt x0' x1') := by
  elim; elim
  unfold XSalsaCore.new_tr
  (try dsimp only)
  obl

macro_rules | `(tactic| obl_call) => `(tactic| (with_reducible refine XSalsaCore_new_obl _ _ ?_ _ _ ?_ <;> alike))

@[erase] theorem XSalsaCore_get_block_pos_erase (x0 : XSalsaCore R) : (XSalsaCore.get_block_pos_tr tgt x0).1 = XSalsaCore.get_block_pos tgt x0 := by
  simp only [erase, XSalsaCore.get_block_pos_tr, XSalsaCore.get_block_pos] <;> rfl

theorem XSalsaCore_get_block_pos_obl : ∀ x0 x0' : XSalsaCore R, like x0 x0' →
    Obl I like (XSalsaCore.get_block_pos_tr tgt x0) (XSalsaCore.get_block_pos_tr tgt x0') := by
  elim
  unfold XSalsaCore.get_block_pos_tr
  (try dsimp only)
  obl

macro_rules | `(tactic| obl_call) => `(tactic| (with_reducible refine XSalsaCore_get_block_pos_obl _ _ ?_ <;> alike))

@[erase] theorem XSalsaCore_set_block_pos_erase (x0 : XSalsaCore R) (x1 : U64) : (XSalsaCore.set_block_pos_tr tgt x0 x1).1 = XSalsaCore.set_block_pos tgt x0 x1 := by
  simp only [erase, XSalsaCore.set_block_pos_tr, XSalsaCore.set_block_pos] <;> rfl

theorem XSalsaCore_set_block_pos_obl : ∀ x0 x0' : XSalsaCore R, like x0 x0' → ∀ x1 x1' : U64, like x1 x1' →
    Obl I like (XSalsaCore.set_block_pos_tr tgt x0 x1) (XSalsaCore.set_block_pos_tr tgt x0' x1') := by
  elim; elim
  unfold XSalsaCore.set_block_pos_tr
  (try dsimp only)
  obl

macro_rules | `(tactic| obl_call) => `(tactic| (with_reducible refine XSalsaCore_set_block_pos_obl _ _ ?_ _ _ ?_ <;> alike))

end Verif.Rust.Salsa
