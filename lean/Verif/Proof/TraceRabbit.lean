import Verif.Rust.Src.Rabbit
import Verif.Proof.OblTactic
/-!
# What is seen of `rabbit`

Erasing the record gives the text, and what is seen does not depend on what is secret.
-/
namespace Verif.Rust.Rabbit

variable {I : List String} {tgt : Target}

instance : Like (State) := ⟨fun a b => like a.x b.x ∧ like a.c b.c ∧ like a.carry_bit b.carry_bit⟩

theorem like_State {a0 b0 : List U32} {a1 b1 : List U32} {a2 b2 : U8} (h0 : like a0 b0) (h1 : like a1 b1) (h2 : like a2 b2) : like (⟨a0, a1, a2⟩ : State) ⟨b0, b1, b2⟩ := ⟨h0, h1, h2⟩
macro_rules | `(tactic| like_ext) => `(tactic| (with_reducible refine like_State ?_ ?_ ?_ <;> alike))

theorem elim_State {P : State → State → Prop} (h : ∀ a0 b0, like a0 b0 → ∀ a1 b1, like a1 b1 → ∀ a2 b2, like a2 b2 → P ⟨a0, a1, a2⟩ ⟨b0, b1, b2⟩) :
    ∀ p p', like p p' → P p p' := fun _ _ h' => h _ _ (h'.1) _ _ (h'.2.1) _ _ (h'.2.2)
macro_rules | `(tactic| elim_ext) => `(tactic| (with_reducible refine elim_State ?_; elim; elim; elim))

instance : Like (RabbitKeyOnlyCore) := ⟨fun a b => like a.state b.state⟩

theorem like_RabbitKeyOnlyCore {a0 b0 : State} (h0 : like a0 b0) : like (⟨a0⟩ : RabbitKeyOnlyCore) ⟨b0⟩ := h0
macro_rules | `(tactic| like_ext) => `(tactic| (with_reducible refine like_RabbitKeyOnlyCore ?_ <;> alike))

theorem elim_RabbitKeyOnlyCore {P : RabbitKeyOnlyCore → RabbitKeyOnlyCore → Prop} (h : ∀ a0 b0, like a0 b0 → P ⟨a0⟩ ⟨b0⟩) :
    ∀ p p', like p p' → P p p' := fun _ _ h' => h _ _ (h')
macro_rules | `(tactic| elim_ext) => `(tactic| (with_reducible refine elim_RabbitKeyOnlyCore ?_; elim))

instance : Like (RabbitCore) := ⟨fun a b => like a.state b.state⟩

theorem like_RabbitCore {a0 b0 : State} (h0 : like a0 b0) : like (⟨a0⟩ : RabbitCore) ⟨b0⟩ := h0
macro_rules | `(tactic| like_ext) => `(tactic| (with_reducible refine like_RabbitCore ?_ <;> alike))

theorem elim_RabbitCore {P : RabbitCore → RabbitCore → Prop} (h : ∀ a0 b0, like a0 b0 → P ⟨a0⟩ ⟨b0⟩) :
    ∀ p p', like p p' → P p p' := fun _ _ h' => h _ _ (h')
macro_rules | `(tactic| elim_ext) => `(tactic| (with_reducible refine elim_RabbitCore ?_; elim))

instance : Like (Backend) := ⟨fun a b => like a.f0 b.f0⟩

theorem like_Backend {a0 b0 : State} (h0 : like a0 b0) : like (⟨a0⟩ : Backend) ⟨b0⟩ := h0
macro_rules | `(tactic| like_ext) => `(tactic| (with_reducible refine like_Backend ?_ <;> alike))

theorem elim_Backend {P : Backend → Backend → Prop} (h : ∀ a0 b0, like a0 b0 → P ⟨a0⟩ ⟨b0⟩) :
    ∀ p p', like p p' → P p p' := fun _ _ h' => h _ _ (h')
macro_rules | `(tactic| elim_ext) => `(tactic| (with_reducible refine elim_Backend ?_; elim))

theorem wordsize_ok : WORDSIZE tgt = .ok 4294967296 := rfl
macro_rules | `(tactic| obl_call) => `(tactic| (with_reducible refine Obl.div rfl ?_; (focus (decide; done))))
macro_rules | `(tactic| obl_call) => `(tactic| (with_reducible refine Obl.rem rfl ?_; (focus (decide; done))))

@[erase] theorem State_counter_update_erase (x0 : State) : (State.counter_update_tr tgt x0).1 = State.counter_update tgt x0 := by
  simp only [erase, State.counter_update_tr, State.counter_update] <;> rfl

theorem State_counter_update_obl : ∀ x0 x0' : State, like x0 x0' →
    Obl I like (State.counter_update_tr tgt x0) (State.counter_update_tr tgt x0') := by
  elim
  unfold State.counter_update_tr
  (try dsimp only)
  simp only [wordsize_ok, Tr.lift_ok_bind]
  obl

macro_rules | `(tactic| obl_call) => `(tactic| (with_reducible refine State_counter_update_obl _ _ ?_ <;> alike))

@[erase] theorem State_next_state_erase (x0 : State) : (State.next_state_tr tgt x0).1 = State.next_state tgt x0 := by
  simp only [erase, State.next_state_tr, State.next_state] <;> rfl

theorem State_next_state_obl : ∀ x0 x0' : State, like x0 x0' →
    Obl I like (State.next_state_tr tgt x0) (State.next_state_tr tgt x0') := by
  elim
  unfold State.next_state_tr
  (try dsimp only)
  simp only [wordsize_ok, Tr.lift_ok_bind]
  obl

macro_rules | `(tactic| obl_call) => `(tactic| (with_reducible refine State_next_state_obl _ _ ?_ <;> alike))

@[erase] theorem State_extract_erase (x0 : State) : (State.extract_tr tgt x0).1 = State.extract tgt x0 := by
  simp only [erase, Tr.except_bind_ok, State.extract_tr, State.extract] <;> rfl

theorem State_extract_obl : ∀ x0 x0' : State, like x0 x0' →
    Obl I like (State.extract_tr tgt x0) (State.extract_tr tgt x0') := by
  elim
  unfold State.extract_tr
  (try dsimp only)
  obl

macro_rules | `(tactic| obl_call) => `(tactic| (with_reducible refine State_extract_obl _ _ ?_ <;> alike))

@[erase] theorem State_setup_key_erase (x0 : List U8) : (State.setup_key_tr tgt x0).1 = State.setup_key tgt x0 := by
  simp only [erase, State.setup_key_tr, State.setup_key] <;> rfl

theorem State_setup_key_obl : ∀ x0 x0' : List U8, like x0 x0' →
    Obl I like (State.setup_key_tr tgt x0) (State.setup_key_tr tgt x0') := by
  elim
  unfold State.setup_key_tr
  (try dsimp only)
  obl

macro_rules | `(tactic| obl_call) => `(tactic| (with_reducible refine State_setup_key_obl _ _ ?_ <;> alike))

@[erase] theorem State_setup_iv_erase (x0 : State) (x1 : List U8) : (State.setup_iv_tr tgt x0 x1).1 = State.setup_iv tgt x0 x1 := by
  simp only [erase, State.setup_iv_tr, State.setup_iv] <;> rfl

theorem State_setup_iv_obl : ∀ x0 x0' : State, like x0 x0' → ∀ x1 x1' : List U8, like x1 x1' →
    Obl I like (State.setup_iv_tr tgt x0 x1) (State.setup_iv_tr tgt x0' x1') := by
  elim; elim
  unfold State.setup_iv_tr
  (try dsimp only)
  obl

macro_rules | `(tactic| obl_call) => `(tactic| (with_reducible refine State_setup_iv_obl _ _ ?_ _ _ ?_ <;> alike))

@[erase] theorem State_next_block_erase (x0 : State) : (State.next_block_tr tgt x0).1 = State.next_block tgt x0 := by
  simp only [erase, State.next_block_tr, State.next_block] <;> rfl

theorem State_next_block_obl : ∀ x0 x0' : State, like x0 x0' →
    Obl I like (State.next_block_tr tgt x0) (State.next_block_tr tgt x0') := by
  elim
  unfold State.next_block_tr
  (try dsimp only)
  obl

macro_rules | `(tactic| obl_call) => `(tactic| (with_reducible refine State_next_block_obl _ _ ?_ <;> alike))

@[erase] theorem RabbitKeyOnlyCore_new_erase (x0 : List U8) : (RabbitKeyOnlyCore.new_tr tgt x0).1 = RabbitKeyOnlyCore.new tgt x0 := by
  simp only [erase, RabbitKeyOnlyCore.new_tr, RabbitKeyOnlyCore.new] <;> rfl

theorem RabbitKeyOnlyCore_new_obl : ∀ x0 x0' : List U8, like x0 x0' →
    Obl I like (RabbitKeyOnlyCore.new_tr tgt x0) (RabbitKeyOnlyCore.new_tr tgt x0') := by
  elim
  unfold RabbitKeyOnlyCore.new_tr
  (try dsimp only)
  obl

macro_rules | `(tactic| obl_call) => `(tactic| (with_reducible refine RabbitKeyOnlyCore_new_obl _ _ ?_ <;> alike))

@[erase] theorem RabbitCore_inner_iv_init_erase (x0 : RabbitKeyOnlyCore) (x1 : List U8) : (RabbitCore.inner_iv_init_tr tgt x0 x1).1 = RabbitCore.inner_iv_init tgt x0 x1 := by
  simp only [erase, RabbitCore.inner_iv_init_tr, RabbitCore.inner_iv_init] <;> rfl

theorem RabbitCore_inner_iv_init_obl : ∀ x0 x0' : RabbitKeyOnlyCore, like x0 x0' → ∀ x1 x1' : List U8, like x1 x1' →
    Obl I like (RabbitCore.inner_iv_init_tr tgt x0 x1) (RabbitCore.inner_iv_init_tr tgt x0' x1') := by
  elim; elim
  unfold RabbitCore.inner_iv_init_tr
  (try dsimp only)
  obl

macro_rules | `(tactic| obl_call) => `(tactic| (with_reducible refine RabbitCore_inner_iv_init_obl _ _ ?_ _ _ ?_ <;> alike))

@[erase] theorem Backend_gen_ks_block_erase (x0 : Backend) (x1 : List U8) : (Backend.gen_ks_block_tr tgt x0 x1).1 = Backend.gen_ks_block tgt x0 x1 := by
  simp only [erase, Backend.gen_ks_block_tr, Backend.gen_ks_block] <;> rfl

theorem Backend_gen_ks_block_obl : ∀ x0 x0' : Backend, like x0 x0' → ∀ x1 x1' : List U8, like x1 x1' →
    Obl I like (Backend.gen_ks_block_tr tgt x0 x1) (Backend.gen_ks_block_tr tgt x0' x1') := by
  elim; elim
  unfold Backend.gen_ks_block_tr
  (try dsimp only)
  obl

macro_rules | `(tactic| obl_call) => `(tactic| (with_reducible refine Backend_gen_ks_block_obl _ _ ?_ _ _ ?_ <;> alike))

end Verif.Rust.Rabbit
