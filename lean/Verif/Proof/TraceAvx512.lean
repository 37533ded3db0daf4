import Verif.Rust.Src.ChaChaAvx512
import Verif.Proof.TraceChaCha
import Verif.Proof.TraceClosure
/-!
# What is seen of `chacha20`, AVX-512 backend

Erasing the record gives the text, and what is seen does not depend on what is secret.
-/
namespace Verif.Rust.ChaCha.avx512

variable {tgt : Target} {α R V : Type} [Rounds R] [Variant V]

/-- The intrinsics that the AVX-512 backend uses. -/
def used : List String :=
  ["_mm256_add_epi32", "_mm256_add_epi64", "_mm256_broadcast_i32x4", "_mm256_permutex2var_epi64", "_mm256_rol_epi32", "_mm256_set_epi32",
    "_mm256_set_epi64x", "_mm256_setr_epi64x", "_mm256_shuffle_epi32", "_mm256_storeu_epi32", "_mm256_xor_si256", "_mm512_add_epi32",
    "_mm512_add_epi64", "_mm512_broadcast_i32x4", "_mm512_permutex2var_epi64", "_mm512_rol_epi32", "_mm512_set_epi32", "_mm512_set_epi64",
    "_mm512_setr_epi64", "_mm512_setzero_si512", "_mm512_shuffle_epi32", "_mm512_shuffle_i32x4", "_mm512_storeu_si512", "_mm512_xor_si512",
    "_mm_add_epi32", "_mm_add_epi64", "_mm_extract_epi32", "_mm_loadu_epi32", "_mm_rol_epi32", "_mm_set_epi32", "_mm_set_epi64x",
    "_mm_shuffle_epi32", "_mm_storeu_epi32", "_mm_xor_si128"]

macro_rules | `(tactic| mem_ext) => `(tactic| (simp only [used, List.mem_cons, true_or, or_true]; done))

instance : Like (Backend R V) := ⟨fun a b => like a.state b.state ∧ like a.ctr b.ctr⟩

theorem like_Backend {a0 b0 : List M128} {a1 b1 : M128} (h0 : like a0 b0) (h1 : like a1 b1) : like (⟨a0, a1⟩ : Backend R V) ⟨b0, b1⟩ := ⟨h0, h1⟩
macro_rules | `(tactic| like_ext) => `(tactic| (with_reducible refine like_Backend ?_ ?_ <;> alike))

theorem elim_Backend {P : Backend R V → Backend R V → Prop} (h : ∀ a0 b0, like a0 b0 → ∀ a1 b1, like a1 b1 → P ⟨a0, a1⟩ ⟨b0, b1⟩) :
    ∀ p p', like p p' → P p p' := fun _ _ h' => h _ _ (h'.1) _ _ (h'.2)
macro_rules | `(tactic| elim_ext) => `(tactic| (with_reducible refine elim_Backend ?_; elim; elim))

@[erase] theorem add_xor_rot_erase (x0 : List (List M512)) : (add_xor_rot_tr tgt x0).1 = add_xor_rot tgt x0 := by
  simp only [erase, add_xor_rot_tr, add_xor_rot] <;> rfl

theorem add_xor_rot_obl : ∀ x0 x0' : List (List M512), like x0 x0' →
    Obl used like (add_xor_rot_tr tgt x0) (add_xor_rot_tr tgt x0') := by
  elim
  unfold add_xor_rot_tr
  (try dsimp only)
  obl

macro_rules | `(tactic| obl_call) => `(tactic| (with_reducible refine add_xor_rot_obl _ _ ?_ <;> alike))

@[erase] theorem rows_to_cols_erase (x0 : List (List M512)) : (rows_to_cols_tr tgt x0).1 = rows_to_cols tgt x0 := by
  simp only [erase, rows_to_cols_tr, rows_to_cols] <;> rfl

theorem rows_to_cols_obl : ∀ x0 x0' : List (List M512), like x0 x0' →
    Obl used like (rows_to_cols_tr tgt x0) (rows_to_cols_tr tgt x0') := by
  elim
  unfold rows_to_cols_tr
  (try dsimp only)
  obl

macro_rules | `(tactic| obl_call) => `(tactic| (with_reducible refine rows_to_cols_obl _ _ ?_ <;> alike))

@[erase] theorem cols_to_rows_erase (x0 : List (List M512)) : (cols_to_rows_tr tgt x0).1 = cols_to_rows tgt x0 := by
  simp only [erase, cols_to_rows_tr, cols_to_rows] <;> rfl

theorem cols_to_rows_obl : ∀ x0 x0' : List (List M512), like x0 x0' →
    Obl used like (cols_to_rows_tr tgt x0) (cols_to_rows_tr tgt x0') := by
  elim
  unfold cols_to_rows_tr
  (try dsimp only)
  obl

macro_rules | `(tactic| obl_call) => `(tactic| (with_reducible refine cols_to_rows_obl _ _ ?_ <;> alike))

@[erase] theorem double_quarter_round_erase (x0 : List (List M512)) : (double_quarter_round_tr tgt x0).1 = double_quarter_round tgt x0 := by
  simp only [erase, double_quarter_round_tr, double_quarter_round] <;> rfl

theorem double_quarter_round_obl : ∀ x0 x0' : List (List M512), like x0 x0' →
    Obl used like (double_quarter_round_tr tgt x0) (double_quarter_round_tr tgt x0') := by
  elim
  unfold double_quarter_round_tr
  (try dsimp only)
  obl

macro_rules | `(tactic| obl_call) => `(tactic| (with_reducible refine double_quarter_round_obl _ _ ?_ <;> alike))

@[erase] theorem add_xor_rot_halfwide_erase (x0 : List M256) : (add_xor_rot_halfwide_tr tgt x0).1 = add_xor_rot_halfwide tgt x0 := by
  simp only [erase, add_xor_rot_halfwide_tr, add_xor_rot_halfwide] <;> rfl

theorem add_xor_rot_halfwide_obl : ∀ x0 x0' : List M256, like x0 x0' →
    Obl used like (add_xor_rot_halfwide_tr tgt x0) (add_xor_rot_halfwide_tr tgt x0') := by
  elim
  unfold add_xor_rot_halfwide_tr
  (try dsimp only)
  obl

macro_rules | `(tactic| obl_call) => `(tactic| (with_reducible refine add_xor_rot_halfwide_obl _ _ ?_ <;> alike))

@[erase] theorem rows_to_cols_halfwide_erase (x0 : List M256) : (rows_to_cols_halfwide_tr tgt x0).1 = rows_to_cols_halfwide tgt x0 := by
  simp only [erase, rows_to_cols_halfwide_tr, rows_to_cols_halfwide] <;> rfl

theorem rows_to_cols_halfwide_obl : ∀ x0 x0' : List M256, like x0 x0' →
    Obl used like (rows_to_cols_halfwide_tr tgt x0) (rows_to_cols_halfwide_tr tgt x0') := by
  elim
  unfold rows_to_cols_halfwide_tr
  (try dsimp only)
  obl

macro_rules | `(tactic| obl_call) => `(tactic| (with_reducible refine rows_to_cols_halfwide_obl _ _ ?_ <;> alike))

@[erase] theorem cols_to_rows_halfwide_erase (x0 : List M256) : (cols_to_rows_halfwide_tr tgt x0).1 = cols_to_rows_halfwide tgt x0 := by
  simp only [erase, cols_to_rows_halfwide_tr, cols_to_rows_halfwide] <;> rfl

theorem cols_to_rows_halfwide_obl : ∀ x0 x0' : List M256, like x0 x0' →
    Obl used like (cols_to_rows_halfwide_tr tgt x0) (cols_to_rows_halfwide_tr tgt x0') := by
  elim
  unfold cols_to_rows_halfwide_tr
  (try dsimp only)
  obl

macro_rules | `(tactic| obl_call) => `(tactic| (with_reducible refine cols_to_rows_halfwide_obl _ _ ?_ <;> alike))

@[erase] theorem double_quarter_round_halfwide_erase (x0 : List M256) : (double_quarter_round_halfwide_tr tgt x0).1 = double_quarter_round_halfwide tgt x0 := by
  simp only [erase, double_quarter_round_halfwide_tr, double_quarter_round_halfwide] <;> rfl

theorem double_quarter_round_halfwide_obl : ∀ x0 x0' : List M256, like x0 x0' →
    Obl used like (double_quarter_round_halfwide_tr tgt x0) (double_quarter_round_halfwide_tr tgt x0') := by
  elim
  unfold double_quarter_round_halfwide_tr
  (try dsimp only)
  obl

macro_rules | `(tactic| obl_call) => `(tactic| (with_reducible refine double_quarter_round_halfwide_obl _ _ ?_ <;> alike))

@[erase] theorem add_xor_rot_quarterwide_erase (x0 : List M128) : (add_xor_rot_quarterwide_tr tgt x0).1 = add_xor_rot_quarterwide tgt x0 := by
  simp only [erase, add_xor_rot_quarterwide_tr, add_xor_rot_quarterwide] <;> rfl

theorem add_xor_rot_quarterwide_obl : ∀ x0 x0' : List M128, like x0 x0' →
    Obl used like (add_xor_rot_quarterwide_tr tgt x0) (add_xor_rot_quarterwide_tr tgt x0') := by
  elim
  unfold add_xor_rot_quarterwide_tr
  (try dsimp only)
  obl

macro_rules | `(tactic| obl_call) => `(tactic| (with_reducible refine add_xor_rot_quarterwide_obl _ _ ?_ <;> alike))

@[erase] theorem rows_to_cols_quarterwide_erase (x0 : List M128) : (rows_to_cols_quarterwide_tr tgt x0).1 = rows_to_cols_quarterwide tgt x0 := by
  simp only [erase, rows_to_cols_quarterwide_tr, rows_to_cols_quarterwide] <;> rfl

theorem rows_to_cols_quarterwide_obl : ∀ x0 x0' : List M128, like x0 x0' →
    Obl used like (rows_to_cols_quarterwide_tr tgt x0) (rows_to_cols_quarterwide_tr tgt x0') := by
  elim
  unfold rows_to_cols_quarterwide_tr
  (try dsimp only)
  obl

macro_rules | `(tactic| obl_call) => `(tactic| (with_reducible refine rows_to_cols_quarterwide_obl _ _ ?_ <;> alike))

@[erase] theorem cols_to_rows_quarterwide_erase (x0 : List M128) : (cols_to_rows_quarterwide_tr tgt x0).1 = cols_to_rows_quarterwide tgt x0 := by
  simp only [erase, cols_to_rows_quarterwide_tr, cols_to_rows_quarterwide] <;> rfl

theorem cols_to_rows_quarterwide_obl : ∀ x0 x0' : List M128, like x0 x0' →
    Obl used like (cols_to_rows_quarterwide_tr tgt x0) (cols_to_rows_quarterwide_tr tgt x0') := by
  elim
  unfold cols_to_rows_quarterwide_tr
  (try dsimp only)
  obl

macro_rules | `(tactic| obl_call) => `(tactic| (with_reducible refine cols_to_rows_quarterwide_obl _ _ ?_ <;> alike))

@[erase] theorem double_quarter_round_quarterwide_erase (x0 : List M128) : (double_quarter_round_quarterwide_tr tgt x0).1 = double_quarter_round_quarterwide tgt x0 := by
  simp only [erase, double_quarter_round_quarterwide_tr, double_quarter_round_quarterwide] <;> rfl

theorem double_quarter_round_quarterwide_obl : ∀ x0 x0' : List M128, like x0 x0' →
    Obl used like (double_quarter_round_quarterwide_tr tgt x0) (double_quarter_round_quarterwide_tr tgt x0') := by
  elim
  unfold double_quarter_round_quarterwide_tr
  (try dsimp only)
  obl

macro_rules | `(tactic| obl_call) => `(tactic| (with_reducible refine double_quarter_round_quarterwide_obl _ _ ?_ <;> alike))

@[erase] theorem rounds_erase (N : Nat) (x0 : List M512) (x1 : List M512) : (rounds_tr (R := R) N tgt x0 x1).1 = rounds (R := R) N tgt x0 x1 := by
  simp only [erase, rounds_tr, rounds] <;> rfl

theorem rounds_obl (N : Nat) : ∀ x0 x0' : List M512, like x0 x0' → ∀ x1 x1' : List M512, like x1 x1' →
    Obl used like (rounds_tr (R := R) N tgt x0 x1) (rounds_tr (R := R) N tgt x0' x1') := by
  elim; elim
  unfold rounds_tr
  (try dsimp only)
  obl

macro_rules | `(tactic| obl_call) => `(tactic| (with_reducible refine rounds_obl _ _ _ ?_ _ _ ?_ <;> alike))

@[erase] theorem rounds_halfwide_erase (x0 : List M256) : (rounds_halfwide_tr (R := R) tgt x0).1 = rounds_halfwide (R := R) tgt x0 := by
  simp only [erase, rounds_halfwide_tr, rounds_halfwide] <;> rfl

theorem rounds_halfwide_obl : ∀ x0 x0' : List M256, like x0 x0' →
    Obl used like (rounds_halfwide_tr (R := R) tgt x0) (rounds_halfwide_tr (R := R) tgt x0') := by
  elim
  unfold rounds_halfwide_tr
  (try dsimp only)
  obl

macro_rules | `(tactic| obl_call) => `(tactic| (with_reducible refine rounds_halfwide_obl _ _ ?_ <;> alike))

@[erase] theorem rounds_quarterwide_erase (x0 : List M128) : (rounds_quarterwide_tr (R := R) tgt x0).1 = rounds_quarterwide (R := R) tgt x0 := by
  simp only [erase, rounds_quarterwide_tr, rounds_quarterwide] <;> rfl

theorem rounds_quarterwide_obl : ∀ x0 x0' : List M128, like x0 x0' →
    Obl used like (rounds_quarterwide_tr (R := R) tgt x0) (rounds_quarterwide_tr (R := R) tgt x0') := by
  elim
  unfold rounds_quarterwide_tr
  (try dsimp only)
  obl

macro_rules | `(tactic| obl_call) => `(tactic| (with_reducible refine rounds_quarterwide_obl _ _ ?_ <;> alike))

@[erase] theorem Backend_increment_ctr_erase (x0 : Backend R V) (x1 : Usize tgt) : (Backend.increment_ctr_tr tgt x0 x1).1 = Backend.increment_ctr tgt x0 x1 := by
  simp only [erase, Backend.increment_ctr_tr, Backend.increment_ctr] <;> rfl

theorem Backend_increment_ctr_obl : ∀ x0 x0' : Backend R V, like x0 x0' → ∀ x1 x1' : Usize tgt, like x1 x1' →
    Obl used like (Backend.increment_ctr_tr tgt x0 x1) (Backend.increment_ctr_tr tgt x0' x1') := by
  elim; elim
  unfold Backend.increment_ctr_tr
  (try dsimp only)
  obl

macro_rules | `(tactic| obl_call) => `(tactic| (with_reducible refine Backend_increment_ctr_obl _ _ ?_ _ _ ?_ <;> alike))

@[erase] theorem Backend_gen_blocks_fullwidth_erase (N : Nat) (x0 : Backend R V) (x1 : List (List U8)) : (Backend.gen_blocks_fullwidth_tr N tgt x0 x1).1 = Backend.gen_blocks_fullwidth N tgt x0 x1 := by
  simp only [erase, Backend.gen_blocks_fullwidth_tr, Backend.gen_blocks_fullwidth] <;> rfl

theorem Backend_gen_blocks_fullwidth_obl (N : Nat) : ∀ x0 x0' : Backend R V, like x0 x0' → ∀ x1 x1' : List (List U8), like x1 x1' →
    Obl used like (Backend.gen_blocks_fullwidth_tr N tgt x0 x1) (Backend.gen_blocks_fullwidth_tr N tgt x0' x1') := by
  elim; elim
  unfold Backend.gen_blocks_fullwidth_tr
  (try dsimp only)
  obl

macro_rules | `(tactic| obl_call) => `(tactic| (with_reducible refine Backend_gen_blocks_fullwidth_obl _ _ _ ?_ _ _ ?_ <;> alike))

@[erase] theorem Backend_gen_blocks_halfwidth_erase (x0 : Backend R V) (x1 : List (List U8)) : (Backend.gen_blocks_halfwidth_tr tgt x0 x1).1 = Backend.gen_blocks_halfwidth tgt x0 x1 := by
  unfold Backend.gen_blocks_halfwidth_tr Backend.gen_blocks_halfwidth
  dsimp only
  erases

theorem Backend_gen_blocks_halfwidth_obl : ∀ x0 x0' : Backend R V, like x0 x0' → ∀ x1 x1' : List (List U8), like x1 x1' →
    Obl used like (Backend.gen_blocks_halfwidth_tr tgt x0 x1) (Backend.gen_blocks_halfwidth_tr tgt x0' x1') := by
  elim; elim
  unfold Backend.gen_blocks_halfwidth_tr
  (try dsimp only)
  obl

macro_rules | `(tactic| obl_call) => `(tactic| (with_reducible refine Backend_gen_blocks_halfwidth_obl _ _ ?_ _ _ ?_ <;> alike))

@[erase] theorem Backend_gen_ks_block_erase (x0 : Backend R V) (x1 : List U8) : (Backend.gen_ks_block_tr tgt x0 x1).1 = Backend.gen_ks_block tgt x0 x1 := by
  simp only [erase, Backend.gen_ks_block_tr, Backend.gen_ks_block] <;> rfl

theorem Backend_gen_ks_block_obl : ∀ x0 x0' : Backend R V, like x0 x0' → ∀ x1 x1' : List U8, like x1 x1' →
    Obl used like (Backend.gen_ks_block_tr tgt x0 x1) (Backend.gen_ks_block_tr tgt x0' x1') := by
  elim; elim
  unfold Backend.gen_ks_block_tr
  (try dsimp only)
  obl

macro_rules | `(tactic| obl_call) => `(tactic| (with_reducible refine Backend_gen_ks_block_obl _ _ ?_ _ _ ?_ <;> alike))

@[erase] theorem Backend_gen_par_ks_blocks_erase (x0 : Backend R V) (x1 : List (List U8)) : (Backend.gen_par_ks_blocks_tr tgt x0 x1).1 = Backend.gen_par_ks_blocks tgt x0 x1 := by
  simp only [erase, Backend.gen_par_ks_blocks_tr, Backend.gen_par_ks_blocks] <;> rfl

theorem Backend_gen_par_ks_blocks_obl : ∀ x0 x0' : Backend R V, like x0 x0' → ∀ x1 x1' : List (List U8), like x1 x1' →
    Obl used like (Backend.gen_par_ks_blocks_tr tgt x0 x1) (Backend.gen_par_ks_blocks_tr tgt x0' x1') := by
  elim; elim
  unfold Backend.gen_par_ks_blocks_tr
  (try dsimp only)
  obl

macro_rules | `(tactic| obl_call) => `(tactic| (with_reducible refine Backend_gen_par_ks_blocks_obl _ _ ?_ _ _ ?_ <;> alike))

@[erase] theorem Backend_gen_tail_blocks_erase (x0 : Backend R V) (x1 : List (List U8)) : (Backend.gen_tail_blocks_tr tgt x0 x1).1 = Backend.gen_tail_blocks tgt x0 x1 := by
  simp only [erase, Backend.gen_tail_blocks_tr, Backend.gen_tail_blocks] <;> rfl

theorem Backend_gen_tail_blocks_obl : ∀ x0 x0' : Backend R V, like x0 x0' → ∀ x1 x1' : List (List U8), like x1 x1' →
    Obl used like (Backend.gen_tail_blocks_tr tgt x0 x1) (Backend.gen_tail_blocks_tr tgt x0' x1') := by
  elim; elim
  unfold Backend.gen_tail_blocks_tr
  (try dsimp only)
  obl

macro_rules | `(tactic| obl_call) => `(tactic| (with_reducible refine Backend_gen_tail_blocks_obl _ _ ?_ _ _ ?_ <;> alike))

instance : Erases (Backend R V) where
  block _ s b := Backend_gen_ks_block_erase s b
  par _ s b := Backend_gen_par_ks_blocks_erase s b
  tail _ s b := Backend_gen_tail_blocks_erase s b

instance : OblBackend used tgt (Backend R V) where
  block := Backend_gen_ks_block_obl
  par := Backend_gen_par_ks_blocks_obl
  tail := Backend_gen_tail_blocks_obl


@[erase] theorem inner_erase (x0 : List U32) (x1 : Callee α) : (inner_tr (R := R) (V := V) tgt x0 x1).1 = inner (R := R) (V := V) tgt x0 x1 := by
  simp only [erase, call_erase, inner_tr, inner] <;> rfl

theorem inner_obl : ∀ x0 x0' : List U32, like x0 x0' → ∀ x1 x1' : Callee α, like x1 x1' →
    Obl used like (inner_tr (R := R) (V := V) tgt x0 x1) (inner_tr (R := R) (V := V) tgt x0' x1') := by
  elim; elim
  unfold inner_tr
  (try dsimp only)
  obl

macro_rules | `(tactic| obl_call) => `(tactic| (with_reducible refine inner_obl _ _ ?_ _ _ ?_ <;> alike))

end Verif.Rust.ChaCha.avx512
