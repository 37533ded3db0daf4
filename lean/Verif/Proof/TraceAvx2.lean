import Verif.Rust.Src.ChaChaAvx2
import Verif.Proof.TraceChaCha
import Verif.Proof.TraceClosure
/-!
# What is seen of `chacha20`, AVX2 backend

Erasing the record gives the text, and what is seen does not depend on what is secret.
-/
namespace Verif.Rust.ChaCha.avx2

variable {tgt : Target} {α R V : Type} [Rounds R] [Variant V]

/-- The intrinsics that the AVX2 backend uses. -/
def used : List String :=
  ["_mm256_add_epi32", "_mm256_add_epi64", "_mm256_broadcastsi128_si256", "_mm256_extract_epi32", "_mm256_set_epi32", "_mm256_set_epi64x",
    "_mm256_setzero_si256", "_mm256_shuffle_epi32", "_mm256_shuffle_epi8", "_mm256_slli_epi32", "_mm256_srli_epi32", "_mm256_xor_si256",
    "_mm_loadu_si128", "_mm_storeu_si128"]

macro_rules | `(tactic| mem_ext) => `(tactic| (simp only [used, List.mem_cons, true_or, or_true]; done))

instance : Like (Backend R V) := ⟨fun a b => like a.v b.v ∧ like a.ctr b.ctr⟩

theorem like_Backend {a0 b0 : List M256} {a1 b1 : List M256} (h0 : like a0 b0) (h1 : like a1 b1) : like (⟨a0, a1⟩ : Backend R V) ⟨b0, b1⟩ := ⟨h0, h1⟩
macro_rules | `(tactic| like_ext) => `(tactic| (with_reducible refine like_Backend ?_ ?_ <;> alike))

theorem elim_Backend {P : Backend R V → Backend R V → Prop} (h : ∀ a0 b0, like a0 b0 → ∀ a1 b1, like a1 b1 → P ⟨a0, a1⟩ ⟨b0, b1⟩) :
    ∀ p p', like p p' → P p p' := fun _ _ h' => h _ _ (h'.1) _ _ (h'.2)
macro_rules | `(tactic| elim_ext) => `(tactic| (with_reducible refine elim_Backend ?_; elim; elim))

@[erase] theorem add_xor_rot_erase (x0 : List (List M256)) : (add_xor_rot_tr tgt x0).1 = add_xor_rot tgt x0 := by
  simp only [erase, add_xor_rot_tr, add_xor_rot] <;> rfl

theorem add_xor_rot_obl : ∀ x0 x0' : List (List M256), like x0 x0' →
    Obl used like (add_xor_rot_tr tgt x0) (add_xor_rot_tr tgt x0') := by
  elim
  unfold add_xor_rot_tr
  (try dsimp only)
  obl

macro_rules | `(tactic| obl_call) => `(tactic| (with_reducible refine add_xor_rot_obl _ _ ?_ <;> alike))

@[erase] theorem rows_to_cols_erase (x0 : List (List M256)) : (rows_to_cols_tr tgt x0).1 = rows_to_cols tgt x0 := by
  simp only [erase, rows_to_cols_tr, rows_to_cols] <;> rfl

theorem rows_to_cols_obl : ∀ x0 x0' : List (List M256), like x0 x0' →
    Obl used like (rows_to_cols_tr tgt x0) (rows_to_cols_tr tgt x0') := by
  elim
  unfold rows_to_cols_tr
  (try dsimp only)
  obl

macro_rules | `(tactic| obl_call) => `(tactic| (with_reducible refine rows_to_cols_obl _ _ ?_ <;> alike))

@[erase] theorem cols_to_rows_erase (x0 : List (List M256)) : (cols_to_rows_tr tgt x0).1 = cols_to_rows tgt x0 := by
  simp only [erase, cols_to_rows_tr, cols_to_rows] <;> rfl

theorem cols_to_rows_obl : ∀ x0 x0' : List (List M256), like x0 x0' →
    Obl used like (cols_to_rows_tr tgt x0) (cols_to_rows_tr tgt x0') := by
  elim
  unfold cols_to_rows_tr
  (try dsimp only)
  obl

macro_rules | `(tactic| obl_call) => `(tactic| (with_reducible refine cols_to_rows_obl _ _ ?_ <;> alike))

@[erase] theorem double_quarter_round_erase (x0 : List (List M256)) : (double_quarter_round_tr tgt x0).1 = double_quarter_round tgt x0 := by
  simp only [erase, double_quarter_round_tr, double_quarter_round] <;> rfl

theorem double_quarter_round_obl : ∀ x0 x0' : List (List M256), like x0 x0' →
    Obl used like (double_quarter_round_tr tgt x0) (double_quarter_round_tr tgt x0') := by
  elim
  unfold double_quarter_round_tr
  (try dsimp only)
  obl

macro_rules | `(tactic| obl_call) => `(tactic| (with_reducible refine double_quarter_round_obl _ _ ?_ <;> alike))

@[erase] theorem rounds_erase (x0 : List M256) (x1 : List M256) : (rounds_tr (R := R) tgt x0 x1).1 = rounds (R := R) tgt x0 x1 := by
  simp only [erase, rounds_tr, rounds] <;> rfl

theorem rounds_obl : ∀ x0 x0' : List M256, like x0 x0' → ∀ x1 x1' : List M256, like x1 x1' →
    Obl used like (rounds_tr (R := R) tgt x0 x1) (rounds_tr (R := R) tgt x0' x1') := by
  elim; elim
  unfold rounds_tr
  (try dsimp only)
  obl

macro_rules | `(tactic| obl_call) => `(tactic| (with_reducible refine rounds_obl _ _ ?_ _ _ ?_ <;> alike))

@[erase] theorem Backend_gen_ks_block_erase (x0 : Backend R V) (x1 : List U8) : (Backend.gen_ks_block_tr tgt x0 x1).1 = Backend.gen_ks_block tgt x0 x1 := by
  simp only [erase, Backend.gen_ks_block_tr, Backend.gen_ks_block] <;> rfl

theorem Backend_gen_ks_block_obl : ∀ x0 x0' : Backend R V, like x0 x0' → ∀ x1 x1' : List U8, like x1 x1' →
    Obl used like (Backend.gen_ks_block_tr tgt x0 x1) (Backend.gen_ks_block_tr tgt x0' x1') := by
  elim; elim
  unfold Backend.gen_ks_block_tr
  (try dsimp only)
  obl

macro_rules | `(tactic| obl_call) => `(tactic| (with_reducible refine Backend_gen_ks_block_obl _ _ ?_ _ _ ?_ <;> alike))

@[erase] theorem Backend_gen_par_ks_blocks_erase (x0 : Backend R V) (x1 : List (List U8)) : (Backend.gen_par_ks_blocks_tr tgt x0 x1).1 = Backend.gen_par_ks_blocks tgt x0 x1 := by
  simp only [erase, Backend.gen_par_ks_blocks_tr, Backend.gen_par_ks_blocks] <;> rfl

theorem Backend_gen_par_ks_blocks_obl : ∀ x0 x0' : Backend R V, like x0 x0' → ∀ x1 x1' : List (List U8), like x1 x1' →
    Obl used like (Backend.gen_par_ks_blocks_tr tgt x0 x1) (Backend.gen_par_ks_blocks_tr tgt x0' x1') := by
  elim; elim
  unfold Backend.gen_par_ks_blocks_tr
  (try dsimp only)
  obl

macro_rules | `(tactic| obl_call) => `(tactic| (with_reducible refine Backend_gen_par_ks_blocks_obl _ _ ?_ _ _ ?_ <;> alike))

@[erase] theorem Backend_rng_gen_par_ks_blocks_erase (x0 : Backend R V) (x1 : List U32) : (Backend.rng_gen_par_ks_blocks_tr tgt x0 x1).1 = Backend.rng_gen_par_ks_blocks tgt x0 x1 := by
  simp only [erase, Backend.rng_gen_par_ks_blocks_tr, Backend.rng_gen_par_ks_blocks] <;> rfl

theorem Backend_rng_gen_par_ks_blocks_obl : ∀ x0 x0' : Backend R V, like x0 x0' → ∀ x1 x1' : List U32, like x1 x1' →
    Obl used like (Backend.rng_gen_par_ks_blocks_tr tgt x0 x1) (Backend.rng_gen_par_ks_blocks_tr tgt x0' x1') := by
  elim; elim
  unfold Backend.rng_gen_par_ks_blocks_tr
  (try dsimp only)
  obl

macro_rules | `(tactic| obl_call) => `(tactic| (with_reducible refine Backend_rng_gen_par_ks_blocks_obl _ _ ?_ _ _ ?_ <;> alike))

@[erase] theorem rng_inner_erase (x0 : ChaChaCore R V) (x1 : List U32) : (rng_inner_tr tgt x0 x1).1 = rng_inner tgt x0 x1 := by
  simp only [erase, rng_inner_tr, rng_inner] <;> rfl

theorem rng_inner_obl : ∀ x0 x0' : ChaChaCore R V, like x0 x0' → ∀ x1 x1' : List U32, like x1 x1' →
    Obl used like (rng_inner_tr tgt x0 x1) (rng_inner_tr tgt x0' x1') := by
  elim; elim
  unfold rng_inner_tr
  (try dsimp only)
  obl

macro_rules | `(tactic| obl_call) => `(tactic| (with_reducible refine rng_inner_obl _ _ ?_ _ _ ?_ <;> alike))

instance : Erases (Backend R V) where
  block _ s b := Backend_gen_ks_block_erase s b
  par _ s b := Backend_gen_par_ks_blocks_erase s b
  tail _ s b := by
    show (providedTail_tr _ _ s b).1 = providedTail _ _ s b
    rw [providedTail_erase]
    simp only [Backend_gen_ks_block_erase]

instance : OblBackend used tgt (Backend R V) where
  block := Backend_gen_ks_block_obl
  par := Backend_gen_par_ks_blocks_obl
  tail := providedTail_obl Backend_gen_ks_block_obl


@[erase] theorem inner_erase (x0 : List U32) (x1 : Callee α) : (inner_tr (R := R) (V := V) tgt x0 x1).1 = inner (R := R) (V := V) tgt x0 x1 := by
  simp only [erase, call_erase, inner_tr, inner] <;> rfl

theorem inner_obl : ∀ x0 x0' : List U32, like x0 x0' → ∀ x1 x1' : Callee α, like x1 x1' →
    Obl used like (inner_tr (R := R) (V := V) tgt x0 x1) (inner_tr (R := R) (V := V) tgt x0' x1') := by
  elim; elim
  unfold inner_tr
  (try dsimp only)
  obl

macro_rules | `(tactic| obl_call) => `(tactic| (with_reducible refine inner_obl _ _ ?_ _ _ ?_ <;> alike))

end Verif.Rust.ChaCha.avx2
