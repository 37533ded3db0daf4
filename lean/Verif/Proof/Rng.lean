import Verif.Proof.LeNat
import Verif.Proof.Refill
/-!
# The RNG is a cursor over the ChaCha word stream
-/
namespace Verif.ChaCha
open Spec
open Verif.Spec.Rng (St RngOp RngObs)

/-! ## Refill -/

theorem selectRng_ne (b : Config.Build) (d : Config.Detected) : Config.selectRng b d ≠ .avx512 := by
  unfold Config.selectRng
  repeat' split
  all_goals exact nofun

theorem generate_legacy (dr : Nat) (e : Env) (s : State) :
    generate dr .legacy e s = (quad fun i => runRounds dr (advance .legacy i s), advance .legacy 4 s) := by
  unfold generate
  split
  · exact softGenKsBlocks_eq dr s
  · exact Sse2.rngInner_eq dr .legacy s
  · exact Avx2.rngInner_eq dr s
  · exact Avx2.rngInner_eq dr s
  · exact Neon.rngInner_eq dr .legacy s

theorem runRounds_getElem (dr : Nat) (s : State) (j : Nat) (hj : j < 16) :
    (runRounds dr s)[j] = (Spec.ChaCha.core dr (rows s))[j / 4][j % 4] := by
  have hdiv : j / 4 < 4 := by omega
  have hmod : j % 4 < 4 := by omega
  simp only [rows_eq, Spec.ChaCha.core, mat_getElem, ← toMat_iter, runRounds, Vector.getElem_zipWith, Fin.getElem_fin]
  have hidx : 4 * (j / 4) + j % 4 = j := by omega
  simp only [toMat, mat_getElem, hidx]

/-- The initial state for a seed and a stream. -/
def base (seed : Vector U8 32) (stream : U64) : State :=
  setupState seed 0 0 (stream.setWidth 32) ((stream >>> 32).setWidth 32)

theorem nonce_toList (stream : U64) : (Spec.Rng.nonce stream).toList = (List.range 8).map (leByte stream.toNat) := by
  apply List.ext_getElem
  · simp
  · intro i h1 h2
    simp only [Vector.getElem_toList, List.getElem_map, List.getElem_range, Spec.Rng.nonce, Vector.getElem_ofFn]

theorem base_eq (seed : Vector U8 32) (stream : U64) : base seed stream = legacyState seed (Spec.Rng.nonce stream) := by
  have h0 : leWord (Spec.Rng.nonce stream).toList 0 = stream.setWidth 32 := by
    rw [nonce_toList, leWord_map_leByte _ _ _ (by decide)]
    apply BitVec.eq_of_toNat_eq
    simp
  have h1 : leWord (Spec.Rng.nonce stream).toList 1 = (stream >>> 32).setWidth 32 := by
    rw [nonce_toList, leWord_map_leByte _ _ _ (by decide)]
    apply BitVec.eq_of_toNat_eq
    simp [Nat.shiftRight_eq_div_pow]
  rw [legacyState, h0, h1, base]

theorem runRounds_base (dr : Nat) (seed : Vector U8 32) (stream : U64) (n j : Nat) (hj : j < 16) :
    (runRounds dr (at' .legacy (base seed stream) n))[j] = Spec.Rng.word dr seed stream (16 * n + j) := by
  rw [runRounds_getElem _ _ _ hj, base_eq, rows_at'_legacy, Spec.Rng.word]
  have h1 : (16 * n + j) / 16 = n := by omega
  have h2 : (16 * n + j) / 4 % 4 = j / 4 := by omega
  have h3 : (16 * n + j) % 4 = j % 4 := by omega
  simp only [h1, h2, h3]

theorem djbInput_mod (key : Vector U8 32) (iv : Vector U8 8) (n : Nat) :
    Spec.ChaCha.djbInput key iv (n % 2 ^ 64) = Spec.ChaCha.djbInput key iv n := by
  have h0 : BitVec.ofNat 32 (n % 2 ^ 64) = BitVec.ofNat 32 n := by
    apply BitVec.eq_of_toNat_eq; simp only [BitVec.toNat_ofNat]; omega
  have h1 : BitVec.ofNat 32 (n % 2 ^ 64 / 2 ^ 32) = BitVec.ofNat 32 (n / 2 ^ 32) := by
    apply BitVec.eq_of_toNat_eq; simp only [BitVec.toNat_ofNat]; omega
  simp only [Spec.ChaCha.djbInput, h0, h1]

theorem word_mod (dr : Nat) (seed : Vector U8 32) (stream : U64) (p : Nat) :
    Spec.Rng.word dr seed stream (p % 2 ^ 68) = Spec.Rng.word dr seed stream p := by
  have h1 : p % 2 ^ 68 / 16 = p / 16 % 2 ^ 64 := by omega
  have h2 : p % 2 ^ 68 / 4 % 4 = p / 4 % 4 := by omega
  have h3 : p % 2 ^ 68 % 4 = p % 4 := by omega
  simp only [Spec.Rng.word, h1, h2, h3, djbInput_mod]

theorem word_congr (dr : Nat) (seed : Vector U8 32) (stream : U64) {p q : Nat} (h : p % 2 ^ 68 = q % 2 ^ 68) :
    Spec.Rng.word dr seed stream p = Spec.Rng.word dr seed stream q := by
  rw [← word_mod, h, word_mod]

theorem at'_congr (s : State) {p q : Nat} (h : p % 2 ^ 64 = q % 2 ^ 64) : at' .legacy s p = at' .legacy s q := by
  have : BitVec.ofNat 64 p = BitVec.ofNat 64 q := by
    apply BitVec.eq_of_toNat_eq; simpa only [BitVec.toNat_ofNat] using h
  exact congrArg (Legacy.setBlockPos s) this

/-! ## The relation -/

namespace Rng

/-- `r` stands for `a`; `b` is the block at which the buffer starts. -/
structure At (dr : Nat) (a : St) (r : Rng) (b : Nat) : Prop where
  core : r.core = at' .legacy (base a.seed a.stream) (b + 4)
  pos : a.pos = (16 * b + r.index) % 2 ^ 68
  index : r.index ≤ 64
  results : r.index < 64 → ∀ k (h : k < 64), r.results[k] = Spec.Rng.word dr a.seed a.stream (16 * b + k)

/-- `r` stands for `a`. -/
def Rel (dr : Nat) (a : St) (r : Rng) : Prop := 0 < r.index ∧ ∃ b, At dr a r b

theorem refill_core (dr : Nat) (e : Env) (r : Rng) : (refill dr e r).core = advance .legacy 4 r.core := by
  rw [refill, generate_legacy]

theorem refill_results (dr : Nat) (e : Env) (r : Rng) :
    (refill dr e r).results = quad fun i => runRounds dr (advance .legacy i r.core) := by
  rw [refill, generate_legacy]

/-- Refilling from a state whose counter is `c` gives words `16 c, …`. -/
theorem refill_words (dr : Nat) (e : Env) (r : Rng) (seed : Vector U8 32) (stream : U64) (c : Nat)
    (h : r.core = at' .legacy (base seed stream) c) (k : Nat) (hk : k < 64) :
    (refill dr e r).results[k] = Spec.Rng.word dr seed stream (16 * c + k) := by
  simp only [refill_results, h, advance_at', quad, Vector.getElem_ofFn]
  rw [runRounds_base]
  congr 1
  omega

/-- The state after a refill. -/
theorem at_refill (dr : Nat) (e : Env) (a : St) (r : Rng) (c j : Nat)
    (h : r.core = at' .legacy (base a.seed a.stream) c) (hp : a.pos = (16 * c + j) % 2 ^ 68) (hj : j ≤ 64) :
    At dr a { refill dr e r with index := j } c where
  core := by
    show (refill dr e r).core = _
    rw [refill_core, h, advance_at']
  pos := hp
  index := hj
  results := fun _ k hk => refill_words dr e r _ _ c h k hk

/-- A state with the buffer exhausted. -/
theorem at_empty (dr : Nat) (a : St) (r : Rng) (c : Nat)
    (h : r.core = at' .legacy (base a.seed a.stream) c) (hp : a.pos = 16 * c % 2 ^ 68) :
    At dr a { r with index := 64 } (c + (2 ^ 64 - 4)) where
  core := by
    show r.core = _
    rw [h]; exact at'_congr _ (by omega)
  pos := by
    show a.pos = (16 * (c + (2 ^ 64 - 4)) + 64) % 2 ^ 68
    rw [hp]; omega
  index := Nat.le_refl _
  results := fun h => absurd h (Nat.lt_irrefl _)

/-- Consuming words of the buffer. -/
theorem At.skip {dr : Nat} {a : St} {r : Rng} {b : Nat} (h : At dr a r b) (n : Nat) (hn : r.index + n ≤ 64) (hi : r.index < 64) :
    At dr (a.move n) { r with index := r.index + n } b where
  core := h.core
  pos := by
    show (a.pos + n) % 2 ^ 68 = (16 * b + (r.index + n)) % 2 ^ 68
    rw [h.pos]; omega
  index := hn
  results := fun _ => h.results hi

/-- The words in the buffer. -/
theorem At.word {dr : Nat} {a : St} {r : Rng} {b : Nat} (h : At dr a r b) (k : Nat) (hk : r.index + k < 64) :
    r.results[r.index + k] = a.word dr k := by
  rw [h.results (by omega), St.word]
  apply word_congr
  rw [h.pos]; omega

/-- An exhausted buffer, refilled. -/
theorem At.refill {dr : Nat} {a : St} {r : Rng} {b : Nat} (h : At dr a r b) (hi : r.index = 64) (e : Env) :
    At dr a { Rng.refill dr e r with index := 0 } (b + 4) :=
  at_refill dr e a r (b + 4) 0 h.core (by rw [h.pos, hi]; omega) (by decide)

theorem move_move (a : St) (m n : Nat) : (a.move m).move n = a.move (m + n) := by
  simp only [St.move, St.mk.injEq, true_and]
  omega

theorem word_move (dr : Nat) (a : St) (m i : Nat) : (a.move m).word dr i = a.word dr (m + i) := by
  apply word_congr
  simp only [St.move]
  omega

theorem At.bound {dr : Nat} {a : St} {r : Rng} {b : Nat} (h : At dr a r b) : a.pos < 2 ^ 68 := by
  rw [h.pos]; exact Nat.mod_lt _ (by decide)

theorem At.move_zero {dr : Nat} {a : St} {r : Rng} {b : Nat} (h : At dr a r b) : a.move 0 = a := by
  have := h.bound
  simp only [St.move, Nat.add_zero, Nat.mod_eq_of_lt this]

/-! ## Reading -/

theorem nextWord_rel {dr : Nat} {a : St} {r : Rng} (h : Rel dr a r) (e : Env) :
    (nextWord dr e r).1 = a.word dr 0 ∧ Rel dr (a.move 1) (nextWord dr e r).2 := by
  obtain ⟨hi, b, h⟩ := h
  unfold nextWord
  split
  · rename_i hlt
    exact ⟨h.word 0 hlt, Nat.succ_pos _, b, h.skip 1 hlt hlt⟩
  · have h' := h.refill (by have := h.index; omega) e
    exact ⟨h'.word 0 (Nat.le_of_ble_eq_true rfl), Nat.one_pos, b + 4, h'.skip 1 (Nat.le_of_ble_eq_true rfl) (Nat.le_of_ble_eq_true rfl)⟩

theorem join_words (lo hi : U32) :
    ((hi.setWidth 64 <<< 32) ||| lo.setWidth 64 : U64) = BitVec.ofNat 64 (lo.toNat + 2 ^ 32 * hi.toNat) := by
  apply BitVec.eq_of_toNat_eq
  rw [join_toNat, BitVec.toNat_ofNat]
  have := lo.isLt
  have := hi.isLt
  omega

theorem nextU64_rel {dr : Nat} {a : St} {r : Rng} (h : Rel dr a r) (e : Env) :
    (nextU64 dr e r).1 = BitVec.ofNat 64 ((a.word dr 0).toNat + 2 ^ 32 * (a.word dr 1).toNat) ∧
      Rel dr (a.move 2) (nextU64 dr e r).2 := by
  obtain ⟨hi, b, h⟩ := h
  unfold nextU64
  simp only
  split
  · rename_i hlt
    refine ⟨?_, Nat.succ_pos _, b, h.skip 2 (by omega) (by omega)⟩
    rw [join_words]
    rw [show r.results[r.index] = _ from h.word 0 (by omega), h.word 1 (by omega)]
  · split
    · have h' := h.refill (by have := h.index; omega) e
      refine ⟨?_, Nat.two_pos, b + 4, h'.skip 2 (Nat.le_of_ble_eq_true rfl) (Nat.le_of_ble_eq_true rfl)⟩
      rw [join_words]
      exact congr (congrArg (fun (x y : U32) => BitVec.ofNat 64 (x.toNat + 2 ^ 32 * y.toNat)) (h'.word 0 (Nat.le_of_ble_eq_true rfl)))
        (h'.word 1 (Nat.le_of_ble_eq_true rfl))
    · have h63 : r.index = 63 := by omega
      have h1 := h.skip 1 (by omega) (by omega)
      have h' := h1.refill (by show r.index + 1 = 64; omega) e
      refine ⟨?_, Nat.one_pos, b + 4, ?_⟩
      · rw [join_words]
        have hw := h.word 0 (by omega)
        simp only [h63, Nat.add_zero] at hw
        rw [hw]
        have hw' := h'.word 0 (Nat.le_of_ble_eq_true rfl)
        rw [word_move] at hw'
        exact congrArg (fun y : U32 => BitVec.ofNat 64 ((a.word dr 0).toNat + 2 ^ 32 * y.toNat)) hw'
      · have := h'.skip 1 (Nat.le_of_ble_eq_true rfl) (Nat.le_of_ble_eq_true rfl)
        rw [move_move] at this
        exact this

/-! ## `fill_bytes` -/

theorem flatMap_toLe32_getElem (l : List U32) (i : Nat) (h : i < (l.flatMap fun w => (toLe32 w).toList).length) :
    (l.flatMap fun w => (toLe32 w).toList)[i] =
      leByte (l[i / 4]'(by rw [length_flatMap_toLe32] at h; omega)).toNat (i % 4) := by
  induction l generalizing i with
  | nil => exact absurd h (by simp)
  | cons w l ih =>
    simp only [List.flatMap_cons]
    rw [List.getElem_append]
    split
    · rename_i hlt
      have hlt : i < 4 := by simpa using hlt
      have h0 : i / 4 = 0 := by omega
      have h1 : i % 4 = i := by omega
      simp only [Vector.getElem_toList, toLe32_getElem w i hlt, h0, h1, List.getElem_cons_zero]
    · rename_i hge
      have hge : ¬ i < 4 := by simpa using hge
      obtain ⟨j, rfl⟩ : ∃ j, i = j + 4 := ⟨i - 4, by omega⟩
      have h0 : (j + 4) / 4 = j / 4 + 1 := by omega
      have h1 : (j + 4) % 4 = j % 4 := by omega
      simp only [Vector.length_toList, Nat.add_sub_cancel, h0, h1, List.getElem_cons_succ]
      exact ih j _

/-- Bytes of the words from the cursor. -/
def bytes (dr : Nat) (a : St) (n : Nat) : List U8 := (List.range n).map fun i => leByte (a.word dr (i / 4)).toNat (i % 4)

theorem bytes_length (dr : Nat) (a : St) (n : Nat) : (bytes dr a n).length = n := by simp [bytes]

theorem bytes_add (dr : Nat) (a : St) (m n : Nat) :
    bytes dr a (4 * m + n) = bytes dr a (4 * m) ++ bytes dr (a.move m) n := by
  simp only [bytes, List.range_add, List.map_append, List.map_map]
  refine congrArg (List.append _) ?_
  apply List.map_congr_left
  intro i _
  simp only [Function.comp_def, word_move]
  have h0 : (4 * m + i) / 4 = m + i / 4 := by omega
  have h1 : (4 * m + i) % 4 = i % 4 := by omega
  rw [h0, h1]

theorem fillViaChunks_eq {dr : Nat} {a : St} {r : Rng} {b : Nat} (h : At dr a r b) (hi : r.index < 64) (n : Nat) :
    fillViaChunks (r.results.toList.drop r.index) n =
      ((min ((64 - r.index) * 4) n + 3) / 4, bytes dr a (min ((64 - r.index) * 4) n)) := by
  have hl : (r.results.toList.drop r.index).length = 64 - r.index := by simp
  simp only [fillViaChunks, hl, Prod.mk.injEq, true_and]
  apply List.ext_getElem
  · rw [List.length_take, length_flatMap_toLe32, hl, bytes_length]; omega
  · intro i h1 h2
    rw [bytes_length] at h2
    rw [List.getElem_take, flatMap_toLe32_getElem]
    simp only [bytes, List.getElem_map, List.getElem_range, List.getElem_drop, Vector.getElem_toList]
    rw [h.word (i / 4) (by omega)]

theorem fillLoop_rel {dr : Nat} (e : Env) (n : Nat) : ∀ {a : St} {r : Rng} {b : Nat}, At dr a r b → (0 < n ∨ 0 < r.index) →
    (fillLoop dr e n r).1 = bytes dr a n ∧ Rel dr (a.move ((n + 3) / 4)) (fillLoop dr e n r).2 := by
  induction n using Nat.strongRecOn with
  | ind n ih =>
  intro a r b h hpos
  rw [fillLoop]
  split
  · rename_i hn
    subst hn
    refine ⟨rfl, by simpa using hpos, b, ?_⟩
    show At dr (a.move 0) r b
    rw [h.move_zero]; exact h
  · rename_i hn
    dsimp only
    obtain ⟨r', b', h', hr, hlt⟩ : ∃ r' b', At dr a r' b' ∧
        (if r.index ≥ 64 then { refill dr e r with index := 0 } else r) = r' ∧ r'.index < 64 := by
      split
      · exact ⟨_, b + 4, h.refill (by have := h.index; omega) e, rfl, Nat.le_of_ble_eq_true rfl⟩
      · exact ⟨_, b, h, rfl, by omega⟩
    rw [hr, fillViaChunks_eq h' hlt]
    simp only [bytes_length]
    by_cases hle : n ≤ (64 - r'.index) * 4
    · rw [Nat.min_eq_right hle, Nat.sub_self, fillLoop, dif_pos rfl]
      refine ⟨List.append_nil _, ?_, b', h'.skip _ (by omega) hlt⟩
      show 0 < r'.index + (n + 3) / 4
      omega
    · rw [Nat.min_eq_left (by omega), show ((64 - r'.index) * 4 + 3) / 4 = 64 - r'.index by omega]
      have h2 := ih (n - (64 - r'.index) * 4) (by omega) (h'.skip (64 - r'.index) (by omega) hlt) (.inl (by omega))
      refine ⟨?_, ?_⟩
      · rw [h2.1]
        have := bytes_add dr a (64 - r'.index) (n - (64 - r'.index) * 4)
        rw [show 4 * (64 - r'.index) + (n - (64 - r'.index) * 4) = n by omega, Nat.mul_comm] at this
        exact this.symm
      · have h3 := h2.2
        rw [move_move, show 64 - r'.index + (n - (64 - r'.index) * 4 + 3) / 4 = (n + 3) / 4 by omega] at h3
        exact h3

theorem fillBytes_rel {dr : Nat} {a : St} {r : Rng} (h : Rel dr a r) (e : Env) (n : Nat) :
    (fillBytes dr e n r).1 = bytes dr a n ∧ Rel dr (a.move ((n + 3) / 4)) (fillBytes dr e n r).2 := by
  obtain ⟨hi, b, h⟩ := h
  exact fillLoop_rel e n h (.inr hi)

/-! ## Words of the state -/

theorem core_words {dr : Nat} {a : St} {r : Rng} {b : Nat} (h : At dr a r b) :
    r.core = setupState a.seed (BitVec.ofNat 32 (b + 4)) (BitVec.ofNat 32 ((b + 4) / 2 ^ 32)) (a.stream.setWidth 32)
      ((a.stream >>> 32).setWidth 32) := by
  rw [h.core, base, at'_legacy]

theorem setup_seed (key : Vector U8 32) (r0 r1 r2 r3 : U32) :
    leBytes (k := 8) (Vector.ofFn fun i => (setupState key r0 r1 r2 r3)[4 + i.val]) = key := by
  have hw : ∀ (q : Nat) (h : q < 8), (setupState key r0 r1 r2 r3)[4 + q] = leWord key.toList q := by
    apply forall_lt8 <;> rfl
  apply Vector.ext; intro i hi
  rw [leBytes_getElem _ _ hi, Vector.getElem_ofFn, hw (i / 4) (by omega),
    leByte_leWord _ _ _ (by omega) (by rw [Vector.length_toList]; omega), Vector.getElem_toList]
  congr 1; omega

theorem getSeed_rel {dr : Nat} {a : St} {r : Rng} (h : Rel dr a r) : getSeed r = a.seed := by
  obtain ⟨_, b, h⟩ := h
  rw [getSeed, core_words h]
  exact setup_seed _ _ _ _ _

theorem stream_words (s : U64) :
    fromLeBytes 64 ((toLe32 (s.setWidth 32)).toList ++ (toLe32 ((s >>> 32).setWidth 32)).toList) = s := by
  apply BitVec.eq_of_toNat_eq
  rw [fromLeBytes_toNat, leNat_append, leNat_toLe32, leNat_toLe32]
  have := s.isLt
  simp only [Vector.length_toList, BitVec.toNat_setWidth, BitVec.toNat_ushiftRight, Nat.shiftRight_eq_div_pow]
  omega

theorem getStream_rel {dr : Nat} {a : St} {r : Rng} (h : Rel dr a r) : getStream r = a.stream := by
  obtain ⟨_, b, h⟩ := h
  rw [getStream, core_words h]
  exact stream_words _

theorem counter_toNat (n : Nat) : (((BitVec.ofNat 32 (n / 2 ^ 32)).setWidth 64 <<< 32) ||| (BitVec.ofNat 32 n).setWidth 64 : U64) =
    BitVec.ofNat 64 n := by
  apply BitVec.eq_of_toNat_eq
  rw [join_toNat]
  simp only [BitVec.toNat_ofNat]
  omega

theorem counter_eq {dr : Nat} {a : St} {r : Rng} {b : Nat} (h : At dr a r b) :
    ((r.core[13].setWidth 64 <<< 32) ||| r.core[12].setWidth 64 : U64) = BitVec.ofNat 64 (b + 4) := by
  rw [← counter_toNat (b + 4), core_words h]
  rfl

theorem mask68 (x : U128) : (x &&& ((1#128 <<< 68) - 1#128)).toNat = x.toNat % 2 ^ 68 := by
  rw [BitVec.toNat_and, show (1#128 <<< 68 - 1#128).toNat = 2 ^ 68 - 1 by decide, Nat.and_two_pow_sub_one_eq_mod]

theorem getWordPos_rel {dr : Nat} {a : St} {r : Rng} (h : Rel dr a r) : getWordPos r = BitVec.ofNat 128 a.pos := by
  obtain ⟨hi, b, h⟩ := h
  have hidx := h.index
  have hpos := h.pos
  have hb := h.bound
  apply BitVec.eq_of_toNat_eq
  unfold getWordPos
  rw [counter_eq h]
  simp only
  rw [mask68]
  simp only [wordOffset]
  by_cases h64 : r.index ≥ 64
  · have : r.index = 64 := by omega
    simp only [if_pos h64, ne_eq, not_true, if_false, BitVec.toNat_add, BitVec.toNat_mul, BitVec.toNat_setWidth, BitVec.toNat_ofNat]
    omega
  · have h0 : r.index ≠ 0 := by omega
    simp only [if_neg h64, if_pos h0, BitVec.toNat_add, BitVec.toNat_mul, BitVec.toNat_setWidth, BitVec.toNat_ofNat,
      BitVec.toNat_sub]
    omega

/-- Below `2^128`: the sum in `get_word_pos` does not overflow. -/
theorem getWordPos_no_overflow (c : U64) (r : Rng) (h : r.index ≤ 64) : c.toNat * 16 + r.wordOffset < 2 ^ 128 := by
  have := c.isLt
  have : r.wordOffset ≤ 64 := by rw [wordOffset]; split <;> omega
  omega

/-! ## Positioning -/

theorem resetAndSkip_rel (dr : Nat) (e : Env) (a : St) (r : Rng) (c j : Nat)
    (h : r.core = at' .legacy (base a.seed a.stream) c) (hp : a.pos = (16 * c + j) % 2 ^ 68) (hj : j < 64) :
    ∃ r', resetAndSkip dr e j r = .ok r' ∧ Rel dr a r' := by
  unfold resetAndSkip
  rw [if_pos hj]
  split
  · rename_i h0
    subst h0
    exact ⟨_, rfl, (by decide : 0 < 64), _, at_empty dr a r c h hp⟩
  · rename_i h0
    exact ⟨_, rfl, Nat.pos_of_ne_zero h0, _, at_refill dr e a r c j h hp (Nat.le_of_lt hj)⟩

theorem setup_counter (key : Vector U8 32) (r0 r1 r2 r3 x y : U32) :
    ((setupState key r0 r1 r2 r3).set 12 x).set 13 y = setupState key x y r2 r3 := rfl

theorem setup_stream (key : Vector U8 32) (r0 r1 r2 r3 x y : U32) :
    ((setupState key r0 r1 r2 r3).set 14 x).set 15 y = setupState key r0 r1 x y := rfl

theorem base_counter (seed : Vector U8 32) (stream : U64) (n c : Nat) (x y : U32)
    (hx : x = BitVec.ofNat 32 c) (hy : y = BitVec.ofNat 32 (c / 2 ^ 32)) :
    ((at' .legacy (base seed stream) n).set 12 x).set 13 y = at' .legacy (base seed stream) c := by
  rw [base, at'_legacy, at'_legacy, setup_counter, hx, hy]

theorem base_stream (seed : Vector U8 32) (stream s : U64) (n : Nat) :
    ((at' .legacy (base seed stream) n).set 14 (s.setWidth 32)).set 15 ((s >>> 32).setWidth 32) = at' .legacy (base seed s) n := by
  rw [base, base, at'_legacy, at'_legacy, setup_stream]

/-- `set_word_pos` from any state with the right seed and stream. -/
theorem setWordPos_core (dr : Nat) (e : Env) (a : St) (r : Rng) (n : Nat) (p : U128)
    (h : r.core = at' .legacy (base a.seed a.stream) n) :
    ∃ r', setWordPos dr e p r = .ok r' ∧ Rel dr { a with pos := p.toNat % 2 ^ 68 } r' := by
  have hp := p.isLt
  have h16 : 16 % 2 ^ 128 = 16 := by decide
  unfold setWordPos
  refine resetAndSkip_rel dr e _ _ (p.toNat / 16) _ ?_ ?_ ?_
  · show (r.core.set 12 _).set 13 _ = _
    rw [h]
    apply base_counter
    · apply BitVec.eq_of_toNat_eq
      simp only [BitVec.toNat_setWidth, BitVec.toNat_udiv, BitVec.toNat_ofNat, h16]
    · apply BitVec.eq_of_toNat_eq
      simp only [BitVec.toNat_setWidth, BitVec.toNat_ushiftRight, Nat.shiftRight_eq_div_pow, BitVec.toNat_udiv, BitVec.toNat_ofNat, h16]
  · simp only [BitVec.toNat_umod, BitVec.toNat_ofNat, h16]
    omega
  · simp only [BitVec.toNat_umod, BitVec.toNat_ofNat, h16]
    omega

theorem setWordPos_rel {dr : Nat} {a : St} {r : Rng} (h : Rel dr a r) (e : Env) (p : U128) :
    ∃ r', setWordPos dr e p r = .ok r' ∧ Rel dr { a with pos := p.toNat % 2 ^ 68 } r' := by
  obtain ⟨_, b, h⟩ := h
  exact setWordPos_core dr e a r _ p h.core

theorem setBlockPos_core (dr : Nat) (e : Env) (a : St) (r : Rng) (n : Nat) (b : U64)
    (h : r.core = at' .legacy (base a.seed a.stream) n) :
    ∃ r', setBlockPos dr e b r = .ok r' ∧ Rel dr { a with pos := 16 * b.toNat } r' := by
  have hb := b.isLt
  refine ⟨{ r with index := 64, core := Legacy.setBlockPos r.core b }, rfl, (by decide : 0 < 64), _,
    at_empty dr { a with pos := 16 * b.toNat } { r with core := Legacy.setBlockPos r.core b } b.toNat ?_ ?_⟩
  · show Legacy.setBlockPos r.core b = _
    rw [h]
    exact (setBlockPos_toNat .legacy _ b).trans (at'_setBlockPos .legacy _ _ _)
  · show 16 * b.toNat = 16 * b.toNat % 2 ^ 68
    omega

theorem setBlockPos_rel {dr : Nat} {a : St} {r : Rng} (h : Rel dr a r) (e : Env) (p : U64) :
    ∃ r', setBlockPos dr e p r = .ok r' ∧ Rel dr { a with pos := 16 * p.toNat } r' := by
  obtain ⟨_, b, h⟩ := h
  exact setBlockPos_core dr e a r _ p h.core

theorem setStream_rel {dr : Nat} {a : St} {r : Rng} (h : Rel dr a r) (e : Env) (s : U64) :
    ∃ r', setStream dr e s r = .ok r' ∧ Rel dr { a with stream := s, pos := 0 } r' := by
  obtain ⟨_, b, h⟩ := h
  unfold setStream
  refine setBlockPos_core dr e { a with stream := s } _ (b + 4) 0 ?_
  show (r.core.set 14 _).set 15 _ = _
  rw [h.core]
  exact base_stream _ _ _ _

/-! ## `get_block_pos` -/

/-- Does the subtraction in `get_block_pos` wrap? -/
def Wrapped (r : Rng) : Prop := (Legacy.getBlockPos r.core).toNat < 4 ∧ r.index < 64

theorem getBlockPos_rel {dr : Nat} {a : St} {r : Rng} (h : Rel dr a r) (m : Mode) :
    (m = .debug ∧ Wrapped r → getBlockPos m r = .error .overflow) ∧
    (¬ (m = .debug ∧ Wrapped r) → getBlockPos m r = .ok (BitVec.ofNat 64 (a.pos / 16))) := by
  obtain ⟨hi, b, h⟩ := h
  have hidx := h.index
  have hpos := h.pos
  have h16 : 16 % 2 ^ 64 = 16 := by decide
  have hc : (Legacy.getBlockPos r.core) = BitVec.ofNat 64 (b + 4) := counter_eq h
  unfold getBlockPos Wrapped
  rw [hc]
  simp only [wordOffset, BitVec.toNat_ofNat]
  by_cases h64 : r.index ≥ 64
  · have : r.index = 64 := by omega
    simp only [if_pos h64, ne_eq, not_true, if_false]
    constructor
    · intro h; omega
    · intro _
      congr 1
      apply BitVec.eq_of_toNat_eq
      simp only [BitVec.toNat_ofNat]
      omega
  · have h0 : r.index ≠ 0 := by omega
    simp only [if_neg h64]
    rw [if_pos h0]
    have hsum : BitVec.ofNat 64 (b + 4) - 4#64 + BitVec.ofNat 64 r.index / 16#64 = BitVec.ofNat 64 (a.pos / 16) := by
      apply BitVec.eq_of_toNat_eq
      simp only [BitVec.toNat_add, BitVec.toNat_sub, BitVec.toNat_udiv, BitVec.toNat_ofNat, h16]
      omega
    unfold sub64 add64
    by_cases hw : (b + 4) % 2 ^ 64 < 4
    · rw [if_neg (by simp only [BitVec.toNat_ofNat]; omega)]
      cases m
      · refine ⟨fun _ => rfl, fun hn => absurd ⟨rfl, hw, by omega⟩ hn⟩
      · refine ⟨fun hd => (by cases hd.1), fun _ => ?_⟩
        simp only [bind, Except.bind]
        split
        · rw [hsum]
        · rw [hsum]
    · rw [if_pos (by simp only [BitVec.toNat_ofNat]; omega)]
      refine ⟨fun hd => absurd hd.2.1 hw, fun _ => ?_⟩
      simp only [bind, Except.bind]
      rw [if_pos ?_, hsum]
      simp only [BitVec.toNat_sub, BitVec.toNat_udiv, BitVec.toNat_ofNat, h16]
      omega

/-! ## Serialisation -/

theorem serialize_rel {dr : Nat} {a : St} {r : Rng} (h : Rel dr a r) (m : Mode) :
    ∃ v, serialize m r = .ok v ∧ v.toList = a.bytes := by
  have hp : a.pos < 2 ^ 68 := by obtain ⟨_, b, h⟩ := h; exact h.bound
  have hw : (getWordPos r).toNat = a.pos := by
    rw [getWordPos_rel h, BitVec.toNat_ofNat]; omega
  unfold serialize
  have hz : (toLeBytes 16 (getWordPos r)).toList.drop 9 = List.replicate 7 0 := by
    rw [toLeBytes_toList, hw]
    apply List.ext_getElem
    · simp
    · intro i h1 h2
      have hi : i < 7 := by simpa using h2
      simp only [List.getElem_drop, List.getElem_map, List.getElem_range, List.getElem_replicate, leByte]
      rw [Nat.div_eq_of_lt]
      · rfl
      · exact Nat.lt_of_lt_of_le hp (Nat.le_trans (by decide : 2 ^ 68 ≤ 256 ^ 9) (Nat.pow_le_pow_right (by decide) (by omega)))
  simp only
  rw [if_neg (by rw [hz]; exact fun h => h.2 rfl)]
  refine ⟨_, rfl, ?_⟩
  rw [getSeed_rel h, getStream_rel h]
  apply List.ext_getElem
  · simp [St.bytes]
  · intro i h1 h2
    have hi : i < 49 := by simpa using h1
    simp only [Vector.getElem_toList, Vector.getElem_ofFn, St.bytes]
    by_cases h32 : i < 32
    · rw [dif_pos h32, List.getElem_append_left (by simp; omega), List.getElem_append_left (by simp; omega), Vector.getElem_toList]
    · rw [dif_neg h32]
      by_cases h40 : i < 40
      · rw [dif_pos h40, List.getElem_append_left (by simp; omega), List.getElem_append_right (by simp; omega)]
        rw [toLeBytes_getElem 8 a.stream _ (by omega)]
        simp
      · rw [dif_neg h40, List.getElem_append_right (by simp; omega)]
        rw [toLeBytes_getElem 16 (getWordPos r) _ (by omega), hw]
        simp

theorem stream_bytes (b : Vector U8 49) :
    setupState (Vector.ofFn fun i : Fin 32 => b[i.val]) 0 0 (leWord ((b.toList.drop 32).take 8) 0)
      (leWord ((b.toList.drop 32).take 8) 1) = base (St.ofBytes b).seed (St.ofBytes b).stream := by
  have hl : ((b.toList.drop 32).take 8).length = 8 := by simp
  have hv := leNat_lt ((b.toList.drop 32).take 8)
  have he := map_leByte_leNat ((b.toList.drop 32).take 8)
  rw [hl] at hv he
  simp only [base, St.ofBytes]
  generalize (b.toList.drop 32).take 8 = l at hl hv he ⊢
  have h0 : leWord l 0 = (BitVec.ofNat 64 (leNat l)).setWidth 32 := by
    rw [← he, leWord_map_leByte _ _ _ (by decide), he]
    apply BitVec.eq_of_toNat_eq
    simp only [BitVec.toNat_setWidth, BitVec.toNat_ofNat]
    omega
  have h1 : leWord l 1 = (BitVec.ofNat 64 (leNat l) >>> 32).setWidth 32 := by
    rw [← he, leWord_map_leByte _ _ _ (by decide), he]
    apply BitVec.eq_of_toNat_eq
    simp only [BitVec.toNat_setWidth, BitVec.toNat_ofNat, BitVec.toNat_ushiftRight, Nat.shiftRight_eq_div_pow]
    omega
  rw [h0, h1]

theorem deserialize_rel (dr : Nat) (e : Env) (b : Vector U8 49) :
    ∃ r, deserialize dr e b = .ok r ∧ Rel dr (St.ofBytes b) r := by
  unfold deserialize
  dsimp only
  rw [newInternal_legacy _ _ (by simp), stream_bytes b]
  have hw : (fromLeBytes 128 (b.toList.drop 40 ++ List.replicate 7 0)).toNat % 2 ^ 68 = (St.ofBytes b).pos := by
    rw [fromLeBytes_toNat, leNat_append, leNat_replicate]
    simp only [St.ofBytes]
    omega
  have h := setWordPos_core dr e (St.ofBytes b) (ofCore (base (St.ofBytes b).seed (St.ofBytes b).stream)) 0
    (fromLeBytes 128 (b.toList.drop 40 ++ List.replicate 7 0)) rfl
  rw [hw] at h
  exact h

/-- Bytes written are read back. -/
theorem ofBytes_bytes (a : St) (h : a.pos < 2 ^ 68) (v : Vector U8 49) (hv : v.toList = a.bytes) : St.ofBytes v = a := by
  have hseed : (Vector.ofFn fun i : Fin 32 => v[i.val]) = a.seed := by
    apply Vector.ext; intro i hi
    have : v.toList[i]'(by simp; omega) = a.seed[i] := by
      simp only [hv, St.bytes]
      rw [List.getElem_append_left (by simp; omega), List.getElem_append_left (by simp; omega), Vector.getElem_toList]
    simpa only [Vector.getElem_ofFn, Vector.getElem_toList] using this
  have hst : (v.toList.drop 32).take 8 = (List.range 8).map (leByte a.stream.toNat) := by
    rw [hv, St.bytes, List.append_assoc, List.drop_append_of_le_length (by simp), List.drop_of_length_le (by simp), List.nil_append,
      List.take_append_of_le_length (by simp), List.take_of_length_le (by simp)]
  have hp : v.toList.drop 40 = (List.range 9).map (leByte a.pos) := by
    rw [hv, St.bytes, List.drop_append_of_le_length (by simp), List.drop_of_length_le (by simp), List.nil_append]
  have hs := a.stream.isLt
  obtain ⟨seed, stream, pos⟩ := a
  simp only [St.ofBytes, hseed, hst, hp, leNat_map_leByte, St.mk.injEq, true_and]
  refine ⟨?_, ?_⟩
  · apply BitVec.eq_of_toNat_eq
    simp only [BitVec.toNat_ofNat] at hs ⊢
    omega
  · simp only at h
    omega

/-! ## Creation and histories -/

theorem fromSeed_rel (dr : Nat) (seed : Vector U8 32) : ∃ r, fromSeed seed = .ok r ∧ Rel dr (Spec.Rng.init seed) r := by
  unfold fromSeed
  rw [newInternal_legacy _ _ (by simp)]
  exact ⟨_, rfl, (by decide : 0 < 64), _, at_empty dr (Spec.Rng.init seed) (ofCore (base seed 0)) 0 rfl rfl⟩

/-- One call: the observation and the next state, except for `get_block_pos`, which may panic. -/
theorem step_rel {dr : Nat} {a : St} {r : Rng} (h : Rel dr a r) (m : Mode) (e : Env) (op : RngOp)
    (hop : op = .getBlockPos → ¬ (m = .debug ∧ Wrapped r)) :
    ∃ r', step m dr e r op = .ok ((Spec.Rng.step dr a op).1, r') ∧ Rel dr (Spec.Rng.step dr a op).2 r' := by
  cases op with
  | nextU32 =>
    obtain ⟨h1, h2⟩ := nextWord_rel h e
    exact ⟨_, by rw [step, h1]; rfl, h2⟩
  | nextU64 =>
    obtain ⟨h1, h2⟩ := nextU64_rel h e
    exact ⟨_, by rw [step, h1]; rfl, h2⟩
  | fill n =>
    obtain ⟨h1, h2⟩ := fillBytes_rel h e n
    exact ⟨_, by rw [step, h1]; rfl, h2⟩
  | setWordPos p =>
    obtain ⟨r', h1, h2⟩ := setWordPos_rel h e p
    exact ⟨r', by rw [step, h1]; rfl, h2⟩
  | setBlockPos p =>
    obtain ⟨r', h1, h2⟩ := setBlockPos_rel h e p
    exact ⟨r', by rw [step, h1]; rfl, h2⟩
  | setStream s =>
    obtain ⟨r', h1, h2⟩ := setStream_rel h e s
    exact ⟨r', by rw [step, h1]; rfl, h2⟩
  | getWordPos => exact ⟨r, by rw [step, getWordPos_rel h]; rfl, h⟩
  | getBlockPos =>
    have := (getBlockPos_rel h m).2 (hop rfl)
    exact ⟨r, by rw [step, this]; rfl, h⟩
  | getStream => exact ⟨r, by rw [step, getStream_rel h]; rfl, h⟩
  | getSeed => exact ⟨r, by rw [step, getSeed_rel h]; rfl, h⟩
  | serialize =>
    obtain ⟨v, h1, h2⟩ := serialize_rel h m
    exact ⟨r, by rw [step, h1]; show Except.ok (RngObs.bytes v.toList, r) = _; rw [h2]; rfl, h⟩
  | load b =>
    obtain ⟨r', h1, h2⟩ := deserialize_rel dr e b
    exact ⟨r', by rw [step, h1]; rfl, h2⟩
  | reload =>
    obtain ⟨v, h1, h2⟩ := serialize_rel h m
    obtain ⟨r', h3, h4⟩ := deserialize_rel dr e v
    rw [ofBytes_bytes a (by obtain ⟨_, b, h⟩ := h; exact h.bound) v h2] at h4
    exact ⟨r', by rw [step, h1]; show (deserialize dr e v >>= _) = _; rw [h3]; rfl, h4⟩

theorem run_rel {dr : Nat} (m : Mode) (h : List (Env × RngOp)) (hm : m = .debug → ∀ x ∈ h, x.2 ≠ .getBlockPos) :
    ∀ {a : St} {r : Rng}, Rel dr a r →
      ∃ r', run m dr h r = .ok ((Spec.Rng.run dr (h.map (·.2)) a).1, r') ∧ Rel dr (Spec.Rng.run dr (h.map (·.2)) a).2 r' := by
  induction h with
  | nil => exact fun h => ⟨_, rfl, h⟩
  | cons x h ih =>
    intro a r hr
    obtain ⟨e, op⟩ := x
    obtain ⟨r1, h1, h2⟩ := step_rel hr m e op fun ho hd => hm hd.1 (e, op) (List.mem_cons_self ..) ho
    obtain ⟨r2, h3, h4⟩ := ih (fun hd x hx => hm hd x (List.mem_cons_of_mem _ hx)) h2
    refine ⟨r2, ?_, h4⟩
    rw [run]
    show (step m dr e r op >>= _) = _
    rw [h1]
    show (run m dr h r1 >>= _) = _
    rw [h3]
    rfl

/-- A call that did not panic. -/
theorem step_ok {dr : Nat} {a : St} {r r' : Rng} {o : RngObs} (h : Rel dr a r) (m : Mode) (e : Env) (op : RngOp)
    (hs : step m dr e r op = .ok (o, r')) : o = (Spec.Rng.step dr a op).1 ∧ Rel dr (Spec.Rng.step dr a op).2 r' := by
  have hop : op = .getBlockPos → ¬ (m = .debug ∧ Wrapped r) := by
    intro ho hw
    subst ho
    rw [step, (getBlockPos_rel h m).1 hw] at hs
    cases hs
  obtain ⟨r1, h1, h2⟩ := step_rel h m e op hop
  rw [h1] at hs
  simp only [Except.ok.injEq, Prod.mk.injEq] at hs
  rw [← hs.1, ← hs.2]
  exact ⟨rfl, h2⟩

theorem bind_eq_ok {ε α β : Type} {x : Except ε α} {f : α → Except ε β} {y : β} (h : (x >>= f) = .ok y) :
    ∃ z, x = .ok z ∧ f z = .ok y := by
  cases x with
  | error e => cases h
  | ok z => exact ⟨z, rfl, h⟩

/-- Any history that did not panic. -/
theorem run_ok {dr : Nat} (m : Mode) (h : List (Env × RngOp)) : ∀ {a : St} {r r' : Rng} {os : List RngObs}, Rel dr a r →
    run m dr h r = .ok (os, r') →
      os = (Spec.Rng.run dr (h.map (·.2)) a).1 ∧ Rel dr (Spec.Rng.run dr (h.map (·.2)) a).2 r' := by
  induction h with
  | nil =>
    intro a r r' os hr h
    simp only [run, Except.ok.injEq, Prod.mk.injEq] at h
    rw [← h.1, ← h.2]
    exact ⟨rfl, hr⟩
  | cons x h ih =>
    intro a r r' os hr hrun
    obtain ⟨e, op⟩ := x
    rw [run] at hrun
    obtain ⟨⟨o, r1⟩, h1, h2⟩ := bind_eq_ok hrun
    obtain ⟨⟨os', r2⟩, h3, h4⟩ := bind_eq_ok h2
    obtain ⟨h5, h6⟩ := step_ok hr m e op h1
    obtain ⟨h7, h8⟩ := ih h6 h3
    simp only [pure, Except.pure, Except.ok.injEq, Prod.mk.injEq] at h4
    rw [← h4.1, ← h4.2, h5, h7]
    exact ⟨rfl, h8⟩

end Rng
end Verif.ChaCha
