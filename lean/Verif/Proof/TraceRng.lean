import Verif.Rust.Src.ChaChaRng
import Verif.Proof.TraceChaCha
/-!
# What is seen of the generators of `chacha20`

Of a generator only the number of words read of its buffer is public.
-/
set_option linter.unusedSectionVars false

namespace Verif.Rust

/-! ### `BlockRng` -/

/-- The refill with a record is the refill. -/
class Generator.Erases (G : Type) [Generator G] : Prop where
  generate (tgt : Target) (c : G) (b : List U32) : (Generator.generate_tr tgt c b).1 = Generator.generate tgt c b

/-- A refill shows nothing of what is secret. -/
class Generator.Blind (I : List String) (G : Type) [Generator G] [Like G] : Prop where
  generate (tgt : Target) : ∀ c c' : G, like c c' → ∀ b b' : List U32, like b b' →
    Obl I like (Generator.generate_tr tgt c b) (Generator.generate_tr tgt c' b')

namespace BlockRng

variable {I : List String} {tgt : Target} {G : Type} [Generator G]

attribute [erase] Generator.Erases.generate

@[erase] theorem new_erase (c : G) : (new_tr tgt c).1 = new tgt c := rfl

@[erase] theorem word_offset_erase (r : BlockRng G) : (r.word_offset_tr tgt).1 = r.word_offset tgt := by
  simp only [erase, word_offset_tr, word_offset]
  by_cases h : r.index ≥ Generator.size G <;> simp [h]

section
variable [Generator.Erases G]

@[erase] theorem refill_erase (r : BlockRng G) (i : Nat) : (r.refill_tr tgt i).1 = r.refill tgt i := by
  simp only [erase, refill_tr, refill]

@[erase] theorem reset_and_skip_erase (r : BlockRng G) (n : Usize tgt) : (r.reset_and_skip_tr tgt n).1 = r.reset_and_skip tgt n := by
  simp only [erase, reset_and_skip_tr, reset_and_skip, assert]
  by_cases h : n.val < Generator.size G
  · rw [if_pos (decide_eq_true h), if_pos (decide_eq_true h)]
    simp only [erase, decide_eq_true_eq]
  · rw [if_neg (by simpa using h), if_neg (by simpa using h)]
    rfl

@[erase] theorem ensure_erase (r : BlockRng G) : (r.ensure_tr tgt).1 = if r.index < Generator.size G then pure r else r.refill tgt 0 := by
  simp only [erase, ensure_tr]
  by_cases h : r.index < Generator.size G <;> simp [h]

@[erase] theorem next_word_erase (r : BlockRng G) : (r.next_word_tr tgt).1 = r.next_word tgt := by
  simp only [erase, next_word_tr, next_word]
  by_cases h : r.index < Generator.size G
  · simp only [if_pos h, erase]
  · simp only [if_neg h]

@[erase] theorem next_u64_from_u32_erase (r : BlockRng G) : (r.next_u64_from_u32_tr tgt).1 = r.next_u64_from_u32 tgt := by
  simp only [erase, next_u64_from_u32_tr, next_u64_from_u32]

@[erase] theorem fillLoop_erase (fuel n : Nat) (r : BlockRng G) : (fillLoop_tr tgt fuel n r).1 = fillLoop tgt fuel n r := by
  induction fuel generalizing n r with
  | zero => rfl
  | succ fuel ih =>
    simp only [erase, fillLoop_tr, fillLoop, ih]
    by_cases h : n = 0
    · simp [h]
    · by_cases h' : r.index < Generator.size G
      · simp only [h, h', decide_false, Bool.false_eq_true, if_false, if_true, erase]
      · simp only [h, h', decide_false, Bool.false_eq_true, if_false]

@[erase] theorem fill_bytes_erase (r : BlockRng G) (dest : List U8) : (r.fill_bytes_tr tgt dest).1 = r.fill_bytes tgt dest := by
  simp only [erase, fill_bytes_tr, fill_bytes]

end

instance [Like G] : Like (BlockRng G) := ⟨fun a b => like a.core b.core ∧ like a.results b.results ∧ a.index = b.index⟩

variable [Like G]

omit [Generator G] in
theorem like_BlockRng {a b : G} (h : like a b) {l l' : List U32} (hl : like l l') {i i' : Nat} (hi : i = i') :
    like (⟨a, l, i⟩ : BlockRng G) ⟨b, l', i'⟩ := ⟨h, hl, hi⟩
macro_rules | `(tactic| like_ext) => `(tactic| (with_reducible refine like_BlockRng ?_ ?_ ?_ <;> alike))

omit [Generator G] in
theorem elim_BlockRng {P : BlockRng G → BlockRng G → Prop} (h : ∀ a b, like a b → ∀ l l', like l l' → ∀ i, P ⟨a, l, i⟩ ⟨b, l', i⟩) :
    ∀ p p', like p p' → P p p' := by
  rintro ⟨a, l, i⟩ ⟨b, l', i'⟩ ⟨h1, h2, h3⟩
  obtain rfl : i = i' := h3
  exact h _ _ h1 _ _ h2 _
macro_rules | `(tactic| elim_ext) => `(tactic| (with_reducible refine elim_BlockRng ?_; elim; elim; intro _))

variable [Generator.Blind I G]

omit [Generator.Blind I G] in
theorem new_obl : ∀ c c' : G, like c c' → Obl I like (new_tr tgt c) (new_tr tgt c') := by
  intro c c' h
  exact .pure ⟨h, like.rfl', rfl⟩
macro_rules | `(tactic| obl_call) => `(tactic| (with_reducible refine new_obl _ _ ?_ <;> alike))

theorem refill_obl : ∀ r r' : BlockRng G, like r r' → ∀ i, Obl I like (r.refill_tr tgt i) (r'.refill_tr tgt i) := by
  intro r r' h i
  exact .bind (Generator.Blind.generate tgt _ _ h.1 _ _ h.2.1) fun a b hab => .pure ⟨hab.2.1, hab.2.2, rfl⟩
macro_rules | `(tactic| obl_call) => `(tactic| (with_reducible refine refill_obl _ _ ?_ _ <;> alike))

theorem reset_and_skip_obl : ∀ r r' : BlockRng G, like r r' → ∀ n : Usize tgt, Obl I like (r.reset_and_skip_tr tgt n) (r'.reset_and_skip_tr tgt n) := by
  intro r r' h n
  unfold reset_and_skip_tr
  refine .bind_same (.branch _) fun _ => .ite (fun _ => .bind_same (.branch _) fun _ => .ite (fun _ => ?_) fun _ => ?_) fun _ => .error _ _
  · exact .pure ⟨trivial, h.1, h.2.1, rfl⟩
  · exact .bind (refill_obl _ _ h _) fun a b hab => .pure ⟨trivial, hab⟩
macro_rules | `(tactic| obl_call) => `(tactic| (with_reducible refine reset_and_skip_obl _ _ ?_ _ <;> alike))

omit [Generator.Blind I G] in
theorem word_offset_obl : ∀ r r' : BlockRng G, like r r' → Obl I like (r.word_offset_tr tgt) (r'.word_offset_tr tgt) := by
  intro r r' h
  unfold word_offset_tr
  rw [h.2.2]
  exact .bind_same (.branch _) fun _ => .ite (fun _ => .pure rfl) fun _ => .pure rfl
macro_rules | `(tactic| obl_call) => `(tactic| (with_reducible refine word_offset_obl _ _ ?_ <;> alike))

theorem ensure_obl : ∀ r r' : BlockRng G, like r r' → Obl I like (r.ensure_tr tgt) (r'.ensure_tr tgt) := by
  intro r r' h
  unfold ensure_tr
  rw [h.2.2]
  exact .bind_same (.branch _) fun _ => .ite (fun _ => .pure h) fun _ => refill_obl _ _ h _

theorem next_word_obl : ∀ r r' : BlockRng G, like r r' → Obl I like (r.next_word_tr tgt) (r'.next_word_tr tgt) := by
  intro r r' h
  unfold next_word_tr
  refine .bind (ensure_obl _ _ h) fun a b hab => ?_
  rw [hab.2.2]
  exact .bind (Q := like) (.see trivial rfl fun _ _ _ _ => trivial) fun x y _ => .pure ⟨trivial, hab.1, hab.2.1, rfl⟩
macro_rules | `(tactic| obl_call) => `(tactic| (with_reducible refine next_word_obl _ _ ?_ <;> alike))

theorem next_u64_from_u32_obl : ∀ r r' : BlockRng G, like r r' → Obl I like (r.next_u64_from_u32_tr tgt) (r'.next_u64_from_u32_tr tgt) := by
  intro r r' h
  unfold next_u64_from_u32_tr
  exact .bind (next_word_obl _ _ h) fun a b hab => .bind (next_word_obl _ _ hab.2) fun x y hxy => .pure ⟨trivial, hxy.2⟩
macro_rules | `(tactic| obl_call) => `(tactic| (with_reducible refine next_u64_from_u32_obl _ _ ?_ <;> alike))

theorem length_flatMap (l : List U32) : (l.flatMap toLeBytes).length = 4 * l.length := by
  induction l with
  | nil => rfl
  | cons a l ih => rw [List.flatMap_cons, List.length_append, ih, toLeBytes_length, List.length_cons]; omega

theorem fillLoop_obl (fuel n : Nat) : ∀ r r' : BlockRng G, like r r' → Obl I like (fillLoop_tr tgt fuel n r) (fillLoop_tr tgt fuel n r') := by
  induction fuel generalizing n with
  | zero => exact fun _ _ _ => .error _ _
  | succ fuel ih =>
    intro r r' h
    unfold fillLoop_tr
    refine .bind_same (.branch _) fun _ => .ite (fun _ => .pure ⟨like.nil, h⟩) fun _ => .bind (ensure_obl _ _ h) fun a b hab => ?_
    have hb : (((a.results.drop a.index).flatMap toLeBytes).take n).length = (((b.results.drop b.index).flatMap toLeBytes).take n).length := by
      rw [List.length_take, List.length_take, length_flatMap, length_flatMap, List.length_drop, List.length_drop, hab.2.1.1, hab.2.2]
    dsimp only
    rw [hb, hab.2.2]
    refine .bind_same (Uses.see trivial) fun _ => .bind (ih _ _ _ ⟨hab.1, hab.2.1, rfl⟩) fun x y hxy => .pure ⟨(like.words ?_).append hxy.1, hxy.2⟩
    rw [← hab.2.2] at hb ⊢
    exact hb

theorem fill_bytes_obl : ∀ r r' : BlockRng G, like r r' → ∀ d d' : List U8, like d d' → Obl I like (r.fill_bytes_tr tgt d) (r'.fill_bytes_tr tgt d') := by
  intro r r' h d d' hd
  unfold fill_bytes_tr
  rw [hd.1]
  exact .bind (fillLoop_obl _ _ _ _ h) fun a b hab => .pure ⟨trivial, hab.2, hab.1⟩
macro_rules | `(tactic| obl_call) => `(tactic| (with_reducible refine fill_bytes_obl _ _ ?_ _ _ ?_ <;> alike))

end BlockRng

/-! ### `rng.rs` -/

namespace ChaCha

instance {ε α : Type} [Like α] : Like (Except ε α) := ⟨fun
  | .ok a, .ok b => like a b
  | .error _, .error _ => True
  | _, _ => False⟩

variable {I : List String} {tgt : Target} {R V : Type} [Rounds R] [Variant V]

@[erase] theorem Variant_get_block_pos_erase (row : List U32) : (Variant.get_block_pos_tr Legacy tgt row).1 = Variant.get_block_pos Legacy tgt row := by
  show (Legacy.get_block_pos_tr tgt row).1 = Legacy.get_block_pos tgt row
  simp only [erase, Legacy.get_block_pos_tr, Legacy.get_block_pos]

@[erase] theorem Variant_set_block_pos_erase (row : List U32) (pos : U64) :
    (Variant.set_block_pos_tr Legacy tgt row pos).1 = Variant.set_block_pos Legacy tgt row pos := by
  show (Legacy.set_block_pos_tr tgt row pos).1 = Legacy.set_block_pos tgt row pos
  simp only [erase, Legacy.set_block_pos_tr, Legacy.set_block_pos]

@[erase] theorem ChaChaCore_get_block_pos_erase (c : ChaChaCore R Legacy) : (c.get_block_pos_tr tgt).1 = c.get_block_pos tgt := by
  simp only [erase, ChaChaCore.get_block_pos_tr, ChaChaCore.get_block_pos]

@[erase] theorem ChaChaCore_set_block_pos_erase (c : ChaChaCore R Legacy) (pos : U64) : (c.set_block_pos_tr tgt pos).1 = c.set_block_pos tgt pos := by
  simp only [erase, ChaChaCore.set_block_pos_tr, ChaChaCore.set_block_pos]

theorem Variant_get_block_pos_obl : ∀ x x' : List U32, like x x' →
    Obl I (fun _ _ => True) (Variant.get_block_pos_tr Legacy tgt x) (Variant.get_block_pos_tr Legacy tgt x') := by
  intro x x' h
  refine Obl.mono (?_ : Obl I like (Legacy.get_block_pos_tr tgt x) (Legacy.get_block_pos_tr tgt x')) fun _ _ _ => trivial
  unfold Legacy.get_block_pos_tr
  (try dsimp only)
  obl

theorem Variant_set_block_pos_obl (pos pos' : U64) : ∀ x x' : List U32, like x x' →
    Obl I like (Variant.set_block_pos_tr Legacy tgt x pos) (Variant.set_block_pos_tr Legacy tgt x' pos') := by
  intro x x' h
  show Obl I like (Legacy.set_block_pos_tr tgt x pos) (Legacy.set_block_pos_tr tgt x' pos')
  unfold Legacy.set_block_pos_tr
  (try dsimp only)
  obl

theorem ChaChaCore_get_block_pos_obl : ∀ c c' : ChaChaCore R Legacy, like c c' →
    Obl I (like (α := U64)) (c.get_block_pos_tr tgt) (c'.get_block_pos_tr tgt) := by
  intro c c' h
  have hs : like c.state c'.state := h
  have hl : len tgt c.state = len tgt c'.state := by rw [len, len, hs.length]
  exact .bind_like (Obl.slice rfl hl hs) fun a b hab => (Variant_get_block_pos_obl a b hab).mono fun _ _ _ => trivial
macro_rules | `(tactic| obl_call) => `(tactic| (with_reducible refine ChaChaCore_get_block_pos_obl _ _ ?_ <;> alike))

theorem ChaChaCore_set_block_pos_obl (pos pos' : U64) : ∀ c c' : ChaChaCore R Legacy, like c c' →
    Obl I like (c.set_block_pos_tr tgt pos) (c'.set_block_pos_tr tgt pos') := by
  intro c c' h
  have hs : like c.state c'.state := h
  have hl : len tgt c.state = len tgt c'.state := by rw [len, len, hs.length]
  exact .bind (Q := fun a b => a = c ∧ b = c') (.pure ⟨rfl, rfl⟩) fun _ _ ⟨ha, hb⟩ => ha ▸ hb ▸ .bind_like (Obl.slice rfl hl hs) fun a b hab => .bind_like (Variant_set_block_pos_obl pos pos' a b hab) fun r r' hr =>
    .pure ⟨trivial, like.putSlice hs rfl hl hr.2⟩
macro_rules | `(tactic| obl_call) => `(tactic| (with_reducible refine ChaChaCore_set_block_pos_obl _ _ _ _ ?_ <;> alike))

@[erase] theorem ChaChaCore_from_seed_erase (x0 : List U8) : (ChaChaCore.from_seed_tr (R := R) (V := V) tgt x0).1 = ChaChaCore.from_seed (R := R) (V := V) tgt x0 := by
  simp only [erase, ChaChaCore.from_seed_tr, ChaChaCore.from_seed]

theorem ChaChaCore_from_seed_obl : ∀ x0 x0' : List U8, like x0 x0' →
    Obl I like (ChaChaCore.from_seed_tr (R := R) (V := V) tgt x0) (ChaChaCore.from_seed_tr (R := R) (V := V) tgt x0') := by
  elim
  unfold ChaChaCore.from_seed_tr
  (try dsimp only)
  obl

@[erase] theorem ChaChaCore_generate_erase (c : ChaChaCore R V) (b : List U32) : (c.generate_tr tgt b).1 = c.generate tgt b := by
  simp only [erase, ChaChaCore.generate_tr, ChaChaCore.generate]

theorem ChaChaCore_generate_obl : ∀ c c' : ChaChaCore R V, like c c' → ∀ b b' : List U32, like b b' → Obl I like (c.generate_tr tgt b) (c'.generate_tr tgt b') := by
  elim; elim
  unfold ChaChaCore.generate_tr
  (try dsimp only)
  obl

variable [Build]

instance : Like (Rng R) := ⟨fun a b => like a.core b.core⟩

theorem like_Rng {a b : BlockRng (ChaChaCore R Legacy)} (h : like a b) : like (⟨a⟩ : Rng R) ⟨b⟩ := h
macro_rules | `(tactic| like_ext) => `(tactic| (with_reducible refine like_Rng ?_ <;> alike))

theorem like_ok {ε α : Type} [Like α] {a b : α} (h : like a b) : like (Except.ok a : Except ε α) (.ok b) := h
macro_rules | `(tactic| like_ext) => `(tactic| (with_reducible refine like_ok ?_ <;> alike))

theorem elim_Rng {P : Rng R → Rng R → Prop} (h : ∀ a b, like a b → P ⟨a⟩ ⟨b⟩) : ∀ p p', like p p' → P p p' := fun _ _ h' => h _ _ h'
macro_rules | `(tactic| elim_ext) => `(tactic| (with_reducible refine elim_Rng ?_; elim))

section
variable [Generator.Erases (ChaChaCore R Legacy)]

@[erase] theorem Rng_try_next_u32_erase (r : Rng R) : (r.try_next_u32_tr tgt).1 = r.try_next_u32 tgt := by
  simp only [erase, Rng.try_next_u32_tr, Rng.try_next_u32]

@[erase] theorem Rng_try_next_u64_erase (r : Rng R) : (r.try_next_u64_tr tgt).1 = r.try_next_u64 tgt := by
  simp only [erase, Rng.try_next_u64_tr, Rng.try_next_u64]

@[erase] theorem Rng_try_fill_bytes_erase (r : Rng R) (dest : List U8) : (r.try_fill_bytes_tr tgt dest).1 = r.try_fill_bytes tgt dest := by
  simp only [erase, Rng.try_fill_bytes_tr, Rng.try_fill_bytes]

@[erase] theorem Rng_get_word_pos_erase (r : Rng R) : (r.get_word_pos_tr tgt).1 = r.get_word_pos tgt := by
  simp only [erase, Rng.get_word_pos_tr, Rng.get_word_pos]

@[erase] theorem Rng_set_word_pos_erase (r : Rng R) (p : U128) : (r.set_word_pos_tr tgt p).1 = r.set_word_pos tgt p := by
  simp only [erase, Rng.set_word_pos_tr, Rng.set_word_pos]

@[erase] theorem Rng_set_block_pos_erase (r : Rng R) (p : U64) : (r.set_block_pos_tr tgt p).1 = r.set_block_pos tgt p := by
  simp only [erase, Rng.set_block_pos_tr, Rng.set_block_pos]

@[erase] theorem Rng_get_block_pos_erase (r : Rng R) : (r.get_block_pos_tr tgt).1 = r.get_block_pos tgt := by
  simp only [erase, Rng.get_block_pos_tr, Rng.get_block_pos]

@[erase] theorem Rng_set_stream_erase (r : Rng R) (p : U64) : (r.set_stream_tr tgt p).1 = r.set_stream tgt p := by
  simp only [erase, Rng.set_stream_tr, Rng.set_stream]

@[erase] theorem Rng_get_stream_erase (r : Rng R) : (r.get_stream_tr tgt).1 = r.get_stream tgt := by
  simp only [erase, Rng.get_stream_tr, Rng.get_stream]

@[erase] theorem Rng_get_seed_erase (r : Rng R) : (r.get_seed_tr tgt).1 = r.get_seed tgt := by
  simp only [erase, Rng.get_seed_tr, Rng.get_seed]

@[erase] theorem Rng_serialize_state_erase (r : Rng R) : (r.serialize_state_tr tgt).1 = r.serialize_state tgt := by
  simp only [erase, Rng.serialize_state_tr, Rng.serialize_state]

@[erase] theorem Rng_eq_erase (r : Rng R) (s : Rng R) : (r.eq_tr tgt s).1 = r.eq tgt s := by
  simp only [erase, Rng.eq_tr, Rng.eq]

@[erase] theorem Rng_from_seed_erase (s : List U8) : (Rng.from_seed_tr (R := R) tgt s).1 = Rng.from_seed tgt s := by
  simp only [erase, Rng.from_seed_tr, Rng.from_seed]

@[erase] theorem Rng_deserialize_state_erase (s : List U8) : (Rng.deserialize_state_tr (R := R) tgt s).1 = Rng.deserialize_state tgt s := by
  simp only [erase, Rng.deserialize_state_tr, Rng.deserialize_state]

end

variable [Generator.Blind I (ChaChaCore R Legacy)]

theorem Rng_get_stream_obl : ∀ r r' : Rng R, like r r' → Obl I like (r.get_stream_tr tgt) (r'.get_stream_tr tgt) := by
  elim
  unfold Rng.get_stream_tr
  (try dsimp only)
  obl
macro_rules | `(tactic| obl_call) => `(tactic| (with_reducible refine Rng_get_stream_obl _ _ ?_ <;> alike))

theorem Rng_get_seed_obl : ∀ r r' : Rng R, like r r' → Obl I like (r.get_seed_tr tgt) (r'.get_seed_tr tgt) := by
  elim
  unfold Rng.get_seed_tr
  (try dsimp only)
  obl
macro_rules | `(tactic| obl_call) => `(tactic| (with_reducible refine Rng_get_seed_obl _ _ ?_ <;> alike))

theorem Rng_try_next_u32_obl : ∀ r r' : Rng R, like r r' → Obl I like (r.try_next_u32_tr tgt) (r'.try_next_u32_tr tgt) := by
  elim
  unfold Rng.try_next_u32_tr
  (try dsimp only)
  obl
macro_rules | `(tactic| obl_call) => `(tactic| (with_reducible refine Rng_try_next_u32_obl _ _ ?_ <;> alike))

theorem Rng_try_next_u64_obl : ∀ r r' : Rng R, like r r' → Obl I like (r.try_next_u64_tr tgt) (r'.try_next_u64_tr tgt) := by
  elim
  unfold Rng.try_next_u64_tr
  (try dsimp only)
  obl
macro_rules | `(tactic| obl_call) => `(tactic| (with_reducible refine Rng_try_next_u64_obl _ _ ?_ <;> alike))

theorem Rng_get_word_pos_obl : ∀ r r' : Rng R, like r r' → Obl I like (r.get_word_pos_tr tgt) (r'.get_word_pos_tr tgt) := by
  elim
  unfold Rng.get_word_pos_tr
  (try dsimp only)
  obl
macro_rules | `(tactic| obl_call) => `(tactic| (with_reducible refine Rng_get_word_pos_obl _ _ ?_ <;> alike))

theorem Rng_get_block_pos_obl : ∀ r r' : Rng R, like r r' → Obl I like (r.get_block_pos_tr tgt) (r'.get_block_pos_tr tgt) := by
  elim
  unfold Rng.get_block_pos_tr
  (try dsimp only)
  refine .bind (ChaChaCore_get_block_pos_obl _ _ (by alike)) fun a b _ => .bind (Q := fun _ _ => True) (.pure trivial) fun a b _ => ?_
  obl
  · exact .bind_any fun _ _ => .bind_lift fun w hw => .bind (Q := fun _ _ => True) ((Obl.div rfl (by cases hw; decide)).mono fun _ _ _ => trivial) fun _ _ _ => Obl.word _ _
  · exact .pure trivial
macro_rules | `(tactic| obl_call) => `(tactic| (with_reducible refine Rng_get_block_pos_obl _ _ ?_ <;> alike))

theorem Rng_serialize_state_obl : ∀ r r' : Rng R, like r r' → Obl I like (r.serialize_state_tr tgt) (r'.serialize_state_tr tgt) := by
  elim
  unfold Rng.serialize_state_tr
  (try dsimp only)
  obl
macro_rules | `(tactic| obl_call) => `(tactic| (with_reducible refine Rng_serialize_state_obl _ _ ?_ <;> alike))

theorem Rng_set_block_pos_obl (p p' : U64) : ∀ r r' : Rng R, like r r' → Obl I like (r.set_block_pos_tr tgt p) (r'.set_block_pos_tr tgt p') := by
  elim
  unfold Rng.set_block_pos_tr
  (try dsimp only)
  obl
macro_rules | `(tactic| obl_call) => `(tactic| (with_reducible refine Rng_set_block_pos_obl _ _ _ _ ?_ <;> alike))

theorem Rng_set_stream_obl (p p' : U64) : ∀ r r' : Rng R, like r r' → Obl I like (r.set_stream_tr tgt p) (r'.set_stream_tr tgt p') := by
  elim
  unfold Rng.set_stream_tr
  (try dsimp only)
  obl
macro_rules | `(tactic| obl_call) => `(tactic| (with_reducible refine Rng_set_stream_obl _ _ _ _ ?_ <;> alike))

theorem Rng_try_fill_bytes_obl : ∀ r r' : Rng R, like r r' → ∀ d d' : List U8, like d d' → Obl I like (r.try_fill_bytes_tr tgt d) (r'.try_fill_bytes_tr tgt d') := by
  elim; elim
  unfold Rng.try_fill_bytes_tr
  (try dsimp only)
  obl

omit [Generator.Blind I (ChaChaCore R Legacy)] in
theorem Rng_from_seed_obl : ∀ s s' : List U8, like s s' → Obl I like (Rng.from_seed_tr (R := R) tgt s) (Rng.from_seed_tr (R := R) tgt s') := by
  elim
  unfold Rng.from_seed_tr
  (try dsimp only)
  obl

theorem rem_obl {a a' b : U128} (hp : a.toNat % b.toNat = a'.toNat % b.toNat) (h2 : b.toNat = 2 ^ b.toNat.log2) : Obl I Eq (Tr.rem tgt a b) (Tr.rem tgt a' b) := by
  refine .see trivial ?_ fun x y hx hy => ?_
  · show Event.divide (if b.toNat = 2 ^ b.toNat.log2 then 0 else _) _ = Event.divide (if b.toNat = 2 ^ b.toNat.log2 then 0 else _) _
    rw [if_pos h2, if_pos h2]
  · rw [rem] at hx hy
    split at hx
    · cases hx
    · cases hx
      rw [if_neg (by assumption)] at hy
      cases hy
      exact BitVec.eq_of_toNat_eq (by simpa [RInt.rem] using hp)

theorem Rng_set_word_pos_obl (p p' : U128) (hp : p.toNat % 16 = p'.toNat % 16) :
    ∀ r r' : Rng R, like r r' → Obl I like (r.set_word_pos_tr tgt p) (r'.set_word_pos_tr tgt p') := by
  elim
  unfold Rng.set_word_pos_tr
  (try dsimp only)
  refine .bind_like (.pure (by alike)) ?_
  elim
  refine .bind_lift fun w hw => .bind (rem_obl (by cases hw; exact hp) (by cases hw; decide)) fun a b hab => ?_
  subst hab
  refine .bind_same (.pure _) fun _ => .bind_lift fun w hw => .bind_like (Obl.div rfl (by cases hw; decide)) fun _ _ _ => ?_
  (try dsimp only)
  obl

/-- The lowest four bits of the first byte. -/
def nibble (l : List U8) : Nat := (l.headD 0).toNat % 16

theorem fromLeBytes_nibble {l : List U8} {x : U128} (h : fromLeBytes l = .ok x) : x.toNat % 16 = nibble l := by
  unfold fromLeBytes at h
  split at h
  · cases l with
    | nil => rename_i h'; exact absurd h' (by decide)
    | cons b l =>
      obtain rfl := Except.ok.inj h
      rw [List.foldr_cons]
      generalize List.foldr _ _ l = acc
      have : (acc <<< 8 ||| b.setWidth 128).setWidth 4 = b.setWidth 4 := by
        apply BitVec.eq_of_getLsbD_eq
        intro i hi
        simp
      have h4 (x : U128) : x.toNat % 16 = (x.setWidth 4).toNat := by rw [BitVec.toNat_setWidth]
      rw [h4, this, BitVec.toNat_setWidth]
      rfl
  · cases h

theorem Rng_deserialize_state_obl : ∀ s s' : List U8, like s s' → nibble (s.drop 40) = nibble (s'.drop 40) →
    Obl I like (Rng.deserialize_state_tr (R := R) tgt s) (Rng.deserialize_state_tr (R := R) tgt s') := by
  intro s s' hs hn
  unfold Rng.deserialize_state_tr
  (try dsimp only)
  refine .bind (Q := fun a b => (like a.1 b.1) ∧ a.2 = s.drop 32 ∧ b.2 = s'.drop 32) ?_ fun a b hab => ?_
  · refine .see trivial rfl fun x y hx hy => ?_
    unfold Rust.splitAt at hx hy
    split at hx
    · split at hy
      · cases hx; cases hy; exact ⟨hs.take _, rfl, rfl⟩
      · cases hy
    · cases hx
  refine .bind_like (.pure hab.1) fun _ _ h1 => .bind (Q := fun a b => a = s.drop 32 ∧ b = s'.drop 32) (.pure hab.2) ?_
  rintro _ _ ⟨rfl, rfl⟩
  refine .bind (Q := fun a b => (like a.1 b.1) ∧ a.2 = s.drop 40 ∧ b.2 = s'.drop 40) ?_ fun a b hab => ?_
  · refine .see trivial rfl fun x y hx hy => ?_
    unfold Rust.splitAt at hx hy
    split at hx
    · split at hy
      · cases hx; cases hy; exact ⟨(hs.drop _).take _, List.drop_drop, List.drop_drop⟩
      · cases hy
    · cases hx
  refine .bind_like (.pure hab.1) fun _ _ h2 => .bind (Q := fun a b => a = s.drop 40 ∧ b = s'.drop 40) (.pure hab.2) ?_
  rintro _ _ ⟨rfl, rfl⟩
  refine .bind_like (.arrayOf h1) fun _ _ h1 => .bind_like (.pure h1) fun _ _ h1 => .bind_like (.arrayOf h2) fun _ _ h2 => .bind_like (.pure h2) fun _ _ h2 => ?_
  refine .bind (Q := fun a b => a = List.replicate 16 (0 : U8) ∧ b = List.replicate 16 (0 : U8)) (.pure ⟨rfl, rfl⟩) ?_
  rintro _ _ ⟨rfl, rfl⟩
  refine .bind_same (.slice _ _ _) fun _ => ?_
  refine .bind (Q := fun a b => a = s.drop 40 ∧ b = s'.drop 40) (.lift fun x y hx hy => ?_) ?_
  · unfold copyFromSlice at hx hy
    split at hx
    · split at hy
      · cases hx; cases hy; exact ⟨rfl, rfl⟩
      · cases hy
    · cases hx
  rintro _ _ ⟨rfl, rfl⟩
  refine .bind (Q := fun a b => nibble a = nibble b) (.pure ?_) fun a b hab => ?_
  · have h0 (l : List U8) : nibble (putSlice (List.replicate 16 0) (0 : Usize tgt) 9 l) = nibble l := by cases l <;> rfl
    rw [h0, h0, hn]
  refine .bind (Q := fun a b => a.toNat % 16 = b.toNat % 16) (.lift fun x y hx hy => ?_) fun a b hab => ?_
  · rw [fromLeBytes_nibble hx, fromLeBytes_nibble hy, hab]
  refine .bind (Q := fun a b => a.toNat % 16 = b.toNat % 16) (.pure hab) fun a b hab => ?_
  refine .bind_like (ChaChaCore_new_internal_obl _ _ h1 _ _ h2) fun _ _ h => .bind_like (.pure h) fun _ _ h => .bind_like (BlockRng.new_obl _ _ h) fun _ _ h => ?_
  refine .bind_like (.pure (like_Rng h)) fun _ _ h => .bind_like (Rng_set_word_pos_obl _ _ hab _ _ h) fun _ _ h => .pure h.2

end ChaCha

end Verif.Rust
