import Verif.Props.Others
/-!
# Rabbit: what the IV does (C62, C63)
-/
namespace Verif
open Spec

namespace Rabbit

/-! ## The zero IV -/

theorem after_add (n k : Nat) (s : Spec.Rabbit.Inner) : Spec.Rabbit.after n (Spec.Rabbit.after k s) = Spec.Rabbit.after (n + k) s := by
  induction n with
  | zero => rw [Nat.zero_add]; rfl
  | succ n ih => rw [Spec.Rabbit.after, ih, Nat.add_right_comm, Spec.Rabbit.after]

theorem ivXor_zero (s : State) : ivXor (Vector.replicate 8 0) s = s := by
  have h0 : ∀ a : U32, a ^^^ 0#32 = a := fun a => BitVec.xor_zero
  have e : (le32 0 0 0 0 : U32) = 0#32 := by decide
  have e1 : ((0#32 >>> 16) ||| (0#32 &&& 0xFFFF0000#32) : U32) = 0#32 := by decide
  have e3 : ((0#32 <<< 16) ||| (0#32 &&& 0x0000FFFF#32) : U32) = 0#32 := by decide
  simp only [ivXor, Vector.getElem_replicate, e, e1, e3, h0]
  obtain ⟨x, c, b⟩ := s
  simp only [State.mk.injEq, true_and, and_true]
  apply Vector.ext
  intro i hi
  rcases i with _ | _ | _ | _ | _ | _ | _ | _ | i <;> first | rfl | omega

theorem after_four (s : Spec.Rabbit.Inner) : Spec.Rabbit.nextState (Spec.Rabbit.nextState (Spec.Rabbit.nextState
    (Spec.Rabbit.nextState s))) = Spec.Rabbit.after 4 s := rfl

theorem ivSetup_zero (key : Vector U8 16) :
    Spec.Rabbit.ivSetup (Vector.replicate 8 0) (Spec.Rabbit.keySetup key) = Spec.Rabbit.after 4 (Spec.Rabbit.keySetup key) := by
  obtain ⟨e, h⟩ := view_setupKey key
  have e1 := (view_setupIv (Vector.replicate 8 0) _ h).1
  have e2 := (view_next4 _ h).1
  rw [ivXor_zero] at e1
  rw [e1, e, after_four] at e2
  exact e2

theorem block_zero_iv (key : Vector U8 16) (n : Nat) :
    Spec.Rabbit.block (Spec.Rabbit.ivSetup (Vector.replicate 8 0) (Spec.Rabbit.keySetup key)) n =
      Spec.Rabbit.block (Spec.Rabbit.keySetup key) (n + 4) := by
  rw [ivSetup_zero, Spec.Rabbit.block, Spec.Rabbit.block, after_add, Nat.add_right_comm]

end Rabbit

theorem byteStream_shift {bs : Nat} (hbs : 0 < bs) (f g : Nat → Vector U8 bs) (k : Nat) (h : ∀ n, f n = g (n + k)) (i : Nat) :
    byteStream f hbs i = byteStream g hbs (i + bs * k) := by
  have e1 : (i + bs * k) / bs = i / bs + k := Nat.add_mul_div_left i k hbs
  have e2 : (i + bs * k) % bs = i % bs := Nat.add_mul_mod_self_left i bs k
  simp only [byteStream, h, e1, e2]

theorem Cursor.io_shift (st st' : Nat → U8) (k : Nat) (h : ∀ i, st i = st' (i + k)) (p : Nat) (op : Op) :
    Cursor.io st' none (p + k) op = ((Cursor.io st none p op).1, (Cursor.io st none p op).2 + k) := by
  have hw : ∀ n, window st' (p + k) n = window st p n := by
    intro n
    simp only [window, h]
    refine List.map_congr_left fun i _ => ?_
    rw [Nat.add_right_comm]
  have hn : ∀ q, Within none q := fun q L hL => by cases hL
  cases op <;> simp only [Cursor.io, if_pos (hn _), hw, Nat.add_right_comm]

theorem Cursor.run_shift (st st' : Nat → U8) (k : Nat) (h : ∀ i, st i = st' (i + k)) (l : List Op) (p : Nat) :
    (Cursor.run (Cursor.io st' none) l (p + k)).1 = (Cursor.run (Cursor.io st none) l p).1 := by
  induction l generalizing p with
  | nil => rfl
  | cons op l ih =>
    simp only [Cursor.run, Cursor.io_shift st st' k h, ih]

/-- **C62**, state.  The set-up with the all-zero IV is four plain iterations of the generator. -/
theorem C62_setup (m : Mode) (s : Rabbit.State) : Rabbit.setupIv m (Vector.replicate 8 0) s = Rabbit.nextState4 m s := by
  rw [Rabbit.setupIv, Rabbit.ivXor_zero]

example : ∃ s t, Rabbit.setupKey .debug (Sample.bytes 16 3) = .ok s ∧ Rabbit.setupIv .debug (Vector.replicate 8 0) s = .ok t ∧
    Rabbit.nextState4 .debug s = .ok t := by
  refine ⟨_, _, Rabbit.setupKey_eq _ _, Rabbit.setupIv_eq _ _ _, ?_⟩
  rw [← C62_setup]
  exact Rabbit.setupIv_eq _ _ _

/-- **C62**.  The object with the all-zero IV, wherever it is, cannot be told from the object without an IV that is 64 bytes further on: the two
types share their keystream under one key. -/
theorem C62_zero_iv (u : Nat) (hu : 16 ≤ u) (m : Mode) (key : Vector U8 16) (h h' : List (Unit × Op)) (os os' : List Obs) (w w' : Wrapper 16 Rabbit.State)
    (hr : PlainCipher.Reach u (.rabbit m key (Vector.replicate 8 0)) h os w) (hr' : PlainCipher.Reach u (.rabbitKeyOnly m key) h' os' w')
    (hp : PlainCipher.booked h' os' = PlainCipher.booked h os + 64) :
    Indist (fun x w op => Wrapper.step (Rabbit.core m) x w op) (FitsUsize u) w w' := by
  have h1 := hr.simulates hu
  have h2 := hr'.simulates hu
  rw [hp] at h2
  intro k k' hk hok
  obtain ⟨v, hv⟩ := h1 k hok
  obtain ⟨v', hv'⟩ := h2 k' (by
    intro e hm
    have : e.2 ∈ k'.map (·.2) := List.mem_map_of_mem hm
    rw [← hk] at this
    obtain ⟨e', hm', he'⟩ := List.mem_map.1 this
    rw [← he']; exact hok e' hm')
  refine ⟨_, v, v', hv, ?_⟩
  rw [← hk, Cursor.run_shift (PlainCipher.stream (.rabbit m key (Vector.replicate 8 0)))
    (PlainCipher.stream (.rabbitKeyOnly m key)) 64 (fun i => byteStream_shift (bs := 16) (by decide) _ _ 4 (Rabbit.block_zero_iv key) i)] at hv'
  exact hv'

/-- A key-only object after reading 10 and then 54 bytes, and a fresh object with the zero IV. -/
example : ∃ os w w', PlainCipher.Reach 64 (.rabbit .debug (Sample.bytes 16 0) (Vector.replicate 8 0)) [] [] w ∧
    PlainCipher.Reach 64 (.rabbitKeyOnly .debug (Sample.bytes 16 0)) [((), .write (List.replicate 10 0)), ((), .apply (List.replicate 54 7))] os w' ∧
    PlainCipher.booked [((), .write (List.replicate 10 0)), ((), .apply (List.replicate 54 7))] os = 0 + 64 := by
  obtain ⟨w, hw⟩ := PlainCipher.reach_exists 64 (by decide) (.rabbit .debug (Sample.bytes 16 0) (Vector.replicate 8 0)) [] (fun _ h => nomatch h)
  obtain ⟨w', hw'⟩ := PlainCipher.reach_exists 64 (by decide) (.rabbitKeyOnly .debug (Sample.bytes 16 0))
    [((), .write (List.replicate 10 0)), ((), .apply (List.replicate 54 7))] (by
      intro e he
      simp only [List.mem_cons, List.not_mem_nil, or_false] at he
      rcases he with rfl | rfl
      · show (List.replicate 10 (0 : U8)).length < 2 ^ 64; decide
      · show (List.replicate 54 (7 : U8)).length < 2 ^ 64; decide)
  refine ⟨_, w, w', hw, hw', ?_⟩
  have hn : ∀ q, Within none q := fun q L hL => by cases hL
  simp only [PlainCipher.booked, List.map_cons, List.map_nil, Cursor.run, Cursor.io, if_pos (hn _), trackAll, track, List.length_replicate]

/-! ## Different IVs -/

namespace Rabbit

/-- Words below `2^32` are determined by the number they make up. -/
theorem big_inj (c d : Vector U32 8) (h : big (c.map BitVec.toNat) = big (d.map BitVec.toNat)) : c = d := by
  simp only [big, Vector.getElem_map] at h
  have c0 := c[0].isLt; have c1 := c[1].isLt; have c2 := c[2].isLt; have c3 := c[3].isLt
  have c4 := c[4].isLt; have c5 := c[5].isLt; have c6 := c[6].isLt; have c7 := c[7].isLt
  have d0 := d[0].isLt; have d1 := d[1].isLt; have d2 := d[2].isLt; have d3 := d[3].isLt
  have d4 := d[4].isLt; have d5 := d[5].isLt; have d6 := d[6].isLt; have d7 := d[7].isLt
  apply Vector.ext
  intro i hi
  apply BitVec.eq_of_toNat_eq
  rcases i with _ | _ | _ | _ | _ | _ | _ | _ | i
  all_goals (try simp only [Nat.zero_add, Nat.reduceAdd])
  all_goals omega

theorem big_lt (c : Vector U32 8) : big (c.map BitVec.toNat) ≤ N := by
  simp only [big, Vector.getElem_map]
  have c0 := c[0].isLt; have c1 := c[1].isLt; have c2 := c[2].isLt; have c3 := c[3].isLt
  have c4 := c[4].isLt; have c5 := c[5].isLt; have c6 := c[6].isLt; have c7 := c[7].isLt
  have hN : N = 2 ^ 256 - 1 := rfl
  omega

theorem big_zero : big ((Vector.replicate 8 0#32).map BitVec.toNat) = 0 := by decide +kernel
theorem big_ones : big ((Vector.replicate 8 0xFFFFFFFF#32).map BitVec.toNat) = N := by decide +kernel

/-- Equal residues: equal, or one is zero and the other one is `N`. -/
theorem residues (a b k n : Nat) (ha : a ≤ n) (hb : b ≤ n) (h : (a + k) % n = (b + k) % n) :
    a = b ∨ (a = 0 ∧ b = n) ∨ (a = n ∧ b = 0) := by
  have main : ∀ a b, a ≤ b → b ≤ n → (a + k) % n = (b + k) % n → a = b ∨ (a = 0 ∧ b = n) := by
    intro a b hab hb h
    have h1 := Nat.sub_mod_eq_zero_of_mod_eq h.symm
    rw [Nat.add_sub_add_right] at h1
    obtain ⟨q, hq⟩ := Nat.dvd_of_mod_eq_zero h1
    rcases q with _ | _ | q
    · left; omega
    · right; omega
    · right
      rw [Nat.mul_add] at hq
      omega
  rcases Nat.le_total a b with hab | hab
  · rcases main a b hab hb h with h | h
    · exact .inl h
    · exact .inr (.inl h)
  · rcases main b a hab ha h.symm with h | h
    · exact .inl h.symm
    · exact .inr (.inr ⟨h.2, h.1⟩)

theorem ivXor_entries (iv : Vector U8 8) (s : State) :
    (ivXor iv s).c[0] = s.c[0] ^^^ le32 iv[0] iv[1] iv[2] iv[3] ∧ (ivXor iv s).c[2] = s.c[2] ^^^ le32 iv[4] iv[5] iv[6] iv[7] ∧
    (ivXor iv s).c[4] = s.c[4] ^^^ le32 iv[0] iv[1] iv[2] iv[3] ∧ (ivXor iv s).c[6] = s.c[6] ^^^ le32 iv[4] iv[5] iv[6] iv[7] :=
  ⟨rfl, rfl, rfl, rfl⟩

theorem xor_cancel (a b c : U32) (h : a ^^^ b = a ^^^ c) : b = c := by
  have := congrArg (a ^^^ ·) h
  simpa [← BitVec.xor_assoc] using this

theorem le32_inj {a b c d a' b' c' d' : U8} (h : le32 a b c d = le32 a' b' c' d') : a = a' ∧ b = b' ∧ c = c' ∧ d = d' := by
  have e := congrArg toLe32 h
  rw [toLe32_le32, toLe32_le32] at e
  exact ⟨congrArg (·[0]) e, congrArg (·[1]) e, congrArg (·[2]) e, congrArg (·[3]) e⟩

theorem le32_not (a b c d : U8) : le32 (~~~a) (~~~b) (~~~c) (~~~d) = ~~~ le32 a b c d := by
  apply BitVec.eq_of_toNat_eq
  rw [BitVec.toNat_not (x := le32 a b c d), le32_toNat, le32_toNat]
  have := a.isLt; have := b.isLt; have := c.isLt; have := d.isLt
  simp only [BitVec.toNat_not]
  omega

theorem ext8 (iv iv' : Vector U8 8) (h0 : le32 iv[0] iv[1] iv[2] iv[3] = le32 iv'[0] iv'[1] iv'[2] iv'[3])
    (h1 : le32 iv[4] iv[5] iv[6] iv[7] = le32 iv'[4] iv'[5] iv'[6] iv'[7]) : iv = iv' := by
  obtain ⟨a, b, c, d⟩ := le32_inj h0
  obtain ⟨e, f, g, h⟩ := le32_inj h1
  apply Vector.ext
  intro i hi
  rcases i with _ | _ | _ | _ | _ | _ | _ | _ | i
  all_goals first | assumption | omega

/-- The counters after the exclusive or, of two IVs whose states meet. -/
theorem meet (s : State) (hs : s.carry.toNat ≤ 1) (iv iv' : Vector U8 8) (n : Nat) (t : State)
    (h : view t = Spec.Rabbit.after n (view (next4Pure (ivXor iv s)))) (h' : view t = Spec.Rabbit.after n (view (next4Pure (ivXor iv' s)))) :
    (ivXor iv s).c = (ivXor iv' s).c ∨ ((ivXor iv s).c = Vector.replicate 8 0#32 ∧ (ivXor iv' s).c = Vector.replicate 8 0xFFFFFFFF#32) ∨
      ((ivXor iv s).c = Vector.replicate 8 0xFFFFFFFF#32 ∧ (ivXor iv' s).c = Vector.replicate 8 0#32) := by
  have q : ∀ i, (ivXor i s).carry.toNat ≤ 1 := fun _ => hs
  rw [(view_next4 _ (q _)).1, after_four, after_add] at h h'
  have hp : phase (Spec.Rabbit.after (n + 4) (view (ivXor iv s))) = phase (Spec.Rabbit.after (n + 4) (view (ivXor iv' s))) := by
    rw [← h, ← h']
  rw [phase_after, phase_after, phase, phase, Nat.mod_add_mod, Nat.mod_add_mod, Nat.add_assoc, Nat.add_assoc] at hp
  have hc : (view (ivXor iv s)).b = s.carry.toNat := rfl
  have hc' : (view (ivXor iv' s)).b = s.carry.toNat := rfl
  rw [hc, hc'] at hp
  have e : (view (ivXor iv s)).C = (ivXor iv s).c.map BitVec.toNat := rfl
  have e' : (view (ivXor iv' s)).C = (ivXor iv' s).c.map BitVec.toNat := rfl
  rw [e, e'] at hp
  rcases residues _ _ _ _ (big_lt _) (big_lt _) hp with hh | ⟨h1, h2⟩ | ⟨h1, h2⟩
  · exact .inl (big_inj _ _ hh)
  · exact .inr (.inl ⟨big_inj _ _ (h1.trans big_zero.symm), big_inj _ _ (h2.trans big_ones.symm)⟩)
  · exact .inr (.inr ⟨big_inj _ _ (h1.trans big_ones.symm), big_inj _ _ (h2.trans big_zero.symm)⟩)

theorem ivXor_eq (s : State) (iv iv' : Vector U8 8) (h : (ivXor iv s).c = (ivXor iv' s).c) : iv = iv' := by
  obtain ⟨a0, a2, -, -⟩ := ivXor_entries iv s
  obtain ⟨b0, b2, -, -⟩ := ivXor_entries iv' s
  rw [h] at a0 a2
  exact ext8 _ _ (xor_cancel _ _ _ (a0.symm.trans b0)) (xor_cancel _ _ _ (a2.symm.trans b2))

theorem ivXor_zeros (s : State) (iv : Vector U8 8) (h : (ivXor iv s).c = Vector.replicate 8 0#32) :
    s.c[0] = le32 iv[0] iv[1] iv[2] iv[3] ∧ s.c[2] = le32 iv[4] iv[5] iv[6] iv[7] ∧
    s.c[4] = le32 iv[0] iv[1] iv[2] iv[3] ∧ s.c[6] = le32 iv[4] iv[5] iv[6] iv[7] := by
  obtain ⟨a0, a2, a4, a6⟩ := ivXor_entries iv s
  rw [h] at a0 a2 a4 a6
  have x : ∀ a b : U32, 0#32 = a ^^^ b → a = b := fun a b h => (xor_cancel a b a (by rw [← h, BitVec.xor_self])).symm
  exact ⟨x _ _ a0, x _ _ a2, x _ _ a4, x _ _ a6⟩

theorem ivXor_ones (s : State) (iv : Vector U8 8) (h : (ivXor iv s).c = Vector.replicate 8 0xFFFFFFFF#32) :
    s.c[0] = ~~~ le32 iv[0] iv[1] iv[2] iv[3] ∧ s.c[2] = ~~~ le32 iv[4] iv[5] iv[6] iv[7] := by
  obtain ⟨a0, a2, -, -⟩ := ivXor_entries iv s
  rw [h] at a0 a2
  have x : ∀ a b : U32, 0xFFFFFFFF#32 = a ^^^ b → a = ~~~b := by
    intro a b h
    have hn : (0xFFFFFFFF#32 : U32) = BitVec.allOnes 32 := by decide
    rw [hn] at h
    have h2 := congrArg (· ^^^ b) h
    simp only [BitVec.xor_assoc, BitVec.xor_self, BitVec.xor_zero, BitVec.allOnes_xor] at h2
    exact h2.symm
  exact ⟨x _ _ a0, x _ _ a2⟩

theorem complement (s : State) (iv iv' : Vector U8 8) (h : (ivXor iv s).c = Vector.replicate 8 0#32)
    (h' : (ivXor iv' s).c = Vector.replicate 8 0xFFFFFFFF#32) : iv' = iv.map (~~~ ·) := by
  obtain ⟨a0, a2, -, -⟩ := ivXor_zeros s iv h
  obtain ⟨b0, b2⟩ := ivXor_ones s iv' h'
  have e : ∀ a b : U32, a = ~~~b → b = ~~~a := fun a b h => by rw [h, BitVec.not_not]
  apply ext8
  · simp only [Vector.getElem_map, le32_not]
    exact e _ _ (a0.symm.trans b0)
  · simp only [Vector.getElem_map, le32_not]
    exact e _ _ (a2.symm.trans b2)

end Rabbit

/-- **C63**, general form.  One key, two IVs: if the states are equal after equally many blocks, then the IVs are equal, or they are complements of
each other and one of them is what the counters of the key set-up contain. -/
theorem C63_meet (m : Mode) (s : Rabbit.State) (hs : s.carry.toNat ≤ 1) (iv iv' : Vector U8 8) (v v' : Rabbit.State)
    (hv : Rabbit.setupIv m iv s = .ok v) (hv' : Rabbit.setupIv m iv' s = .ok v') (n : Nat) (l l' : List (Vector U8 16)) (t : Rabbit.State)
    (ht : genMany (Rabbit.genBlock m) n v = .ok (l, t)) (ht' : genMany (Rabbit.genBlock m) n v' = .ok (l', t)) :
    iv = iv' ∨ iv' = iv.map (~~~ ·) ∧ ∃ i, (i = iv ∨ i = iv') ∧ s.c[0] = leWord i.toList 0 ∧ s.c[2] = leWord i.toList 1 ∧
      s.c[4] = leWord i.toList 0 ∧ s.c[6] = leWord i.toList 1 := by
  rw [Rabbit.setupIv_eq] at hv hv'
  simp only [Except.ok.injEq] at hv hv'
  subst hv hv'
  have q : ∀ i, Rabbit.Rel (Rabbit.view (Rabbit.next4Pure (Rabbit.ivXor i s))) (Rabbit.next4Pure (Rabbit.ivXor i s)) 0 := by
    intro i
    have := (Rabbit.view_setupIv i s hs).2
    generalize Rabbit.next4Pure (Rabbit.ivXor i s) = x at this ⊢
    exact ⟨rfl, this⟩
  obtain ⟨_, t₁, h1, _, h2, _⟩ := Rabbit.genMany_rel m _ n _ 0 (q iv)
  obtain ⟨_, t₂, h3, _, h4, _⟩ := Rabbit.genMany_rel m _ n _ 0 (q iv')
  rw [h1] at ht; rw [h3] at ht'
  simp only [Except.ok.injEq, Prod.mk.injEq] at ht ht'
  obtain ⟨_, rfl⟩ := ht
  obtain ⟨_, rfl⟩ := ht'
  rw [Nat.zero_add] at h2 h4
  have w0 : ∀ i : Vector U8 8, le32 i[0] i[1] i[2] i[3] = leWord i.toList 0 := fun i => wordAt_eq_leWord i 0 (by decide)
  have w1 : ∀ i : Vector U8 8, le32 i[4] i[5] i[6] i[7] = leWord i.toList 1 := fun i => wordAt_eq_leWord i 1 (by decide)
  rcases Rabbit.meet s hs iv iv' n _ h2 h4 with h | ⟨h, h'⟩ | ⟨h, h'⟩
  · exact .inl (Rabbit.ivXor_eq s iv iv' h)
  · refine .inr ⟨Rabbit.complement s iv iv' h h', iv, .inl rfl, ?_⟩
    rw [← w0, ← w1]
    exact Rabbit.ivXor_zeros s iv h
  · refine .inr ⟨?_, iv', .inr rfl, ?_⟩
    · have := Rabbit.complement s iv' iv h' h
      rw [this]
      apply Vector.ext
      intro i hi
      simp
    · rw [← w0, ← w1]
      exact Rabbit.ivXor_zeros s iv' h'

/-- A state from which two IVs lead, in three blocks, to different states: the claim is that this is the rule. -/
example : ∃ v v' l l' t t', Rabbit.setupIv .debug (Sample.bytes 8 1) ⟨Vector.replicate 8 3, Vector.replicate 8 5, 1⟩ = .ok v ∧
    Rabbit.setupIv .debug (Sample.bytes 8 2) ⟨Vector.replicate 8 3, Vector.replicate 8 5, 1⟩ = .ok v' ∧
    genMany (Rabbit.genBlock .debug) 3 v = .ok (l, t) ∧ genMany (Rabbit.genBlock .debug) 3 v' = .ok (l', t') ∧ t ≠ t' := by
  have h1 := Rabbit.setupIv_eq .debug (Sample.bytes 8 1) ⟨Vector.replicate 8 3, Vector.replicate 8 5, 1⟩
  have h2 := Rabbit.setupIv_eq .debug (Sample.bytes 8 2) ⟨Vector.replicate 8 3, Vector.replicate 8 5, 1⟩
  obtain ⟨l, t, h3, -⟩ := C37_blocks (Rabbit.next4Pure (Rabbit.ivXor (Sample.bytes 8 1) ⟨Vector.replicate 8 3, Vector.replicate 8 5, 1⟩)) (Rabbit.nextPure_carry _) 3
  obtain ⟨l', t', h4, -⟩ := C37_blocks (Rabbit.next4Pure (Rabbit.ivXor (Sample.bytes 8 2) ⟨Vector.replicate 8 3, Vector.replicate 8 5, 1⟩)) (Rabbit.nextPure_carry _) 3
  have h3 := h3 .debug
  have h4 := h4 .debug
  refine ⟨_, _, l, l', t, t', h1, h2, h3, h4, fun e => ?_⟩
  subst e
  rcases C63_meet .debug _ (by decide) _ _ _ _ h1 h2 3 l l' t h3 h4 with h | ⟨h, -⟩
  · exact absurd h (by decide +kernel)
  · exact absurd h (by decide +kernel)

/-- The exception of `C63_meet` is real for the counters: all-zero and all-ones counters (complementary IVs) have met after two steps. -/
example : ∀ b : Fin 2, (Spec.Rabbit.after 2 ⟨Vector.replicate 8 0, Vector.replicate 8 0, b⟩).C =
    (Spec.Rabbit.after 2 ⟨Vector.replicate 8 0, Vector.replicate 8 (2 ^ 32 - 1), b⟩).C := by decide +kernel

/-- **C63**.  Under one key, two different IVs that are not complements of each other never lead to the same state after equally many
blocks. -/
theorem C63_separation (m : Mode) (key : Vector U8 16) (iv iv' : Vector U8 8) (hne : iv ≠ iv') (hc : iv' ≠ iv.map (~~~ ·)) (n : Nat) :
    ∃ s v v' l l' t t', Rabbit.setupKey m key = .ok s ∧ Rabbit.setupIv m iv s = .ok v ∧ Rabbit.setupIv m iv' s = .ok v' ∧
      genMany (Rabbit.genBlock m) n v = .ok (l, t) ∧ genMany (Rabbit.genBlock m) n v' = .ok (l', t') ∧ t ≠ t' := by
  have hs := (Rabbit.rel_keyOnly key).2
  obtain ⟨l, t, h1, _⟩ := Rabbit.genMany_rel m _ n _ 0 (Rabbit.rel_iv key iv)
  obtain ⟨l', t', h2, _⟩ := Rabbit.genMany_rel m _ n _ 0 (Rabbit.rel_iv key iv')
  refine ⟨_, _, _, l, l', t, t', Rabbit.setupKey_eq m key, Rabbit.setupIv_eq m iv _, Rabbit.setupIv_eq m iv' _, h1, h2, ?_⟩
  rintro rfl
  rcases C63_meet m _ hs iv iv' _ _ (Rabbit.setupIv_eq m iv _) (Rabbit.setupIv_eq m iv' _) n l l' t h1 h2 with h | ⟨h, _⟩
  · exact hne h
  · exact hc h

/-- IVs that count up from zero. -/
example : (#v[0, 0, 0, 0, 0, 0, 0, 0] : Vector U8 8) ≠ #v[1, 0, 0, 0, 0, 0, 0, 0] ∧
    (#v[1, 0, 0, 0, 0, 0, 0, 0] : Vector U8 8) ≠ (#v[0, 0, 0, 0, 0, 0, 0, 0] : Vector U8 8).map (~~~ ·) := by decide +kernel

end Verif
