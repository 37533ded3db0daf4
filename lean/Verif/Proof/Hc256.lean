import Verif.Model.Hc256
import Verif.Spec.Hc256
import Verif.Proof.Word
import Verif.Proof.CoreRef
import Verif.Proof.Stream
/-!
# HC-256: the code computes the published cipher and never panics
-/
namespace Verif.Hc256
open Spec

/-! ## Checked accesses -/

theorem ok_bind {α β : Type} (a : α) (f : α → Except Panic β) : (Except.ok a >>= f) = f a := rfl
theorem pure_ok {α : Type} (a : α) : (pure a : Except Panic α) = .ok a := rfl

theorem get_ok {n : Nat} (v : Vector U32 n) (i : Nat) (h : i < n) : get v i = .ok v[i] := dif_pos h
theorem put_ok {n : Nat} (v : Vector U32 n) (i : Nat) (x : U32) (h : i < n) : put v i x = .ok (v.set i x) := dif_pos h
theorem getByte_ok {n : Nat} (v : Vector U8 n) (i : Nat) (h : i < n) : getByte v i = .ok v[i] := dif_pos h
theorem add32_ok (m : Mode) (a b : U32) (h : a.toNat + b.toNat < 2 ^ 32) : add32 m a b = .ok (a + b) := if_pos h

theorem ror_eq (x : U32) (n : Nat) (h : n < 32) : x.rotateRight n = Spec.Hc256.ror x n := by
  unfold BitVec.rotateRight BitVec.rotateRightAux Spec.Hc256.ror
  rw [Nat.mod_eq_of_lt h]

/-! ## Table steps -/

/-- A table as a function. -/
def tab (v : Vector U32 1024) : Fin 1024 → U32 := fun i => v[i]

theorem get_tab (v : Vector U32 1024) (i : Nat) (j : Fin 1024) (h : i = j.val) : get v i = .ok (tab v j) := by
  subst h; exact get_ok v j.val j.isLt

theorem put_tab (v : Vector U32 1024) (j : Fin 1024) (x : U32) :
    ∃ v', put v j.val x = .ok v' ∧ tab v' = Spec.Hc256.upd (tab v) j x := by
  refine ⟨_, put_ok v j.val x j.isLt, ?_⟩
  funext k
  simp only [tab, Spec.Hc256.upd, Fin.getElem_fin, Vector.getElem_set]
  by_cases h : k = j
  · subst h; rw [if_pos rfl, if_pos rfl]
  · rw [if_neg h, if_neg (fun e => h (Fin.ext e.symm))]

theorem dvd_1024 {u : Nat} (hu : 16 ≤ u) : 1024 ∣ 2 ^ u := by
  rw [show (1024:Nat) = 2 ^ 10 from rfl]; exact Nat.pow_dvd_pow 2 (by omega)

theorem toUsize_mask {u : Nat} (hu : 16 ≤ u) (x : U32) : toUsize u x &&& 1023 = (Spec.Hc256.idx x.toNat).val := by
  rw [toUsize, show (1023:Nat) = 2 ^ 10 - 1 from rfl, Nat.and_two_pow_sub_one_eq_mod]
  exact Nat.mod_mod_of_dvd _ (dvd_1024 hu)

theorem toUsize_small {u : Nat} (hu : 16 ≤ u) (x : U32) (h : x.toNat < 2 ^ 16) : toUsize u x = x.toNat :=
  Nat.mod_eq_of_lt (Nat.lt_of_lt_of_le h (Nat.pow_le_pow_right (by decide) hu))

theorem back_eq {u : Nat} (hu : 16 ≤ u) (j : Fin 1024) (k : Nat) (hk : k < 1024) :
    back u j.val k = (j - Fin.ofNat 1024 k : Fin 1024).val := by
  obtain ⟨q, hq⟩ := dvd_1024 hu
  have hq0 : 0 < q := by
    rcases Nat.eq_zero_or_pos q with h | h
    · subst h; have := Nat.two_pow_pos u; omega
    · exact h
  have hj := j.isLt
  have hm (x : Nat) : x &&& 1023 = x % 1024 := Nat.and_two_pow_sub_one_eq_mod x 10
  rw [back, hm, Nat.mod_mod_of_dvd _ (dvd_1024 hu), hq, Fin.sub_def]
  simp only [Fin.ofNat]
  rw [Nat.mod_eq_of_lt hk]
  omega

theorem g_eq {u : Nat} (hu : 16 ≤ u) (t : Vector U32 1024) (x y : U32) :
    g u t x y = .ok (Spec.Hc256.g (tab t) x y) := by
  rw [g, get_tab t _ _ (toUsize_mask hu (x ^^^ y)), ok_bind, pure_ok, ror_eq _ _ (by decide), ror_eq _ _ (by decide)]
  rfl

theorem byte_toNat (x : U32) (k : Nat) : ((x >>> (8 * k)) &&& 0xff#32).toNat = x.toNat / 256 ^ k % 256 := by
  have h : (0xff#32).toNat = 2 ^ 8 - 1 := by decide
  rw [BitVec.toNat_and, h, Nat.and_two_pow_sub_one_eq_mod, BitVec.toNat_ushiftRight, Nat.shiftRight_eq_div_pow, Nat.pow_mul]

theorem add32_small (m : Mode) (a : Nat) (ha : a < 1024) (b : U32) (hb : b.toNat < 256) :
    ∃ c, add32 m (BitVec.ofNat 32 a) b = .ok c ∧ c.toNat = a + b.toNat := by
  have e : (BitVec.ofNat 32 a).toNat = a := by rw [BitVec.toNat_ofNat]; omega
  refine ⟨_, add32_ok m _ _ (by omega), ?_⟩
  rw [BitVec.toNat_add, e]; omega

theorem get_idx {u : Nat} (hu : 16 ≤ u) (t : Vector U32 1024) (x : U32) (n : Nat) (hx : x.toNat = n) (h : n < 1024) :
    get t (toUsize u x) = .ok (tab t (Spec.Hc256.idx n)) := by
  rw [toUsize_small hu x (by omega)]
  exact get_tab t _ _ (by rw [hx]; exact (Nat.mod_eq_of_lt h).symm)

theorem h_eq (m : Mode) {u : Nat} (hu : 16 ≤ u) (t : Vector U32 1024) (x : U32) :
    h m u t x = .ok (Spec.Hc256.h (tab t) x) := by
  have b0 := byte_toNat x 0
  have b1 := byte_toNat x 1
  have b2 := byte_toNat x 2
  have b3 := byte_toNat x 3
  simp only [Nat.mul_zero, BitVec.ushiftRight_zero, Nat.reduceMul] at b0 b1 b2 b3
  have l (k : Nat) : x.toNat / 256 ^ k % 256 < 256 := Nat.mod_lt _ (by decide)
  have l0 := l 0; have l1 := l 1; have l2 := l 2; have l3 := l 3
  obtain ⟨c1, e1, v1⟩ := add32_small m 256 (by decide) _ (by rw [b1]; exact l1)
  obtain ⟨c2, e2, v2⟩ := add32_small m 512 (by decide) _ (by rw [b2]; exact l2)
  obtain ⟨c3, e3, v3⟩ := add32_small m 768 (by decide) _ (by rw [b3]; exact l3)
  rw [b1] at v1; rw [b2] at v2; rw [b3] at v3
  unfold h
  rw [get_idx hu t _ _ b0 (by omega), ok_bind, e1, ok_bind, get_idx hu t _ _ v1 (by omega), ok_bind, e2, ok_bind,
    get_idx hu t _ _ v2 (by omega), ok_bind, e3, ok_bind, get_idx hu t _ _ v3 (by omega), ok_bind, pure_ok]
  rfl

theorem half_eq (m : Mode) {u : Nat} (hu : 16 ≤ u) (t o : Vector U32 1024) (j : Fin 1024) (T : Fin 1024 → U32)
    (hT : T = Spec.Hc256.upd (tab t) j (tab t j + tab t (j - 10) + Spec.Hc256.g (tab o) (tab t (j - 3)) (tab t (j - 1023)))) :
    ∃ t', half m u t o j.val = .ok (Spec.Hc256.h (tab o) (T (j - 12)) ^^^ T j, t') ∧ tab t' = T := by
  obtain ⟨t', h1, h2⟩ := put_tab t j
    (tab t j + tab t (j - 10) + Spec.Hc256.g (tab o) (tab t (j - 3)) (tab t (j - 1023)))
  refine ⟨t', ?_, by rw [h2, hT]⟩
  rw [← hT] at h2
  unfold half
  rw [get_tab t _ _ (back_eq hu j 3 (by decide)), ok_bind, get_tab t _ _ (back_eq hu j 1023 (by decide)), ok_bind,
    g_eq hu, ok_bind, get_tab t _ j rfl, ok_bind, get_tab t _ _ (back_eq hu j 10 (by decide)), ok_bind]
  dsimp only
  erw [h1]
  rw [ok_bind, get_tab t' _ _ (back_eq hu j 12 (by decide)), ok_bind, h_eq m hu, ok_bind, get_tab t' _ j rfl, ok_bind, h2]
  rfl

/-- The tables of a state. -/
def view (s : State) : Spec.Hc256.Tables := ⟨tab s.ptable, tab s.qtable⟩

theorem genWord_step (m : Mode) {u : Nat} (hu : 16 ≤ u) (s : State) (n : Nat) (hn : s.idx.toNat = n % 2048) :
    ∃ s', genWord m u s = .ok ((Spec.Hc256.step n (view s)).1, s') ∧ view s' = (Spec.Hc256.step n (view s)).2 ∧
      s'.idx.toNat = (n + 1) % 2048 := by
  have hi : toUsize u s.idx = n % 2048 := by rw [toUsize_small hu _ (by omega), hn]
  have hj : toUsize u s.idx &&& 1023 = (Spec.Hc256.idx n).val := by
    rw [toUsize_mask hu, hn]; simp only [Spec.Hc256.idx]; omega
  have hadd : add32 m s.idx 1#32 = .ok (s.idx + 1#32) := by
    refine add32_ok m _ _ ?_
    rw [hn]; simp only [BitVec.toNat_ofNat]; omega
  have hidx : ((s.idx + 1#32) &&& 2047#32).toNat = (n + 1) % 2048 := by
    have h : (2047#32).toNat = 2 ^ 11 - 1 := by decide
    rw [BitVec.toNat_and, h, Nat.and_two_pow_sub_one_eq_mod, BitVec.toNat_add, hn]
    simp only [BitVec.toNat_ofNat]; omega
  unfold genWord Spec.Hc256.step
  rw [hadd, ok_bind, hj, hi]
  by_cases hc : n % 2048 < 1024
  · simp only [if_pos hc]
    obtain ⟨t', h1, h2⟩ := half_eq m hu s.ptable s.qtable (Spec.Hc256.idx n) _ rfl
    rw [h1, ok_bind]
    exact ⟨_, rfl, by simp only [view, h2], hidx⟩
  · simp only [if_neg hc]
    obtain ⟨t', h1, h2⟩ := half_eq m hu s.qtable s.ptable (Spec.Hc256.idx n) _ rfl
    rw [h1, ok_bind]
    exact ⟨_, rfl, by simp only [view, h2], hidx⟩

/-! ## Expansion -/

theorem byte32_eq (b : U8) : byte32 b = b.setWidth 32 := by
  have h : (0xff#32).toNat = 2 ^ 8 - 1 := by decide
  have := b.isLt
  apply BitVec.eq_of_toNat_eq
  rw [byte32, BitVec.toNat_and, h, Nat.and_two_pow_sub_one_eq_mod, BitVec.toNat_setWidth]
  omega

theorem loadWord_eq (k : Vector U8 32) (i : Nat) (h : i < 8) : loadWord k i = .ok (leWord k.toList i) := by
  rw [loadWord, getByte_ok _ _ (by omega), ok_bind, getByte_ok _ _ (by omega), ok_bind, getByte_ok _ _ (by omega), ok_bind,
    getByte_ok _ _ (by omega), ok_bind, pure_ok, byte32_eq, byte32_eq, byte32_eq, byte32_eq]
  exact congrArg Except.ok (wordAt_eq_leWord k i (by omega))

/-- A loop whose body establishes `I (i + 1)` from `I i`. -/
theorem forRange_inv {σ : Type} (f : Nat → σ → Except Panic σ) (I : Nat → σ → Prop) (n : Nat) :
    ∀ a s, I a s → (∀ i s, a ≤ i → i < a + n → I i s → ∃ s', f i s = .ok s' ∧ I (i + 1) s') →
      ∃ s', forRange f a n s = .ok s' ∧ I (a + n) s' := by
  induction n with
  | zero => intro a s hs _; exact ⟨s, rfl, hs⟩
  | succ n ih =>
    intro a s hs hf
    obtain ⟨s1, h1, i1⟩ := hf a s (by omega) (by omega) hs
    obtain ⟨s2, h2, i2⟩ := ih (a + 1) s1 i1 (fun i s ha hi hI => hf i s (by omega) (by omega) hI)
    refine ⟨s2, ?_, by rwa [show a + (n + 1) = a + 1 + n by omega]⟩
    rw [forRange, h1, ok_bind, h2]

/-- Entries below `i` are those of `W`. -/
def Filled (key iv : Vector U8 32) (i : Nat) (d : Vector U32 2660) : Prop :=
  ∀ k (h : k < 2660), k < i → d[k] = Spec.Hc256.W key iv k

theorem Filled.set {key iv : Vector U8 32} {i : Nat} {d : Vector U32 2660} (hd : Filled key iv i d) (hi : i < 2660) {x : U32}
    (hx : x = Spec.Hc256.W key iv i) : Filled key iv (i + 1) (d.set i x) := by
  intro k hk hlt
  rw [Vector.getElem_set]
  split
  · rename_i e; subst e; exact hx
  · exact hd k hk (by omega)

theorem W_key (key iv : Vector U8 32) (i : Nat) (h : i < 8) : Spec.Hc256.W key iv i = leWord key.toList i := by
  rw [Spec.Hc256.W, if_pos h]

theorem W_iv (key iv : Vector U8 32) (i : Nat) (h : i < 8) : Spec.Hc256.W key iv (i + 8) = leWord iv.toList i := by
  rw [Spec.Hc256.W, if_neg (by omega), if_pos (by omega), Nat.add_sub_cancel]

theorem W_rec (key iv : Vector U8 32) (i : Nat) (h : 16 ≤ i) : Spec.Hc256.W key iv i =
    Spec.Hc256.f2 (Spec.Hc256.W key iv (i - 2)) + Spec.Hc256.W key iv (i - 7) + Spec.Hc256.f1 (Spec.Hc256.W key iv (i - 15))
      + Spec.Hc256.W key iv (i - 16) + BitVec.ofNat 32 i := by
  conv => lhs; rw [Spec.Hc256.W]
  rw [if_neg (by omega), if_neg (by omega)]

theorem f1_eq (x : U32) : f1 x = Spec.Hc256.f1 x := by
  rw [f1, ror_eq _ _ (by decide), ror_eq _ _ (by decide)]; rfl

theorem f2_eq (x : U32) : f2 x = Spec.Hc256.f2 x := by
  rw [f2, ror_eq _ _ (by decide), ror_eq _ _ (by decide)]; rfl

theorem expand_eq (key iv : Vector U8 32) : ∃ d, expand key iv = .ok d ∧ Filled key iv 2660 d := by
  obtain ⟨d1, h1, f1'⟩ := forRange_inv (fun i d => do put d i (← loadWord key i)) (Filled key iv) 8 0
    (Vector.replicate 2660 (0 : U32)) (by intro k hk h; omega) (by
      intro i d _ hi hd
      refine ⟨_, ?_, hd.set (by omega) (W_key key iv i (by omega)).symm⟩
      rw [loadWord_eq key i (by omega), ok_bind, put_ok _ _ _ (by omega)])
  obtain ⟨d2, h2, f2'⟩ := forRange_inv (fun i d => do put d (i + 8) (← loadWord iv i)) (fun i => Filled key iv (i + 8)) 8 0
    d1 f1' (by
      intro i d _ hi hd
      refine ⟨d.set (i + 8) (leWord iv.toList i), ?_, ?_⟩
      · rw [loadWord_eq iv i (by omega), ok_bind, put_ok _ _ _ (by omega)]
      · have := hd.set (by omega) (W_iv key iv i (by omega)).symm
        rwa [show i + 1 + 8 = i + 8 + 1 by omega])
  obtain ⟨d3, h3, f3'⟩ := forRange_inv expandStep (Filled key iv) (2660 - 16) 16 d2 f2' (by
      intro i d h16 hi hd
      refine ⟨_, ?_, hd.set (by omega) (x := Spec.Hc256.W key iv i) rfl⟩
      rw [expandStep, get_ok _ _ (by omega), ok_bind, get_ok _ _ (by omega), ok_bind, get_ok _ _ (by omega), ok_bind,
        get_ok _ _ (by omega), ok_bind, put_ok _ _ _ (by omega), hd _ _ (by omega), hd _ _ (by omega), hd _ _ (by omega),
        hd _ _ (by omega), f1_eq, f2_eq, ← W_rec key iv i h16])
  refine ⟨d3, ?_, f3'⟩
  unfold expand
  dsimp only
  rw [h1, ok_bind, h2, ok_bind, h3]

theorem tab_slice (key iv : Vector U8 32) (d : Vector U32 2660) (hd : Filled key iv 2660 d) (a : Nat) (h : a + 1024 ≤ 2660)
    (i : Fin 1024) : tab (sliceTable d a h) i = Spec.Hc256.W key iv (i.val + a) := by
  simp only [tab, sliceTable, Fin.getElem_fin, Vector.getElem_ofFn]
  rw [hd _ _ (by omega), Nat.add_comm]

/-! ## As a stream -/

/-- The state before step `n`, starting from tables `t`. -/
def Rel (t : Spec.Hc256.Tables) (s : State) (n : Nat) : Prop := view s = Spec.Hc256.before t n ∧ s.idx.toNat = n % 2048

theorem genWord_rel (m : Mode) {u : Nat} (hu : 16 ≤ u) (t : Spec.Hc256.Tables) (s : State) (n : Nat) (hr : Rel t s n) :
    ∃ s', genWord m u s = .ok ((Spec.Hc256.step n (Spec.Hc256.before t n)).1, s') ∧ Rel t s' (n + 1) := by
  obtain ⟨s', h1, h2, h3⟩ := genWord_step m hu s n hr.2
  rw [hr.1] at h1 h2
  exact ⟨s', h1, h2, h3⟩

theorem new_eq (m : Mode) {u : Nat} (hu : 16 ≤ u) (key iv : Vector U8 32) :
    ∃ s, new m u key iv = .ok s ∧ Rel (Spec.Hc256.initialise key iv) s 0 := by
  obtain ⟨d, hd, hf⟩ := expand_eq key iv
  have h0 : Rel (Spec.Hc256.tables key iv) ⟨sliceTable d 512, sliceTable d 1536, 0⟩ 0 := by
    refine ⟨?_, rfl⟩
    simp only [view, Spec.Hc256.before, Spec.Hc256.tables, Spec.Hc256.Tables.mk.injEq]
    exact ⟨funext fun i => tab_slice key iv d hf 512 _ i, funext fun i => tab_slice key iv d hf 1536 _ i⟩
  obtain ⟨s, h1, h2⟩ := forRange_inv (fun _ s => do return (← genWord m u s).2)
    (fun i s => Rel (Spec.Hc256.tables key iv) s i) 4096 0 _ h0 (by
      intro i s _ _ hr
      obtain ⟨s', e, hr'⟩ := genWord_rel m hu _ s i hr
      exact ⟨s', by rw [e, ok_bind]; rfl, hr'⟩)
  rw [Nat.zero_add] at h2
  refine ⟨s, ?_, by rw [Spec.Hc256.before, Spec.Hc256.initialise]; exact h2.1, by rw [h2.2]⟩
  unfold new
  rw [hd, ok_bind]
  exact h1

theorem genBlock_rel (m : Mode) {u : Nat} (hu : 16 ≤ u) (key iv : Vector U8 32) (s : State) (n : Nat)
    (hr : Rel (Spec.Hc256.initialise key iv) s n) :
    ∃ s', genBlock m u s = .ok (Spec.Hc256.block key iv n, s') ∧ Rel (Spec.Hc256.initialise key iv) s' (n + 1) := by
  obtain ⟨s', e, hr'⟩ := genWord_rel m hu _ s n hr
  refine ⟨s', ?_, hr'⟩
  rw [genBlock, e, ok_bind]
  refine congrArg (fun b => Except.ok (b, s')) ?_
  apply Vector.ext; intro k hk
  rw [toLe32_getElem _ _ hk, Spec.Hc256.block, Vector.getElem_ofFn]
  rfl

theorem coreLaw (m : Mode) {u : Nat} (hu : 16 ≤ u) (key iv : Vector U8 32) :
    CoreLaw (core m u) u (Spec.Hc256.block key iv) (Rel (Spec.Hc256.initialise key iv)) none where
  process := by
    intro e s n hr
    refine ⟨1, by decide, ?_⟩
    intro α f a n' h hw
    exact run_ofBlock_ref 1 (genBlock m u) (Spec.Hc256.block key iv) _ none
      (fun s n hr _ => genBlock_rel m hu key iv s n hr) _ s n a n' hr h hw
  remaining := by
    intro s n hr hw
    rfl

end Verif.Hc256
