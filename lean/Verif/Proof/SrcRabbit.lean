import Verif.Rust.Src.Rabbit
import Verif.Rust.Lit
import Verif.Proof.Rabbit
/-!
# The text of `rabbit` computes the model
-/
namespace Verif.Rust

/-- A loop over `0..n` that does what `g` does; `R` represents the states of `g`. -/
theorem forIn_repr {τ σ : Type} (R : τ → σ) (n : Nat) (g : Nat → τ → Except Panic τ) (f : Nat → σ → Except Panic (ForInStep σ))
    (h : ∀ k s, k < n → f k (R s) = (g k s).map fun s => .yield (R s)) (s₀ : σ) (s : τ) (h₀ : s₀ = R s) :
    forIn (List.range n) s₀ f = ((List.range n).foldlM (fun s k => g k s) s).map R := by
  subst h₀
  have key : ∀ (l : List Nat) (s : τ), (∀ k ∈ l, k < n) → forIn l (R s) f = (l.foldlM (fun s k => g k s) s).map R := by
    intro l
    induction l with
    | nil => intro s _; rfl
    | cons k l ih =>
      intro s hl
      rw [List.forIn_cons, h k s (hl k (List.mem_cons_self ..)), List.foldlM_cons]
      cases hg : g k s with
      | error p => rfl
      | ok s' =>
        simp only [Except.map, ok_bind]
        exact ih s' fun k hk => hl k (List.mem_cons_of_mem _ hk)
  exact key _ s fun k hk => List.mem_range.mp hk

theorem set8 {α : Type} (v : Vector α 8) (a0 a1 a2 a3 a4 a5 a6 a7 : α) :
    (((((((v.set 0 a0).set 1 a1).set 2 a2).set 3 a3).set 4 a4).set 5 a5).set 6 a6).set 7 a7 = #v[a0, a1, a2, a3, a4, a5, a6, a7] := by
  apply Vector.ext
  intro i hi
  simp only [Vector.getElem_set]
  rcases i with _ | _ | _ | _ | _ | _ | _ | _ | i
  all_goals first | rfl | omega

/-- `z` with its first `k` elements replaced by those of `v`. -/
def fill {α : Type} {n : Nat} (v z : Vector α n) (k : Nat) : Vector α n := Vector.ofFn fun j : Fin n => if j.val < k then v[j] else z[j]

theorem fill_zero {α : Type} {n : Nat} (v z : Vector α n) : fill v z 0 = z := by
  apply Vector.ext
  intro i hi
  rw [fill, Vector.getElem_ofFn, if_neg (Nat.not_lt_zero _)]
  rfl

theorem fill_all {α : Type} {n : Nat} (v z : Vector α n) : fill v z n = v := by
  apply Vector.ext
  intro i hi
  rw [fill, Vector.getElem_ofFn, if_pos hi]
  rfl

theorem fill_succ {α : Type} {n : Nat} (v z : Vector α n) (k : Nat) (hk : k < n) : (fill v z k).set k v[k] = fill v z (k + 1) := by
  apply Vector.ext
  intro i hi
  rw [Vector.getElem_set]
  simp only [fill, Vector.getElem_ofFn]
  by_cases h : k = i
  · subst h; rw [if_pos rfl, if_pos (Nat.lt_succ_self _)]; rfl
  · rw [if_neg h]
    by_cases h' : i < k
    · rw [if_pos h', if_pos (by omega)]
    · rw [if_neg h', if_neg (by omega)]

theorem fill_get {α : Type} {n : Nat} (v z : Vector α n) (k i : Nat) (hi : i < n) (h : k ≤ i) : (fill v z k)[i] = z[i] := by
  rw [fill, Vector.getElem_ofFn, if_neg (show ¬ i < k by omega)]
  rfl

end Verif.Rust

namespace Verif.Rust.Rabbit

/-- A state of the model as a value of the Rust structure. -/
def repr (s : Verif.Rabbit.State) : State := ⟨s.x.toList, s.c.toList, s.carry⟩

variable {tgt : Target}

theorem add64_eq (a b : U64) : add tgt a b = Verif.Rabbit.add64 tgt.mode a b := rfl

theorem mul64_eq (a b : U64) : mul tgt a b = Verif.Rabbit.mul64 tgt.mode a b := rfl

theorem wordsize_eq : WORDSIZE tgt = .ok Verif.Rabbit.wordsize := rfl

theorem a_eq : A tgt = .ok Verif.Rabbit.A.toList := rfl

theorem div_wordsize (t : U64) : div tgt t Verif.Rabbit.wordsize = .ok (t / Verif.Rabbit.wordsize) := rfl

theorem rem_wordsize (t : U64) : rem tgt t Verif.Rabbit.wordsize = .ok (t % Verif.Rabbit.wordsize) := rfl

def counterAt (m : Mode) (k : Nat) (s : Verif.Rabbit.State) : Except Panic Verif.Rabbit.State :=
  if h : k < 8 then Verif.Rabbit.counterStep m ⟨k, h⟩ s else .ok s

theorem counterAt_eq (m : Mode) (k : Fin 8) (s : Verif.Rabbit.State) : counterAt m k.val s = Verif.Rabbit.counterStep m k s := dif_pos k.isLt

theorem counter_fold (m : Mode) (s : Verif.Rabbit.State) :
    (List.range 8).foldlM (fun s k => counterAt m k s) s = Verif.Rabbit.counterUpdate m s := by
  have h8 : List.range 8 = [(0 : Fin 8).val, (1 : Fin 8).val, (2 : Fin 8).val, (3 : Fin 8).val, (4 : Fin 8).val, (5 : Fin 8).val,
    (6 : Fin 8).val, (7 : Fin 8).val] := by decide
  rw [h8]
  simp only [List.foldlM_cons, List.foldlM_nil, counterAt_eq, Verif.Rabbit.counterUpdate, bind_pure]

theorem counter_update_eq (s : Verif.Rabbit.State) :
    State.counter_update tgt (repr s) = (Verif.Rabbit.counterUpdate tgt.mode s).map fun s => ((), repr s) := by
  rw [State.counter_update]
  simp only [val_lit, Nat.sub_zero, Nat.zero_add]
  rw [forIn_repr repr 8 (counterAt tgt.mode) _ _ _ s rfl]
  · rw [counter_fold]
    cases Verif.Rabbit.counterUpdate tgt.mode s <;> rfl
  · intro k s hk
    simp only [repr, counterAt, dif_pos hk, Verif.Rabbit.counterStep, a_eq, wordsize_eq, ok_bind]
    rw [idx_vec _ _ hk, ok_bind, idx_vec _ _ hk, ok_bind, add64_eq, cast_bv, cast_bv, cast_bv, Fin.getElem_fin, Fin.getElem_fin]
    dsimp only
    generalize Verif.Rabbit.A[k] = a
    generalize hw : Verif.Rabbit.wordsize = w
    cases Verif.Rabbit.add64 tgt.mode (BitVec.setWidth 64 s.c[k]) (BitVec.setWidth 64 a) with
    | error p => rfl
    | ok t =>
      simp only [ok_bind, add64_eq]
      cases Verif.Rabbit.add64 tgt.mode t (BitVec.setWidth 64 s.carry) with
      | error p => rfl
      | ok t =>
        subst hw
        simp only [ok_bind, div_wordsize, rem_wordsize, cast_bv]
        generalize Verif.Rabbit.wordsize = w
        rw [upd_vec _ _ hk, ok_bind]
        rfl

def gAt (m : Mode) (s : Verif.Rabbit.State) (k : Nat) (g : Vector U32 8) : Except Panic (Vector U32 8) :=
  if h : k < 8 then do return g.set k (← Verif.Rabbit.gWord m s.x[k] s.c[k]) else .ok g

theorem next_state_eq (s : Verif.Rabbit.State) :
    State.next_state tgt (repr s) = (Verif.Rabbit.nextState tgt.mode s).map fun s => ((), repr s) := by
  rw [State.next_state, counter_update_eq, Verif.Rabbit.nextState]
  cases Verif.Rabbit.counterUpdate tgt.mode s with
  | error p => rfl
  | ok s =>
    simp only [Except.map, ok_bind, val_lit, Nat.sub_zero, Nat.zero_add]
    rw [forIn_repr Vector.toList 8 (gAt tgt.mode s) _ _ (List.replicate 8 0) (Vector.replicate 8 0) rfl]
    · have h8 : List.range 8 = [0, 1, 2, 3, 4, 5, 6, 7] := by decide
      have hc : ∀ (k : Nat) (h : k < 8) g, gAt tgt.mode s k g = (do return g.set k (← Verif.Rabbit.gWord tgt.mode s.x[k] s.c[k])) :=
        fun k h s => dif_pos h
      rw [h8]
      simp only [List.foldlM_cons, List.foldlM_nil, hc 0 (by decide), hc 1 (by decide), hc 2 (by decide), hc 3 (by decide),
        hc 4 (by decide), hc 5 (by decide), hc 6 (by decide), hc 7 (by decide)]
      cases Verif.Rabbit.gWord tgt.mode s.x[0] s.c[0] with
      | error p => rfl
      | ok g0 =>
      simp only [ok_bind, pure_eq]
      cases Verif.Rabbit.gWord tgt.mode s.x[1] s.c[1] with
      | error p => rfl
      | ok g1 =>
      simp only [ok_bind]
      cases Verif.Rabbit.gWord tgt.mode s.x[2] s.c[2] with
      | error p => rfl
      | ok g2 =>
      simp only [ok_bind]
      cases Verif.Rabbit.gWord tgt.mode s.x[3] s.c[3] with
      | error p => rfl
      | ok g3 =>
      simp only [ok_bind]
      cases Verif.Rabbit.gWord tgt.mode s.x[4] s.c[4] with
      | error p => rfl
      | ok g4 =>
      simp only [ok_bind]
      cases Verif.Rabbit.gWord tgt.mode s.x[5] s.c[5] with
      | error p => rfl
      | ok g5 =>
      simp only [ok_bind]
      cases Verif.Rabbit.gWord tgt.mode s.x[6] s.c[6] with
      | error p => rfl
      | ok g6 =>
      simp only [ok_bind]
      cases Verif.Rabbit.gWord tgt.mode s.x[7] s.c[7] with
      | error p => rfl
      | ok g7 =>
      simp only [ok_bind, Except.map]
      simp only [set8]
      have hi : ∀ (i : Nat) (h : i < 8), idx (#v[g0, g1, g2, g3, g4, g5, g6, g7] : Vector U32 8).toList (OfNat.ofNat i : Usize tgt) =
        .ok (#v[g0, g1, g2, g3, g4, g5, g6, g7] : Vector U32 8)[i] := fun i h => idx_vec _ _ h
      have hu : ∀ (v : Vector U32 8) (i : Nat) (h : i < 8) (y : U32), upd v.toList (OfNat.ofNat i : Usize tgt) y = .ok (v.set i y).toList :=
        fun v i h y => upd_vec v _ h y
      simp only [hi 0 (by decide), hi 1 (by decide), hi 2 (by decide), hi 3 (by decide), hi 4 (by decide), hi 5 (by decide), hi 6 (by decide),
        hi 7 (by decide), ok_bind, repr]
      rw [hu _ 0 (by decide), ok_bind, hu _ 1 (by decide), ok_bind, hu _ 2 (by decide), ok_bind, hu _ 3 (by decide), ok_bind,
        hu _ 4 (by decide), ok_bind, hu _ 5 (by decide), ok_bind, hu _ 6 (by decide), ok_bind, hu _ 7 (by decide), ok_bind, set8]
      rfl
    · intro k g hk
      simp only [repr, gAt, dif_pos hk, Verif.Rabbit.gWord, wordsize_eq, ok_bind]
      rw [idx_vec _ _ hk, ok_bind, idx_vec _ _ hk, ok_bind, add64_eq, cast_bv, cast_bv]
      dsimp only
      cases Verif.Rabbit.add64 tgt.mode (BitVec.setWidth 64 s.x[k]) (BitVec.setWidth 64 s.c[k]) with
      | error p => rfl
      | ok t =>
        simp only [ok_bind, rem_wordsize, mul64_eq]
        cases Verif.Rabbit.mul64 tgt.mode (t % Verif.Rabbit.wordsize) (t % Verif.Rabbit.wordsize) with
        | error p => rfl
        | ok q =>
          have hs : shr tgt q 32 = .ok (q >>> 32) := rfl
          simp only [ok_bind, hs, cast_bv]
          rw [upd_vec _ _ hk, ok_bind]
          rfl

theorem next4_eq (s : Verif.Rabbit.State) (f : Nat → State → Except Panic (ForInStep State))
    (h : ∀ k s, f k (repr s) = (Verif.Rabbit.nextState tgt.mode s).map fun s => .yield (repr s)) :
    forIn (List.range 4) (repr s) f = (Verif.Rabbit.nextState4 tgt.mode s).map repr := by
  rw [forIn_repr repr 4 (fun _ s => Verif.Rabbit.nextState tgt.mode s) f (fun k s _ => h k s) _ s rfl]
  have h4 : List.range 4 = [0, 1, 2, 3] := by decide
  have hp : ∀ x : Except Panic Verif.Rabbit.State, (x >>= fun s => pure s) = x := fun x => by cases x <;> rfl
  rw [h4]
  simp only [List.foldlM_cons, List.foldlM_nil, hp, Verif.Rabbit.nextState4]

theorem body4 (s : Verif.Rabbit.State) :
    (State.next_state tgt (repr s) >>= fun r => (pure (ForInStep.yield r.2) : Except Panic (ForInStep State))) =
      (Verif.Rabbit.nextState tgt.mode s).map fun s => .yield (repr s) := by
  rw [next_state_eq]
  cases Verif.Rabbit.nextState tgt.mode s <;> rfl

/-- The eight 16-bit parts of the key. -/
def keyParts (key : Vector U8 16) : Vector U16 8 := Vector.ofFn (Verif.Rabbit.keyPart key)

theorem keyParts_get (key : Vector U8 16) (a : Nat) (j : Fin 8) (h : a % 8 = j.val) (ha : a % 8 < 8) :
    (keyParts key)[a % 8] = Verif.Rabbit.keyPart key j := by
  rw [keyParts, Vector.getElem_ofFn]
  exact congrArg _ (Fin.ext h)

theorem rem_usize (a b : Nat) (h : b ≠ 0) : rem tgt (⟨a⟩ : Usize tgt) ⟨b⟩ = .ok ⟨a % b⟩ := if_neg h

theorem keyParts_eq (key : Vector U8 16) : keyParts key =
    #v[key[0].setWidth 16 ||| key[1].setWidth 16 <<< 8, key[2].setWidth 16 ||| key[3].setWidth 16 <<< 8,
     key[4].setWidth 16 ||| key[5].setWidth 16 <<< 8, key[6].setWidth 16 ||| key[7].setWidth 16 <<< 8,
     key[8].setWidth 16 ||| key[9].setWidth 16 <<< 8, key[10].setWidth 16 ||| key[11].setWidth 16 <<< 8,
     key[12].setWidth 16 ||| key[13].setWidth 16 <<< 8, key[14].setWidth 16 ||| key[15].setWidth 16 <<< 8] := by
  apply Vector.ext
  intro i hi
  simp only [keyParts, Vector.getElem_ofFn]
  rcases i with _ | _ | _ | _ | _ | _ | _ | _ | i
  all_goals first | rfl | omega

theorem usize_beq (a b : Nat) : ((⟨a⟩ : Usize tgt) == ⟨b⟩) = decide (a = b) := by
  by_cases h : a = b
  · subst h; simp
  · rw [decide_eq_false h]
    apply beq_eq_false_iff_ne.mpr
    intro h'
    exact h (Usize.mk.inj h')

theorem setup_key_eq (ht : 16 ≤ tgt.bits) (key : Vector U8 16) :
    State.setup_key tgt key.toList = (Verif.Rabbit.setupKey tgt.mode key).map repr := by
  have hi : ∀ (i : Nat) (h : i < 16), idx key.toList (OfNat.ofNat i : Usize tgt) = .ok key[i] := fun i h => idx_vec key _ h
  have hs : ∀ x : U16, shl tgt x 8 = .ok (x <<< 8) := fun _ => rfl
  have hs' : ∀ x : U32, shl tgt x 16 = .ok (x <<< 16) := fun _ => rfl
  have hadd : ∀ k n, k < 8 → n < 8 → add tgt (⟨k⟩ : Usize tgt) (OfNat.ofNat n) = .ok ⟨k + n⟩ :=
    fun k n hk hn => add_usize _ _ (pow_bits ht (show k + n < 65536 by omega))
  have hrem : ∀ a b : Nat, b ≠ 0 → rem tgt (⟨a⟩ : Usize tgt) (OfNat.ofNat b) = .ok ⟨a % b⟩ := rem_usize
  have hu : ∀ (v : Vector U16 8) (i : Nat) (h : i < 8) (y : U16), upd v.toList (OfNat.ofNat i : Usize tgt) y = .ok (v.set i y).toList :=
    fun v i h y => upd_vec v _ h y
  have hr : List.replicate 8 (0 : U16) = (Vector.replicate 8 (0 : U16)).toList := rfl
  rw [State.setup_key]
  simp only [hi 0 (by decide), hi 1 (by decide), hi 2 (by decide), hi 3 (by decide), hi 4 (by decide), hi 5 (by decide), hi 6 (by decide),
    hi 7 (by decide), hi 8 (by decide), hi 9 (by decide), hi 10 (by decide), hi 11 (by decide), hi 12 (by decide), hi 13 (by decide),
    hi 14 (by decide), hi 15 (by decide), ok_bind, hs, hs', cast_bv, val_lit, Nat.sub_zero, Nat.zero_add]
  rw [hr, hu _ 0 (by decide), ok_bind, hu _ 1 (by decide), ok_bind, hu _ 2 (by decide), ok_bind, hu _ 3 (by decide), ok_bind,
    hu _ 4 (by decide), ok_bind, hu _ 5 (by decide), ok_bind, hu _ 6 (by decide), ok_bind, hu _ 7 (by decide), ok_bind, set8]
  have hk := (keyParts_eq key).symm
  simp only [show ∀ a b : U16, RInt.bor a b = a ||| b from fun _ _ => rfl, show ∀ a b : U32, RInt.bor a b = a ||| b from fun _ _ => rfl] at hk ⊢
  rw [hk]
  rw [forIn_range 8 (fun k => ((fill (Verif.Rabbit.keyState key).x (Vector.replicate 8 0) k).toList,
      (fill (Verif.Rabbit.keyState key).c (Vector.replicate 8 0) k).toList)) _ (List.replicate 8 0, List.replicate 8 0)
      (by rw [fill_zero, fill_zero]; rfl), ok_bind]
  · dsimp only
    rw [fill_all, fill_all]
    rw [show State.mk (Verif.Rabbit.keyState key).x.toList (Verif.Rabbit.keyState key).c.toList 0 = repr (Verif.Rabbit.keyState key) from rfl,
      next4_eq _ _ fun _ s => body4 s, Verif.Rabbit.setupKey]
    cases Verif.Rabbit.nextState4 tgt.mode (Verif.Rabbit.keyState key) with
    | error p => rfl
    | ok s =>
      simp only [Except.map, ok_bind]
      rw [forIn_range 8 (fun k => State.mk s.x.toList (fill (Vector.ofFn fun j : Fin 8 => s.c[j] ^^^ s.x[j + 4]) s.c k).toList s.carry) _
        (repr s) (by rw [fill_zero]; rfl), ok_bind]
      · rw [fill_all]; rfl
      · intro k hk'
        rw [hadd k 4 hk' (by decide), ok_bind, hrem _ 8 (by decide), ok_bind, idx_vec _ _ (Nat.mod_lt _ (by decide)), ok_bind, idx_vec _ _ hk',
          ok_bind, upd_vec _ _ hk', ok_bind]
        rw [← fill_succ _ _ k hk', fill_get _ _ _ _ hk' (Nat.le_refl _), Vector.getElem_ofFn]
        rfl
  · intro k hk'
    dsimp only
    rw [hrem _ 2 (by decide), ok_bind]
    have hm : ∀ n, (k + n) % 8 < 8 := fun n => Nat.mod_lt _ (by decide)
    rw [← fill_succ (Verif.Rabbit.keyState key).x _ k hk', ← fill_succ (Verif.Rabbit.keyState key).c _ k hk']
    have hb : ((⟨k % 2⟩ : Usize tgt) == 0) = decide (k % 2 = 0) := usize_beq _ 0
    have hkk : ∀ n (h : (k + n) % 8 < 8) (j : Fin 8), (k + n) % 8 = j.val → (keyParts key)[(k + n) % 8] = Verif.Rabbit.keyPart key j :=
      fun n h j e => keyParts_get key _ j e h
    have hk0 : (keyParts key)[k] = Verif.Rabbit.keyPart key ⟨k, hk'⟩ := by rw [keyParts, Vector.getElem_ofFn]
    rw [hb]
    by_cases h2 : k % 2 = 0
    · rw [decide_eq_true h2, if_pos rfl]
      rw [hadd k 1 hk' (by decide), ok_bind, hrem _ 8 (by decide), ok_bind, idx_vec _ _ (hm 1), ok_bind, idx_vec _ _ hk', ok_bind, upd_vec _ _ hk',
        ok_bind, hadd k 4 hk' (by decide), ok_bind, hrem _ 8 (by decide), ok_bind, idx_vec _ _ (hm 4), ok_bind, hadd k 5 hk' (by decide), ok_bind,
        hrem _ 8 (by decide), ok_bind, idx_vec _ _ (hm 5), ok_bind, upd_vec _ _ hk', ok_bind]
      simp only [Verif.Rabbit.keyState, Vector.getElem_ofFn, if_pos h2]
      rw [hkk 1 (hm 1) (⟨k, hk'⟩ + 1) rfl, hkk 4 (hm 4) (⟨k, hk'⟩ + 4) rfl, hkk 5 (hm 5) (⟨k, hk'⟩ + 5) rfl, hk0]
      rfl
    · rw [decide_eq_false h2, if_neg (by decide)]
      rw [hadd k 5 hk' (by decide), ok_bind, hrem _ 8 (by decide), ok_bind, idx_vec _ _ (hm 5), ok_bind, 
        hadd k 4 hk' (by decide), ok_bind, hrem _ 8 (by decide), ok_bind, idx_vec _ _ (hm 4), ok_bind, upd_vec _ _ hk', ok_bind,
        idx_vec _ _ hk', ok_bind, hadd k 1 hk' (by decide), ok_bind,
        hrem _ 8 (by decide), ok_bind, idx_vec _ _ (hm 1), ok_bind, upd_vec _ _ hk', ok_bind]
      simp only [Verif.Rabbit.keyState, Vector.getElem_ofFn, if_neg h2]
      rw [hkk 1 (hm 1) (⟨k, hk'⟩ + 1) rfl, hkk 4 (hm 4) (⟨k, hk'⟩ + 4) rfl, hkk 5 (hm 5) (⟨k, hk'⟩ + 5) rfl, hk0]
      rfl

theorem setup_iv_eq (iv : Vector U8 8) (s : Verif.Rabbit.State) :
    State.setup_iv tgt (repr s) iv.toList = (Verif.Rabbit.setupIv tgt.mode iv s).map fun s => ((), repr s) := by
  rw [State.setup_iv, repr]
  dsimp only
  rw [toList8 s.c, toList8 iv, rep4]
  rsteps
  simp only [cast_bv, val_lit, Nat.sub_zero]
  generalize h0 : RInt.bor (RInt.bor (RInt.bor (BitVec.setWidth 32 iv[0]) (BitVec.setWidth 32 iv[1] <<< 8)) (BitVec.setWidth 32 iv[2] <<< 16))
    (BitVec.setWidth 32 iv[3] <<< 24) = i0
  generalize h2 : RInt.bor (RInt.bor (RInt.bor (BitVec.setWidth 32 iv[4]) (BitVec.setWidth 32 iv[5] <<< 8)) (BitVec.setWidth 32 iv[6] <<< 16))
    (BitVec.setWidth 32 iv[7] <<< 24) = i2
  generalize h1 : RInt.bor (i0 >>> 16) (RInt.band i2 4294901760) = i1
  generalize h3 : RInt.bor (i2 <<< 16) (RInt.band i0 65535) = i3
  have hx : ∀ a b : U32, RInt.bxor a b = a ^^^ b := fun _ _ => rfl
  have he : repr (Verif.Rabbit.ivXor iv s) = ⟨s.x.toList, [s.c[0] ^^^ i0, s.c[1] ^^^ i1, s.c[2] ^^^ i2, s.c[3] ^^^ i3,
      s.c[4] ^^^ i0, s.c[5] ^^^ i1, s.c[6] ^^^ i2, s.c[7] ^^^ i3], s.carry⟩ := by
    have e0 : le32 iv[0] iv[1] iv[2] iv[3] = i0 := h0
    have e2 : le32 iv[4] iv[5] iv[6] iv[7] = i2 := h2
    simp only [repr, Verif.Rabbit.ivXor, e0, e2]
    rw [← h1, ← h3]
    rfl
  simp only [hx, ← he]
  rw [next4_eq _ _ fun _ s => body4 s, Verif.Rabbit.setupIv]
  cases Verif.Rabbit.nextState4 tgt.mode (Verif.Rabbit.ivXor iv s) <;> rfl

theorem extract_eq (s : Verif.Rabbit.State) : State.extract tgt (repr s) = .ok (Verif.Rabbit.extract s).toList := by
  rw [State.extract, repr]
  dsimp only
  rw [toList8 s.x, rep8, rep16]
  rsteps
  rw [toList16 (Verif.Rabbit.extract s)]
  simp only [cast_bv, Verif.Rabbit.extract, Vector.getElem_ofFn]
  rfl

end Verif.Rust.Rabbit
