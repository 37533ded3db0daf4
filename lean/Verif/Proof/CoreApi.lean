import Verif.Proof.Edge
import Verif.Proof.Frame
import Verif.Spec.CoreApi
/-!
# Cores are counters
-/
namespace Verif
open Spec

variable {bs : Nat} {χ : Type}

/-- What a seekable core with a `k`-bit counter satisfies over the whole range of the counter. -/
structure CtrLaw (S : SeekCore bs χ) (u k : Nat) (checked : Bool) (ks : Nat → Vector U8 bs) (Rel : S.σ → Nat → Prop) : Prop where
  per : ∀ n, ks (n % 2 ^ k) = ks n
  relMod : ∀ s n, Rel s n → Rel s (n % 2 ^ k)
  process : ∀ (x : χ) (s : S.σ) (c : Nat), Rel s c → c < 2 ^ k → ∃ par ≥ 1, ∀ (α : Type) (f : Closure bs α) (a : α) (n' : Nat),
    (f par).ref ks par c = .ok (a, n') →
    if checked ∧ 2 ^ k ≤ n' then S.process x f s = .error .overflow else ∃ s', S.process x f s = .ok (a, s') ∧ Rel s' n'
  remaining : ∀ s c, Rel s c → c < 2 ^ k → S.remaining s = if 2 ^ k - 1 - c < 2 ^ u then some (2 ^ k - 1 - c) else none
  getPos : ∀ s c, Rel s c → c < 2 ^ k → S.getPos s = c
  setPos : ∀ s c b, Rel s c → Rel (S.setPos s b) b

theorem Counter.blocks_eq {k : Nat} {ks : Nat → Vector U8 bs} (per : ∀ n, ks (n % 2 ^ k) = ks n) (c n : Nat) :
    Counter.blocks k ks c n = (blocksFrom ks c n).map (·.toList) := by
  simp only [Counter.blocks, per, List.map_map, Function.comp_def]

theorem applyBlock_ref (ks : Nat → Vector U8 bs) (par : Nat) (d : List U8) (n : Nat) :
    (applyBlockClosure (bs := bs) d par).ref ks par n = .ok (xorBytes d (ks n).toList, n + 1) := rfl

variable {S : SeekCore bs χ} {u k : Nat} {checked : Bool} {ks : Nat → Vector U8 bs} {Rel : S.σ → Nat → Prop}

/-- One request of `n` blocks. -/
theorem CtrLaw.request (law : CtrLaw S u k checked ks Rel) {α : Type} (g : α → CoreObs) (f : Closure bs α) (x : χ) (s : S.σ) (c : Nat)
    (hr : Rel s c) (hc : c < 2 ^ k) (a : α) (n : Nat) (hf : ∀ par, 1 ≤ par → (f par).ref ks par c = .ok (a, c + n)) (o : CoreObs) (ho : g a = o) :
    match (Counter.move k checked c n).map fun c' => (o, c') with
    | .error e => (S.process x f s >>= fun r => (pure (g r.1, r.2) : Except Panic (CoreObs × S.σ))) = .error e
    | .ok (o, c') => ∃ s', (S.process x f s >>= fun r => (pure (g r.1, r.2) : Except Panic (CoreObs × S.σ))) = .ok (o, s') ∧ Rel s' c' ∧ c' < 2 ^ k := by
  obtain ⟨par, hpar, h⟩ := law.process x s c hr hc
  have h := h α f a _ (hf par hpar)
  unfold Counter.move
  by_cases hp : checked ∧ 2 ^ k ≤ c + n
  · rw [if_pos hp] at h ⊢
    simp only [Except.map, h, bind, Except.bind]
  · rw [if_neg hp] at h ⊢
    obtain ⟨s', h1, h2⟩ := h
    refine ⟨s', ?_, law.relMod _ _ h2, Nat.mod_lt _ (Nat.two_pow_pos _)⟩
    simp only [h1, bind, Except.bind, pure, Except.pure, ho]

theorem CtrLaw.step (law : CtrLaw S u k checked ks Rel) (x : χ) (s : S.σ) (c : Nat) (hr : Rel s c) (hc : c < 2 ^ k)
    (op : SeekCoreOp bs) (hop : Counter.Fits k op) :
    match Counter.step u k checked ks c op with
    | .error e => S.call x s op = .error e
    | .ok (o, c') => ∃ s', S.call x s op = .ok (o, s') ∧ Rel s' c' ∧ c' < 2 ^ k := by
  cases op with
  | getPos => exact ⟨s, by simp only [SeekCore.call, law.getPos s c hr hc], hr, hc⟩
  | setPos b => exact ⟨S.setPos s b, rfl, law.setPos s c b hr, hop⟩
  | io op =>
    cases op with
    | remaining => exact ⟨s, by simp only [SeekCore.call, Core.call, law.remaining s c hr hc], hr, hc⟩
    | writeBlock =>
      refine law.request (fun b : Vector U8 bs => .blocks [b.toList]) (writeBlockClosure bs) x s c hr hc (ks c) 1 (fun _ _ => rfl) _ ?_
      rw [Counter.blocks_eq law.per]; simp [blocksFrom]
    | writeBlocks n =>
      refine law.request CoreObs.blocks (writeBlocksClosure n) x s c hr hc _ n (fun par hpar => writeBlocks_ref ks par hpar n c) _ ?_
      rw [Counter.blocks_eq law.per]
    | applyBlock d =>
      refine law.request (fun b => .blocks [b]) (applyBlockClosure d.toList) x s c hr hc _ 1 (fun par _ => applyBlock_ref ks par _ c) _ ?_
      rw [Counter.blocks_eq law.per]; simp [blocksFrom, xorBytes]
    | applyBlocks data =>
      refine law.request CoreObs.blocks (applyBlocksClosure (data.map (·.toList))) x s c hr hc _ data.length (fun par hpar => by
        rw [applyBlocks_ref ks par hpar _ c, List.length_map]) _ ?_
      rw [Counter.blocks_eq law.per]
      simp only [blocksFrom, List.map_map, List.zipWith_map_right]
      rfl

theorem CtrLaw.run (law : CtrLaw S u k checked ks Rel) (h : List (χ × SeekCoreOp bs)) :
    ∀ (s : S.σ) (c : Nat), Rel s c → c < 2 ^ k → (∀ e ∈ h, Counter.Fits k e.2) →
    match Counter.run (Counter.step u k checked ks) (h.map (·.2)) c with
    | .error e => runCalls S.call h s = .error e
    | .ok (os, c') => ∃ s', runCalls S.call h s = .ok (os, s') ∧ Rel s' c' ∧ c' < 2 ^ k := by
  induction h with
  | nil => intro s c hr hc _; exact ⟨s, rfl, hr, hc⟩
  | cons e h ih =>
    intro s c hr hc hh
    obtain ⟨x, op⟩ := e
    have h1 := law.step x s c hr hc op (hh _ (List.mem_cons_self ..))
    simp only [List.map_cons, Counter.run, runCalls]
    cases hs : Counter.step u k checked ks c op with
    | error e =>
      rw [hs] at h1
      simp only [h1, bind, Except.bind]
    | ok r =>
      obtain ⟨o, c1⟩ := r
      rw [hs] at h1
      obtain ⟨s1, e1, hr1, hc1⟩ := h1
      have h2 := ih s1 c1 hr1 hc1 (fun e he => hh e (List.mem_cons_of_mem _ he))
      cases hr' : Counter.run (Counter.step u k checked ks) (h.map (·.2)) c1 with
      | error e =>
        rw [hr'] at h2
        simp only [hr', Except.map, e1, h2, bind, Except.bind]
      | ok r =>
        obtain ⟨os, c2⟩ := r
        rw [hr'] at h2
        obtain ⟨s2, e2, hr2, hc2⟩ := h2
        simp only [hr', Except.map]
        refine ⟨s2, ?_, hr2, hc2⟩
        simp only [e1, e2, bind, Except.bind, pure, Except.pure]

/-! ## `try_apply_keystream_partial` -/

section
variable {C : Core bs χ} {mb : Option Nat} {Rel : C.σ → Nat → Prop}

theorem xorBytes_length (a b : List U8) : (xorBytes a b).length = min a.length b.length := List.length_zipWith

/-- A last block that is padded to its full length. -/
theorem CoreLaw.padded (law : CoreLaw C u ks Rel mb) (hbs : 0 < bs) (x : χ) (s : C.σ) (n : Nat) (hr : Rel s n) (hw : Within mb (n + 1))
    (rest pad : List U8) (hrest : rest.length ≤ bs) :
    ∃ l s', C.process x (applyBlocksClosure [rest ++ pad]) s = .ok (l, s') ∧
      l.flatten.take rest.length = xorBytes rest (window (byteStream ks hbs) (bs * n) rest.length) := by
  obtain ⟨par, hpar, h⟩ := law.process x s n hr
  have href := applyBlocks_ref ks par hpar [rest ++ pad] n
  obtain ⟨s', hs', _⟩ := h _ _ _ _ href hw
  refine ⟨_, s', hs', ?_⟩
  have e : blocksFrom ks n [rest ++ pad].length = [ks n] := by simp [blocksFrom]
  rw [e]
  simp only [List.zipWith_cons_cons, List.zipWith_nil_left, List.flatten_cons, List.flatten_nil, List.append_nil]
  have hs : ∀ (st : Nat → U8) p, window st p bs = window st p rest.length ++ window st (p + rest.length) (bs - rest.length) := by
    intro st p
    rw [← window_add]
    congr 1
    omega
  rw [block_window ks hbs, hs, xorBytes_append _ _ _ _ (window_length _ _ _).symm, List.take_left']
  rw [xorBytes_length, window_length, Nat.min_self]

theorem ceil_eq (bs len : Nat) (hbs : 0 < bs) :
    (if len % bs = 0 then len / bs else len / bs + 1) = (len + bs - 1) / bs := by
  have h := Nat.div_add_mod len bs
  have h' := Nat.mod_lt len hbs
  split
  · rename_i h0
    rw [h0, Nat.add_zero] at h
    conv => rhs; rw [← h, Nat.add_sub_assoc hbs, Nat.mul_add_div hbs, Nat.div_eq_of_lt (show bs - 1 < bs by omega), Nat.add_zero]
  · conv => rhs; rw [← h, show bs * (len / bs) + len % bs + bs - 1 = bs * (len / bs + 1) + (len % bs - 1) by rw [Nat.mul_succ]; omega,
      Nat.mul_add_div hbs, Nat.div_eq_of_lt (show len % bs - 1 < bs by omega)]

theorem ceil_le (bs len r : Nat) (hbs : 0 < bs) : (len + bs - 1) / bs ≤ r ↔ len ≤ bs * r := by
  rw [← Nat.lt_succ_iff, Nat.div_lt_iff_lt_mul hbs, Nat.succ_mul, Nat.mul_comm r bs]
  omega

theorem CoreLaw.refused (law : CoreLaw C u ks Rel mb) (hbs : 0 < bs) (s : C.σ) (n : Nat) (hr : Rel s n) (hw : Within mb n) (len : Nat)
    (hlen : len < 2 ^ u) :
    C.partialRefused s len = decide (¬ Within (byteLimit bs mb) (bs * n + len)) := by
  unfold Core.partialRefused
  rw [law.remaining s n hr hw, ceil_eq bs len hbs]
  cases mb with
  | none =>
    have : Within (byteLimit bs none) (bs * n + len) := by intro L e; cases e
    simp only [this, not_true_eq_false, decide_false]
  | some M =>
    have hM := hw M rfl
    have e : Within (byteLimit bs (some M)) (bs * n + len) ↔ len ≤ bs * (M - n) := by
      have : bs * M = bs * n + bs * (M - n) := by rw [← Nat.mul_add]; congr 1; omega
      constructor
      · intro h
        have := h (bs * M) rfl
        omega
      · intro h L hL
        cases hL
        show bs * n + len ≤ bs * M
        omega
    rw [← ceil_le bs len _ hbs] at e
    dsimp only
    by_cases hlt : M - n < 2 ^ u
    · rw [if_pos hlt]
      simp only [e, Nat.not_le, gt_iff_lt]
    · rw [if_neg hlt]
      have : (len + bs - 1) / bs ≤ M - n := by
        rw [ceil_le bs len _ hbs]
        have : M - n ≤ bs * (M - n) := Nat.le_mul_of_pos_left _ hbs
        omega
      simp only [e, this, not_true_eq_false, decide_false]

theorem CoreLaw.tryPartial (law : CoreLaw C u ks Rel mb) (hbs : 0 < bs) (x : χ) (s : C.σ) (n : Nat) (hr : Rel s n) (hw : Within mb n)
    (data : List U8) (hlen : data.length < 2 ^ u) :
    C.tryApplyPartial x s data = .ok (if Within (byteLimit bs mb) (bs * n + data.length) then
      (.ok (), xorBytes data (window (byteStream ks hbs) (bs * n) data.length)) else (.error .streamCipherError, data)) := by
  unfold Core.tryApplyPartial
  dsimp only
  rw [law.refused hbs s n hr hw data.length hlen]
  by_cases hin : Within (byteLimit bs mb) (bs * n + data.length)
  rotate_left
  · rw [if_pos (by simpa using hin), if_neg hin]
  rw [if_neg (by simpa using hin), if_pos hin]
  by_cases hbig : data.length > bs
  · rw [if_pos hbig]
    have hdm := Nat.div_add_mod data.length bs
    have hml := Nat.mod_lt data.length hbs
    have hmul : data.length / bs * bs = bs * (data.length / bs) := Nat.mul_comm _ _
    obtain ⟨s1, mid, h1, hr1, hmid⟩ := law.applyBlocks hbs x s n hr (data.length / bs) data (by omega)
      (hin.of_bytes hbs (by rw [Nat.mul_add]; omega))
    have hrl : (data.drop (data.length / bs * bs)).length = data.length % bs := by rw [List.length_drop]; omega
    simp only [h1, bind, Except.bind, pure, Except.pure, hrl]
    have key : xorBytes data (window (byteStream ks hbs) (bs * n) data.length) =
        mid.flatten ++ xorBytes (data.drop (data.length / bs * bs))
          (window (byteStream ks hbs) (bs * (n + data.length / bs)) (data.length % bs)) := by
      rw [hmid, Nat.mul_add, ← xorBytes_append _ _ _ _ (by rw [window_length, List.length_take]; omega), List.take_append_drop,
        ← window_add, hdm]
    by_cases h0 : data.length % bs = 0
    · rw [if_pos h0, key, h0]
      simp [window, xorBytes]
    · rw [if_neg h0]
      obtain ⟨l, s2, h2, hl⟩ := law.padded hbs x s1 _ hr1
        (hin.of_bytes_lt (by rw [Nat.mul_add]; omega)) (data.drop (data.length / bs * bs))
        (List.replicate (bs - data.length % bs) 0) (by omega)
      rw [hrl] at hl
      simp only [h2, hl, key]
  · rw [if_neg hbig]
    simp only [bind, Except.bind, pure, Except.pure]
    by_cases h0 : data.length = 0
    · rw [if_pos h0, List.length_eq_zero_iff.1 h0]
      rfl
    · rw [if_neg h0]
      obtain ⟨l, s2, h2, hl⟩ := law.padded hbs x s n hr (hin.of_bytes_lt (by omega)) data
        (List.replicate (bs - data.length) 0) (by omega)
      simp only [h2, hl, List.nil_append]

/-! ## Cores without a position -/

theorem CoreLaw.plainRun (law : CoreLaw C u ks Rel none) (h : List (χ × CoreOp bs)) :
    ∀ (s : C.σ) (n : Nat), Rel s n →
    ∃ os n' s', Counter.run (Counter.plain ks) (h.map (·.2)) n = .ok (os, n') ∧ runCalls C.call h s = .ok (os, s') ∧ Rel s' n' := by
  induction h with
  | nil => intro s n hr; exact ⟨[], n, s, rfl, rfl, hr⟩
  | cons e h ih =>
    intro s n hr
    obtain ⟨x, op⟩ := e
    have h1 : ∃ o n' s', Counter.plain ks n op = .ok (o, n') ∧ C.call x s op = .ok (o, s') ∧ Rel s' n' := by
      obtain ⟨par, hpar, hp⟩ := law.process x s n hr
      have hw : ∀ n, Within none n := by intro n L e; cases e
      cases op with
      | remaining =>
        refine ⟨_, n, s, rfl, ?_, hr⟩
        simp only [Core.call, law.remaining s n hr (hw n)]
      | writeBlock =>
        obtain ⟨s', e1, e2⟩ := hp _ (writeBlockClosure bs) (ks n) (n + 1) rfl (hw _)
        exact ⟨_, _, s', rfl, by simp only [Core.call, e1, bind, Except.bind, pure, Except.pure], e2⟩
      | writeBlocks m =>
        obtain ⟨s', e1, e2⟩ := hp _ (writeBlocksClosure m) _ _ (writeBlocks_ref ks par hpar m n) (hw _)
        refine ⟨_, _, s', rfl, ?_, e2⟩
        simp only [Core.call, e1, bind, Except.bind, pure, Except.pure, blocksFrom, List.map_map, Function.comp_def]
      | applyBlock d =>
        obtain ⟨s', e1, e2⟩ := hp _ (applyBlockClosure d.toList) _ _ (applyBlock_ref ks par _ n) (hw _)
        exact ⟨_, _, s', rfl, by simp only [Core.call, e1, bind, Except.bind, pure, Except.pure]; rfl, e2⟩
      | applyBlocks data =>
        obtain ⟨s', e1, e2⟩ := hp _ (applyBlocksClosure (data.map (·.toList))) _ _ (applyBlocks_ref ks par hpar _ n) (hw _)
        refine ⟨_, _, s', rfl, ?_, by rwa [List.length_map] at e2⟩
        simp only [Core.call, e1, bind, Except.bind, pure, Except.pure, blocksFrom, List.length_map, List.zipWith_map_right]
        rfl
    obtain ⟨o, n1, s1, e1, e2, hr1⟩ := h1
    obtain ⟨os, n2, s2, e3, e4, hr2⟩ := ih s1 n1 hr1
    refine ⟨o :: os, n2, s2, ?_, ?_, hr2⟩
    · simp only [List.map_cons, Counter.run, e1, e3, Except.map]
    · simp only [runCalls, e2, e4, bind, Except.bind, pure, Except.pure]

end

/-! ## ChaCha -/

namespace ChaCha

theorem at'_mod (V : Variant) (s0 : State) (n : Nat) : at' V s0 (n % 2 ^ (8 * V.ctrBytes)) = at' V s0 n := by
  unfold at'
  refine congrArg _ ?_
  apply BitVec.eq_of_toNat_eq
  simp only [BitVec.toNat_ofNat, Nat.mod_mod]

theorem ctrLaw (u dr : Nat) (V : Variant) (s0 : State) :
    CtrLaw (core u dr V) u (8 * V.ctrBytes) false (ksOf dr V s0) (ChaCha.Rel V s0) where
  per n := by simp only [ksOf, at'_mod]
  relMod s n h := h.trans (at'_mod V s0 n).symm
  process := by
    intro e s n hr _
    refine ⟨(Config.select e.build e.detected).par, Config.Impl.par_pos _, ?_⟩
    intro α f a n' h
    rw [if_neg (by simp)]
    obtain ⟨s', h1, h2⟩ := run_ofBlock_ref (Config.select e.build e.detected).par (softGenBlock dr V) (ksOf dr V s0) (ChaCha.Rel V s0)
      none (by
        intro s n hr _
        refine ⟨_, ?_, rfl⟩
        rw [hr]; exact softGenBlock_at' dr V s0 n) _ s n a n' hr h (by intro L h; cases h)
    exact ⟨s', (process_eq dr V e f s).trans h1, h2⟩
  remaining s c hr hc := (seekLaw u dr V s0).remaining s c hr (by intro L e; cases e; omega)
  getPos s c hr hc := (seekLaw u dr V s0).getPos s c hr (by omega)
  setPos s c b hr := by
    rw [hr]
    simp only [core, ChaCha.Rel, at', setBlockPos_setBlockPos]

end ChaCha

/-! ## Salsa -/

namespace Salsa

theorem at'_mod (s0 : State) (n : Nat) : at' s0 (n % 2 ^ 64) = at' s0 n := by
  unfold at'
  refine congrArg _ ?_
  apply BitVec.eq_of_toNat_eq
  simp only [BitVec.toNat_ofNat, Nat.mod_mod]

theorem genBlock_panics (dr : Nat) (s0 : State) : genBlock .debug dr (at' s0 (2 ^ 64 - 1)) = .error .overflow := by
  unfold genBlock incr at'
  rw [getBlockPos_setBlockPos, if_pos (by decide)]
  rfl

theorem genMany_panics (dr : Nat) (s0 : State) (k : Nat) : ∀ n, n < 2 ^ 64 → 2 ^ 64 ≤ n + k →
    genMany (genBlock .debug dr) k (at' s0 n) = .error .overflow := by
  induction k with
  | zero => intro n h1 h2; omega
  | succ k ih =>
    intro n h1 h2
    by_cases hn : n = 2 ^ 64 - 1
    · subst hn
      simp only [genMany, genBlock_panics, bind, Except.bind]
    · have hg := genBlock_at' .debug dr s0 n (.inr (by omega))
      simp only [genMany, hg, ih (n + 1) (by omega) (by omega), bind, Except.bind]

/-- A client that asks for a block past the end of the counter gets a panic if overflow is checked. -/
theorem run_panics {α : Type} (dr : Nat) (s0 : State) (par : Nat) (p : Prog 64 α) : ∀ n a n', n < 2 ^ 64 →
    p.ref (ksOf dr s0) par n = .ok (a, n') → 2 ^ 64 ≤ n' →
    p.run (.ofBlock par (genBlock .debug dr)) (at' s0 n) = .error .overflow := by
  induction p with
  | done b =>
    intro n a n' hn h h'
    simp only [Prog.ref, Except.ok.injEq, Prod.mk.injEq] at h
    omega
  | block k ih =>
    intro n a n' hn h h'
    by_cases he : n = 2 ^ 64 - 1
    · subst he
      simp only [Prog.run, Backend.ofBlock, genBlock_panics, bind, Except.bind]
    · have hg := genBlock_at' .debug dr s0 n (.inr (by omega))
      simp only [Prog.run, Backend.ofBlock, hg, bind, Except.bind]
      exact ih _ (n + 1) a n' (by omega) h h'
  | par k ih =>
    intro n a n' hn h h'
    by_cases he : 2 ^ 64 ≤ n + par
    · simp only [Prog.run, Backend.ofBlock, genMany_panics dr s0 par n hn he, bind, Except.bind]
    · obtain ⟨s', h1, h2⟩ := genMany_ref (genBlock .debug dr) (ksOf dr s0) (Salsa.Rel s0) (some (2 ^ 64 - 1)) (by
        intro s n hr hw
        refine ⟨_, ?_, rfl⟩
        rw [hr]
        have : n + 1 ≤ 2 ^ 64 - 1 := hw _ rfl
        exact genBlock_at' .debug dr s0 n (.inr (by omega))) par (at' s0 n) n rfl (by intro L e; cases e; omega)
      rw [h2] at h1
      simp only [Prog.run, Backend.ofBlock, h1, bind, Except.bind]
      exact ih _ (n + par) a n' (by omega) h h'
  | tail t k ih =>
    intro n a n' hn h h'
    simp only [Prog.ref] at h
    split at h
    · rename_i ht
      by_cases he : 2 ^ 64 ≤ n + t
      · simp only [Prog.run, Backend.ofBlock, if_pos ht, genMany_panics dr s0 t n hn he, bind, Except.bind]
      · obtain ⟨s', h1, h2⟩ := genMany_ref (genBlock .debug dr) (ksOf dr s0) (Salsa.Rel s0) (some (2 ^ 64 - 1)) (by
          intro s n hr hw
          refine ⟨_, ?_, rfl⟩
          rw [hr]
          have : n + 1 ≤ 2 ^ 64 - 1 := hw _ rfl
          exact genBlock_at' .debug dr s0 n (.inr (by omega))) t (at' s0 n) n rfl (by intro L e; cases e; omega)
        rw [h2] at h1
        simp only [Prog.run, Backend.ofBlock, if_pos ht, h1, bind, Except.bind]
        exact ih _ (n + t) a n' (by omega) h h'
    · cases h

theorem ctrLaw (χ : Type) (u : Nat) (m : Mode) (dr : Nat) (s0 : State) :
    CtrLaw (core χ u m dr) u 64 (m == .debug) (ksOf dr s0) (Salsa.Rel s0) where
  per n := by simp only [ksOf, at'_mod]
  relMod s n h := h.trans (at'_mod s0 n).symm
  process := by
    intro e s n hr hn
    refine ⟨1, by decide, ?_⟩
    intro α f a n' h
    cases m with
    | release =>
      rw [if_neg (by simp)]
      obtain ⟨s', h1, h2⟩ := run_ofBlock_ref 1 (genBlock .release dr) (ksOf dr s0) (Salsa.Rel s0) none (by
        intro s n hr _
        refine ⟨_, ?_, rfl⟩
        rw [hr]; exact genBlock_at' .release dr s0 n (.inl rfl)) _ s n a n' hr h (by intro L h; cases h)
      exact ⟨s', h1, h2⟩
    | debug =>
      by_cases hp : 2 ^ 64 ≤ n'
      · rw [if_pos ⟨rfl, hp⟩, hr]
        exact run_panics dr s0 1 (f 1) n a n' hn h hp
      · rw [if_neg (fun h => hp h.2)]
        exact run_ofBlock_ref 1 (genBlock .debug dr) (ksOf dr s0) (Salsa.Rel s0) (some (2 ^ 64 - 1)) (by
          intro s n hr hw
          refine ⟨_, ?_, rfl⟩
          rw [hr]
          have : n + 1 ≤ 2 ^ 64 - 1 := hw _ rfl
          exact genBlock_at' .debug dr s0 n (.inr (by omega))) _ s n a n' hr h (by intro L h; cases h; omega)
  remaining s c hr hc := (seekLaw χ u m dr s0).remaining s c hr (by intro L e; cases e; omega)
  getPos s c hr hc := (seekLaw χ u m dr s0).getPos s c hr (by omega)
  setPos s c b hr := by
    rw [hr]
    simp only [core, Salsa.Rel, at', setBlockPos_setBlockPos]

end Salsa
end Verif
