import Verif.Props.Separation
/-!
# Symmetries of the rounds (C74)
-/
namespace Verif
open Spec

/-- Every row turned left by `k` columns. -/
def turnRows (k : Fin 4) (s : Vector U32 16) : Vector U32 16 :=
  Vector.ofFn fun i => s[4 * (i.val / 4) + (i.val % 4 + k.val) % 4]'(by omega)

/-- Rows and columns turned together by `k`: every entry moves along its diagonal. -/
def turnDiagonals (k : Fin 4) (s : Vector U32 16) : Vector U32 16 :=
  Vector.ofFn fun i => s[4 * ((i.val / 4 + k.val) % 4) + (i.val % 4 + k.val) % 4]'(by omega)

theorem turnRows_zipWith (k : Fin 4) (f : U32 → U32 → U32) (s t : Vector U32 16) :
    turnRows k (Vector.zipWith f s t) = Vector.zipWith f (turnRows k s) (turnRows k t) := by
  apply Vector.ext; intro i hi
  simp only [turnRows, Vector.getElem_ofFn, Vector.getElem_zipWith]

theorem turnDiagonals_zipWith (k : Fin 4) (f : U32 → U32 → U32) (s t : Vector U32 16) :
    turnDiagonals k (Vector.zipWith f s t) = Vector.zipWith f (turnDiagonals k s) (turnDiagonals k t) := by
  apply Vector.ext; intro i hi
  simp only [turnDiagonals, Vector.getElem_ofFn, Vector.getElem_zipWith]

theorem turnRows_lit (x0 x1 x2 x3 x4 x5 x6 x7 x8 x9 x10 x11 x12 x13 x14 x15 : U32) :
    turnRows 1 #v[x0, x1, x2, x3, x4, x5, x6, x7, x8, x9, x10, x11, x12, x13, x14, x15] =
      #v[x1, x2, x3, x0, x5, x6, x7, x4, x9, x10, x11, x8, x13, x14, x15, x12] := by
  apply Vector.ext; apply forall_lt16 <;> (simp only [turnRows, Vector.getElem_ofFn]; rfl)

theorem turnDiagonals_lit (x0 x1 x2 x3 x4 x5 x6 x7 x8 x9 x10 x11 x12 x13 x14 x15 : U32) :
    turnDiagonals 1 #v[x0, x1, x2, x3, x4, x5, x6, x7, x8, x9, x10, x11, x12, x13, x14, x15] =
      #v[x5, x6, x7, x4, x9, x10, x11, x8, x13, x14, x15, x12, x1, x2, x3, x0] := by
  apply Vector.ext; apply forall_lt16 <;> (simp only [turnDiagonals, Vector.getElem_ofFn]; rfl)

theorem turnRows_succ (k : Fin 4) (s : Vector U32 16) : turnRows (k + 1) s = turnRows 1 (turnRows k s) := by
  apply Vector.ext; intro i hi
  simp only [turnRows, Vector.getElem_ofFn]
  congr 1
  rw [Fin.val_add]
  show _ = 4 * ((4 * (i / 4) + (i % 4 + 1) % 4) / 4) + ((4 * (i / 4) + (i % 4 + 1) % 4) % 4 + k.val) % 4
  show 4 * (i / 4) + (i % 4 + (k.val + 1) % 4) % 4 = _
  omega

theorem turnDiagonals_succ (k : Fin 4) (s : Vector U32 16) : turnDiagonals (k + 1) s = turnDiagonals 1 (turnDiagonals k s) := by
  apply Vector.ext; intro i hi
  simp only [turnDiagonals, Vector.getElem_ofFn]
  congr 1
  rw [Fin.val_add]
  show 4 * ((i / 4 + (k.val + 1) % 4) % 4) + (i % 4 + (k.val + 1) % 4) % 4 =
    4 * (((4 * ((i / 4 + 1) % 4) + (i % 4 + 1) % 4) / 4 + k.val) % 4) + ((4 * ((i / 4 + 1) % 4) + (i % 4 + 1) % 4) % 4 + k.val) % 4
  omega

theorem turnRows_zero (s : Vector U32 16) : turnRows 0 s = s := by
  apply Vector.ext; intro i hi
  simp only [turnRows, Vector.getElem_ofFn]
  congr 1
  show 4 * (i / 4) + (i % 4 + 0) % 4 = i
  omega

theorem turnDiagonals_zero (s : Vector U32 16) : turnDiagonals 0 s = s := by
  apply Vector.ext; intro i hi
  simp only [turnDiagonals, Vector.getElem_ofFn]
  congr 1
  show 4 * ((i / 4 + 0) % 4) + (i % 4 + 0) % 4 = i
  omega

/-- What commutes with one turn commutes with all. -/
theorem turn_all (T : Fin 4 → Vector U32 16 → Vector U32 16) (f : Vector U32 16 → Vector U32 16) (h0 : ∀ s, T 0 s = s)
    (hs : ∀ k s, T (k + 1) s = T 1 (T k s)) (h1 : ∀ s, f (T 1 s) = T 1 (f s)) : ∀ k s, f (T k s) = T k (f s) := by
  have step : ∀ k, (∀ s, f (T k s) = T k (f s)) → ∀ s, f (T (k + 1) s) = T (k + 1) (f s) :=
    fun k ih s => by rw [hs, hs, h1, ih]
  have z : ∀ s, f (T 0 s) = T 0 (f s) := fun s => by rw [h0, h0]
  exact ChaCha.fin4_cases z (step 0 z) (step 1 (step 0 z)) (step 2 (step 1 (step 0 z)))

theorem turnRows_doubleRound (k : Fin 4) (s : Vector U32 16) :
    ChaCha.doubleRound (turnRows k s) = turnRows k (ChaCha.doubleRound s) := by
  refine turn_all turnRows _ turnRows_zero turnRows_succ (fun s => ?_) k s
  rw [ChaCha.vec16_eta s, turnRows_lit, ChaCha.doubleRound_lit, ChaCha.doubleRound_lit]
  dsimp only
  rw [turnRows_lit]

theorem turnDiagonals_doubleRound (k : Fin 4) (s : Vector U32 16) :
    Salsa.doubleRound (turnDiagonals k s) = turnDiagonals k (Salsa.doubleRound s) := by
  refine turn_all turnDiagonals _ turnDiagonals_zero turnDiagonals_succ (fun s => ?_) k s
  rw [Salsa.vec16_eta s, turnDiagonals_lit, Salsa.doubleRound_lit, Salsa.doubleRound_lit]
  dsimp only
  rw [turnDiagonals_lit]

/-- **C74**, ChaCha: turning the columns of a state turns the columns of what the rounds and the final addition make of it, for any
number of double rounds. -/
theorem C74_chacha (dr : Nat) (k : Fin 4) (s : Vector U32 16) :
    ChaCha.runRounds dr (turnRows k s) = turnRows k (ChaCha.runRounds dr s) := by
  have h : iter dr ChaCha.doubleRound (turnRows k s) = turnRows k (iter dr ChaCha.doubleRound s) := by
    induction dr generalizing s with
    | zero => rfl
    | succ n ih =>
      show iter n ChaCha.doubleRound (ChaCha.doubleRound (turnRows k s)) = turnRows k (iter n ChaCha.doubleRound (ChaCha.doubleRound s))
      rw [turnRows_doubleRound, ih]
  show Vector.zipWith (· + ·) (iter dr ChaCha.doubleRound (turnRows k s)) (turnRows k s) =
    turnRows k (Vector.zipWith (· + ·) (iter dr ChaCha.doubleRound s) s)
  rw [turnRows_zipWith, h]

/-- **C74**, Salsa: the same for turns along the diagonals. -/
theorem C74_salsa (dr : Nat) (k : Fin 4) (s : Vector U32 16) :
    Salsa.runRounds dr (turnDiagonals k s) = turnDiagonals k (Salsa.runRounds dr s) := by
  have h : iter dr Salsa.doubleRound (turnDiagonals k s) = turnDiagonals k (iter dr Salsa.doubleRound s) := by
    induction dr generalizing s with
    | zero => rfl
    | succ n ih =>
      show iter n Salsa.doubleRound (Salsa.doubleRound (turnDiagonals k s)) = turnDiagonals k (iter n Salsa.doubleRound (Salsa.doubleRound s))
      rw [turnDiagonals_doubleRound, ih]
  show Vector.zipWith (· + ·) (iter dr Salsa.doubleRound (turnDiagonals k s)) (turnDiagonals k s) =
    turnDiagonals k (Vector.zipWith (· + ·) (iter dr Salsa.doubleRound s) s)
  rw [turnDiagonals_zipWith, h]

/-- The turns are not trivial. -/
example : turnRows 1 (Vector.ofFn fun i : Fin 16 => BitVec.ofNat 32 i.val) ≠ Vector.ofFn fun i : Fin 16 => BitVec.ofNat 32 i.val := by
  intro h
  have e := congrArg (fun v : Vector U32 16 => v[0]) h
  simp only [turnRows, Vector.getElem_ofFn] at e
  exact absurd e (by decide)

example : turnDiagonals 1 (Vector.ofFn fun i : Fin 16 => BitVec.ofNat 32 i.val) ≠ Vector.ofFn fun i : Fin 16 => BitVec.ofNat 32 i.val := by
  intro h
  have e := congrArg (fun v : Vector U32 16 => v[0]) h
  simp only [turnDiagonals, Vector.getElem_ofFn] at e
  exact absurd e (by decide)

/-- **C74**.  So a state with four equal columns is taken to one with four equal columns, and a Salsa state that is constant along the
diagonals to one that is. -/
theorem C74_fixed (dr : Nat) (k : Fin 4) (s : Vector U32 16) :
    (turnRows k s = s → turnRows k (ChaCha.runRounds dr s) = ChaCha.runRounds dr s) ∧
    (turnDiagonals k s = s → turnDiagonals k (Salsa.runRounds dr s) = Salsa.runRounds dr s) :=
  ⟨fun h => by rw [← C74_chacha, h], fun h => by rw [← C74_salsa, h]⟩

example : turnRows 1 (Vector.ofFn fun i : Fin 16 => BitVec.ofNat 32 (i.val / 4)) = Vector.ofFn fun i : Fin 16 => BitVec.ofNat 32 (i.val / 4) := by
  apply Vector.ext; apply forall_lt16 <;> (simp only [turnRows, Vector.getElem_ofFn]; decide)

/-- **C74**, at the public interface of Salsa: the blocks of two cores made by `from_raw_state` from a state and the same state turned
along its diagonals consist of the same words, turned. -/
theorem C74_raw (m : Mode) (dr : Nat) (k : Fin 4) (s : Vector U32 16) (b b' : Vector U8 64) (t t' : Vector U32 16)
    (h : Salsa.genBlock m dr (Salsa.fromRawState s) = .ok (b, t))
    (h' : Salsa.genBlock m dr (Salsa.fromRawState (turnDiagonals k s)) = .ok (b', t')) (i : Nat) (hi : i < 16) (j : Nat) (hj : j < 4) :
    b'[4 * i + j] = b[4 * (4 * ((i / 4 + k.val) % 4) + (i % 4 + k.val) % 4) + j] := by
  have e : ∀ (s : Vector U32 16) (b : Vector U8 64) (t : Vector U32 16), Salsa.genBlock m dr (Salsa.fromRawState s) = .ok (b, t) →
      b = leBytes (Salsa.runRounds dr s) := by
    intro s b t h
    rw [C32_raw] at h
    split at h
    · nomatch h
    · exact (Prod.mk.inj (Except.ok.inj h)).1.symm.trans (Salsa.leBytes_runRounds dr s).symm
  rw [e _ _ _ h, e _ _ _ h', C74_salsa]
  rw [leBytes_getElem _ _ (by omega), leBytes_getElem _ _ (by omega)]
  have e1 : (4 * i + j) / 4 = i := by omega
  have e2 : (4 * (4 * ((i / 4 + k.val) % 4) + (i % 4 + k.val) % 4) + j) / 4 = 4 * ((i / 4 + k.val) % 4) + (i % 4 + k.val) % 4 := by omega
  have e3 : (4 * i + j) % 4 = (4 * (4 * ((i / 4 + k.val) % 4) + (i % 4 + k.val) % 4) + j) % 4 := by omega
  simp only [e1, e2, e3, turnDiagonals, Vector.getElem_ofFn]

/-- Neither of the two cores panics. -/
example : ∃ b t b' t', Salsa.genBlock .debug 10 (Salsa.fromRawState (Vector.ofFn fun i : Fin 16 => BitVec.ofNat 32 i.val)) = .ok (b, t) ∧
    Salsa.genBlock .debug 10 (Salsa.fromRawState (turnDiagonals 1 (Vector.ofFn fun i : Fin 16 => BitVec.ofNat 32 i.val))) = .ok (b', t') := by
  rw [C32_raw, C32_raw, if_neg (by decide +kernel), if_neg (by decide +kernel)]
  exact ⟨_, _, _, _, rfl, rfl⟩

/-- The symmetry that belongs to the cipher. -/
def SeekCipher.turn (c : SeekCipher) (k : Fin 4) (s : Vector U32 16) : Vector U32 16 :=
  if c.layout = 2 then turnDiagonals k s else turnRows k s

theorem chacha_constants (s : Vector U32 16) (key : Vector U8 32) (r : Fin 4 → U32) (h : rows s = Spec.ChaCha.setup key r) (k : Fin 4) :
    s[k.val] = leWord Spec.ChaCha.sigma k.val := by
  have e := congrArg (fun m : Vector (Vector U32 4) 4 => m[0][k.val]) h
  simp only [rows, Spec.ChaCha.setup, Spec.ChaCha.mat, Vector.getElem_ofFn, Nat.mul_zero, Nat.zero_add] at e
  exact e

theorem salsa_constants (s : Vector U32 16) (key : Vector U8 32) (r : Fin 4 → U32) (h : rows s = Spec.Salsa.expand key r) (k : Fin 4) :
    s[5 * k.val] = leWord Spec.Salsa.sigma k.val := by
  have e := congrArg (fun m : Vector (Vector U32 4) 4 => m[k.val][k.val]) h
  simp only [rows, Vector.getElem_ofFn] at e
  have e5 : s[4 * k.val + k.val] = s[5 * k.val] := by congr 1; omega
  rw [← e5, e]
  revert k
  apply ChaCha.fin4_cases <;> (intros; rfl)

theorem sigma_distinct : ∀ k : Fin 4, k ≠ 0 → leWord Spec.ChaCha.sigma k.val ≠ leWord Spec.ChaCha.sigma 0 := by decide

/-- **C74**.  The constants break the symmetry: the states that two objects of one family (ChaCha and XChaCha of both counter widths, or
Salsa and XSalsa) are in, whatever their keys and nonces and after any calls, are never turns of each other. -/
theorem C74_unreachable (u : Nat) (c c' : SeekCipher) (hk : c.layout = 2 ↔ c'.layout = 2) (k : Fin 4) (hk0 : k ≠ 0)
    (h h' : List (ChaCha.Env × SeekOp)) (w₀ w : c.Obj u) (w₀' w' : c'.Obj u) (os os' : List Obs)
    (hc : c.create u = .ok w₀) (hr : runHistory (c.step u) h w₀ = .ok (os, w))
    (hc' : c'.create u = .ok w₀') (hr' : runHistory (c'.step u) h' w₀' = .ok (os', w')) :
    c.words u w ≠ c'.turn k (c'.words u w') := by
  obtain ⟨n, hn, e⟩ := C12_input u c h w₀ os w hc hr
  obtain ⟨n', hn', e'⟩ := C12_input u c' h' w₀' os' w' hc' hr'
  intro he
  generalize c.words u w = s at e he
  generalize c'.words u w' = s' at e' he
  have he0 := congrArg (fun v : Vector U32 16 => v[0]) he
  by_cases h2 : c'.layout = 2
  · have a : s[5 * (0 : Fin 4).val] = leWord Spec.Salsa.sigma (0 : Fin 4).val := by
      have := hk.2 h2
      cases c <;> simp only [SeekCipher.layout, Nat.reduceEqDiff] at this
      · simp only [SeekCipher.input, Spec.Salsa.input] at e
        exact salsa_constants s _ _ e 0
      · simp only [SeekCipher.input, Spec.Salsa.input] at e
        exact salsa_constants s _ _ e 0
    have a' : s'[5 * k.val] = leWord Spec.Salsa.sigma k.val := by
      cases c' <;> simp only [SeekCipher.layout, Nat.reduceEqDiff] at h2
      · simp only [SeekCipher.input, Spec.Salsa.input] at e'
        exact salsa_constants s' _ _ e' k
      · simp only [SeekCipher.input, Spec.Salsa.input] at e'
        exact salsa_constants s' _ _ e' k
    have t : (c'.turn k s')[0] = s'[5 * k.val] := by
      rw [SeekCipher.turn, if_pos h2]
      simp only [turnDiagonals, Vector.getElem_ofFn]
      congr 1; omega
    exact sigma_distinct k hk0 (a'.symm.trans (t.symm.trans (he0.symm.trans a)))
  · have h2' : c.layout ≠ 2 := fun e => h2 (hk.1 e)
    have a : s[(0 : Fin 4).val] = leWord Spec.ChaCha.sigma (0 : Fin 4).val := by
      cases c <;> simp only [SeekCipher.layout, ne_eq, Nat.reduceEqDiff, not_true] at h2'
      · exact chacha_constants s _ _ e 0
      · exact chacha_constants s _ _ e 0
      · exact chacha_constants s _ _ e 0
    have a' : s'[k.val] = leWord Spec.ChaCha.sigma k.val := by
      cases c' <;> simp only [SeekCipher.layout, Nat.reduceEqDiff, not_true] at h2
      · exact chacha_constants s' _ _ e' k
      · exact chacha_constants s' _ _ e' k
      · exact chacha_constants s' _ _ e' k
    have t : (c'.turn k s')[0] = s'[k.val] := by
      rw [SeekCipher.turn, if_neg h2]
      simp only [turnRows, Vector.getElem_ofFn]
      congr 1; omega
    exact sigma_distinct k hk0 (a'.symm.trans (t.symm.trans (he0.symm.trans a)))

/-- The hypotheses hold for objects under two keys, used in the same way. -/
example (h : List (ChaCha.Env × SeekOp)) (hal : ∀ e ∈ h, Sample.chacha20.Allowed 64 e.2) :
    ∃ w₀ os w, Sample.chacha20.create 64 = .ok w₀ ∧ runHistory (Sample.chacha20.step 64) h w₀ = .ok (os, w) ∧
      Sample.chacha20.words 64 w ≠ Sample.chacha20.turn 3 (Sample.chacha20.words 64 w) := by
  obtain ⟨w, hr⟩ := Sample.chacha20.reach_exists 64 h hal
  obtain ⟨w₀, hc, hrun⟩ := hr.run
  exact ⟨w₀, _, w, hc, hrun, C74_unreachable 64 _ _ Iff.rfl 3 (by decide) h h _ _ _ _ _ _ hc hrun hc hrun⟩

end Verif
