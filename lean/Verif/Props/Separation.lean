import Verif.Props.Structure
import Verif.Props.Streams
import Verif.Props.Rng
/-!
# Fixed raw states of Salsa, the period of the RNGs, reuse of keystream, separation of inputs (C67 - C70)
-/
namespace Verif
open Spec

/-! ## C67 -/

/-- The state with `z` and `-z` in checkerboard order. -/
def checker (z : U32) : Vector U32 16 := Vector.ofFn fun i => if (i.val / 4 + i.val % 4) % 2 = 0 then z else -z

theorem rotl_zero (r : Nat) : (0#32 : U32).rotateLeft r = 0#32 := by
  apply BitVec.eq_of_getLsbD_eq
  intro i hi
  rw [BitVec.getLsbD_rotateLeft]
  simp

/-- A quarter round does nothing if neighbours cancel. -/
theorem quarterRound_cancel (a b c d : Fin 16) (s : Vector U32 16) (h1 : s[a] + s[d] = 0#32) (h2 : s[b] + s[a] = 0#32)
    (h3 : s[c] + s[b] = 0#32) (h4 : s[d] + s[c] = 0#32) : Salsa.quarterRound a b c d s = s := by
  have e : ∀ (i : Fin 16) (r : Nat), s.set i (s[i] ^^^ (0#32 : U32).rotateLeft r) = s := by
    intro i r
    rw [rotl_zero, BitVec.xor_zero]
    apply Vector.ext
    intro j hj
    rw [Vector.getElem_set]
    split
    · next h => subst h; rfl
    · rfl
  unfold Salsa.quarterRound
  dsimp only
  simp only [h1, e, h2, h3, h4]

theorem checker_doubleRound (z : U32) : Salsa.doubleRound (checker z) = checker z := by
  have p : z + -z = 0#32 := by rw [← BitVec.sub_eq_add_neg, BitVec.sub_self]
  have q : -z + z = 0#32 := by rw [BitVec.add_comm, p]
  have g : ∀ i : Fin 16, (checker z)[i] = if (i.val / 4 + i.val % 4) % 2 = 0 then z else -z := by
    intro i
    simp only [checker, Fin.getElem_fin, Vector.getElem_ofFn]
  have all : ∀ a b : Fin 16, (a.val / 4 + a.val % 4) % 2 ≠ (b.val / 4 + b.val % 4) % 2 → (checker z)[a] + (checker z)[b] = 0#32 := by
    intro a b h
    rw [g, g]
    by_cases ha : (a.val / 4 + a.val % 4) % 2 = 0
    · rw [if_pos ha, if_neg (by omega), p]
    · rw [if_neg ha, if_pos (by omega), q]
  have k : ∀ a b c d : Fin 16, (a.val / 4 + a.val % 4) % 2 ≠ (d.val / 4 + d.val % 4) % 2 → (b.val / 4 + b.val % 4) % 2 ≠ (a.val / 4 + a.val % 4) % 2 →
      (c.val / 4 + c.val % 4) % 2 ≠ (b.val / 4 + b.val % 4) % 2 → (d.val / 4 + d.val % 4) % 2 ≠ (c.val / 4 + c.val % 4) % 2 →
      Salsa.quarterRound a b c d (checker z) = checker z :=
    fun a b c d h1 h2 h3 h4 => quarterRound_cancel a b c d _ (all _ _ h1) (all _ _ h2) (all _ _ h3) (all _ _ h4)
  unfold Salsa.doubleRound
  dsimp only
  rw [k 0 4 8 12 (by decide) (by decide) (by decide) (by decide), k 5 9 13 1 (by decide) (by decide) (by decide) (by decide),
    k 10 14 2 6 (by decide) (by decide) (by decide) (by decide), k 15 3 7 11 (by decide) (by decide) (by decide) (by decide),
    k 0 1 2 3 (by decide) (by decide) (by decide) (by decide), k 5 6 7 4 (by decide) (by decide) (by decide) (by decide),
    k 10 11 8 9 (by decide) (by decide) (by decide) (by decide), k 15 12 13 14 (by decide) (by decide) (by decide) (by decide)]

theorem checker_rounds (dr : Nat) (z : U32) : iter dr Salsa.doubleRound (checker z) = checker z := by
  induction dr with
  | zero => rfl
  | succ n ih =>
    show iter n Salsa.doubleRound (Salsa.doubleRound (checker z)) = _
    rw [checker_doubleRound, ih]

theorem checker_pos (z : U32) : (Salsa.getBlockPos (checker z)).toNat + 1 ≤ 2 ^ 64 - 1 := by
  rw [Salsa.getBlockPos_toNat]
  have h8 : (checker z)[8] = z := by simp [checker]
  have h9 : (checker z)[9] = -z := by simp [checker]
  rw [h8, h9, BitVec.toNat_neg]
  have := z.isLt
  omega

/-- **C67**.  The rounds do nothing to a checkerboard state, however many there are: the first block that a core made from it by
`from_raw_state` puts out has the words `2z` and `-2z`, in the same order. -/
theorem C67_checkerboard {χ : Type} (u : Nat) (m : Mode) (dr : Nat) (x : χ) (z : U32) :
    ∃ t, (Salsa.core χ u m dr).process x (writeBlocksClosure 1) (Salsa.fromRawState (checker z)) =
      .ok ([(List.range 64).map fun k =>
        leByte (if (k / 16 + k / 4 % 4) % 2 = 0 then z + z else -(z + z)).toNat (k % 4)], t) := by
  have h := Salsa.process_of_ref u m dr x (writeBlocksClosure 1) (checker z) _ 1 (.inr (checker_pos z)) (writeBlocks_ref _ 1 (by decide) 1 _)
  refine ⟨Salsa.at' (checker z) ((Salsa.getBlockPos (checker z)).toNat + 1), h.trans ?_⟩
  have hs : Salsa.at' (checker z) (Salsa.getBlockPos (checker z)).toNat = checker z := by
    rw [Salsa.at', BitVec.ofNat_toNat, BitVec.setWidth_eq, Salsa.setBlockPos_getBlockPos]
  have hb : (blocksFrom (Salsa.ksOf dr (checker z)) (Salsa.getBlockPos (checker z)).toNat 1).map (·.toList) =
      [(Salsa.ksOf dr (checker z) (Salsa.getBlockPos (checker z)).toNat).toList] := by
    generalize (Salsa.getBlockPos (checker z)).toNat = n
    generalize Salsa.ksOf dr (checker z) = f
    rfl
  rw [hb]
  refine congrArg (fun b : List U8 => (Except.ok ([b], Salsa.at' (checker z) ((Salsa.getBlockPos (checker z)).toNat + 1)) :
    Except Panic (List (List U8) × Vector U32 16))) ?_
  rw [Salsa.ksOf, hs, Salsa.runRounds, checker_rounds]
  have hn : -z + -z = -(z + z) := by
    apply BitVec.eq_of_toNat_eq
    simp only [BitVec.toNat_add, BitVec.toNat_neg]
    have := z.isLt
    omega
  apply List.ext_getElem
  · simp only [Vector.length_toList, List.length_map, List.length_range]
  intro k h1 h2
  rw [Vector.length_toList] at h1
  rw [Vector.getElem_toList, leBytes_getElem _ k h1, List.getElem_map, List.getElem_range, Vector.getElem_zipWith]
  refine congrArg (fun w : U32 => leByte w.toNat (k % 4)) ?_
  simp only [checker, Vector.getElem_ofFn]
  rw [show k / 4 / 4 = k / 16 by omega]
  split
  · rfl
  · exact hn

/-- `z = 1`: the block consists of the words 2 and -2. -/
example : ∃ l t, (Salsa.core Unit 64 .debug 10).process () (writeBlocksClosure 1) (Salsa.fromRawState (checker 1)) = .ok ([l], t) ∧
    l.take 8 = [2, 0, 0, 0, 0xFE, 0xFF, 0xFF, 0xFF] := by
  obtain ⟨t, h⟩ := C67_checkerboard (χ := Unit) 64 .debug 10 () 1
  exact ⟨_, t, h, by decide +kernel⟩

/-- The constants of a keyed state rule it out. -/
theorem C67_unreachable (key : Vector U8 32) (nonce : Vector U8 8) (b : U64) (z : U32) :
    Salsa.setBlockPos (Salsa.new key nonce) b ≠ checker z := by
  intro h
  have e0 := congrArg (fun v : Vector U32 16 => v[0]) h
  have e5 := congrArg (fun v : Vector U32 16 => v[5]) h
  rw [Salsa.setBlockPos_other _ _ _ (by decide) (by decide) (by decide), Salsa.new_eq] at e0
  rw [Salsa.setBlockPos_other _ _ _ (by decide) (by decide) (by decide), Salsa.new_eq] at e5
  have h0 : (0x61707865#32 : U32) = z := e0.trans (by simp [checker])
  have h5 : (0x3320646e#32 : U32) = z := e5.trans (by simp [checker])
  exact absurd (h0.trans h5.symm) (by decide)

example : Salsa.setBlockPos (Salsa.new (Vector.replicate 32 0) (Vector.replicate 8 0)) 0#64 ≠ checker 0 := C67_unreachable _ _ _ _

/-! ## C69 -/

theorem xor_pads (l l' k : List U8) (h : l'.length = l.length) (hk : k.length = l.length) :
    List.zipWith (· ^^^ ·) (List.zipWith (· ^^^ ·) l k) (List.zipWith (· ^^^ ·) l' k) = List.zipWith (· ^^^ ·) l l' := by
  apply List.ext_getElem
  · simp only [List.length_zipWith]; omega
  intro i h1 h2
  have hi : i < l.length := by rw [List.length_zipWith] at h2; omega
  have hi' : i < l'.length := by omega
  have hik : i < k.length := by omega
  simp only [List.getElem_zipWith]
  rw [BitVec.xor_assoc, BitVec.xor_comm l'[i] k[i], ← BitVec.xor_assoc k[i], BitVec.xor_self, BitVec.zero_xor]

section
variable {χ σ ι : Type} {step : χ → σ → ι → Except Panic (Obs × σ)} {ok : ι → Prop} {cstep : Nat → ι → Obs × Nat}
  {emb : Op → ι} {toSeek : ι → SeekOp} {st : Nat → U8} {limit : Option Nat} {u : Nat}

theorem pads_generic (L : IoLike u ok cstep emb toSeek st limit) {w w' : σ} {p : Nat}
    (hp : Within limit p) (hs : Simulates step ok cstep w p) (hs' : Simulates step ok cstep w' p)
    (cs : List (χ × List U8)) (hcs : ∀ e ∈ cs, e.2.length < 2 ^ u) (os : List Obs) (v : σ)
    (henc : runHistory step (applies emb cs) w = .ok (os, v)) (ct : List U8) (hct : outBytes os = some ct)
    (cs' : List (χ × List U8)) (hcs' : ∀ e ∈ cs', e.2.length < 2 ^ u) (hlen : (message cs').length = (message cs).length) :
    ∃ os' v' ct', runHistory step (applies emb cs') w' = .ok (os', v') ∧ outBytes os' = some ct' ∧
      List.zipWith (· ^^^ ·) ct ct' = List.zipWith (· ^^^ ·) (message cs) (message cs') := by
  obtain ⟨v1, h1, _⟩ := hs.applies_run L cs hcs
  rw [henc] at h1
  simp only [Except.ok.injEq, Prod.mk.injEq] at h1
  rw [h1.1] at hct
  have hw := Cursor.applies_within st limit _ p hp ct hct
  have hout := (Cursor.run_applies st limit _ p hw).1
  rw [hct] at hout
  obtain ⟨v2, h2, _⟩ := hs'.applies_run L cs' hcs'
  have h3 := (Cursor.run_applies st limit (cs'.map (·.2)) p (by
    have := hlen
    simp only [message] at this
    rw [this]; exact hw)).1
  refine ⟨_, v2, _, h2, h3, ?_⟩
  rw [Option.some.inj hout]
  show List.zipWith (· ^^^ ·) (List.zipWith (· ^^^ ·) (message cs) (window st p (message cs).length))
    (List.zipWith (· ^^^ ·) (message cs') (window st p (message cs').length)) = _
  rw [hlen]
  exact xor_pads _ _ _ hlen (window_length ..)

end

/-- **C69**, seekable ciphers.  Two objects of the same cipher (type, key, nonce) stand at the same position.  If one encrypts a message,
the other can encrypt any message of the same length, cut in any way; and the two outputs differ exactly where, and as, the
inputs do. -/
theorem C69_seekable (u : Nat) (c : SeekCipher) {h h' : List (ChaCha.Env × SeekOp)} {os os' : List Obs} {w w' : c.Obj u}
    (hr : c.Reach u h os w) (hr' : c.Reach u h' os' w') (hpos : SeekCipher.booked h os = SeekCipher.booked h' os')
    (cs : List (ChaCha.Env × List U8)) (hcs : ∀ e ∈ cs, e.2.length < 2 ^ u)
    (oe : List Obs) (v : c.Obj u) (henc : runHistory (c.step u) (applies .io cs) w = .ok (oe, v))
    (ct : List U8) (hct : outBytes oe = some ct)
    (cs' : List (ChaCha.Env × List U8)) (hcs' : ∀ e ∈ cs', e.2.length < 2 ^ u)
    (hlen : (message cs').length = (message cs).length) :
    ∃ od v' ct', runHistory (c.step u) (applies .io cs') w' = .ok (od, v') ∧ outBytes od = some ct' ∧
      List.zipWith (· ^^^ ·) ct ct' = List.zipWith (· ^^^ ·) (message cs) (message cs') := by
  have h' := hr'.simulates.1
  rw [← hpos] at h'
  exact pads_generic (c.ioLike u) hr.simulates.2 hr.simulates.1 h' cs hcs oe v henc ct hct cs' hcs' hlen

/-- Two seven-byte messages in different pieces under one ChaCha20 object state. -/
example : ∃ os w oe v ct od v' ct', Sample.chacha20.Reach 64 Sample.history os w ∧
    runHistory (Sample.chacha20.step 64) (applies .io [(Sample.avx2, [1, 2, 3]), (Sample.soft, [4, 5, 6, 7])]) w = .ok (oe, v) ∧
    outBytes oe = some ct ∧
    runHistory (Sample.chacha20.step 64) (applies .io [(Sample.soft, [9, 9, 9, 9, 9, 9, 9])]) w = .ok (od, v') ∧ outBytes od = some ct' ∧
    List.zipWith (· ^^^ ·) ct ct' = [8, 11, 10, 13, 12, 15, 14] := by
  obtain ⟨os, w, hw, hb⟩ := Sample.chacha20_at5
  have hs := hw.simulates
  rw [hb] at hs
  obtain ⟨v, h1, _⟩ := hs.1.applies_run (Sample.chacha20.ioLike 64)
    [(Sample.avx2, [1, 2, 3]), (Sample.soft, [4, 5, 6, 7])] (by decide)
  have h2 := (Cursor.run_applies Sample.chacha20.stream (some (64 * Sample.chacha20.blocks))
    [[1, 2, 3], [4, 5, 6, 7]] 5 (by decide)).1
  obtain ⟨od, v', ct', h3, h4, h5⟩ := C69_seekable 64 _ hw hw rfl [(Sample.avx2, [1, 2, 3]), (Sample.soft, [4, 5, 6, 7])] (by decide)
    _ v h1 _ h2 [(Sample.soft, [9, 9, 9, 9, 9, 9, 9])] (by decide) rfl
  exact ⟨os, w, _, v, _, od, v', ct', hw, h1, h2, h3, h4, h5.trans (by decide)⟩

/-- **C69**, other ciphers. -/
theorem C69_plain (u : Nat) (hu : 16 ≤ u) (c : PlainCipher) {h h' : List (Unit × Op)} {os os' : List Obs} {w w' : c.Obj}
    (hr : c.Reach u h os w) (hr' : c.Reach u h' os' w') (hpos : PlainCipher.booked h os = PlainCipher.booked h' os')
    (cs : List (Unit × List U8)) (hcs : ∀ e ∈ cs, e.2.length < 2 ^ u)
    (cs' : List (Unit × List U8)) (hcs' : ∀ e ∈ cs', e.2.length < 2 ^ u)
    (hlen : (message cs').length = (message cs).length) :
    ∃ oe v ct od v' ct', runHistory (c.step u) (applies id cs) w = .ok (oe, v) ∧ outBytes oe = some ct ∧
      runHistory (c.step u) (applies id cs') w' = .ok (od, v') ∧ outBytes od = some ct' ∧
      List.zipWith (· ^^^ ·) ct ct' = List.zipWith (· ^^^ ·) (message cs) (message cs') := by
  have hs := hr.simulates hu
  have hs' := hr'.simulates hu
  rw [← hpos] at hs'
  obtain ⟨v, h1, _⟩ := hs.applies_run (c.ioLike u) cs hcs
  have hw : Within none (PlainCipher.booked h os + (cs.map (·.2)).flatten.length) := by intro L h; cases h
  have h2 := (Cursor.run_applies c.stream none _ _ hw).1
  obtain ⟨od, v', ct', h3, h4, h5⟩ :=
    pads_generic (c.ioLike u) (by intro L h; cases h) hs hs' cs hcs _ v h1 _ h2 cs' hcs' hlen
  exact ⟨_, v, _, od, v', ct', h1, h2, h3, h4, h5⟩

/-- Two messages of seven bytes in different pieces. -/
example : (message [(Sample.avx2, [1, 2, 3]), (Sample.soft, [4, 5, 6, 7])]).length =
    (message [(Sample.soft, [9, 9, 9, 9, 9, 9, 9])]).length := rfl

/-! ## C68 -/

open ChaCha (Env)
open ChaCha.Rng (Reach Rel cursor Same)
open Verif.Spec.Rng (St RngOp RngObs)

/-- Number of words that a call takes from the stream; `none` for calls other than draws. -/
def drawn : RngOp → Option Nat
  | .nextU32 => some 1
  | .nextU64 => some 2
  | .fill n => some ((n + 3) / 4)
  | _ => none

/-- Total of a series of draws. -/
def drawnAll : List RngOp → Option Nat
  | [] => some 0
  | op :: h => do return (← drawn op) + (← drawnAll h)

theorem drawnAll_run (dr : Nat) (h : List RngOp) (n : Nat) (hn : drawnAll h = some n) (a : St) (ha : a.pos < 2 ^ 68) :
    (Spec.Rng.run dr h a).2 = a.move n := by
  induction h generalizing a n with
  | nil =>
    cases hn
    obtain ⟨x, y, z⟩ := a
    simp only [Spec.Rng.run, St.move, Nat.add_zero, St.mk.injEq, true_and]
    exact (Nat.mod_eq_of_lt ha).symm
  | cons op h ih =>
    simp only [drawnAll, bind, Option.bind, pure] at hn
    cases hd : drawn op with
    | none => rw [hd] at hn; cases hn
    | some d =>
      cases hh : drawnAll h with
      | none => rw [hd, hh] at hn; cases hn
      | some k =>
        rw [hd, hh] at hn
        simp only [Option.some.injEq] at hn
        have e : (Spec.Rng.step dr a op).2 = a.move d := by
          cases op <;> first | (cases hd; rfl) | cases hd
        have hlt : (a.move d).pos < 2 ^ 68 := Nat.mod_lt _ (by decide)
        show (Spec.Rng.run dr h (Spec.Rng.step dr a op).2).2 = _
        rw [e, ih k hh _ hlt, ← hn]
        simp only [St.move, St.mk.injEq, true_and]
        omega

theorem ChaCha.Rng.run_append (m : Mode) (dr : Nat) (k : List (Env × RngOp)) (os' : List RngObs) (r' : ChaCha.Rng) (h : List (Env × RngOp)) :
    ∀ (os : List RngObs) (r₀ r : ChaCha.Rng), ChaCha.Rng.run m dr h r₀ = .ok (os, r) → ChaCha.Rng.run m dr k r = .ok (os', r') →
      ChaCha.Rng.run m dr (h ++ k) r₀ = .ok (os ++ os', r') := by
  induction h with
  | nil =>
    intro os r₀ r h1 h2
    simp only [ChaCha.Rng.run, Except.ok.injEq, Prod.mk.injEq] at h1
    rw [← h1.1, h1.2]
    exact h2
  | cons x h ih =>
    intro os r₀ r h1 h2
    obtain ⟨e, op⟩ := x
    rw [ChaCha.Rng.run] at h1
    obtain ⟨⟨o, r1⟩, h3, h4⟩ := ChaCha.Rng.bind_eq_ok h1
    obtain ⟨⟨os1, r2⟩, h5, h6⟩ := ChaCha.Rng.bind_eq_ok h4
    simp only [pure, Except.pure, Except.ok.injEq, Prod.mk.injEq] at h6
    rw [h6.2] at h5
    rw [List.cons_append, ChaCha.Rng.run, h3]
    show (ChaCha.Rng.run m dr (h ++ k) r1 >>= _) = _
    rw [ih os1 r1 r h5 h2, ← h6.1]
    rfl

theorem specRun_append (dr : Nat) (h k : List RngOp) (a : St) :
    (Spec.Rng.run dr (h ++ k) a).2 = (Spec.Rng.run dr k (Spec.Rng.run dr h a).2).2 := by
  induction h generalizing a with
  | nil => rfl
  | cons op h ih => exact ih (Spec.Rng.step dr a op).2

section
variable {m : Mode} {dr : Nat} {seed : Vector U8 32} {h : List (Env × RngOp)} {os : List RngObs} {r : ChaCha.Rng}

/-- **C68**.  However a generator got where it is: after draws of `n` words in all it compares equal to what it was iff `2^68` divides
`n`, iff no calls can tell the two apart. -/
theorem C68_period (hr : Reach m dr seed h os r) (k : List (Env × RngOp)) (n : Nat) (hn : drawnAll (k.map (·.2)) = some n)
    (os' : List RngObs) (r' : ChaCha.Rng) (hk : ChaCha.Rng.run m dr k r = .ok (os', r')) :
    (ChaCha.Rng.eq r r' = true ↔ 2 ^ 68 ∣ n) ∧ ((∀ m', Same m' dr r r') ↔ 2 ^ 68 ∣ n) := by
  have hr' : Reach m dr seed (h ++ k) (os ++ os') r' := by
    obtain ⟨r₀, h0, h1⟩ := hr
    exact ⟨r₀, h0, ChaCha.Rng.run_append m dr k os' r' h os r₀ r h1 hk⟩
  have hc : cursor dr seed (h ++ k) = (cursor dr seed h).move n := by
    have := drawnAll_run dr (k.map (·.2)) n hn (cursor dr seed h) hr.rel.pos_lt
    rw [← this]
    unfold cursor
    rw [List.map_append, specRun_append]
  have key : ChaCha.Rng.eq r r' = true ↔ 2 ^ 68 ∣ n := by
    rw [(C23_equality hr hr').1, hc]
    have hlt := hr.rel.pos_lt
    generalize cursor dr seed h = a at hlt ⊢
    obtain ⟨x, y, z⟩ := a
    simp only [St.move, St.mk.injEq, true_and] at hlt ⊢
    omega
  exact ⟨key, (C23_equality hr hr').2.symm.trans key⟩

end

/-- Draws of `2^68` words in all, from a generator with a history; and of one word less. -/
example : drawnAll [.nextU64, .fill (4 * (2 ^ 68 - 3)), .nextU32] = some (2 ^ 68) ∧ drawnAll [.nextU64, .fill (4 * (2 ^ 68 - 3))] = some (2 ^ 68 - 1) := by
  constructor <;> rfl

/-! ## C70 -/

/-- Layout of the state: 0 for a 32-bit counter and 96-bit nonce, 1 for a 64-bit counter and 64-bit nonce, 2 for Salsa's. -/
def SeekCipher.layout : SeekCipher → Nat
  | .chacha .. => 0
  | .xchacha .. => 0
  | .chachaLegacy .. => 1
  | .salsa .. => 2
  | .xsalsa .. => 2

/-- Key and nonce of the core: those given to `new`, or those derived from them. -/
def SeekCipher.ident : SeekCipher → Vector U8 32 × List U8
  | .chacha _ key nonce => (key, nonce.toList)
  | .xchacha dr key nonce => (Spec.ChaCha.xSubkey dr key nonce, (Spec.ChaCha.xNonce nonce).toList)
  | .chachaLegacy _ key nonce => (key, nonce.toList)
  | .salsa _ _ key nonce => (key, nonce.toList)
  | .xsalsa _ dr key nonce => (Spec.Salsa.hsalsa dr key (Vector.ofFn fun i : Fin 16 => nonce[i.val]),
      (Vector.ofFn fun i : Fin 8 => nonce[16 + i.val] : Vector U8 8).toList)

theorem ident_of_input (c c' : SeekCipher) (hk : c.layout = c'.layout) (n n' : Nat) (hn : n < 2 ^ c.ctrBits) (hn' : n' < 2 ^ c'.ctrBits)
    (h : c.input n = c'.input n') : c.ident = c'.ident := by
  cases c <;> cases c' <;> simp only [SeekCipher.layout, reduceCtorEq, Nat.reduceEqDiff] at hk
  all_goals simp only [SeekCipher.input, SeekCipher.ctrBits, SeekCipher.ident] at h hn hn' ⊢
  · obtain ⟨h1, h2, _⟩ := ietfInput_inj _ _ _ _ _ _ hn hn' h; rw [h1, h2]
  · obtain ⟨h1, h2, _⟩ := ietfInput_inj _ _ _ _ _ _ hn hn' h; rw [h1, h2]
  · obtain ⟨h1, h2, _⟩ := djbInput_inj _ _ _ _ _ _ hn hn' h; rw [h1, h2]
  · obtain ⟨h1, h2, _⟩ := ietfInput_inj _ _ _ _ _ _ hn hn' h; rw [h1, h2]
  · obtain ⟨h1, h2, _⟩ := ietfInput_inj _ _ _ _ _ _ hn hn' h; rw [h1, h2]
  · obtain ⟨h1, h2, _⟩ := salsaInput_inj _ _ _ _ _ _ hn hn' h; rw [h1, h2]
  · obtain ⟨h1, h2, _⟩ := salsaInput_inj _ _ _ _ _ _ hn hn' h; rw [h1, h2]
  · obtain ⟨h1, h2, _⟩ := salsaInput_inj _ _ _ _ _ _ hn hn' h; rw [h1, h2]
  · obtain ⟨h1, h2, _⟩ := salsaInput_inj _ _ _ _ _ _ hn hn' h; rw [h1, h2]

/-- **C70**.  Objects of types with the same layout of the state - with any keys, nonces and numbers of rounds, after any calls
whatsoever - are never in the same core state, unless their cores have the same key and nonce (for the types with
extended nonces: the same derived key and the same nonce tail). -/
theorem C70_objects (u : Nat) (c c' : SeekCipher) (hk : c.layout = c'.layout)
    (h h' : List (ChaCha.Env × SeekOp)) (w₀ w : c.Obj u) (w₀' w' : c'.Obj u) (os os' : List Obs)
    (hc : c.create u = .ok w₀) (hr : runHistory (c.step u) h w₀ = .ok (os, w))
    (hc' : c'.create u = .ok w₀') (hr' : runHistory (c'.step u) h' w₀' = .ok (os', w'))
    (he : c.words u w = c'.words u w') : c.ident = c'.ident := by
  obtain ⟨n, hn, e⟩ := C12_input u c h w₀ os w hc hr
  obtain ⟨n', hn', e'⟩ := C12_input u c' h' w₀' os' w' hc' hr'
  exact (ident_of_input c c' hk n n' hn hn' (e.symm.trans ((congrArg rows he).trans e')))

/-- Objects of one layout under different keys, after calls: the claim says that their states differ. -/
example : ∃ w₀ os w w₀' os' w', Sample.chacha20.create 64 = .ok w₀ ∧ runHistory (Sample.chacha20.step 64) Sample.history w₀ = .ok (os, w) ∧
    (SeekCipher.xchacha 10 (Sample.bytes 32 0) (Sample.bytes 24 3)).create 64 = .ok w₀' ∧
    runHistory ((SeekCipher.xchacha 10 (Sample.bytes 32 0) (Sample.bytes 24 3)).step 64) Sample.history w₀' = .ok (os', w') ∧
    Sample.chacha20.layout = (SeekCipher.xchacha 10 (Sample.bytes 32 0) (Sample.bytes 24 3)).layout := by
  obtain ⟨w, hr⟩ := Sample.chacha20.reach_exists 64 Sample.history (Sample.history_allowed _)
  obtain ⟨w₀, hc, hrun⟩ := hr.run
  obtain ⟨w', hr'⟩ := (SeekCipher.xchacha 10 (Sample.bytes 32 0) (Sample.bytes 24 3)).reach_exists 64 Sample.history (Sample.history_allowed _)
  obtain ⟨w₀', hc', hrun'⟩ := hr'.run
  exact ⟨w₀, _, w, w₀', _, w', hc, hrun, hc', hrun', rfl⟩

/-- The two layouts of ChaCha can meet, but only under one key. -/
theorem C70_layouts (u : Nat) (c c' : SeekCipher) (hk : c.layout ≤ 1) (hk' : c'.layout ≤ 1)
    (h h' : List (ChaCha.Env × SeekOp)) (w₀ w : c.Obj u) (w₀' w' : c'.Obj u) (os os' : List Obs)
    (hc : c.create u = .ok w₀) (hr : runHistory (c.step u) h w₀ = .ok (os, w))
    (hc' : c'.create u = .ok w₀') (hr' : runHistory (c'.step u) h' w₀' = .ok (os', w'))
    (he : c.words u w = c'.words u w') : c.ident.1 = c'.ident.1 := by
  obtain ⟨n, hn, e⟩ := C12_input u c h w₀ os w hc hr
  obtain ⟨n', hn', e'⟩ := C12_input u c' h' w₀' os' w' hc' hr'
  have hin := e.symm.trans ((congrArg rows he).trans e')
  clear e e' he hr hr' hc hc' hn hn'
  cases c <;> simp only [SeekCipher.layout, Nat.reduceLeDiff] at hk <;> cases c' <;> simp only [SeekCipher.layout, Nat.reduceLeDiff] at hk'
  all_goals
    simp only [SeekCipher.input, SeekCipher.ident, Spec.ChaCha.ietfInput, Spec.ChaCha.djbInput] at hin ⊢
    exact (chacha_setup_inj _ _ _ _ hin).1

/-- The two layouts do meet: key and nonce as here, the legacy object at its start, the IETF object with four zero bytes in front of the nonce. -/
example : ∃ w₀ w₀', (SeekCipher.chachaLegacy 10 (Sample.bytes 32 0) #v[0, 0, 0, 0, 0, 0, 0, 7]).create 64 = .ok w₀ ∧
    (SeekCipher.chacha 10 (Sample.bytes 32 0) #v[0, 0, 0, 0, 0, 0, 0, 0, 0, 0, 0, 7]).create 64 = .ok w₀' ∧
    (SeekCipher.chachaLegacy 10 (Sample.bytes 32 0) #v[0, 0, 0, 0, 0, 0, 0, 7]).words 64 w₀ =
      (SeekCipher.chacha 10 (Sample.bytes 32 0) #v[0, 0, 0, 0, 0, 0, 0, 0, 0, 0, 0, 7]).words 64 w₀' :=
  ⟨Wrapper.fromCore (ChaCha.legacyState (Sample.bytes 32 0) #v[0, 0, 0, 0, 0, 0, 0, 7]),
    Wrapper.fromCore (ChaCha.ietfState (Sample.bytes 32 0) #v[0, 0, 0, 0, 0, 0, 0, 0, 0, 0, 0, 7]),
    (show ChaCha.cipherLegacy _ _ = _ by rw [ChaCha.cipherLegacy, ChaCha.newLegacy_eq]; rfl),
    (show ChaCha.cipherIetf _ _ = _ by rw [ChaCha.cipherIetf, ChaCha.newIetf_eq]; rfl),
    (by decide +kernel : ChaCha.legacyState (Sample.bytes 32 0) #v[0, 0, 0, 0, 0, 0, 0, 7] =
      ChaCha.ietfState (Sample.bytes 32 0) #v[0, 0, 0, 0, 0, 0, 0, 0, 0, 0, 0, 7])⟩

end Verif
