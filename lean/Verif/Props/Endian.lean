import Verif.Proof.Endian
import Verif.Props.ChaCha
import Verif.Props.Rng
/-!
# The NEON backend and the byte order of the target (C71)

The NEON backend is compiled on big-endian AArch64 as well.  There the ciphers with a 32-bit counter are right, the ciphers with a 64-bit counter
and the generators are not.
-/
namespace Verif.ChaCha
open Spec

/-- **C71**, little-endian: the model with the byte order as a parameter is the model of all other properties. -/
theorem C71_little (u dr : Nat) (V : Variant) :
    coreOn .little u dr V = core u dr V ∧ ∀ x s, generateOn .little dr V x s = generate dr V x s :=
  ⟨coreOn_congr .little u dr V fun _ x f s => processOn_little dr V x f s, fun x s => generateOn_little dr V x s⟩

/-- AArch64 with NEON. -/
def Sample.neon : Env where
  build := ⟨none, false, .aarch64, ⟨false, false, false, false, false, false, true⟩, true⟩
  detected := ⟨false, false, false⟩
  old n := List.replicate n (Vector.replicate 64 0)
  old_length _ := List.length_replicate

theorem Sample.neon_selected : Config.select Sample.neon.build Sample.neon.detected = .neon ∧
    Config.selectRng Sample.neon.build Sample.neon.detected = .neon := by decide

theorem coreOn_isSeekStream (e : Endian) (u dr : Nat) (V : Variant)
    (h : ∀ (α : Type) (x : Env) (f : Closure 64 α) (s : State), processOn e dr V x f s = process dr V x f s) {st : Nat → U8} {M : Nat}
    {w : Wrapper 64 State} {p : Nat} (h2 : IsSeekStream u (core u dr V) st M w p) : IsSeekStream u (coreOn e u dr V) st M w p := by
  have key : ∀ q : (α : Type) → Env → Closure 64 α → State → Except Panic (α × State), (fun α => @process α dr V) = q →
      IsSeekStream u ({ core u dr V with process := fun {α} => q α } : SeekCore 64 Env) st M w p := by
    rintro q rfl; exact h2
  exact key (fun α => @processOn α e dr V) (by funext α x f s; exact (h α x f s).symm)

/-- **C71**, 32-bit counter: `ChaCha8/12/20` and, through the same core, `XChaCha8/12/20` show the RFC 8439 keystream on either byte order. -/
theorem C71_ietf (e : Endian) (u dr : Nat) (key : Vector U8 32) (nonce : Vector U8 12) :
    coreOn e u dr .ietf = core u dr .ietf ∧
    ∃ w, cipherIetf key nonce = .ok w ∧ IsSeekStream u (coreOn e u dr .ietf) (ietfStream dr key nonce) (2 ^ 32 - 1) w 0 := by
  have h := coreOn_congr e u dr .ietf fun _ x f s => processOn_ietf e dr x f s
  refine ⟨h, ?_⟩
  obtain ⟨w, h1, h2⟩ := C01_ietf u dr key nonce
  refine ⟨w, h1, ?_⟩
  exact coreOn_isSeekStream e u dr .ietf (fun _ x f s => processOn_ietf e dr x f s) h2

example : ∃ w os w', cipherIetf (Sample.bytes 32 0) (Sample.bytes 12 1) = .ok w ∧
    runHistory (fun x w op => Wrapper.seekStep (coreOn .big 64 10 .ietf) x w op)
      [(Sample.neon, .io (.write (List.replicate 70 0))), (Sample.neon, .seek 5)] w = .ok (os, w') := by
  obtain ⟨w, h1, h2⟩ := (C71_ietf .big 64 10 (Sample.bytes 32 0) (Sample.bytes 12 1)).2
  obtain ⟨w', h3⟩ := h2 [(Sample.neon, .io (.write (List.replicate 70 0))), (Sample.neon, .seek 5)] (by
    intro e he
    simp only [List.mem_cons, List.not_mem_nil, or_false] at he
    rcases he with rfl | rfl
    · show (List.replicate 70 (0 : U8)).length < 2 ^ 64
      rw [List.length_replicate]; decide
    · exact Or.inl (by decide))
  exact ⟨w, _, w', h1, h3⟩

/-- **C71**, 64-bit counter, big-endian: a call returns what the portable backend returns, but leaves the two words of the counter exchanged, and the
two words of the nonce. -/
theorem C71_exchanged {α : Type} (dr : Nat) (x : Env) (hx : Config.select x.build x.detected = .neon) (f : Closure 64 α) (s : State) :
    processOn .big dr .legacy x f s = (process dr .legacy x f s).map fun r => (r.1,
      Vector.ofFn fun i => if i.val = 12 then r.2[13] else if i.val = 13 then r.2[12] else if i.val = 14 then r.2[15]
        else if i.val = 15 then r.2[14] else r.2[i]) := by
  rw [processOn_big dr x hx]
  refine congrArg (fun g => (process dr .legacy x f s).map g) (funext fun r => Prod.ext rfl ?_)
  show exchanged r.2 = _
  generalize r.2 = t
  apply Vector.ext; intro i hi
  simp only [exchanged, Vector.getElem_set, Vector.getElem_ofFn, Fin.getElem_fin]
  by_cases h15 : 15 = i
  · subst h15; simp
  by_cases h14 : 14 = i
  · subst h14; simp
  by_cases h13 : 13 = i
  · subst h13; simp
  by_cases h12 : 12 = i
  · subst h12; simp
  simp [h12, h13, h14, h15, Ne.symm h12, Ne.symm h13, Ne.symm h14, Ne.symm h15]

/-- The two halves of a nonce exchanged. -/
def otherNonce (n : Vector U8 8) : Vector U8 8 := #v[n[4], n[5], n[6], n[7], n[0], n[1], n[2], n[3]]

theorem remaining_pos (u : Nat) (s : State) (hp : Legacy.getBlockPos s ≠ BitVec.allOnes 64) :
    remainingBlocks u .legacy s = none ∨ ∃ r, remainingBlocks u .legacy s = some r ∧ 1 ≤ r := by
  simp only [remainingBlocks]
  split
  · refine Or.inr ⟨_, rfl, ?_⟩
    apply Nat.one_le_iff_ne_zero.2
    intro h
    apply hp
    have h0 : BitVec.allOnes 64 - Legacy.getBlockPos s = 0#64 := BitVec.eq_of_toNat_eq h
    have h1 : BitVec.allOnes 64 - Legacy.getBlockPos s + Legacy.getBlockPos s = BitVec.allOnes 64 := BitVec.sub_add_cancel _ _
    rw [h0, BitVec.zero_add] at h1
    exact h1
  · exact Or.inl rfl

theorem process_one (dr : Nat) (x : Env) (s : State) : process dr .legacy x (writeBlocksClosure 1) s =
    .ok ([(leBytes (runRounds dr s)).toList], advance .legacy 1 s) := by
  have hs : at' .legacy s (getBlockPos .legacy s).toNat = s := by
    simp only [at', BitVec.ofNat_toNat, BitVec.setWidth_eq, setBlockPos_getBlockPos]
  rw [process_writeBlocks]
  have : blocksFrom (ksOf dr .legacy s) (getBlockPos .legacy s).toNat 1 = [ksOf dr .legacy s (getBlockPos .legacy s).toNat] := rfl
  rw [this, ksOf, hs]
  rfl

/-- A call for one block on a cipher object with an empty buffer. -/
theorem writeOne_step {χ : Type} (C : SeekCore 64 χ) (x : χ) (buf : List U8) (hb : buf.length = 64) (s t : C.σ) (b : Vector U8 64) (o : List U8)
    (hr : C.remaining s = none ∨ ∃ r, C.remaining s = some r ∧ 1 ≤ r) (hq : C.process x (writeBlocksClosure 1) s = .ok ([o], t)) :
    Wrapper.seekStep C x ⟨s, b, 64⟩ (.io (.write buf)) = .ok (.data (.ok ()) o, ⟨t, b, 64⟩) := by
  have hc : Wrapper.checkRemaining C.toCore (⟨s, b, 64⟩ : Wrapper 64 C.σ) 64 = .ok () := by
    unfold Wrapper.checkRemaining
    dsimp only
    rcases hr with h | ⟨r, h, hr⟩
    · rw [h]
    · rw [h]
      dsimp only
      rw [if_neg (by decide), if_neg (by omega)]
  have hu : Wrapper.uncheckedWrite C.toCore x (⟨s, b, 64⟩ : Wrapper 64 C.σ) 64 = .ok (o, ⟨t, b, 64⟩) := by
    have h0 : (b.toList.drop 64).take (min (64 - 64) 64) = [] := by simp
    unfold Wrapper.uncheckedWrite
    dsimp only
    rw [h0]
    simp only [Nat.sub_self, Nat.zero_min, Nat.sub_zero, Nat.add_zero, Nat.reduceDiv, Nat.reduceMul]
    rw [hq]
    simp [bind, Except.bind, pure, Except.pure]
  simp only [Wrapper.seekStep, Wrapper.step, Wrapper.tryWrite, hb, hc, hu]
  rfl

theorem writeOne_big (u dr : Nat) (x : Env) (hx : Config.select x.build x.detected = .neon) (buf : List U8) (hb : buf.length = 64)
    (s : State) (b : Vector U8 64) (hp : Legacy.getBlockPos s ≠ BitVec.allOnes 64) :
    Wrapper.seekStep (coreOn .big u dr .legacy) x ⟨s, b, 64⟩ (.io (.write buf)) =
      .ok (.data (.ok ()) (leBytes (runRounds dr s)).toList, ⟨exchanged (advance .legacy 1 s), b, 64⟩) := by
  refine writeOne_step (coreOn .big u dr .legacy) x buf hb s _ b _ (remaining_pos u s hp) ?_
  have hq : processOn .big dr .legacy x (writeBlocksClosure 1) s =
      .ok ([(leBytes (runRounds dr s)).toList], exchanged (advance .legacy 1 s)) := by
    rw [processOn_big dr x hx, process_one]; rfl
  exact hq

theorem exchanged_setup (key : Vector U8 32) (a b c d : U32) : exchanged (setupState key a b c d) = setupState key b a d c := rfl

theorem leWord_otherNonce (n : Vector U8 8) : leWord (otherNonce n).toList 0 = leWord n.toList 1 ∧ leWord (otherNonce n).toList 1 = leWord n.toList 0 := by
  rw [← wordAt_eq_leWord (otherNonce n) 0 (by decide), ← wordAt_eq_leWord (otherNonce n) 1 (by decide), ← wordAt_eq_leWord n 0 (by decide),
    ← wordAt_eq_leWord n 1 (by decide)]
  exact ⟨rfl, rfl⟩

/-- **C71**, `ChaCha20Legacy` on big-endian AArch64 with NEON.  Two calls for 64 bytes each: the first returns block 0, the second
block `2^32` of the keystream for another nonce - not block 1. -/
theorem C71_legacy (u dr : Nat) (x : Env) (hx : Config.select x.build x.detected = .neon) (key : Vector U8 32) (nonce : Vector U8 8)
    (buf : List U8) (hb : buf.length = 64) :
    ∃ w w1 w2, cipherLegacy key nonce = .ok w ∧
      Wrapper.seekStep (coreOn .big u dr .legacy) x w (.io (.write buf)) =
        .ok (.data (.ok ()) (Spec.ChaCha.djbBlock dr key nonce 0).toList, w1) ∧
      Wrapper.seekStep (coreOn .big u dr .legacy) x w1 (.io (.write buf)) =
        .ok (.data (.ok ()) (Spec.ChaCha.djbBlock dr key (otherNonce nonce) (2 ^ 32)).toList, w2) := by
  have hl : at' .legacy (legacyState key nonce) 0 = legacyState key nonce := by rw [legacyState, at'_legacy]; rfl
  have e0 : leBytes (runRounds dr (legacyState key nonce)) = Spec.ChaCha.djbBlock dr key nonce 0 := by
    rw [← ksOf_legacy, ksOf, hl]
  have e1 : exchanged (advance .legacy 1 (legacyState key nonce)) = at' .legacy (legacyState key (otherNonce nonce)) (2 ^ 32) := by
    rw [← hl, advance_at', legacyState, legacyState, at'_legacy, at'_legacy, exchanged_setup, (leWord_otherNonce nonce).1,
      (leWord_otherNonce nonce).2]
    rfl
  have e2 : leBytes (runRounds dr (at' .legacy (legacyState key (otherNonce nonce)) (2 ^ 32))) =
      Spec.ChaCha.djbBlock dr key (otherNonce nonce) (2 ^ 32) := by
    rw [← ksOf_legacy, ksOf]
  have p0 : Legacy.getBlockPos (legacyState key nonce) ≠ BitVec.allOnes 64 := by
    show ((0 : U32).setWidth 64 <<< 32) ||| (0 : U32).setWidth 64 ≠ _
    decide
  have p1 : Legacy.getBlockPos (at' .legacy (legacyState key (otherNonce nonce)) (2 ^ 32)) ≠ BitVec.allOnes 64 := by
    rw [legacyState, at'_legacy]
    show ((BitVec.ofNat 32 (2 ^ 32 / 2 ^ 32)).setWidth 64 <<< 32) ||| (BitVec.ofNat 32 (2 ^ 32)).setWidth 64 ≠ _
    decide
  have s1 := writeOne_big u dr x hx buf hb _ (Vector.replicate 64 0) p0
  rw [e0, e1] at s1
  have s2 := writeOne_big u dr x hx buf hb _ (Vector.replicate 64 0) p1
  rw [e2] at s2
  exact ⟨_, _, _, by simp only [cipherLegacy, newLegacy_eq]; rfl, s1, s2⟩

/-- The second block is really another one: here its first byte. -/
example : (Spec.ChaCha.djbBlock 4 (Sample.bytes 32 0) (otherNonce (Sample.bytes 8 9)) (2 ^ 32))[0] ≠
    (Spec.ChaCha.djbBlock 4 (Sample.bytes 32 0) (Sample.bytes 8 9) 1)[0] := by decide +kernel

example : ∃ w w1 o, cipherLegacy (Sample.bytes 32 0) (Sample.bytes 8 9) = .ok w ∧
    Wrapper.seekStep (coreOn .big 64 10 .legacy) Sample.neon w (.io (.write (List.replicate 64 7))) = .ok (o, w1) := by
  obtain ⟨w, w1, _, h, h1, _⟩ := C71_legacy 64 10 Sample.neon Sample.neon_selected.1 (Sample.bytes 32 0) (Sample.bytes 8 9)
    (List.replicate 64 7) List.length_replicate
  exact ⟨w, w1, _, h, h1⟩

/-- **C71**, refill of the generators on big-endian AArch64 with NEON, against the portable backend: every word has its bytes reversed, and the
words of the counter and of the stream number are exchanged afterwards. -/
theorem C71_refill (dr : Nat) (x : Env) (hx : Config.selectRng x.build x.detected = .neon) (s : State) :
    (∀ i (h : i < 64), toLe32 (generateOn .big dr .legacy x s).1[i] = (toLe32 (softGenKsBlocks dr s).1[i]).reverse) ∧
    ∀ i (h : i < 16), (generateOn .big dr .legacy x s).2[i] =
      (softGenKsBlocks dr s).2[if i = 12 then 13 else if i = 13 then 12 else if i = 14 then 15 else if i = 15 then 14 else i]'(by
        split; · omega
        split; · omega
        split; · omega
        split <;> omega) := by
  have hg : generate dr .legacy x s = softGenKsBlocks dr s := by
    obtain ⟨ws, _, h1, _, _, _, h2⟩ := C27_refill dr s
    rw [h1, h2]
  rw [generateOn_big dr .legacy x hx s, hg]
  refine ⟨fun i h => Neon.bufWords_big _ i h, ?_⟩
  intro i hi
  show (exchanged (softGenKsBlocks dr s).2)[i] = _
  generalize (softGenKsBlocks dr s).2 = t
  simp only [exchanged, Vector.getElem_set]
  by_cases h15 : 15 = i
  · subst h15; simp
  by_cases h14 : 14 = i
  · subst h14; simp
  by_cases h13 : 13 = i
  · subst h13; simp
  by_cases h12 : 12 = i
  · subst h12; simp
  simp [h12, h13, h14, h15, Ne.symm h12, Ne.symm h13, Ne.symm h14, Ne.symm h15]

/-- **C71**.  On every backend but NEON, and on little-endian targets, the refill is the portable one; on big-endian NEON it leaves the right state only
if the two words of the counter after the refill are equal, and the two words of the stream number. -/
theorem C71_state_iff (e : Endian) (dr : Nat) (x : Env) (s : State) :
    (generateOn e dr .legacy x s).2 = (softGenKsBlocks dr s).2 ↔
      (e = .big → Config.selectRng x.build x.detected = .neon →
        (softGenKsBlocks dr s).2[12] = (softGenKsBlocks dr s).2[13] ∧ s[14] = s[15]) := by
  have hg : generate dr .legacy x s = softGenKsBlocks dr s := by
    obtain ⟨ws, _, h1, _, _, _, h2⟩ := C27_refill dr s
    rw [h1, h2]
  by_cases hx : Config.selectRng x.build x.detected = .neon
  · cases e
    · rw [generateOn_little, hg]
      exact ⟨fun _ h => (nomatch h), fun _ => rfl⟩
    · have h2 : (softGenKsBlocks dr s).2 = advance .legacy 4 s := by rw [softGenKsBlocks_eq]
      have h14 : (softGenKsBlocks dr s).2[14] = s[14] := by
        simp only [h2]; exact advance_getElem_ge .legacy 4 s 14 (by decide) (by decide) (by decide)
      have h15 : (softGenKsBlocks dr s).2[15] = s[15] := by
        simp only [h2]; exact advance_getElem_ge .legacy 4 s 15 (by decide) (by decide) (by decide)
      have hb := (C71_refill dr x hx s).2
      constructor
      · intro h _ _
        have h12 := hb 12 (by decide)
        have h14' := hb 14 (by decide)
        simp only [h] at h12 h14'
        exact ⟨h12, h14.symm.trans (h14'.trans h15)⟩
      · intro h
        obtain ⟨ha, hb'⟩ := h rfl hx
        apply Vector.ext; intro i hi
        rw [hb i hi]
        by_cases e12 : i = 12
        · subst e12; exact ha.symm
        by_cases e13 : i = 13
        · subst e13; exact ha
        by_cases e14 : i = 14
        · subst e14; exact h15.trans (hb'.symm.trans h14.symm)
        by_cases e15 : i = 15
        · subst e15; exact h14.trans (hb'.trans h15.symm)
        simp only [e12, e13, e14, e15, if_false]
  · rw [generateOn_other e dr .legacy x hx, hg]
    exact ⟨fun _ _ h => absurd h hx, fun _ => rfl⟩

/-- A fresh generator: its state is wrong after the first refill. -/
example : (generateOn .big 4 .legacy Sample.neon (setupState (Sample.bytes 32 0) 0 0 0 0)).2 ≠
    (softGenKsBlocks 4 (setupState (Sample.bytes 32 0) 0 0 0 0)).2 := by
  rw [Ne, C71_state_iff]
  intro h
  have := (h rfl Sample.neon_selected.2).1
  rw [softGenKsBlocks_eq] at this
  exact absurd this (by decide +kernel)

end Verif.ChaCha
