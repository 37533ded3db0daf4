import Verif.Props.Setup
import Verif.Proof.LeNat
/-!
# Relations between keys, nonces and types (C52, C53, C54)
-/
namespace Verif
open Spec

/-! ## C52 -/

/-- A 32-bit number, little-endian, in front of an 8-byte nonce. -/
def epochNonce (e : Nat) (nonce : Vector U8 8) : Vector U8 12 :=
  Vector.ofFn fun i : Fin 12 => if h : i.val < 4 then leByte e i.val else nonce[i.val - 4]

theorem epochNonce_words (e : Nat) (nonce : Vector U8 8) : leWord (epochNonce e nonce).toList 0 = BitVec.ofNat 32 e ∧
    leWord (epochNonce e nonce).toList 1 = leWord nonce.toList 0 ∧ leWord (epochNonce e nonce).toList 2 = leWord nonce.toList 1 := by
  rw [← wordAt_eq_leWord (epochNonce e nonce) 0 (by decide), ← wordAt_eq_leWord (epochNonce e nonce) 1 (by decide),
    ← wordAt_eq_leWord (epochNonce e nonce) 2 (by decide), ← wordAt_eq_leWord nonce 0 (by decide),
    ← wordAt_eq_leWord nonce 1 (by decide)]
  simp only [wordAt, epochNonce, Vector.getElem_ofFn]
  refine ⟨?_, rfl, rfl⟩
  have := le32_toLe32 (BitVec.ofNat 32 e)
  simp only [toLe32_getElem] at this
  have hb : ∀ i, i < 4 → leByte (BitVec.ofNat 32 e : U32).toNat i = leByte e i := by
    intro i hi
    rw [BitVec.toNat_ofNat, show (2 : Nat) ^ 32 = 256 ^ 4 by decide, leByte_mod _ _ _ hi]
  rw [hb 0 (by decide), hb 1 (by decide), hb 2 (by decide), hb 3 (by decide)] at this
  exact this

/-- **C52**, blocks.  Block `2^32 e + i` of Bernstein's ChaCha with nonce `n` is block `i` of RFC 8439 ChaCha with nonce `le32(e) || n`. -/
theorem C52_blocks (dr : Nat) (key : Vector U8 32) (nonce : Vector U8 8) (e i : Nat) (hi : i < 2 ^ 32) :
    Spec.ChaCha.djbBlock dr key nonce (2 ^ 32 * e + i) = Spec.ChaCha.ietfBlock dr key (epochNonce e nonce) i := by
  unfold Spec.ChaCha.djbBlock Spec.ChaCha.ietfBlock
  refine congrArg (fun m => Spec.ChaCha.serialize (Spec.ChaCha.core dr m)) ?_
  unfold Spec.ChaCha.djbInput Spec.ChaCha.ietfInput
  refine congrArg (Spec.ChaCha.setup key) ?_
  obtain ⟨h0, h1, h2⟩ := epochNonce_words e nonce
  have hl : BitVec.ofNat 32 (2 ^ 32 * e + i) = BitVec.ofNat 32 i := by
    apply BitVec.eq_of_toNat_eq
    simp only [BitVec.toNat_ofNat]
    omega
  have hh : (2 ^ 32 * e + i) / 2 ^ 32 = e := by omega
  rw [h0, h1, h2, hl, hh]

/-- Block `5 * 2^32 + 7`. -/
example : Spec.ChaCha.djbBlock 10 (Sample.bytes 32 0) (Sample.bytes 8 9) (2 ^ 32 * 5 + 7) =
    Spec.ChaCha.ietfBlock 10 (Sample.bytes 32 0) (epochNonce 5 (Sample.bytes 8 9)) 7 := C52_blocks 10 _ _ 5 7 (by decide)

/-- Byte streams. -/
theorem C52_stream (dr : Nat) (key : Vector U8 32) (nonce : Vector U8 8) (e i : Nat) (hi : i < 64 * 2 ^ 32) :
    (SeekCipher.chachaLegacy dr key nonce).stream (64 * 2 ^ 32 * e + i) = (SeekCipher.chacha dr key (epochNonce e nonce)).stream i := by
  have hd : (64 * 2 ^ 32 * e + i) / 64 = 2 ^ 32 * e + i / 64 := by omega
  have hm : (64 * 2 ^ 32 * e + i) % 64 = i % 64 := by omega
  have := C52_blocks dr key nonce e (i / 64) (by omega)
  simp only [SeekCipher.stream, byteStream, SeekCipher.block, hd, hm, this]

example : (SeekCipher.chachaLegacy 10 (Sample.bytes 32 0) (Sample.bytes 8 9)).stream (64 * 2 ^ 32 * 5 + 1000) =
    (SeekCipher.chacha 10 (Sample.bytes 32 0) (epochNonce 5 (Sample.bytes 8 9))).stream 1000 := C52_stream 10 _ _ 5 1000 (by decide)

/-- **C52**, objects.  After any histories, the legacy object of nonce `n` sought to byte `q` of the `e`-th 256 GiB of its stream and the
IETF object of nonce `le32(e) || n` sought to byte `q` return the same bytes for every read that the latter serves. -/
theorem C52_reads (u dr : Nat) (key : Vector U8 32) (nonce : Vector U8 8) (e : Nat) (he : e < 2 ^ 32)
    {h h' : List (ChaCha.Env × SeekOp)} {os os' : List Obs} {w : (SeekCipher.chachaLegacy dr key nonce).Obj u}
    {w' : (SeekCipher.chacha dr key (epochNonce e nonce)).Obj u}
    (hr : (SeekCipher.chachaLegacy dr key nonce).Reach u h os w)
    (hr' : (SeekCipher.chacha dr key (epochNonce e nonce)).Reach u h' os' w')
    (x x' y y' : ChaCha.Env) (q : Nat) (data : List U8) (hq : q + data.length ≤ 64 * (2 ^ 32 - 1)) (hlen : data.length < 2 ^ u) :
    ∃ out v v', runHistory ((SeekCipher.chachaLegacy dr key nonce).step u)
        [(x, .seek (64 * 2 ^ 32 * e + q)), (y, .io (.apply data))] w = .ok ([.done (.ok ()), .data (.ok ()) out], v) ∧
      runHistory ((SeekCipher.chacha dr key (epochNonce e nonce)).step u)
        [(x', .seek q), (y', .io (.apply data))] w' = .ok ([.done (.ok ()), .data (.ok ()) out], v') := by
  have run : ∀ (c : SeekCipher) (h : List (ChaCha.Env × SeekOp)) (os : List Obs) (w : c.Obj u) (_ : c.Reach u h os w) (x y : ChaCha.Env)
      (q : Nat) (_ : q + data.length ≤ 64 * c.blocks), ∃ v, runHistory (c.step u) [(x, .seek q), (y, .io (.apply data))] w =
        .ok ([.done (.ok ()), .data (.ok ()) (List.zipWith (· ^^^ ·) data (window c.stream q data.length))], v) := by
    intro c h os w hr x y q hq
    obtain ⟨v, hv⟩ := hr.simulates.1 [(x, .seek q), (y, .io (.apply data))] (by
      intro a ha
      simp only [List.mem_cons, List.not_mem_nil, or_false] at ha
      rcases ha with rfl | rfl
      · exact .inl (by omega)
      · exact hlen)
    refine ⟨v, hv.trans ?_⟩
    have e1 : ∀ p, Cursor.step 64 c.stream (some (64 * c.blocks)) p (.seek q) = (.done (.ok ()), q) := by
      intro p
      simp only [Cursor.step]
      rw [if_pos (by intro L e; cases e; omega)]
    have e2 : Cursor.step 64 c.stream (some (64 * c.blocks)) q (.io (.apply data)) =
        (.data (.ok ()) (List.zipWith (· ^^^ ·) data (window c.stream q data.length)), q + data.length) := by
      simp only [Cursor.step, Cursor.io]
      rw [if_pos (by intro L e; cases e; exact hq)]
    simp only [List.map_cons, List.map_nil, Cursor.run, e1, e2]
  obtain ⟨v, h1⟩ := run (.chachaLegacy dr key nonce) h os w hr x y (64 * 2 ^ 32 * e + q) (by
    show _ ≤ 64 * (2 ^ 64 - 1)
    omega)
  obtain ⟨v', h2⟩ := run (.chacha dr key (epochNonce e nonce)) h' os' w' hr' x' y' q hq
  refine ⟨_, v, v', h1.trans ?_, h2⟩
  have hwin : window (SeekCipher.chachaLegacy dr key nonce).stream (64 * 2 ^ 32 * e + q) data.length =
      window (SeekCipher.chacha dr key (epochNonce e nonce)).stream q data.length := by
    unfold window
    apply List.map_congr_left
    intro i hi
    have := List.mem_range.1 hi
    rw [Nat.add_assoc]
    exact C52_stream dr key nonce e (q + i) (by omega)
  rw [hwin]

/-- The hypotheses are satisfiable. -/
example : ∃ os w os' w', (SeekCipher.chachaLegacy 10 (Sample.bytes 32 0) (Sample.bytes 8 9)).Reach 64 Sample.history os w ∧
    (SeekCipher.chacha 10 (Sample.bytes 32 0) (epochNonce 5 (Sample.bytes 8 9))).Reach 64 Sample.history os' w' ∧
    1000 + [1, 2, 3].length ≤ 64 * (2 ^ 32 - 1) := by
  obtain ⟨w, hw⟩ := (SeekCipher.chachaLegacy 10 (Sample.bytes 32 0) (Sample.bytes 8 9)).reach_exists 64 _ (Sample.history_allowed _)
  obtain ⟨w', hw'⟩ := (SeekCipher.chacha 10 (Sample.bytes 32 0) (epochNonce 5 (Sample.bytes 8 9))).reach_exists 64 _
    (Sample.history_allowed _)
  exact ⟨_, w, _, w', hw, hw', by decide⟩

/-! ## C53 -/

/-- **C53**.  Keys whose cyclic repetitions agree on 256 bytes give the same object. -/
theorem C53_equivalent_keys (key key' : List U8) (h : 1 ≤ key.length ∧ key.length ≤ 256) (h' : 1 ≤ key'.length ∧ key'.length ≤ 256)
    (hc : ∀ i, i < 256 → key[i % key.length]? = key'[i % key'.length]?) :
    Rc4.newFromSlice key = Rc4.newFromSlice key' := by
  obtain ⟨s, h1, h2⟩ := Rc4.newFromSlice_ok key h
  obtain ⟨s', h1', h2'⟩ := Rc4.newFromSlice_ok key' h'
  have hk : ∀ n, n ≤ 256 → Spec.Rc4.ksa key n = Spec.Rc4.ksa key' n := by
    intro n hn
    induction n with
    | zero => rfl
    | succ n ih => simp only [Spec.Rc4.ksa, ih (by omega), hc n (by omega)]
  have e : s = s' := Rc4.view_inj (by rw [h2, h2', Spec.Rc4.after, Spec.Rc4.after, hk 256 (Nat.le_refl _)])
  rw [h1, h1', e]

/-- Four and six times the byte pair `1, 2`. -/
example : Rc4.newFromSlice [1, 2, 1, 2, 1, 2, 1, 2] = Rc4.newFromSlice [1, 2, 1, 2, 1, 2, 1, 2, 1, 2, 1, 2] :=
  C53_equivalent_keys _ _ (by decide) (by decide) (by decide +kernel)

theorem flatten_replicate_getElem? (k : List U8) (m j : Nat) (hj : j < m * k.length) :
    (List.replicate m k).flatten[j]? = k[j % k.length]? := by
  induction m generalizing j with
  | zero => simp at hj
  | succ m ih =>
    rw [List.replicate_succ, List.flatten_cons]
    by_cases hlt : j < k.length
    · rw [List.getElem?_append_left hlt, Nat.mod_eq_of_lt hlt]
    · have hj' : j - k.length < m * k.length := by
        rw [Nat.succ_mul] at hj
        omega
      rw [List.getElem?_append_right (by omega), ih _ hj', ← Nat.mod_eq_sub_mod (by omega)]

/-- **C53**, repetition: a key and its `m`-fold repetition give the same object. -/
theorem C53_repeated_key (key : List U8) (m : Nat) (hk : 1 ≤ key.length) (hm : 1 ≤ m) (hlen : m * key.length ≤ 256) :
    Rc4.newFromSlice (List.replicate m key).flatten = Rc4.newFromSlice key := by
  have hl : (List.replicate m key).flatten.length = m * key.length := by simp
  have hge : key.length ≤ m * key.length := Nat.le_mul_of_pos_left _ hm
  refine C53_equivalent_keys _ _ ⟨by omega, by omega⟩ ⟨hk, by omega⟩ ?_
  intro i _
  have hlt : i % (m * key.length) < m * key.length := Nat.mod_lt _ (by omega)
  rw [hl, flatten_replicate_getElem? key m _ hlt, Nat.mod_mul_left_mod]

/-- Two different keys with the same object. -/
example : Rc4.newFromSlice [1, 2, 3, 1, 2, 3] = Rc4.newFromSlice [1, 2, 3] ∧ ([1, 2, 3, 1, 2, 3] : List U8) ≠ [1, 2, 3] :=
  ⟨C53_repeated_key [1, 2, 3] 2 (by decide) (by decide) (by decide), by decide⟩

/-! ## C54 -/

theorem leWord_leBytes {k : Nat} (w : Vector U32 k) (i : Nat) (hi : i < k) : leWord (leBytes w).toList i = w[i] := by
  have h := congrArg (fun v : Vector U32 k => v[i]) (leWords_leBytes w)
  simp only [leWords, Vector.getElem_ofFn] at h
  rw [← h, wordAt_eq_leWord]

theorem sub_of_add {a b c : U32} (h : c = a + b) : a = c - b := by rw [h, BitVec.add_sub_cancel]

theorem hchacha_from_state (dr : Nat) (s : Vector U32 16) (c : Nat → U32) (inp : Nat → U32)
    (hc : ∀ j (h : j < 4), s[j] = c j) (hi : ∀ j (h : j < 4), s[12 + j] = inp j) (j : Nat) (hj : j < 4) :
    leWord (leBytes (k := 8) #v[(iter dr ChaCha.doubleRound s)[0], (iter dr ChaCha.doubleRound s)[1], (iter dr ChaCha.doubleRound s)[2],
        (iter dr ChaCha.doubleRound s)[3], (iter dr ChaCha.doubleRound s)[12], (iter dr ChaCha.doubleRound s)[13],
        (iter dr ChaCha.doubleRound s)[14], (iter dr ChaCha.doubleRound s)[15]]).toList j =
      leWord (leBytes (ChaCha.runRounds dr s)).toList j - c j ∧
    leWord (leBytes (k := 8) #v[(iter dr ChaCha.doubleRound s)[0], (iter dr ChaCha.doubleRound s)[1], (iter dr ChaCha.doubleRound s)[2],
        (iter dr ChaCha.doubleRound s)[3], (iter dr ChaCha.doubleRound s)[12], (iter dr ChaCha.doubleRound s)[13],
        (iter dr ChaCha.doubleRound s)[14], (iter dr ChaCha.doubleRound s)[15]]).toList (4 + j) =
      leWord (leBytes (ChaCha.runRounds dr s)).toList (12 + j) - inp j := by
  have hr : ∀ i (h : i < 16), (ChaCha.runRounds dr s)[i] = (iter dr ChaCha.doubleRound s)[i] + s[i] := by
    intro i h
    simp only [ChaCha.runRounds, Vector.getElem_zipWith]
  generalize iter dr ChaCha.doubleRound s = r at *
  rw [leWord_leBytes _ j (by omega), leWord_leBytes _ (4 + j) (by omega), leWord_leBytes _ j (by omega),
    leWord_leBytes _ (12 + j) (by omega), hr j (by omega), hr (12 + j) (by omega), hc j hj, hi j hj,
    BitVec.add_sub_cancel, BitVec.add_sub_cancel]
  have : j = 0 ∨ j = 1 ∨ j = 2 ∨ j = 3 := by omega
  rcases this with rfl | rfl | rfl | rfl <;> exact ⟨rfl, rfl⟩

theorem hchacha_words (dr : Nat) (key : Vector U8 32) (input : Vector U8 16) (j : Nat) (hj : j < 4) :
    leWord (ChaCha.hchacha dr key input).toList j =
      leWord (leBytes (ChaCha.runRounds dr (ChaCha.hchachaState key input))).toList j - leWord Spec.ChaCha.sigma j ∧
    leWord (ChaCha.hchacha dr key input).toList (4 + j) =
      leWord (leBytes (ChaCha.runRounds dr (ChaCha.hchachaState key input))).toList (12 + j) - leWord input.toList j := by
  have hcs : ∀ j (h : j < 4), (ChaCha.hchachaState key input)[j] = leWord Spec.ChaCha.sigma j := by
    obtain ⟨h0, h1, h2, h3⟩ := ChaCha.sigma_words
    rw [ChaCha.hchachaState_eq]
    intro j h
    have : j = 0 ∨ j = 1 ∨ j = 2 ∨ j = 3 := by omega
    rcases this with rfl | rfl | rfl | rfl
    · rw [h0]; rfl
    · rw [h1]; rfl
    · rw [h2]; rfl
    · rw [h3]; rfl
  have hin : ∀ j (h : j < 4), (ChaCha.hchachaState key input)[12 + j] = leWord input.toList j := by
    rw [ChaCha.hchachaState_eq]
    intro j h
    have : j = 0 ∨ j = 1 ∨ j = 2 ∨ j = 3 := by omega
    rcases this with rfl | rfl | rfl | rfl <;> rfl
  unfold ChaCha.hchacha
  exact hchacha_from_state dr (ChaCha.hchachaState key input) (fun j => leWord Spec.ChaCha.sigma j) (fun j => leWord input.toList j)
    hcs hin j hj

theorem one_block (dr : Nat) (V : ChaCha.Variant) (e : ChaCha.Env) (s : Vector U32 16) (b : V.Counter) :
    ∃ t, ChaCha.process dr V e (writeBlocksClosure 1) (ChaCha.setBlockPos V s b) =
      .ok ([(leBytes (ChaCha.runRounds dr (ChaCha.at' V s b.toNat))).toList], t) := by
  refine ⟨ChaCha.at' V s (b.toNat + 1), (ChaCha.writeBlocks_at dr V e s b 1).trans ?_⟩
  rw [show List.range 1 = [0] from rfl, List.map_cons, List.map_nil]
  have := ChaCha.ksOf_rows dr V s b.toNat
  unfold ChaCha.ksOf at this
  rw [this, Nat.add_zero]

theorem ietf_hchacha (key : Vector U8 32) (input : Vector U8 16) :
    ChaCha.at' .ietf (ChaCha.ietfState key (Vector.ofFn fun i : Fin 12 => input[4 + i.val])) (leWord input.toList 0).toNat =
      ChaCha.hchachaState key input := by
  rw [ChaCha.hchachaState_eq]
  have hw : ∀ q (h : q < 3), leWord (Vector.ofFn fun i : Fin 12 => input[4 + i.val]).toList q = leWord input.toList (q + 1) := by
    intro q h
    rw [← wordAt_eq_leWord _ q (by omega), ← wordAt_eq_leWord input (q + 1) (by omega)]
    simp only [wordAt, Vector.getElem_ofFn, show 4 + 4 * q = 4 * (q + 1) by omega, show 4 + (4 * q + 1) = 4 * (q + 1) + 1 by omega,
      show 4 + (4 * q + 2) = 4 * (q + 1) + 2 by omega, show 4 + (4 * q + 3) = 4 * (q + 1) + 3 by omega]
  rw [← hw 0 (by decide), ← hw 1 (by decide), ← hw 2 (by decide)]
  have hz : BitVec.ofNat 32 (leWord input.toList 0).toNat = leWord input.toList 0 := by
    rw [BitVec.ofNat_toNat, BitVec.setWidth_eq]
  rw [← hz, BitVec.toNat_ofNat, Nat.mod_eq_of_lt (leWord input.toList 0).isLt]
  rfl

/-- **C54**, ChaCha.  The HChaCha output for a 16-byte input is words 0-3 and 12-15 of the ChaCha keystream block whose counter and nonce
are that input, minus constants and input: no secret beyond that block is needed to compute it. -/
theorem C54_hchacha (dr : Nat) (e : ChaCha.Env) (key : Vector U8 32) (input : Vector U8 16) (s : Vector U32 16)
    (hs : ChaCha.newIetf key (Vector.ofFn fun i : Fin 12 => input[4 + i.val]) = .ok s) :
    ∃ block t, ChaCha.process dr .ietf e (writeBlocksClosure 1) (ChaCha.setBlockPos .ietf s (leWord input.toList 0)) =
        .ok ([block], t) ∧
      ∀ j, j < 4 → leWord (ChaCha.hchacha dr key input).toList j = leWord block j - leWord Spec.ChaCha.sigma j ∧
        leWord (ChaCha.hchacha dr key input).toList (4 + j) = leWord block (12 + j) - leWord input.toList j := by
  rw [ChaCha.newIetf_eq] at hs
  simp only [Except.ok.injEq] at hs
  subst hs
  obtain ⟨t, ht⟩ := one_block dr .ietf e (ChaCha.ietfState key (Vector.ofFn fun i : Fin 12 => input[4 + i.val])) (leWord input.toList 0)
  have hst := congrArg (fun v => (leBytes (ChaCha.runRounds dr v)).toList) (ietf_hchacha key input)
  exact ⟨_, t, ht.trans (congrArg (fun B => Except.ok ([B], t)) hst), hchacha_words dr key input⟩

/-- The hypothesis is satisfiable. -/
example : ∃ s, ChaCha.newIetf (Sample.bytes 32 0) (Vector.ofFn fun i : Fin 12 => (Sample.bytes 16 3)[4 + i.val]) = .ok s :=
  ⟨_, ChaCha.newIetf_eq _ _⟩

theorem hsalsa_from_state (dr : Nat) (s : Vector U32 16) (c : Nat → U32) (inp : Nat → U32)
    (hc : ∀ j (h : j < 4), s[5 * j] = c j) (hi : ∀ j (h : j < 4), s[6 + j] = inp j) (j : Nat) (hj : j < 4) :
    leWord (leBytes (k := 8) #v[(iter dr Salsa.doubleRound s)[0], (iter dr Salsa.doubleRound s)[5], (iter dr Salsa.doubleRound s)[10],
        (iter dr Salsa.doubleRound s)[15], (iter dr Salsa.doubleRound s)[6], (iter dr Salsa.doubleRound s)[7],
        (iter dr Salsa.doubleRound s)[8], (iter dr Salsa.doubleRound s)[9]]).toList j =
      leWord (leBytes (Salsa.runRounds dr s)).toList (5 * j) - c j ∧
    leWord (leBytes (k := 8) #v[(iter dr Salsa.doubleRound s)[0], (iter dr Salsa.doubleRound s)[5], (iter dr Salsa.doubleRound s)[10],
        (iter dr Salsa.doubleRound s)[15], (iter dr Salsa.doubleRound s)[6], (iter dr Salsa.doubleRound s)[7],
        (iter dr Salsa.doubleRound s)[8], (iter dr Salsa.doubleRound s)[9]]).toList (4 + j) =
      leWord (leBytes (Salsa.runRounds dr s)).toList (6 + j) - inp j := by
  have hr : ∀ i (h : i < 16), (Salsa.runRounds dr s)[i] = (iter dr Salsa.doubleRound s)[i] + s[i] := by
    intro i h
    simp only [Salsa.runRounds, Vector.getElem_zipWith]
  generalize iter dr Salsa.doubleRound s = r at *
  rw [leWord_leBytes _ j (by omega), leWord_leBytes _ (4 + j) (by omega), leWord_leBytes _ (5 * j) (by omega),
    leWord_leBytes _ (6 + j) (by omega), hr (5 * j) (by omega), hr (6 + j) (by omega), hc j hj, hi j hj,
    BitVec.add_sub_cancel, BitVec.add_sub_cancel]
  have : j = 0 ∨ j = 1 ∨ j = 2 ∨ j = 3 := by omega
  rcases this with rfl | rfl | rfl | rfl <;> exact ⟨rfl, rfl⟩

theorem hsalsa_words_sub (dr : Nat) (key : Vector U8 32) (input : Vector U8 16) (j : Nat) (hj : j < 4) :
    leWord (Salsa.hsalsa dr key input).toList j =
      leWord (leBytes (Salsa.runRounds dr (Salsa.hsalsaState key input))).toList (5 * j) - leWord Spec.Salsa.sigma j ∧
    leWord (Salsa.hsalsa dr key input).toList (4 + j) =
      leWord (leBytes (Salsa.runRounds dr (Salsa.hsalsaState key input))).toList (6 + j) - leWord input.toList j := by
  have hcs : ∀ j (h : j < 4), (Salsa.hsalsaState key input)[5 * j] = leWord Spec.Salsa.sigma j := by
    obtain ⟨h0, h1, h2, h3⟩ := Salsa.sigma_words
    rw [Salsa.hsalsaState_eq]
    intro j h
    have : j = 0 ∨ j = 1 ∨ j = 2 ∨ j = 3 := by omega
    rcases this with rfl | rfl | rfl | rfl
    · rw [h0]; rfl
    · rw [h1]; rfl
    · rw [h2]; rfl
    · rw [h3]; rfl
  have hin : ∀ j (h : j < 4), (Salsa.hsalsaState key input)[6 + j] = leWord input.toList j := by
    rw [Salsa.hsalsaState_eq]
    intro j h
    have : j = 0 ∨ j = 1 ∨ j = 2 ∨ j = 3 := by omega
    rcases this with rfl | rfl | rfl | rfl <;> rfl
  unfold Salsa.hsalsa
  exact hsalsa_from_state dr (Salsa.hsalsaState key input) (fun j => leWord Spec.Salsa.sigma j) (fun j => leWord input.toList j)
    hcs hin j hj

theorem setup_hsalsa (key : Vector U8 32) (input : Vector U8 16) :
    Salsa.setBlockPos (Salsa.new key (Vector.ofFn fun i : Fin 8 => input[i.val]))
      (leWord input.toList 3 ++ leWord input.toList 2) = Salsa.hsalsaState key input := by
  rw [Salsa.hsalsaState_eq, Salsa.new_eq]
  have hw : ∀ q (h : q < 2), leWord (Vector.ofFn fun i : Fin 8 => input[i.val]).toList q = leWord input.toList q := by
    intro q h
    rw [← wordAt_eq_leWord _ q (by omega), ← wordAt_eq_leWord input q (by omega)]
    simp only [wordAt, Vector.getElem_ofFn]
  rw [hw 0 (by decide), hw 1 (by decide)]
  generalize leWord input.toList 3 = hi
  generalize leWord input.toList 2 = lo
  have hn : (hi ++ lo : U64).toNat = 2 ^ 32 * hi.toNat + lo.toNat := by
    rw [BitVec.toNat_append, ← Nat.shiftLeft_add_eq_or_of_lt lo.isLt, Nat.shiftLeft_eq, Nat.mul_comm]
  have h := Salsa.at'_setup key (leWord input.toList 0) (leWord input.toList 1) 0 0 (hi ++ lo : U64).toNat
  have hlo : BitVec.ofNat 32 (hi ++ lo : U64).toNat = lo := by
    apply BitVec.eq_of_toNat_eq
    rw [hn, BitVec.toNat_ofNat]
    have := lo.isLt
    omega
  have hhi : BitVec.ofNat 32 ((hi ++ lo : U64).toNat / 2 ^ 32) = hi := by
    apply BitVec.eq_of_toNat_eq
    rw [hn, BitVec.toNat_ofNat]
    have := lo.isLt
    have := hi.isLt
    omega
  rw [hlo, hhi] at h
  rw [← h]
  unfold Salsa.at'
  rw [BitVec.ofNat_toNat, BitVec.setWidth_eq]

/-- **C54**, Salsa.  The HSalsa output for a 16-byte input is words 0, 5, 10, 15 and 6-9 of the Salsa keystream block whose nonce and
counter are that input, minus constants and input. -/
theorem C54_hsalsa (m : Mode) (dr : Nat) (key : Vector U8 32) (input : Vector U8 16)
    (hm : m = .release ∨ (leWord input.toList 3 ++ leWord input.toList 2 : U64).toNat < 2 ^ 64 - 1) :
    ∃ block t, Salsa.genBlock m dr (Salsa.setBlockPos (Salsa.new key (Vector.ofFn fun i : Fin 8 => input[i.val]))
        (leWord input.toList 3 ++ leWord input.toList 2)) = .ok (block, t) ∧
      ∀ j, j < 4 → leWord (Salsa.hsalsa dr key input).toList j = leWord block.toList (5 * j) - leWord Spec.Salsa.sigma j ∧
        leWord (Salsa.hsalsa dr key input).toList (4 + j) = leWord block.toList (6 + j) - leWord input.toList j := by
  refine ⟨_, _, Salsa.genBlock_ok m dr _ (by rw [Salsa.getBlockPos_setBlockPos]; exact hm), ?_⟩
  rw [setup_hsalsa]
  exact hsalsa_words_sub dr key input

/-- The hypothesis is satisfiable with overflow checks. -/
example : (leWord (Sample.bytes 16 3).toList 3 ++ leWord (Sample.bytes 16 3).toList 2 : U64).toNat < 2 ^ 64 - 1 := by decide +kernel

end Verif
