import Verif.Proof.Rng
import Verif.Proof.Ciphers
import Verif.Props.Sample
/-!
# ChaCha RNGs (C17 - C28)

`dr` is the number of double rounds (4, 6, 10 for `ChaCha8/12/20Rng`), `m` the overflow-check mode of the build, `Env` the
circumstances of a call (build configuration and detected CPU features decide on the backend of each refill).
-/
namespace Verif
open Spec ChaCha
open Verif.Spec.Rng (St RngOp RngObs)

namespace ChaCha.Rng

/-- `h` is a history of calls on a fresh generator; it showed the caller `os` and left the generator `r`. -/
def Reach (m : Mode) (dr : Nat) (seed : Vector U8 32) (h : List (Env × RngOp)) (os : List RngObs) (r : Rng) : Prop :=
  ∃ r₀, fromSeed seed = .ok r₀ ∧ run m dr h r₀ = .ok (os, r)

/-- Histories that cannot panic: no `get_block_pos` if overflow checks are on. -/
def Quiet (m : Mode) (h : List (Env × RngOp)) : Prop := m = .debug → ∀ x ∈ h, x.2 ≠ .getBlockPos

/-- No calls can tell the two generators apart. -/
def Same (m : Mode) (dr : Nat) (r r' : Rng) : Prop :=
  ∀ k k' : List (Env × RngOp), k.map (·.2) = k'.map (·.2) → Quiet m k →
    ∃ os v v', run m dr k r = .ok (os, v) ∧ run m dr k' r' = .ok (os, v')

/-- Where the abstract cursor stands after a history. -/
def cursor (dr : Nat) (seed : Vector U8 32) (h : List (Env × RngOp)) : St :=
  (Spec.Rng.run dr (h.map (·.2)) (Spec.Rng.init seed)).2

theorem Reach.rel {m : Mode} {dr : Nat} {seed : Vector U8 32} {h : List (Env × RngOp)} {os : List RngObs} {r : Rng}
    (hr : Reach m dr seed h os r) : Rel dr (cursor dr seed h) r := by
  obtain ⟨r₀, h0, h1⟩ := hr
  obtain ⟨r₁, h2, h3⟩ := fromSeed_rel dr seed
  rw [h0] at h2
  simp only [Except.ok.injEq] at h2
  rw [← h2] at h3
  exact (run_ok m h h3 h1).2

theorem Rel.same {dr : Nat} {a : St} {r r' : Rng} (h : Rel dr a r) (h' : Rel dr a r') (m : Mode) : Same m dr r r' := by
  intro k k' hk hq
  obtain ⟨v, h1, _⟩ := run_rel m k hq h
  have hq' : m = .debug → ∀ x ∈ k', x.2 ≠ .getBlockPos := by
    intro hm x hx hxe
    have : x.2 ∈ k.map (·.2) := hk ▸ List.mem_map_of_mem hx
    obtain ⟨y, hy, hye⟩ := List.mem_map.1 this
    exact hq hm y hy (hye.trans hxe)
  obtain ⟨v', h2, _⟩ := run_rel m k' hq' h'
  rw [← hk] at h2
  exact ⟨_, v, v', h1, h2⟩

theorem Rel.pos_lt {dr : Nat} {a : St} {r : Rng} (h : Rel dr a r) : a.pos < 2 ^ 68 := by
  obtain ⟨_, b, h⟩ := h
  exact h.bound

theorem Rel.wordPos {dr : Nat} {a : St} {r : Rng} (h : Rel dr a r) : r.getWordPos.toNat = a.pos := by
  have := h.pos_lt
  rw [getWordPos_rel h, BitVec.toNat_ofNat]
  omega

theorem Rel.eq_iff {dr dr' : Nat} {a a' : St} {r r' : Rng} (h : Rel dr a r) (h' : Rel dr' a' r') : eq r r' = true ↔ a = a' := by
  have h1 := h.wordPos
  have h2 := h'.wordPos
  simp only [eq, decide_eq_true_eq, getSeed_rel h, getSeed_rel h', getStream_rel h, getStream_rel h']
  constructor
  · rintro ⟨e1, e2, e3⟩
    obtain ⟨x, y, z⟩ := a
    obtain ⟨x', y', z'⟩ := a'
    simp only [St.mk.injEq] at *
    refine ⟨e1, e2, ?_⟩
    rw [← h1, ← h2, e3]
  · rintro rfl
    refine ⟨rfl, rfl, ?_⟩
    exact BitVec.eq_of_toNat_eq (h1.trans h2.symm)

end ChaCha.Rng

open ChaCha.Rng

namespace Sample

/-- 70 bytes, a jump to just before the end of the period of stream 5, a read across the end. -/
def rngHistory : List (Env × RngOp) :=
  [(avx2, .fill 70), (soft, .setStream 5), (avx2, .setWordPos 0xFFFFFFFFFFFFFFFFF#128), (soft, .nextU64)]

/-- It ends at word 1 of stream 5. -/
theorem rngHistory_cursor (dr : Nat) (seed : Vector U8 32) : cursor dr seed rngHistory = ⟨seed, 5, 1⟩ := by
  simp only [cursor, rngHistory, List.map_cons, List.map_nil, Spec.Rng.run, Spec.Rng.step, Spec.Rng.init, St.move, St.mk.injEq, true_and]
  decide

theorem rng_exists (m : Mode) (dr : Nat) (seed : Vector U8 32) : ∃ os r, Reach m dr seed rngHistory os r := by
  obtain ⟨r₀, h0, h1⟩ := fromSeed_rel dr seed
  obtain ⟨r, h2, _⟩ := run_rel m rngHistory (by
    intro _ x hx
    simp only [rngHistory, List.mem_cons, List.not_mem_nil, or_false] at hx
    rcases hx with rfl | rfl | rfl | rfl <;> exact nofun) h1
  exact ⟨_, r, r₀, h0, h2⟩

end Sample

/-! ## C17 -/

/-- **C17**.  No constructor panics: not those of the ciphers with keys and nonces of the right size (for RC4: a slice of an accepted
length), nor that of an RNG. -/
theorem C17_constructors (u : Nat) (hu : 16 ≤ u) :
    (∀ c : SeekCipher, ∃ w, c.create u = .ok w) ∧ (∀ c : PlainCipher, ∃ w, c.create u = .ok w) ∧
      (∀ seed, ∃ r, ChaCha.Rng.fromSeed seed = .ok r) := by
  refine ⟨fun c => ?_, fun c => ?_, fun seed => ?_⟩
  · obtain ⟨_, _, s, h, _⟩ := c.law u
    exact ⟨_, h⟩
  · obtain ⟨w, h, _⟩ := c.isStream u hu
    exact ⟨w, h⟩
  · obtain ⟨r, h, _⟩ := fromSeed_rel 0 seed
    exact ⟨r, h⟩

/-- A 16-bit target, ChaCha20 and Rabbit. -/
example : (∃ w, Sample.chacha20.create 16 = .ok w) ∧ ∃ w, Sample.rabbit.create 16 = .ok w :=
  ⟨(C17_constructors 16 (by decide)).1 _, (C17_constructors 16 (by decide)).2.1 _⟩

/-- **C17**.  `ChaChaCore::<R, Ietf>::from_seed` panics for every seed; with `Legacy` it does not. -/
theorem C17_from_seed (seed : Vector U8 32) :
    coreFromSeed .ietf seed = .error .assertion ∧ ∃ s, coreFromSeed .legacy seed = .ok s :=
  ⟨newInternal_ietf_eight seed _ (by simp), _, newInternal_legacy seed _ (by simp)⟩

example : coreFromSeed .ietf (Sample.bytes 32 0) = .error .assertion := (C17_from_seed _).1

/-! ## C18 -/

/-- **C18**.  Every history of calls on a fresh generator shows the caller what the abstract cursor over the published word stream
shows, if it does not panic; and it does not panic, except that `get_block_pos` may when overflow checks are on (see C20). -/
theorem C18_cursor (m : Mode) (dr : Nat) (seed : Vector U8 32) (h : List (Env × RngOp)) :
    (∀ os r, Reach m dr seed h os r → os = (Spec.Rng.run dr (h.map (·.2)) (Spec.Rng.init seed)).1) ∧
    (Quiet m h → ∃ os r, Reach m dr seed h os r) := by
  obtain ⟨r₀, h0, h1⟩ := fromSeed_rel dr seed
  constructor
  · rintro os r ⟨r₁, h2, h3⟩
    rw [h0] at h2
    simp only [Except.ok.injEq] at h2
    rw [← h2] at h3
    exact (run_ok m h h1 h3).1
  · intro hq
    obtain ⟨r, h2, _⟩ := run_rel m h hq h1
    exact ⟨_, r, r₀, h0, h2⟩

/-- Histories without `get_block_pos` under overflow checks exist. -/
example : Quiet .debug Sample.rngHistory := by
  intro _ x hx
  simp only [Sample.rngHistory, List.mem_cons, List.not_mem_nil, or_false] at hx
  rcases hx with rfl | rfl | rfl | rfl <;> exact nofun

/-- The word stream is that of the published test vectors: first word of ChaCha20 under the zero key. -/
example : Spec.Rng.word 10 (Vector.replicate 32 0) 0 0 = 0xade0b876#32 := by decide +kernel

section
variable {m : Mode} {dr : Nat} {seed : Vector U8 32} {h : List (Env × RngOp)} {os : List RngObs} {r : ChaCha.Rng}

/-! ## C19 -/

/-- **C19**.  After any history, `set_word_pos(p)` succeeds and makes `get_word_pos` return `p mod 2^68`. -/
theorem C19_set_get (hr : Reach m dr seed h os r) (e : Env) (p : U128) :
    ∃ r', r.setWordPos dr e p = .ok r' ∧ r'.getWordPos.toNat = p.toNat % 2 ^ 68 := by
  obtain ⟨r', h1, h2⟩ := setWordPos_rel hr.rel e p
  exact ⟨r', h1, h2.wordPos⟩

/-- A position beyond `2^68`, in a generator that has been used. -/
example : ∃ os r r', Reach .debug 10 (Sample.bytes 32 0) Sample.rngHistory os r ∧
    r.setWordPos 10 Sample.avx2 (2 ^ 68 + 21) = .ok r' ∧ r'.getWordPos.toNat = 21 := by
  obtain ⟨os, r, hr⟩ := Sample.rng_exists .debug 10 (Sample.bytes 32 0)
  obtain ⟨r', h1, h2⟩ := C19_set_get hr Sample.avx2 (2 ^ 68 + 21)
  exact ⟨os, r, r', hr, h1, h2.trans (by decide +kernel)⟩

/-- **C19**.  The word position advances by 1, 2 and `⌈n/4⌉`, modulo `2^68`. -/
theorem C19_advance (hr : Reach m dr seed h os r) (e : Env) (n : Nat) :
    (r.nextWord dr e).2.getWordPos.toNat = (r.getWordPos.toNat + 1) % 2 ^ 68 ∧
    (r.nextU64 dr e).2.getWordPos.toNat = (r.getWordPos.toNat + 2) % 2 ^ 68 ∧
    (r.fillBytes dr e n).2.getWordPos.toNat = (r.getWordPos.toNat + (n + 3) / 4) % 2 ^ 68 := by
  rw [hr.rel.wordPos]
  exact ⟨(nextWord_rel hr.rel e).2.wordPos, (nextU64_rel hr.rel e).2.wordPos, (fillBytes_rel hr.rel e n).2.wordPos⟩

example : ∃ os r, Reach .debug 10 (Sample.bytes 32 0) Sample.rngHistory os r ∧ r.getWordPos.toNat = 1 := by
  obtain ⟨os, r, hr⟩ := Sample.rng_exists .debug 10 (Sample.bytes 32 0)
  have := hr.rel.wordPos
  rw [Sample.rngHistory_cursor] at this
  exact ⟨os, r, hr, this⟩

/-! ## C20 -/

/-- **C20**.  With overflow checks on, `get_block_pos` panics exactly if the 64-bit block counter is below 4 while the buffer is partly
consumed; in all other cases, and always with overflow checks off, it returns `get_word_pos / 16`. -/
theorem C20_block_pos (hr : Reach m dr seed h os r) (m' : Mode) :
    ((m' = .debug ∧ (r.core[12].toNat + 2 ^ 32 * r.core[13].toNat < 4 ∧ r.index < 64)) → r.getBlockPos m' = .error .overflow) ∧
    (¬ (m' = .debug ∧ (r.core[12].toNat + 2 ^ 32 * r.core[13].toNat < 4 ∧ r.index < 64)) →
      ∃ b, r.getBlockPos m' = .ok b ∧ b.toNat = r.getWordPos.toNat / 16) := by
  have e : (Legacy.getBlockPos r.core).toNat = r.core[12].toNat + 2 ^ 32 * r.core[13].toNat := by
    rw [Legacy.getBlockPos, join_toNat]; omega
  rw [← e]
  obtain ⟨h1, h2⟩ := getBlockPos_rel hr.rel m'
  refine ⟨h1, fun hn => ⟨_, h2 hn, ?_⟩⟩
  have := hr.rel.pos_lt
  rw [hr.rel.wordPos, BitVec.toNat_ofNat]
  omega

/-- At word 1 of a stream, with overflow checks off: block 0. -/
example : ∃ os r b, Reach .debug 10 (Sample.bytes 32 0) Sample.rngHistory os r ∧ r.getBlockPos .release = .ok b ∧ b.toNat = 0 := by
  obtain ⟨os, r, hr⟩ := Sample.rng_exists .debug 10 (Sample.bytes 32 0)
  obtain ⟨b, h1, h2⟩ := (C20_block_pos hr .release).2 (fun h => nomatch h.1)
  have h3 := Rel.wordPos hr.rel
  rw [Sample.rngHistory_cursor] at h3
  exact ⟨os, r, b, hr, h1, h2.trans (by rw [h3]; rfl)⟩

/-- **C20**.  The panic can be reached, in every generator: set the block position to one of the last four, draw a word, ask for the
block position. -/
theorem C20_panic (hr : Reach m dr seed h os r) (e e' : Env) (b : U64) (hb : 2 ^ 64 - 4 ≤ b.toNat) :
    ∃ r₁, r.setBlockPos dr e b = .ok r₁ ∧ ((r₁.nextWord dr e').2).getBlockPos .debug = .error .overflow := by
  obtain ⟨_, b₀, hat⟩ := hr.rel
  have hlt := b.isLt
  obtain ⟨r₁, h1, h2⟩ := setBlockPos_rel hr.rel e b
  refine ⟨r₁, h1, (getBlockPos_rel (nextWord_rel h2 e').2 .debug).1 ⟨rfl, ?_⟩⟩
  have hr1 : r₁ = { r with index := 64, core := Legacy.setBlockPos r.core b } := by
    have : r.setBlockPos dr e b = .ok { r with index := 64, core := Legacy.setBlockPos r.core b } := rfl
    rw [h1] at this
    exact Except.ok.inj this
  have hcore : ((r₁.nextWord dr e').2).core = advance .legacy 4 (Legacy.setBlockPos r.core b) ∧ ((r₁.nextWord dr e').2).index = 1 := by
    rw [hr1, nextWord, dif_neg (by exact Nat.lt_irrefl 64)]
    exact ⟨refill_core _ _ _, rfl⟩
  rw [Wrapped, hcore.1, hcore.2, advance_legacy, Legacy.get_set, Legacy.get_set]
  refine ⟨?_, by decide⟩
  simp only [BitVec.toNat_add, BitVec.toNat_ofNat]
  omega

example : 2 ^ 64 - 4 ≤ (0xFFFFFFFFFFFFFFFE : U64).toNat := by decide

/-! ## C21 -/

/-- **C21**.  Serialising and deserialising succeed and give a generator equal to the original; no later calls can tell them apart.
(`m`, `m'`, `dr`: with overflow checks on, calls of `get_block_pos` are left out, since whether that panics depends on what is buffered.) -/
theorem C21_round_trip (hr : Reach m dr seed h os r) (m' : Mode) (e : Env) :
    ∃ v r', r.serialize m' = .ok v ∧ ChaCha.Rng.deserialize dr e v = .ok r' ∧ ChaCha.Rng.eq r' r = true ∧
      ∀ m'', Same m'' dr r r' := by
  obtain ⟨v, h1, h2⟩ := serialize_rel hr.rel m'
  obtain ⟨r', h3, h4⟩ := deserialize_rel dr e v
  rw [ofBytes_bytes _ hr.rel.pos_lt v h2] at h4
  exact ⟨v, r', h1, h3, (h4.eq_iff hr.rel).2 rfl, fun m'' => hr.rel.same h4 m''⟩

example : ∃ os r v r', Reach .debug 10 (Sample.bytes 32 0) Sample.rngHistory os r ∧ r.serialize .debug = .ok v ∧
    ChaCha.Rng.deserialize 10 Sample.soft v = .ok r' ∧ ChaCha.Rng.eq r' r = true := by
  obtain ⟨os, r, hr⟩ := Sample.rng_exists .debug 10 (Sample.bytes 32 0)
  obtain ⟨v, r', h1, h2, h3, _⟩ := C21_round_trip hr .debug Sample.soft
  exact ⟨os, r, v, r', hr, h1, h2, h3⟩

/-! ## C22 -/

/-- **C22**.  `serialize_state` never panics; the bytes are the seed, the stream number and the word position in little-endian, the last
byte being below 16. -/
theorem C22_format (hr : Reach m dr seed h os r) (m' : Mode) :
    ∃ v, r.serialize m' = .ok v ∧
      (∀ i (hi : i < 32), v[i] = r.getSeed[i]) ∧
      (∀ i (hi : i < 8), v[32 + i] = leByte r.getStream.toNat i) ∧
      (∀ i (hi : i < 9), v[40 + i] = leByte r.getWordPos.toNat i) ∧ v[48].toNat < 16 := by
  obtain ⟨v, h1, h2⟩ := serialize_rel hr.rel m'
  have hlt := hr.rel.pos_lt
  refine ⟨v, h1, ?_⟩
  rw [getSeed_rel hr.rel, getStream_rel hr.rel, hr.rel.wordPos]
  generalize cursor dr seed h = a at h2 hlt
  have hget : ∀ i (hi : i < 49), v[i] = a.bytes[i]'(by simp [St.bytes]; omega) := by
    intro i hi
    simp only [← h2, Vector.getElem_toList]
  have h3 : ∀ i (hi : i < 9), v[40 + i] = leByte a.pos i := by
    intro i hi
    rw [hget (40 + i) (by omega)]
    simp only [St.bytes]
    rw [List.getElem_append_right (by simp)]
    simp
  refine ⟨fun i hi => ?_, fun i hi => ?_, h3, ?_⟩
  · rw [hget i (by omega)]
    simp only [St.bytes]
    rw [List.getElem_append_left (by simp; omega), List.getElem_append_left (by simp; omega), Vector.getElem_toList]
  · rw [hget (32 + i) (by omega)]
    simp only [St.bytes]
    rw [List.getElem_append_left (by simp; omega), List.getElem_append_right (by simp)]
    simp
  · rw [h3 8 (by decide), leByte, BitVec.toNat_ofNat]
    omega

/-- At word 1 of a stream: the position is written as `1, 0, ..., 0`. -/
example : ∃ os r v, Reach .debug 10 (Sample.bytes 32 0) Sample.rngHistory os r ∧ r.serialize .debug = .ok v ∧ v[40] = 1 ∧ v[48] = 0 := by
  obtain ⟨os, r, hr⟩ := Sample.rng_exists .debug 10 (Sample.bytes 32 0)
  obtain ⟨v, h1, _, _, h2, _⟩ := C22_format hr .debug
  have h3 := Rel.wordPos hr.rel
  rw [Sample.rngHistory_cursor] at h3
  refine ⟨os, r, v, hr, h1, (h2 0 (by decide)).trans ?_, (h2 8 (by decide)).trans ?_⟩ <;> rw [h3] <;> decide

theorem leNat_drop40 (v : Vector U8 49) :
    leNat (v.toList.drop 40) = leNat ((v.toList.drop 40).take 8) + 2 ^ 64 * v[48].toNat := by
  have e1 : v.toList.drop 40 = (v.toList.drop 40).take 8 ++ [v[48]] := by
    apply List.ext_getElem
    · simp
    · intro i h1 h2
      have hi : i < 9 := by simpa using h1
      rw [List.getElem_append]
      split
      · simp
      · rename_i hge
        have : i = 8 := by simp at hge; omega
        subst this
        simp
  conv => lhs; rw [e1, leNat_append]
  have : ((v.toList.drop 40).take 8).length = 8 := by simp
  rw [this]
  simp [leNat]

/-- The bytes of what a string stands for. -/
theorem bytes_ofBytes (c : Vector U8 49) (hc : c[48].toNat < 16) : (St.ofBytes c).bytes = c.toList := by
  have hl1 : ((c.toList.drop 32).take 8).length = 8 := by simp
  have hl2 : (c.toList.drop 40).length = 9 := by simp
  have h1 := leNat_lt ((c.toList.drop 32).take 8)
  have h3 := map_leByte_leNat ((c.toList.drop 32).take 8)
  have h4 := map_leByte_leNat (c.toList.drop 40)
  rw [hl1] at h1 h3
  rw [hl2] at h4
  have h2 : leNat (c.toList.drop 40) < 2 ^ 68 := by
    have := leNat_lt ((c.toList.drop 40).take 8)
    rw [show ((c.toList.drop 40).take 8).length = 8 by simp] at this
    rw [leNat_drop40]
    omega
  simp only [St.bytes, St.ofBytes]
  rw [BitVec.toNat_ofNat, Nat.mod_eq_of_lt (Nat.lt_of_lt_of_le h1 (by decide)), Nat.mod_eq_of_lt h2, h3, h4]
  apply List.ext_getElem
  · simp
  · intro i h5 h6
    have hi : i < 49 := by simpa using h6
    by_cases h32 : i < 32
    · rw [List.getElem_append_left (by simp; omega), List.getElem_append_left (by simp; omega)]
      simp
    · by_cases h40 : i < 40
      · rw [List.getElem_append_left (by simp; omega), List.getElem_append_right (by simp; omega)]
        simp only [Vector.length_toList, List.getElem_take, List.getElem_drop, Vector.getElem_toList]
        congr 1; omega
      · rw [List.getElem_append_right (by simp; omega)]
        simp only [List.length_append, Vector.length_toList, List.getElem_drop, Vector.getElem_toList, hl1]
        congr 1; omega

/-- **C22**.  `deserialize_state` accepts every string, ignores the four top bits of the last byte, and serialising again gives the
string with those bits cleared. -/
theorem C22_any_string (dr : Nat) (e e' : Env) (m : Mode) (b : Vector U8 49) :
    ∃ r, ChaCha.Rng.deserialize dr e b = .ok r ∧ r.serialize m = .ok (b.set 48 (b[48] &&& 0x0F#8)) ∧
      ∀ x : U8, x &&& 0x0F#8 = b[48] &&& 0x0F#8 →
        ∃ r', ChaCha.Rng.deserialize dr e' (b.set 48 x) = .ok r' ∧ ChaCha.Rng.eq r r' = true ∧ ∀ m', Same m' dr r r' := by
  have hmask : ∀ x : U8, (x &&& 0x0F#8).toNat = x.toNat % 16 := by
    intro x
    rw [BitVec.toNat_and]
    exact Nat.and_two_pow_sub_one_eq_mod _ 4
  have hset : ∀ x : U8, x &&& 0x0F#8 = b[48] &&& 0x0F#8 → St.ofBytes (b.set 48 x) = St.ofBytes b := by
    intro x hx
    have hx' : x.toNat % 16 = b[48].toNat % 16 := by rw [← hmask, hx, hmask]
    have h1 : (Vector.ofFn fun i : Fin 32 => (b.set 48 x)[i.val]) = Vector.ofFn fun i : Fin 32 => b[i.val] := by
      apply Vector.ext; intro i hi
      simp only [Vector.getElem_ofFn]
      rw [Vector.getElem_set, if_neg (by omega)]
    have h2 : ((b.set 48 x).toList.drop 32).take 8 = (b.toList.drop 32).take 8 := by
      apply List.ext_getElem
      · simp
      · intro i h1 h2
        have hi : i < 8 := by simp at h1; omega
        simp only [List.getElem_take, List.getElem_drop, Vector.getElem_toList]
        rw [Vector.getElem_set, if_neg (by omega)]
    have h3 : ((b.set 48 x).toList.drop 40).take 8 = (b.toList.drop 40).take 8 := by
      apply List.ext_getElem
      · simp
      · intro i h1 h2
        have hi : i < 8 := by simp at h1; omega
        simp only [List.getElem_take, List.getElem_drop, Vector.getElem_toList]
        rw [Vector.getElem_set, if_neg (by omega)]
    have h4 : leNat ((b.set 48 x).toList.drop 40) % 2 ^ 68 = leNat (b.toList.drop 40) % 2 ^ 68 := by
      rw [leNat_drop40, leNat_drop40 b, h3, Vector.getElem_set_self]
      omega
    simp only [St.ofBytes, h1, h2, h4]
  obtain ⟨r, h1, h2⟩ := deserialize_rel dr e b
  refine ⟨r, h1, ?_, fun x hx => ?_⟩
  · obtain ⟨v, h3, h4⟩ := serialize_rel h2 m
    rw [h3]
    congr 1
    have h5 := hset (b[48] &&& 0x0F#8) (by simp only [BitVec.and_assoc, BitVec.and_self])
    have h6 : (b.set 48 (b[48] &&& 0x0F#8))[48].toNat < 16 := by
      rw [Vector.getElem_set_self, hmask]
      exact Nat.mod_lt _ (by decide)
    rw [← h5, bytes_ofBytes _ h6] at h4
    exact Vector.toList_inj.1 h4
  · obtain ⟨r', h3, h4⟩ := deserialize_rel dr e' (b.set 48 x)
    rw [hset x hx] at h4
    exact ⟨r', h3, (h2.eq_iff h4).2 rfl, fun m' => h2.same h4 m'⟩

/-- A string with all bits of the last byte set: the generator it stands for is at word `0xF << 64` of its stream. -/
example : ∃ r, ChaCha.Rng.deserialize 10 Sample.avx2 (Sample.bytes 49 207) = .ok r ∧ (Sample.bytes 49 207)[48] = 0xFF#8 := by
  obtain ⟨r, h, _⟩ := C22_any_string 10 Sample.avx2 Sample.soft .debug (Sample.bytes 49 207)
  exact ⟨r, h, by decide⟩

/-! ## C23 -/

/-- **C23**.  `==` is an equivalence relation. -/
theorem C23_equivalence : (∀ a, ChaCha.Rng.eq a a = true) ∧ (∀ a b, ChaCha.Rng.eq a b = true → ChaCha.Rng.eq b a = true) ∧
    (∀ a b c, ChaCha.Rng.eq a b = true → ChaCha.Rng.eq b c = true → ChaCha.Rng.eq a c = true) := by
  simp only [ChaCha.Rng.eq, decide_eq_true_eq]
  refine ⟨by simp, fun a b h => ⟨h.1.symm, h.2.1.symm, h.2.2.symm⟩, fun a b c h h' => ?_⟩
  exact ⟨h.1.trans h'.1, h.2.1.trans h'.2.1, h.2.2.trans h'.2.2⟩

/-- Equality looks at the position, not at what is buffered: different generators may be equal. -/
example : ChaCha.Rng.eq ⟨(Vector.replicate 16 7).set 12 4, Vector.replicate 64 1, 3⟩ ⟨(Vector.replicate 16 7).set 12 4, Vector.replicate 64 2, 3⟩ = true := by
  decide +kernel

/-- **C23**.  Two generators, reached in whatever ways from whatever seeds, compare equal iff their cursors agree in seed, stream and
position, iff no calls can tell them apart. -/
theorem C23_equality (hr : Reach m dr seed h os r) {m' : Mode} {seed' : Vector U8 32} {h' : List (Env × RngOp)} {os' : List RngObs}
    {r' : ChaCha.Rng} (hr' : Reach m' dr seed' h' os' r') :
    (ChaCha.Rng.eq r r' = true ↔ cursor dr seed h = cursor dr seed' h') ∧
    (ChaCha.Rng.eq r r' = true ↔ ∀ m'', Same m'' dr r r') := by
  refine ⟨hr.rel.eq_iff hr'.rel, fun he m'' => ?_, fun hs => ?_⟩
  · have h2 := hr'.rel
    rw [← (hr.rel.eq_iff hr'.rel).1 he] at h2
    exact hr.rel.same h2 m''
  · let k : List (Env × RngOp) := [(Sample.soft, .getSeed), (Sample.soft, .getStream), (Sample.soft, .getWordPos)]
    obtain ⟨o, v, v', h1, h2⟩ := hs .release k k rfl (fun h => nomatch h)
    have e1 : run .release dr k r = .ok ([.bytes r.getSeed.toList, .u64 r.getStream, .u128 r.getWordPos], r) := rfl
    have e2 : run .release dr k r' = .ok ([.bytes r'.getSeed.toList, .u64 r'.getStream, .u128 r'.getWordPos], r') := rfl
    rw [e1] at h1
    rw [e2] at h2
    simp only [Except.ok.injEq, Prod.mk.injEq] at h1 h2
    have := h1.1.trans h2.1.symm
    simp only [List.cons.injEq, RngObs.bytes.injEq, RngObs.u64.injEq, RngObs.u128.injEq, and_true] at this
    simp only [ChaCha.Rng.eq, decide_eq_true_eq]
    exact ⟨Vector.toList_inj.1 this.1, this.2.1, this.2.2⟩

/-- Generators for different seeds are told apart; the same history under another overflow-check mode gives an equal one. -/
example : ∃ os r os' r' os'' r'', Reach .debug 10 (Sample.bytes 32 0) Sample.rngHistory os r ∧
    Reach .release 10 (Sample.bytes 32 0) Sample.rngHistory os' r' ∧ Reach .debug 10 (Sample.bytes 32 1) Sample.rngHistory os'' r'' ∧
    ChaCha.Rng.eq r r' = true ∧ ¬ ChaCha.Rng.eq r r'' = true := by
  obtain ⟨os, r, hr⟩ := Sample.rng_exists .debug 10 (Sample.bytes 32 0)
  obtain ⟨os', r', hr'⟩ := Sample.rng_exists .release 10 (Sample.bytes 32 0)
  obtain ⟨os'', r'', hr''⟩ := Sample.rng_exists .debug 10 (Sample.bytes 32 1)
  refine ⟨os, r, os', r', os'', r'', hr, hr', hr'', (C23_equality hr hr').1.2 rfl, fun h => ?_⟩
  have h1 := (C23_equality hr hr'').1.1 h
  rw [Sample.rngHistory_cursor, Sample.rngHistory_cursor] at h1
  exact absurd (congrArg St.seed h1) (by decide +kernel)

/-! ## C24 -/

theorem run_keeps (dr : Nat) (l : List RngOp) : ∀ a : St, (∀ x ∈ l, ∀ b, x ≠ .load b) →
    (Spec.Rng.run dr l a).2.seed = a.seed ∧
      ((∀ x ∈ l, ∀ s, x ≠ .setStream s) → (Spec.Rng.run dr l a).2.stream = a.stream) := by
  induction l with
  | nil => exact fun a _ => ⟨rfl, fun _ => rfl⟩
  | cons x l ih =>
    intro a hl
    obtain ⟨h1, h2⟩ := ih (Spec.Rng.step dr a x).2 fun y hy => hl y (List.mem_cons_of_mem _ hy)
    have hseed : (Spec.Rng.step dr a x).2.seed = a.seed := by
      cases x with
      | load b => exact absurd rfl (hl _ (List.mem_cons_self ..) b)
      | _ => rfl
    refine ⟨h1.trans hseed, fun hs => (h2 fun y hy => hs y (List.mem_cons_of_mem _ hy)).trans ?_⟩
    cases x with
    | load b => exact absurd rfl (hl _ (List.mem_cons_self ..) b)
    | setStream s => exact absurd rfl (hs _ (List.mem_cons_self ..) s)
    | _ => rfl

/-- **C24**.  After any history, `set_stream(s)` succeeds; from then on the generator is the cursor at word 0 of stream `s` of the same
seed, and `get_stream` returns `s` until the next `set_stream` (or replacement of the generator). -/
theorem C24_set_stream (hr : Reach m dr seed h os r) (e : Env) (s : U64) :
    ∃ r', r.setStream dr e s = .ok r' ∧ r'.getStream = s ∧ r'.getWordPos = 0 ∧ r'.getSeed = r.getSeed ∧
      ∀ (m' : Mode) (k : List (Env × RngOp)), Quiet m' k →
        ∃ v, run m' dr k r' = .ok ((Spec.Rng.run dr (k.map (·.2)) ⟨r.getSeed, s, 0⟩).1, v) ∧
          ((∀ x ∈ k, ∀ s b, x.2 ≠ .setStream s ∧ x.2 ≠ .load b) → v.getStream = s) := by
  obtain ⟨r', h1, h2⟩ := setStream_rel hr.rel e s
  refine ⟨r', h1, getStream_rel h2, getWordPos_rel h2, (getSeed_rel h2).trans (getSeed_rel hr.rel).symm, ?_⟩
  intro m' k hk
  obtain ⟨v, h3, h4⟩ := run_rel m' k hk h2
  rw [getSeed_rel hr.rel]
  refine ⟨v, h3, fun hs => (getStream_rel h4).trans ?_⟩
  refine (run_keeps dr (k.map (·.2)) _ ?_).2 ?_
  · intro x hx b
    obtain ⟨y, hy, rfl⟩ := List.mem_map.1 hx
    exact (hs y hy 0 b).2
  · intro x hx s'
    obtain ⟨y, hy, rfl⟩ := List.mem_map.1 hx
    exact (hs y hy s' (Vector.replicate 49 0)).1

example : ∃ os r r', Reach .debug 10 (Sample.bytes 32 0) Sample.rngHistory os r ∧ r.setStream 10 Sample.avx2 77 = .ok r' ∧
    r'.getStream = 77 ∧ r'.getWordPos = 0 := by
  obtain ⟨os, r, hr⟩ := Sample.rng_exists .debug 10 (Sample.bytes 32 0)
  obtain ⟨r', h1, h2, h3, _⟩ := C24_set_stream hr Sample.avx2 77
  exact ⟨os, r, r', hr, h1, h2, h3⟩

/-- **C24**.  `get_seed` returns the seed after any history (that does not replace the generator by a deserialised one). -/
theorem C24_seed (hr : Reach m dr seed h os r) (hl : ∀ x ∈ h, ∀ b, x.2 ≠ .load b) : r.getSeed = seed := by
  rw [getSeed_rel hr.rel]
  refine (run_keeps dr (h.map (·.2)) _ ?_).1
  intro x hx b
  obtain ⟨y, hy, rfl⟩ := List.mem_map.1 hx
  exact hl y hy b

example : ∀ x ∈ Sample.rngHistory, ∀ b, x.2 ≠ .load b := by
  intro x hx b
  simp only [Sample.rngHistory, List.mem_cons, List.not_mem_nil, or_false] at hx
  rcases hx with rfl | rfl | rfl | rfl <;> exact nofun

/-! ## C25 -/

/-- **C25**.  `next_u64` is two words of `next_u32`, low word first, and leaves an equal generator. -/
theorem C25_next_u64 (hr : Reach m dr seed h os r) (e e₁ e₂ : Env) :
    let w₁ := r.nextWord dr e₁
    let w₂ := w₁.2.nextWord dr e₂
    (r.nextU64 dr e).1.toNat = w₁.1.toNat + 2 ^ 32 * w₂.1.toNat ∧ ChaCha.Rng.eq (r.nextU64 dr e).2 w₂.2 = true ∧
      ∀ m', Same m' dr (r.nextU64 dr e).2 w₂.2 := by
  intro w₁ w₂
  obtain ⟨h1, h2⟩ := nextU64_rel hr.rel e
  obtain ⟨h3, h4⟩ := nextWord_rel hr.rel e₁
  obtain ⟨h5, h6⟩ := nextWord_rel h4 e₂
  rw [move_move] at h6
  refine ⟨?_, (h2.eq_iff h6).2 rfl, fun m' => h2.same h6 m'⟩
  rw [word_move] at h5
  show (r.nextU64 dr e).1.toNat = (r.nextWord dr e₁).1.toNat + 2 ^ 32 * ((r.nextWord dr e₁).2.nextWord dr e₂).1.toNat
  rw [h1, h3, h5, BitVec.toNat_ofNat]
  have := ((cursor dr seed h).word dr 0).isLt
  have := ((cursor dr seed h).word dr 1).isLt
  exact Nat.mod_eq_of_lt (by omega)

/-- On AVX2, against two calls on the portable backend. -/
example : ∃ os r, Reach .debug 10 (Sample.bytes 32 0) Sample.rngHistory os r ∧
    (r.nextU64 10 Sample.avx2).1.toNat = (r.nextWord 10 Sample.soft).1.toNat +
      2 ^ 32 * ((r.nextWord 10 Sample.soft).2.nextWord 10 Sample.soft).1.toNat := by
  obtain ⟨os, r, hr⟩ := Sample.rng_exists .debug 10 (Sample.bytes 32 0)
  exact ⟨os, r, hr, (C25_next_u64 hr Sample.avx2 Sample.soft Sample.soft).1⟩

/-- **C25**.  `fill_bytes` of `n₁` bytes and then `n₂`: together they are a single `fill_bytes` from which the bytes between `n₁` and the
next multiple of 4 are cut out - nothing if `n₁` is a multiple of 4. -/
theorem C25_fill (hr : Reach m dr seed h os r) (e e₁ e₂ : Env) (n₁ n₂ : Nat) :
    let f₁ := r.fillBytes dr e₁ n₁
    let f₂ := f₁.2.fillBytes dr e₂ n₂
    let f := r.fillBytes dr e (4 * ((n₁ + 3) / 4) + n₂)
    f₁.1 = f.1.take n₁ ∧ f₂.1 = f.1.drop (4 * ((n₁ + 3) / 4)) ∧ (n₁ % 4 = 0 → f₁.1 ++ f₂.1 = (r.fillBytes dr e (n₁ + n₂)).1) ∧
      ChaCha.Rng.eq f.2 f₂.2 = true ∧ ∀ m', Same m' dr f.2 f₂.2 := by
  intro f₁ f₂ f
  obtain ⟨h1, h2⟩ := fillBytes_rel hr.rel e₁ n₁
  obtain ⟨h3, h4⟩ := fillBytes_rel h2 e₂ n₂
  obtain ⟨h5, h6⟩ := fillBytes_rel hr.rel e (4 * ((n₁ + 3) / 4) + n₂)
  rw [move_move] at h4
  rw [show (4 * ((n₁ + 3) / 4) + n₂ + 3) / 4 = (n₁ + 3) / 4 + (n₂ + 3) / 4 by omega] at h6
  have h7 : f₁.1 = f.1.take n₁ := by
    show (r.fillBytes dr e₁ n₁).1 = (r.fillBytes dr e (4 * ((n₁ + 3) / 4) + n₂)).1.take n₁
    rw [h1, h5]
    simp only [bytes, ← List.map_take, List.take_range]
    rw [Nat.min_eq_left (by omega)]
  have h8 : f₂.1 = f.1.drop (4 * ((n₁ + 3) / 4)) := by
    show ((r.fillBytes dr e₁ n₁).2.fillBytes dr e₂ n₂).1 = (r.fillBytes dr e (4 * ((n₁ + 3) / 4) + n₂)).1.drop _
    rw [h3, h5, bytes_add, List.drop_left' (bytes_length ..)]
  refine ⟨h7, h8, fun h0 => ?_, (h6.eq_iff h4).2 rfl, fun m' => h6.same h4 m'⟩
  have e0 : 4 * ((n₁ + 3) / 4) = n₁ := by omega
  rw [h7, h8, e0, List.take_append_drop]
  show (r.fillBytes dr e (4 * ((n₁ + 3) / 4) + n₂)).1 = _
  rw [e0]

/-- 300 bytes in two calls: as 301 bytes with one left out, because 299 is not a multiple of 4. -/
example : ∃ os r, Reach .debug 10 (Sample.bytes 32 0) Sample.rngHistory os r ∧
    ((r.fillBytes 10 Sample.soft 299).2.fillBytes 10 Sample.soft 1).1 = (r.fillBytes 10 Sample.avx2 301).1.drop 300 := by
  obtain ⟨os, r, hr⟩ := Sample.rng_exists .debug 10 (Sample.bytes 32 0)
  exact ⟨os, r, hr, (C25_fill hr Sample.avx2 Sample.soft Sample.soft 299 1).2.1⟩

/-- **C25**.  A `fill_bytes` of four bytes is the word that `next_u32` would return, in little-endian. -/
theorem C25_word (hr : Reach m dr seed h os r) (e e' : Env) :
    (r.fillBytes dr e 4).1 = (List.range 4).map (leByte (r.nextWord dr e').1.toNat) ∧
      ∀ m', Same m' dr (r.fillBytes dr e 4).2 (r.nextWord dr e').2 := by
  obtain ⟨h1, h2⟩ := fillBytes_rel hr.rel e 4
  obtain ⟨h3, h4⟩ := nextWord_rel hr.rel e'
  refine ⟨?_, fun m' => h2.same h4 m'⟩
  rw [h1, h3]
  simp only [bytes]
  apply List.map_congr_left
  intro i hi
  have hi : i < 4 := List.mem_range.1 hi
  rw [show i / 4 = 0 by omega, show i % 4 = i by omega]

example : ∃ os r, Reach .debug 10 (Sample.bytes 32 0) Sample.rngHistory os r ∧
    (r.fillBytes 10 Sample.avx2 4).1 = (List.range 4).map (leByte (r.nextWord 10 Sample.soft).1.toNat) := by
  obtain ⟨os, r, hr⟩ := Sample.rng_exists .debug 10 (Sample.bytes 32 0)
  exact ⟨os, r, hr, (C25_word hr Sample.avx2 Sample.soft).1⟩

/-! ## C26 -/

theorem bytes_eq_window (dr : Nat) (seed : Vector U8 32) (s : U64) (n : Nat) :
    bytes dr ⟨seed, s, 0⟩ n = window (byteStream (Spec.ChaCha.djbBlock dr seed (Spec.Rng.nonce s)) (by decide)) 0 n := by
  simp only [bytes, window]
  apply List.map_congr_left
  intro i _
  simp only [byteStream, Nat.zero_add, St.word, Spec.Rng.word, Spec.ChaCha.djbBlock, Spec.ChaCha.serialize, Vector.getElem_ofFn]
  have e1 : i / 4 / 16 = i / 64 := by omega
  have e2 : i / 4 / 4 % 4 = i % 64 / 16 := by omega
  have e3 : i / 4 % 4 = i % 64 / 4 % 4 := by omega
  have e4 : i % 4 = i % 64 % 4 := by omega
  simp only [e1, e2, e3, e4]

theorem single_step {χ σ ι : Type} {step : χ → σ → ι → Except Panic (Obs × σ)} {x : χ} {w w' : σ} {op : ι} {o : Obs}
    (h : runHistory step [(x, op)] w = .ok ([o], w')) : step x w op = .ok (o, w') := by
  rw [runHistory] at h
  obtain ⟨⟨o₁, w₁⟩, h1, h2⟩ := bind_eq_ok h
  simp only [runHistory, bind, Except.bind, pure, Except.pure, Except.ok.injEq, Prod.mk.injEq, List.cons.injEq, and_true] at h2
  rw [h1, h2.1, h2.2]

/-- **C26**.  After any history, what `fill_bytes` returns after `set_stream(s)` is the published keystream of Bernstein's ChaCha for key
= seed and nonce = `s` in little-endian; and it is what the legacy cipher of this repository writes. -/
theorem C26_legacy (hr : Reach m dr seed h os r) (e e' : Env) (s : U64) (n : Nat) :
    ∃ r', r.setStream dr e s = .ok r' ∧
      (r'.fillBytes dr e' n).1 =
        window (byteStream (Spec.ChaCha.djbBlock dr r.getSeed (Spec.Rng.nonce s)) (by decide)) 0 n ∧
      ∀ (u : Nat) (x : Env) (buf : List U8), buf.length = n → n < 2 ^ u → n ≤ 64 * (2 ^ 64 - 1) →
        ∃ w w', (SeekCipher.chachaLegacy dr r.getSeed (Spec.Rng.nonce s)).create u = .ok w ∧
          (SeekCipher.chachaLegacy dr r.getSeed (Spec.Rng.nonce s)).step u x w (.io (.write buf)) =
            .ok (.data (.ok ()) (r'.fillBytes dr e' n).1, w') := by
  obtain ⟨r', h1, h2⟩ := setStream_rel hr.rel e s
  rw [← getSeed_rel hr.rel] at h2
  have h3 := (fillBytes_rel h2 e' n).1
  rw [bytes_eq_window] at h3
  refine ⟨r', h1, h3, ?_⟩
  intro u x buf hb hu hn
  obtain ⟨w, h4, h5⟩ := (SeekCipher.chachaLegacy dr r.getSeed (Spec.Rng.nonce s)).isSeekStream u
  have hal : ∀ y ∈ [(x, SeekOp.io (.write buf))], (SeekCipher.chachaLegacy dr r.getSeed (Spec.Rng.nonce s)).Allowed u y.2 := by
    intro y hy
    rw [List.mem_singleton.1 hy]
    show buf.length < 2 ^ u
    omega
  obtain ⟨w', h6⟩ := h5 _ hal
  have hw : Within (some (64 * (SeekCipher.chachaLegacy dr r.getSeed (Spec.Rng.nonce s)).blocks)) (0 + buf.length) := by
    intro L hL
    cases hL
    show 0 + buf.length ≤ 64 * (2 ^ 64 - 1)
    omega
  simp only [List.map_cons, List.map_nil, Cursor.run, Cursor.step, Cursor.io, if_pos hw] at h6
  refine ⟨w, w', h4, ?_⟩
  rw [h3, ← hb]
  exact single_step h6

/-- Stream 77 after the sample history, against a fresh `ChaCha20Legacy` of a 64-bit target. -/
example : ∃ os r r' w w', Reach .debug 10 (Sample.bytes 32 0) Sample.rngHistory os r ∧ r.setStream 10 Sample.avx2 77 = .ok r' ∧
    (SeekCipher.chachaLegacy 10 r.getSeed (Spec.Rng.nonce 77)).create 64 = .ok w ∧
    (SeekCipher.chachaLegacy 10 r.getSeed (Spec.Rng.nonce 77)).step 64 Sample.avx2 w (.io (.write (List.replicate 300 0))) =
      .ok (.data (.ok ()) (r'.fillBytes 10 Sample.soft 300).1, w') := by
  obtain ⟨os, r, hr⟩ := Sample.rng_exists .debug 10 (Sample.bytes 32 0)
  obtain ⟨r', h1, _, h2⟩ := C26_legacy hr Sample.avx2 Sample.soft 77 300
  obtain ⟨w, w', h3, h4⟩ := h2 64 Sample.avx2 (List.replicate 300 0) List.length_replicate (by decide) (by decide)
  exact ⟨os, r, r', w, w', hr, h1, h3, h4⟩

end

/-! ## C27 -/

/-- `s` with the 64-bit counter in words 12 and 13 set to `n`. -/
def withCounter (s : State) (n : Nat) : State := (s.set 12 (BitVec.ofNat 32 n)).set 13 (BitVec.ofNat 32 (n / 2 ^ 32))

/-- The 64-bit counter. -/
def counterOf (s : State) : Nat := s[12].toNat + 2 ^ 32 * s[13].toNat

theorem advance_withCounter (s : State) (i : Nat) : advance .legacy i s = withCounter s (counterOf s + i) := by
  rw [withCounter, ← at'_legacy_words]
  rw [advance_legacy]
  have : Legacy.getBlockPos s + BitVec.ofNat 64 i = BitVec.ofNat 64 (counterOf s + i) := ?_
  · exact congrArg (Legacy.setBlockPos s) this
  apply BitVec.eq_of_toNat_eq
  rw [BitVec.toNat_add, Legacy.getBlockPos, join_toNat]
  simp only [BitVec.toNat_ofNat, counterOf]
  omega

/-- **C27**.  In the 64-bit counter variant the refill on every backend returns the same words - the words of four consecutive blocks,
with counters modulo `2^64` - and leaves the same state: only the counter changes, by 4 modulo `2^64`. -/
theorem C27_refill (dr : Nat) (s : State) :
    ∃ ws, (∀ k (hk : k < 64), ws[k] =
        (Spec.ChaCha.core dr (rows (withCounter s (counterOf s + k / 16))))[k / 4 % 4][k % 4]) ∧
      softGenKsBlocks dr s = (ws, withCounter s (counterOf s + 4)) ∧
      Sse2.rngInner dr .legacy s = (ws, withCounter s (counterOf s + 4)) ∧
      Avx2.rngInner dr s = (ws, withCounter s (counterOf s + 4)) ∧
      Neon.rngInner dr .legacy s = (ws, withCounter s (counterOf s + 4)) ∧
      ∀ e, generate dr .legacy e s = (ws, withCounter s (counterOf s + 4)) := by
  refine ⟨quad fun i => runRounds dr (advance .legacy i s), ?_, ?_, ?_, ?_, ?_, ?_⟩
  · intro k hk
    rw [quad, Vector.getElem_ofFn, runRounds_getElem _ _ _ (by omega), advance_withCounter]
    have e1 : k % 16 / 4 = k / 4 % 4 := by omega
    have e2 : k % 16 % 4 = k % 4 := by omega
    simp only [e1, e2]
  all_goals rw [← advance_withCounter]
  · exact softGenKsBlocks_eq dr s
  · exact Sse2.rngInner_eq dr .legacy s
  · exact Avx2.rngInner_eq dr s
  · exact Neon.rngInner_eq dr .legacy s
  · exact fun e => generate_legacy dr e s

/-- A batch that straddles the end of the counter, on AVX2. -/
example : ∃ ws, generate 10 .legacy Sample.avx2 (withCounter (Vector.replicate 16 7) (2 ^ 64 - 2)) =
    (ws, withCounter (withCounter (Vector.replicate 16 7) (2 ^ 64 - 2)) (2 ^ 64 + 2)) := by
  obtain ⟨ws, _, _, _, _, _, h⟩ := C27_refill 10 (withCounter (Vector.replicate 16 7) (2 ^ 64 - 2))
  have hc : counterOf (withCounter (Vector.replicate 16 7) (2 ^ 64 - 2)) + 4 = 2 ^ 64 + 2 := by decide +kernel
  rw [hc] at h
  exact ⟨ws, h _⟩

/-- The counter that is left is 4 more modulo `2^64`; the other words are as before. -/
theorem C27_successor (s : State) (n : Nat) : counterOf (withCounter s n) = n % 2 ^ 64 ∧
    ∀ i (hi : i < 16), i ≠ 12 → i ≠ 13 → (withCounter s n)[i] = s[i] := by
  constructor
  · simp only [counterOf, withCounter]
    rw [Vector.getElem_set_self, Vector.getElem_set_ne _ _ (by decide), Vector.getElem_set_self]
    simp only [BitVec.toNat_ofNat]
    omega
  · intro i hi h12 h13
    rw [withCounter, Vector.getElem_set_ne _ _ (by omega), Vector.getElem_set_ne _ _ (by omega)]

/-- A batch that straddles the end of the counter. -/
example : counterOf (withCounter (Vector.replicate 16 7) (2 ^ 64 - 2)) + 4 = 2 ^ 64 + 2 := by decide +kernel

/-! ## C28 -/

theorem advance_low (s : State) (i : Nat) (hi : s[12].toNat + i < 2 ^ 32) : advance .legacy i s = advance .ietf i s := by
  rw [advance_withCounter, advance_ietf, withCounter]
  have hlt := s[13].isLt
  have e1 : BitVec.ofNat 32 (counterOf s + i) = s[12] + BitVec.ofNat 32 i := by
    apply BitVec.eq_of_toNat_eq
    simp only [BitVec.toNat_ofNat, BitVec.toNat_add, counterOf]
    omega
  have e2 : BitVec.ofNat 32 ((counterOf s + i) / 2 ^ 32) = s[13] := by
    apply BitVec.eq_of_toNat_eq
    simp only [BitVec.toNat_ofNat, counterOf]
    omega
  rw [e1, e2]
  apply Vector.ext; intro k hk
  rw [Vector.getElem_set]
  split
  · rename_i h; subst h
    rw [Vector.getElem_set_ne _ _ (by decide)]
  · rfl

/-- **C28**.  On a core with a 32-bit counter whose counter does not pass `2^32` within the batch, the refill returns the same words and
leaves the same state on every backend; the nonce words are preserved, the counter grows by 4. -/
theorem C28_agree (dr : Nat) (s : State) (hs : s[12].toNat + 4 < 2 ^ 32) :
    ∃ ws s', softGenKsBlocks dr s = (ws, s') ∧ Sse2.rngInner dr .ietf s = (ws, s') ∧ Avx2.rngInner dr s = (ws, s') ∧
      Neon.rngInner dr .ietf s = (ws, s') ∧ (∀ e, generate dr .ietf e s = (ws, s')) ∧
      s' = s.set 12 (s[12] + 4) ∧
      (∀ k (hk : k < 64), ws[k] =
        (Spec.ChaCha.core dr (rows (s.set 12 (s[12] + BitVec.ofNat 32 (k / 16)))))[k / 4 % 4][k % 4]) := by
  have hq : (quad fun i => runRounds dr (advance .legacy i s)) = quad fun i => runRounds dr (advance .ietf i s) := by
    unfold quad
    apply Vector.ext; intro k hk
    rw [Vector.getElem_ofFn, Vector.getElem_ofFn]
    simp only [advance_low s (k / 16) (by omega)]
  have h1 := softGenKsBlocks_eq dr s
  have h2 := Sse2.rngInner_eq dr .ietf s
  have h3 := Avx2.rngInner_eq dr s
  have h4 := Neon.rngInner_eq dr .ietf s
  rw [hq, advance_low s 4 hs] at h1 h3
  rw [advance_low s 4 hs] at h2
  refine ⟨_, _, h1, h2, h3, h4, fun e => ?_, advance_ietf 4 s, ?_⟩
  · unfold generate
    split
    · exact h1
    · exact h2
    · exact h3
    · exact h3
    · exact h4
  · intro k hk
    rw [quad, Vector.getElem_ofFn, runRounds_getElem _ _ _ (by omega), advance_ietf]
    have e1 : k % 16 / 4 = k / 4 % 4 := by omega
    have e2 : k % 16 % 4 = k % 4 := by omega
    simp only [e1, e2]

/-- The last batch of which the claim speaks. -/
example : ∃ ws s', softGenKsBlocks 10 (setupState (Vector.replicate 32 0) 0xFFFFFFFB#32 0 0 0) = (ws, s') ∧
    Neon.rngInner 10 .ietf (setupState (Vector.replicate 32 0) 0xFFFFFFFB#32 0 0 0) = (ws, s') := by
  obtain ⟨ws, s', h1, _, _, h2, _⟩ := C28_agree 10 (setupState (Vector.replicate 32 0) 0xFFFFFFFB#32 0 0 0) (by decide +kernel)
  exact ⟨ws, s', h1, h2⟩

/-- **C28**.  Whenever the counter does pass `2^32` within the batch, the successor states differ: the portable, SSE2 and AVX2 refills
carry into the first nonce word, the NEON one does not. -/
theorem C28_successors (dr : Nat) (s : State) (hs : 2 ^ 32 ≤ s[12].toNat + 4) :
    (softGenKsBlocks dr s).2[13] = s[13] + 1 ∧ (Sse2.rngInner dr .ietf s).2[13] = s[13] + 1 ∧
      (Avx2.rngInner dr s).2[13] = s[13] + 1 ∧ (Neon.rngInner dr .ietf s).2[13] = s[13] ∧
      (softGenKsBlocks dr s).2 ≠ (Neon.rngInner dr .ietf s).2 := by
  have hc : (advance .legacy 4 s)[13] = s[13] + 1 := by
    rw [advance_withCounter, withCounter, Vector.getElem_set_self]
    have := s[12].isLt
    have h13 := s[13].isLt
    apply BitVec.eq_of_toNat_eq
    rw [BitVec.toNat_add, show (1 : U32).toNat = 1 from rfl]
    simp only [BitVec.toNat_ofNat, counterOf]
    omega
  have hn : (advance .ietf 4 s)[13] = s[13] := by
    rw [advance_ietf, Vector.getElem_set_ne _ _ (by decide)]
  have h1 : (softGenKsBlocks dr s).2 = advance .legacy 4 s := by rw [softGenKsBlocks_eq]
  have h2 : (Sse2.rngInner dr .ietf s).2 = advance .legacy 4 s := by rw [Sse2.rngInner_eq]
  have h3 : (Avx2.rngInner dr s).2 = advance .legacy 4 s := by rw [Avx2.rngInner_eq]
  have h4 : (Neon.rngInner dr .ietf s).2 = advance .ietf 4 s := by rw [Neon.rngInner_eq]
  rw [h1, h2, h3, h4]
  refine ⟨hc, hc, hc, hn, fun he => ?_⟩
  rw [he, hn] at hc
  have := congrArg BitVec.toNat hc
  rw [BitVec.toNat_add, show (1 : U32).toNat = 1 from rfl] at this
  have := s[13].isLt
  omega

example : (0xFFFFFFFD#32 : U32).toNat + 4 ≥ 2 ^ 32 := by decide

/-- An IETF core (zero key and nonce) two blocks before the end of its counter. -/
def Sample.nearEnd : State := setupState (Vector.replicate 32 0) 0xFFFFFFFE#32 0 0 0

/-- **C28**.  On this core the words differ too, for ChaCha8, 12 and 20: the portable and AVX2 code give one result, SSE2 and NEON
another.  (They agree on the first two blocks.) -/
theorem C28_words : ∀ dr ∈ [4, 6, 10],
    (softGenKsBlocks dr Sample.nearEnd).1[32] = (Avx2.rngInner dr Sample.nearEnd).1[32] ∧
    (Sse2.rngInner dr .ietf Sample.nearEnd).1[32] = (Neon.rngInner dr .ietf Sample.nearEnd).1[32] ∧
    (softGenKsBlocks dr Sample.nearEnd).1[32] ≠ (Sse2.rngInner dr .ietf Sample.nearEnd).1[32] := by
  decide +kernel

end Verif
