import Verif.Rust.ChaChaRngApi
import Verif.Proof.SrcChaCha
import Verif.Proof.Rng
/-!
# The text of the generators of `chacha20` computes the model
-/
namespace Verif.Rust

section
variable {tgt : Target} {w : Nat}

theorem add_bv (a b : BitVec w) (h : a.toNat + b.toNat < 2 ^ w) : add tgt a b = .ok (a + b) := if_pos h

theorem sub_bv (a b : BitVec w) (h : b.toNat ≤ a.toNat) : sub tgt a b = .ok (a - b) := if_pos h

theorem mul_bv (a b : BitVec w) (h : a.toNat * b.toNat < 2 ^ w) : mul tgt a b = .ok (a * b) := if_pos h

theorem div_bv (a b : BitVec w) (h : b.toNat ≠ 0) : div tgt a b = .ok (a / b) := if_neg h

theorem rem_bv (a b : BitVec w) (h : b.toNat ≠ 0) : rem tgt a b = .ok (a % b) := if_neg h

end

theorem cast_val {tgt : Target} {w : Nat} (n : Nat) : cast (BitVec w) (⟨n⟩ : Usize tgt) = BitVec.ofNat w n := rfl

theorem toLeBytes_vec (n : Nat) (x : BitVec (8 * n)) : toLeBytes x = (Verif.ChaCha.toLeBytes n x).toList := by
  apply List.ext_getElem
  · rw [toLeBytes, List.length_map, List.length_range, Vector.length_toList]; omega
  · intro i h1 h2
    rw [Vector.length_toList] at h2
    simp only [toLeBytes, Verif.ChaCha.toLeBytes, List.getElem_map, List.getElem_range, Vector.getElem_toList, Vector.getElem_ofFn]

end Verif.Rust

namespace Verif.Rust.ChaCha
open Verif.ChaCha (Env State)

variable {tgt : Target} {R : Type} [Rounds R]

/-- What the refill of a build has to be: four blocks, and the counter goes up by four. -/
def Refills (B : Build) (tgt : Target) : Prop :=
  ∀ (R : Type) [Rounds R] (s : State) (buffer : List U32), buffer.length = 64 → B.generate R Legacy tgt (repr R Legacy s) buffer =
    .ok ((), repr R Legacy (Verif.ChaCha.softGenKsBlocks (Rounds.count R) s).2, (Verif.ChaCha.softGenKsBlocks (Rounds.count R) s).1.toList)

theorem refills_soft (ht : 16 ≤ tgt.bits) : Refills Build.soft tgt := by
  intro R _ s buffer hb
  show ChaChaCore.generate tgt (repr R Legacy s) buffer = _
  rw [ChaChaCore.generate]
  dsimp only
  rw [gen_ks_blocks_eq ht s buffer hb]
  rfl

theorem generate_soft (dr : Nat) (e : Env) (s : State) : Verif.ChaCha.generate dr .legacy e s = Verif.ChaCha.softGenKsBlocks dr s := by
  rw [Verif.ChaCha.generate_legacy, Verif.ChaCha.softGenKsBlocks_eq]

/-- A generator of the model as a value of the Rust structure. -/
def reprB (R : Type) [Rounds R] (r : Verif.ChaCha.Rng) : BlockRng (ChaChaCore R Legacy) := ⟨repr R Legacy r.core, r.results.toList, r.index⟩

@[inherit_doc reprB] def reprR (R : Type) [Rounds R] (r : Verif.ChaCha.Rng) : Rng R := ⟨reprB R r⟩

theorem block_words_eq : BLOCK_WORDS tgt = .ok 16 := rfl

theorem buf_blocks_eq : BUF_BLOCKS tgt = .ok 4 := rfl

theorem offset_le (r : Verif.ChaCha.Rng) : r.wordOffset < 64 := by
  rw [Verif.ChaCha.Rng.wordOffset]; split <;> omega

theorem offset_ne (n : Nat) : ((⟨n⟩ : Usize tgt) != 0) = decide (n ≠ 0) := by
  rw [bne, show ((⟨n⟩ : Usize tgt) == 0) = decide (n = 0) from Rabbit.usize_beq n 0, decide_not]

theorem flatMap_bytes (l : List U32) : l.flatMap toLeBytes = l.flatMap fun w => (toLe32 w).toList := by
  rw [show (toLeBytes : U32 → List U8) = fun w => (toLe32 w).toList from funext toLeBytes_eq]

section
variable [B : Build] (hB : Refills B tgt) (e : Env)

theorem size_eq {V : Type} [Variant V] : Generator.size (ChaChaCore R V) = 64 := rfl

/-! ### `BlockRng` -/

include hB in
theorem refill_eq (r : Verif.ChaCha.Rng) (i : Nat) :
    (reprB R r).refill tgt i = .ok (reprB R { Verif.ChaCha.Rng.refill (Rounds.count R) e r with index := i }) := by
  rw [BlockRng.refill]
  have h : Generator.generate tgt (reprB R r).core (reprB R r).results = _ := hB R r.core r.results.toList Vector.length_toList
  rw [h, ok_bind, Verif.ChaCha.Rng.refill, generate_soft]
  rfl

include hB in
theorem reset_eq (r : Verif.ChaCha.Rng) (n : Usize tgt) :
    (reprB R r).reset_and_skip tgt n = (Verif.ChaCha.Rng.resetAndSkip (Rounds.count R) e n.val r).map fun r => ((), reprB R r) := by
  rw [BlockRng.reset_and_skip, Verif.ChaCha.Rng.resetAndSkip, size_eq, assert]
  by_cases h : n.val < 64
  · rw [if_pos (decide_eq_true h), ok_bind]
    by_cases h0 : n.val = 0
    · rw [if_pos h0, if_pos h0]; rfl
    · rw [if_neg h0, if_neg h0, if_pos h, refill_eq hB e]; rfl
  · rw [if_neg (fun hc => h (of_decide_eq_true hc)), if_neg (by omega : ¬ n.val = 0), if_neg (by omega : ¬ n.val = 0), if_neg h]; rfl

theorem offset_eq (r : Verif.ChaCha.Rng) : (reprB R r).word_offset tgt = .ok ⟨r.wordOffset⟩ := by
  rw [BlockRng.word_offset, Verif.ChaCha.Rng.wordOffset, size_eq]
  show Except.ok (if r.index ≥ 64 then _ else _) = _
  split <;> rfl

include hB in
theorem next_eq (r : Verif.ChaCha.Rng) :
    (reprB R r).next_word tgt = .ok ((Verif.ChaCha.Rng.nextWord (Rounds.count R) e r).1, reprB R (Verif.ChaCha.Rng.nextWord (Rounds.count R) e r).2) := by
  rw [BlockRng.next_word, Verif.ChaCha.Rng.nextWord, size_eq]
  by_cases h : r.index < 64
  · rw [if_pos (show (reprB R r).index < 64 from h), dif_pos h, pure_eq, ok_bind]
    dsimp only
    rw [show nth (reprB R r).results (reprB R r).index = .ok r.results[r.index] from
      nth_vec r.results r.index h]
    rfl
  · rw [if_neg (show ¬ (reprB R r).index < 64 from h), dif_neg h, refill_eq hB e, ok_bind]
    dsimp only
    generalize Verif.ChaCha.Rng.refill (Rounds.count R) e r = r'
    rw [show nth (reprB R { r' with index := 0 }).results (reprB R { r' with index := 0 }).index = .ok r'.results[0] from
      nth_vec r'.results 0 (by decide)]
    rfl

include hB in
theorem next64_eq (r : Verif.ChaCha.Rng) :
    (reprB R r).next_u64_from_u32 tgt = .ok ((Verif.ChaCha.Rng.nextU64 (Rounds.count R) e r).1, reprB R (Verif.ChaCha.Rng.nextU64 (Rounds.count R) e r).2) := by
  rw [BlockRng.next_u64_from_u32, next_eq hB e, ok_bind]
  dsimp only
  rw [next_eq hB e, ok_bind, Verif.ChaCha.Rng.nextU64]
  dsimp only
  by_cases h : r.index < 63
  · rw [dif_pos h, show Verif.ChaCha.Rng.nextWord (Rounds.count R) e r = (r.results[r.index], { r with index := r.index + 1 }) from dif_pos (by omega),
      Verif.ChaCha.Rng.nextWord, dif_pos (show r.index + 1 < 64 by omega)]
    rfl
  · rw [dif_neg h]
    by_cases h' : r.index ≥ 64
    · rw [if_pos h', show Verif.ChaCha.Rng.nextWord (Rounds.count R) e r = ((Verif.ChaCha.Rng.refill (Rounds.count R) e r).results[0],
        { Verif.ChaCha.Rng.refill (Rounds.count R) e r with index := 1 }) from dif_neg (by omega)]
      generalize Verif.ChaCha.Rng.refill (Rounds.count R) e r = r'
      rw [Verif.ChaCha.Rng.nextWord, dif_pos (show 1 < 64 by decide)]
      rfl
    · rw [if_neg h']
      obtain ⟨core, results, index⟩ := r
      obtain rfl : index = 63 := by dsimp only at h h'; omega
      rw [show Verif.ChaCha.Rng.nextWord (Rounds.count R) e ⟨core, results, 63⟩ = (results[63], ⟨core, results, 64⟩) from dif_pos (show 63 < 64 by decide)]
      dsimp only
      rw [Verif.ChaCha.Rng.nextWord, dif_neg (show ¬ 64 < 64 by decide)]
      dsimp only
      rw [show Verif.ChaCha.Rng.refill (Rounds.count R) e ⟨core, results, 64⟩ = { Verif.ChaCha.Rng.refill (Rounds.count R) e ⟨core, results, 63⟩ with index := 64 } from rfl]
      generalize Verif.ChaCha.Rng.refill (Rounds.count R) e ⟨core, results, 63⟩ = r'
      rfl

include hB in
theorem fillLoop_eq : ∀ (fuel n : Nat) (r : Verif.ChaCha.Rng), n < fuel → BlockRng.fillLoop tgt fuel n (reprB R r) =
    .ok ((Verif.ChaCha.Rng.fillLoop (Rounds.count R) e n r).1, reprB R (Verif.ChaCha.Rng.fillLoop (Rounds.count R) e n r).2)
  | 0, n, r, h => absurd h (Nat.not_lt_zero n)
  | fuel + 1, n, r, h => by
    rw [BlockRng.fillLoop, Verif.ChaCha.Rng.fillLoop]
    by_cases hn : n = 0
    · rw [if_pos hn, dif_pos hn]; rfl
    · rw [if_neg hn, dif_neg hn, size_eq]
      have key : ∀ r' : Verif.ChaCha.Rng, r'.index < 64 → ((fun self : BlockRng (ChaChaCore R Legacy) => do
          let bytes := ((self.results.drop self.index).flatMap toLeBytes).take n
          let (rest, self) ← BlockRng.fillLoop tgt fuel (n - bytes.length) { self with index := self.index + (bytes.length + 3) / 4 }
          return (bytes ++ rest, self)) (reprB R r') : Except Panic (List U8 × BlockRng (ChaChaCore R Legacy))) =
          .ok ((Verif.ChaCha.Rng.fillViaChunks (r'.results.toList.drop r'.index) n).2 ++ (Verif.ChaCha.Rng.fillLoop (Rounds.count R) e
              (n - (Verif.ChaCha.Rng.fillViaChunks (r'.results.toList.drop r'.index) n).2.length)
              { r' with index := r'.index + (Verif.ChaCha.Rng.fillViaChunks (r'.results.toList.drop r'.index) n).1 }).1,
            reprB R (Verif.ChaCha.Rng.fillLoop (Rounds.count R) e
              (n - (Verif.ChaCha.Rng.fillViaChunks (r'.results.toList.drop r'.index) n).2.length)
              { r' with index := r'.index + (Verif.ChaCha.Rng.fillViaChunks (r'.results.toList.drop r'.index) n).1 }).2) := by
        intro r' hr
        have hl := Verif.ChaCha.Rng.length_flatMap_toLe32 (r'.results.toList.drop r'.index)
        have hl' : (r'.results.toList.drop r'.index).length = 64 - r'.index := by rw [List.length_drop, Vector.length_toList]
        have hb : (((reprB R r').results.drop (reprB R r').index).flatMap toLeBytes).take n =
            (Verif.ChaCha.Rng.fillViaChunks (r'.results.toList.drop r'.index) n).2 := by
          rw [flatMap_bytes, Verif.ChaCha.Rng.fillViaChunks]
          show List.take n ((r'.results.toList.drop r'.index).flatMap fun w => (toLe32 w).toList) = List.take _ _
          rw [← hl]
          exact List.take_eq_take_iff.mpr (by omega)
        have hlen : (Verif.ChaCha.Rng.fillViaChunks (r'.results.toList.drop r'.index) n).2.length = min ((r'.results.toList.drop r'.index).length * 4) n := by
          show (List.take _ _).length = _
          rw [List.length_take, hl]; omega
        have h1 : (Verif.ChaCha.Rng.fillViaChunks (r'.results.toList.drop r'.index) n).1 =
            ((Verif.ChaCha.Rng.fillViaChunks (r'.results.toList.drop r'.index) n).2.length + 3) / 4 := by rw [hlen]; rfl
        dsimp only
        rw [hb, h1]
        generalize (Verif.ChaCha.Rng.fillViaChunks (r'.results.toList.drop r'.index) n).2 = bs at hlen
        have ih := fillLoop_eq fuel (n - bs.length) { r' with index := r'.index + (bs.length + 3) / 4 } (by rw [hl'] at hlen; omega)
        have ih' : BlockRng.fillLoop tgt fuel (n - bs.length) { reprB R r' with index := (reprB R r').index + (bs.length + 3) / 4 } = _ := ih
        rw [ih']
        rfl
      by_cases hi : r.index < 64
      · rw [if_pos (show (reprB R r).index < 64 from hi), pure_eq, ok_bind, if_neg (by omega)]
        exact key r hi
      · rw [if_neg (show ¬ (reprB R r).index < 64 from hi), refill_eq hB e, ok_bind, if_pos (by omega)]
        exact key _ (show 0 < 64 by decide)

include hB in
theorem fill_eq (r : Verif.ChaCha.Rng) (dest : List U8) : (reprB R r).fill_bytes tgt dest =
    .ok ((), reprB R (Verif.ChaCha.Rng.fillBytes (Rounds.count R) e dest.length r).2, (Verif.ChaCha.Rng.fillBytes (Rounds.count R) e dest.length r).1) := by
  rw [BlockRng.fill_bytes, fillLoop_eq hB e _ _ _ (Nat.lt_succ_self _)]
  rfl

/-! ### rng.rs -/

theorem from_seed_eq (seed : Vector U8 32) : Rng.from_seed tgt seed.toList = (Verif.ChaCha.Rng.fromSeed seed).map (reprR R) := by
  rw [Rng.from_seed, new_internal_eq is_legacy, Verif.ChaCha.Rng.fromSeed, show List.replicate (Usize.val (8 : Usize tgt)) (0 : U8) = List.replicate 8 0 from rfl]
  cases Verif.ChaCha.newInternal .legacy seed (List.replicate 8 0) with
  | error p => rfl
  | ok c => rfl

theorem get_word_pos_eq (r : Verif.ChaCha.Rng) : Rng.get_word_pos tgt (reprR R r) = .ok r.getWordPos := by
  have hlt := offset_le r
  rw [Rng.get_word_pos, show (reprR R r).core.core.state = r.core.toList from rfl, show (reprR R r).core = reprB R r from rfl,
    idx_vec r.core (13 : Usize tgt) (show 13 < 16 by decide), ok_bind, shl_ok _ 32 (by decide), ok_bind,
    idx_vec r.core (12 : Usize tgt) (show 12 < 16 by decide), ok_bind]
  dsimp only
  rw [offset_eq, ok_bind, buf_blocks_eq, ok_bind, block_words_eq, ok_bind, ok_bind]
  have tail : ∀ c : U64, (do
      let r6 ← mul tgt (cast U128 c) (cast U128 (16 : U8))
      let r7 ← Except.ok (⟨r.wordOffset⟩ : Usize tgt)
      let r8 ← add tgt r6 (cast U128 r7)
      let r9 ← shl tgt (1 : U128) 68
      let r10 ← sub tgt r9 1
      pure (RInt.band r8 r10) : Except Panic U128) =
      .ok ((c.setWidth 128 * 16#128 + BitVec.ofNat 128 r.wordOffset) &&& ((1#128 <<< 68) - 1#128)) := by
    intro c
    have hc := c.isLt
    have h0 : (c.setWidth 128).toNat = c.toNat := by rw [BitVec.toNat_setWidth]; omega
    have h1 : (c.setWidth 128 * 16#128).toNat = c.toNat * 16 := by
      rw [BitVec.toNat_mul, h0]
      show c.toNat * 16 % 2 ^ 128 = _
      omega
    have h2 : (BitVec.ofNat 128 r.wordOffset).toNat = r.wordOffset := by rw [BitVec.toNat_ofNat]; omega
    rw [cast_bv, show cast U128 (16 : U8) = 16#128 from rfl, mul_bv _ _ (by rw [h0]; show c.toNat * 16 < _; omega), ok_bind, ok_bind, cast_val,
      add_bv _ _ (by rw [h1, h2]; omega), ok_bind, shl_ok _ 68 (by decide), ok_bind, sub_bv _ _ (by decide), ok_bind]
    rfl
  rw [tail, tail, cast_bv, cast_bv, Verif.ChaCha.Rng.getWordPos]
  by_cases h : r.wordOffset = 0
  · rw [if_neg (by rw [offset_ne]; simpa using h), if_neg (by simpa using h)]; rfl
  · rw [if_pos (by rw [offset_ne]; simpa using h), if_pos h]; rfl

include hB in
theorem set_word_pos_eq (ht : 16 ≤ tgt.bits) (r : Verif.ChaCha.Rng) (p : U128) :
    Rng.set_word_pos tgt (reprR R r) p = (Verif.ChaCha.Rng.setWordPos (Rounds.count R) e p r).map fun r => ((), reprR R r) := by
  have hm : (p % 16#128).toNat < 16 := by rw [BitVec.toNat_umod]; exact Nat.mod_lt _ (by decide)
  rw [Rng.set_word_pos]
  dsimp only
  rw [block_words_eq, ok_bind, show cast U128 (16 : U8) = 16#128 from rfl, rem_bv _ _ (by decide), ok_bind, ok_bind, div_bv _ _ (by decide), ok_bind,
    show (reprR R r).core.core.state = r.core.toList from rfl, upd_vec r.core (12 : Usize tgt) (show 12 < 16 by decide), ok_bind,
    shr_ok _ 32 (by decide), ok_bind, upd_vec _ (13 : Usize tgt) (show 13 < 16 by decide), ok_bind, cast_bv, cast_bv,
    cast_usize _ (pow_bits ht (by omega))]
  have h := reset_eq (R := R) hB e { r with core := (r.core.set 12 ((p / 16#128).setWidth 32)).set 13 (((p / 16#128) >>> 32).setWidth 32) }
    (⟨(p % 16#128).toNat⟩ : Usize tgt)
  rw [Verif.ChaCha.Rng.setWordPos]
  refine (congrArg (fun x => x >>= _) h).trans ?_
  cases Verif.ChaCha.Rng.resetAndSkip (Rounds.count R) e (p % 16#128).toNat _ with
  | error _ => rfl
  | ok _ => rfl

include hB in
theorem set_block_pos_eq (r : Verif.ChaCha.Rng) (p : U64) :
    Rng.set_block_pos tgt (reprR R r) p = (Verif.ChaCha.Rng.setBlockPos (Rounds.count R) e p r).map fun r => ((), reprR R r) := by
  rw [Rng.set_block_pos, Verif.ChaCha.Rng.setBlockPos]
  dsimp only
  rw [show (reprR R r).core = reprB R r from rfl, reset_eq hB e]
  show (Except.map _ (Verif.ChaCha.Rng.resetAndSkip (Rounds.count R) e 0 r) >>= _) = _
  rw [show Verif.ChaCha.Rng.resetAndSkip (Rounds.count R) e 0 r = .ok { r with index := 64 } from rfl]
  show (ChaChaCore.set_block_pos tgt (repr R Legacy r.core) p >>= _) = _
  rw [set_legacy]
  rfl

omit B in
theorem sub64_eq (a b : U64) : sub tgt a b = Verif.ChaCha.Rng.sub64 tgt.mode a b := by
  rw [Verif.ChaCha.Rng.sub64.eq_def, sub]
  show (if b.toNat ≤ a.toNat then _ else _) = _
  split
  · rfl
  · rw [overflowed]; split <;> rename_i h <;> rw [h] <;> rfl

omit B in
theorem add64_eq (a b : U64) : add tgt a b = Verif.ChaCha.Rng.add64 tgt.mode a b := by
  rw [Verif.ChaCha.Rng.add64.eq_def, add]
  show (if a.toNat + b.toNat < 2 ^ 64 then _ else _) = _
  split
  · rfl
  · rw [overflowed]; split <;> rename_i h <;> rw [h] <;> rfl

theorem get_block_pos_eq (r : Verif.ChaCha.Rng) : Rng.get_block_pos tgt (reprR R r) = r.getBlockPos tgt.mode := by
  rw [Rng.get_block_pos, Verif.ChaCha.Rng.getBlockPos, show (reprR R r).core.core = repr R Legacy r.core from rfl, get_legacy, ok_bind,
    show (reprR R r).core = reprB R r from rfl, offset_eq, ok_bind]
  dsimp only
  by_cases h : r.wordOffset = 0
  · rw [if_neg (by rw [offset_ne]; simpa using h), if_neg (by simpa using h)]; rfl
  · rw [if_pos (by rw [offset_ne]; simpa using h), if_pos h, buf_blocks_eq, ok_bind, block_words_eq, sub64_eq]
    refine congrArg _ (funext fun c => ?_)
    rw [ok_bind, div_bv _ _ (by decide), ok_bind, add64_eq]
    rfl

include hB in
theorem set_stream_eq (r : Verif.ChaCha.Rng) (s : U64) :
    Rng.set_stream tgt (reprR R r) s = (Verif.ChaCha.Rng.setStream (Rounds.count R) e s r).map fun r => ((), reprR R r) := by
  rw [Rng.set_stream]
  dsimp only
  rw [show (reprR R r).core.core.state = r.core.toList from rfl, upd_vec r.core (14 : Usize tgt) (show 14 < 16 by decide), ok_bind,
    shr_ok _ 32 (by decide), ok_bind, upd_vec _ (15 : Usize tgt) (show 15 < 16 by decide), ok_bind, cast_bv, cast_bv]
  have h := set_block_pos_eq (R := R) hB e { r with core := (r.core.set 14 (s.setWidth 32)).set 15 ((s >>> 32).setWidth 32) } 0
  rw [Verif.ChaCha.Rng.setStream]
  refine (congrArg (fun x => x >>= _) h).trans ?_
  cases Verif.ChaCha.Rng.setBlockPos (Rounds.count R) e 0 _ with
  | error _ => rfl
  | ok _ => rfl

omit B in
theorem get_stream_eq (r : Verif.ChaCha.Rng) : Rng.get_stream tgt (reprR R r) = .ok r.getStream := by
  rw [Rng.get_stream]
  dsimp only
  rw [show (reprR R r).core.core.state = r.core.toList from rfl, idx_vec r.core (14 : Usize tgt) (show 14 < 16 by decide), ok_bind,
    idx_vec r.core (15 : Usize tgt) (show 15 < 16 by decide)]
  have key : ∀ x y : Vector U8 4, (do
      let r1 ← slice (List.replicate (Usize.val (8 : Usize tgt)) (0 : U8)) (0 : Usize tgt) 4
      let r2 ← copyFromSlice r1 x.toList
      let r4 ← slice (putSlice (List.replicate (Usize.val (8 : Usize tgt)) 0) (0 : Usize tgt) 4 r2) (4 : Usize tgt)
        (len tgt (putSlice (List.replicate (Usize.val (8 : Usize tgt)) 0) (0 : Usize tgt) 4 r2))
      let r5 ← copyFromSlice r4 y.toList
      fromLeBytes (w := 64) (putSlice (putSlice (List.replicate (Usize.val (8 : Usize tgt)) 0) (0 : Usize tgt) 4 r2) (4 : Usize tgt)
        (len tgt (putSlice (List.replicate (Usize.val (8 : Usize tgt)) 0) (0 : Usize tgt) 4 r2)) r5)) =
      .ok (Verif.ChaCha.fromLeBytes 64 (x.toList ++ y.toList)) := by
    intro x y
    rw [toList4 x, toList4 y]
    rfl
  simp only [ok_bind, toLeBytes_eq]
  exact key _ _

/-- The key words of a state. -/
def seedWords (s : State) : Vector U32 8 := Vector.ofFn fun i => s[4 + i.val]

omit B in
theorem get_seed_eq (r : Verif.ChaCha.Rng) : Rng.get_seed tgt (reprR R r) = .ok r.getSeed.toList := by
  have hs : slice r.core.toList (4 : Usize tgt) 12 = .ok (seedWords r.core).toList := by
    rw [slice_ok _ (4 : Usize tgt) 12 (show 4 ≤ 12 by decide) (by rw [Vector.length_toList]; show 12 ≤ 16; decide)]
    refine congrArg Except.ok (List.ext_getElem ?_ ?_)
    · rw [List.length_take, List.length_drop, Vector.length_toList, Vector.length_toList]; rfl
    · intro i h1 h2
      simp only [List.getElem_take, List.getElem_drop, Vector.getElem_toList, seedWords, Vector.getElem_ofFn]
      rfl
  rw [Rng.get_seed, show (reprR R r).core.core.state = r.core.toList from rfl, hs, ok_bind, Verif.ChaCha.Rng.getSeed]
  dsimp only
  show _ = Except.ok (leBytes (seedWords r.core)).toList
  generalize seedWords r.core = w
  have hl : min w.toList.length ((List.replicate (Usize.val (32 : Usize tgt)) (0 : U8)).length / 4) = 8 := by
    rw [Vector.length_toList, List.length_replicate]; show min 8 (32 / 4) = 8; decide
  rw [hl, forIn_range 8 (wrote w (List.replicate 32 0)) _ (List.replicate (Usize.val (32 : Usize tgt)) 0) rfl, ok_bind, wrote_all w _ (List.length_replicate ..)]
  · rfl
  · intro k hk
    rw [nth_vec _ _ hk, ok_bind]
    have h := wrote_succ w (List.replicate 32 0) (List.length_replicate ..) k hk
    rw [h.1, ok_bind, h.2]
    rfl

theorem serialize_eq (r : Verif.ChaCha.Rng) : Rng.serialize_state tgt (reprR R r) = (r.serialize tgt.mode).map Vector.toList := by
  rw [Rng.serialize_state, get_seed_eq, ok_bind, get_stream_eq, ok_bind, get_word_pos_eq, ok_bind, Verif.ChaCha.Rng.serialize]
  dsimp only
  rw [show toLeBytes r.getStream = (Verif.ChaCha.toLeBytes 8 r.getStream).toList from toLeBytes_vec 8 _,
    show toLeBytes r.getWordPos = (Verif.ChaCha.toLeBytes 16 r.getWordPos).toList from toLeBytes_vec 16 _]
  generalize Verif.ChaCha.toLeBytes 8 r.getStream = b
  generalize Verif.ChaCha.toLeBytes 16 r.getWordPos = c
  generalize r.getSeed = a
  rw [show splitAt (List.replicate (Usize.val (49 : Usize tgt)) (0 : U8)) (32 : Usize tgt) = .ok (List.replicate 32 0, List.replicate 17 0) from rfl, ok_bind]
  dsimp only
  rw [show splitAt (List.replicate 17 (0 : U8)) (8 : Usize tgt) = .ok (List.replicate 8 0, List.replicate 9 0) from rfl, ok_bind]
  dsimp only
  rw [copyFromSlice, if_pos (by rw [List.length_replicate, Vector.length_toList]), ok_bind,
    copyFromSlice, if_pos (by rw [List.length_replicate, Vector.length_toList]), ok_bind,
    slice_ok _ (0 : Usize tgt) 9 (show 0 ≤ 9 by decide) (by rw [Vector.length_toList]; show 9 ≤ 16; decide), ok_bind,
    copyFromSlice, if_pos (by rw [List.length_replicate, List.length_take, List.length_drop, Vector.length_toList]; rfl), ok_bind,
    slice_ok _ (9 : Usize tgt) (len tgt c.toList) (show 9 ≤ c.toList.length by rw [Vector.length_toList]; decide) (Nat.le_refl _), ok_bind]
  have hd : (c.toList.drop (Usize.val (9 : Usize tgt))).take ((len tgt c.toList).val - Usize.val (9 : Usize tgt)) = c.toList.drop 9 :=
    List.take_of_length_le (by rw [List.length_drop]; exact Nat.le_refl _)
  rw [hd]
  have hr : a.toList ++ b.toList ++ (c.toList.drop (Usize.val (0 : Usize tgt))).take (Usize.val (9 : Usize tgt) - Usize.val (0 : Usize tgt)) =
      (Vector.ofFn fun i : Fin 49 => if h : i.val < 32 then a[i.val] else if h : i.val < 40 then b[i.val - 32] else c[i.val - 40]).toList := by
    apply List.ext_getElem
    · simp only [List.length_append, List.length_take, List.length_drop, Vector.length_toList]; rfl
    · intro i h1 h2
      rw [Vector.length_toList] at h2
      rw [Vector.getElem_toList, Vector.getElem_ofFn]
      by_cases h : i < 32
      · rw [dif_pos h, List.getElem_append_left (by rw [List.length_append, Vector.length_toList, Vector.length_toList]; omega),
          List.getElem_append_left (by rw [Vector.length_toList]; exact h), Vector.getElem_toList]
      · rw [dif_neg h]
        by_cases h' : i < 40
        · rw [dif_pos h', List.getElem_append_left (by rw [List.length_append, Vector.length_toList, Vector.length_toList]; exact h'),
            List.getElem_append_right (by rw [Vector.length_toList]; omega), Vector.getElem_toList]
          simp only [Vector.length_toList]
        · rw [dif_neg h', List.getElem_append_right (by rw [List.length_append, Vector.length_toList, Vector.length_toList]; omega), List.getElem_take,
            List.getElem_drop, Vector.getElem_toList]
          simp only [List.length_append, Vector.length_toList]
          congr 1
          exact Nat.zero_add _
  rw [hr]
  generalize (Vector.ofFn fun i : Fin 49 => if h : i.val < 32 then a[i.val] else if h : i.val < 40 then b[i.val - 32] else c[i.val - 40]) = v
  rw [show List.replicate (Usize.val (7 : Usize tgt)) (0 : U8) = List.replicate 7 0 from rfl, debugAssert]
  cases hm : tgt.mode with
  | release => rw [if_neg (fun hc => nomatch hc.1)]; rfl
  | debug =>
    dsimp only
    by_cases h : c.toList.drop 9 = List.replicate 7 0
    · rw [assert, if_pos (by rw [h]; exact beq_self_eq_true _), if_neg (fun hc => hc.2 h)]; rfl
    · rw [assert, if_neg (fun hc => h (eq_of_beq hc)), if_pos ⟨rfl, h⟩]; rfl

include hB in
theorem deserialize_eq (ht : 16 ≤ tgt.bits) (b : Vector U8 49) :
    Rng.deserialize_state tgt b.toList = (Verif.ChaCha.Rng.deserialize (Rounds.count R) e b).map (reprR R) := by
  have hl : b.toList.length = 49 := Vector.length_toList
  have h32 : b.toList.take 32 = (Vector.ofFn fun i : Fin 32 => b[i.val]).toList := by
    apply List.ext_getElem
    · rw [List.length_take, hl, Vector.length_toList]; rfl
    · intro i h1 h2
      rw [List.getElem_take, Vector.getElem_toList, Vector.getElem_toList, Vector.getElem_ofFn]
  rw [Rng.deserialize_state, Verif.ChaCha.Rng.deserialize, splitAt, if_pos (by rw [hl]; show 32 ≤ 49; decide), ok_bind]
  dsimp only
  rw [show Usize.val (32 : Usize tgt) = 32 from rfl, h32, splitAt, if_pos (by rw [List.length_drop, hl]; show 8 ≤ 49 - 32; decide), ok_bind]
  dsimp only
  rw [arrayOf, if_pos (by rw [Vector.length_toList]; rfl), ok_bind, arrayOf, if_pos (by rw [List.length_take, List.length_drop, hl]; rfl), ok_bind]
  rw [show slice (List.replicate (Usize.val (16 : Usize tgt)) (0 : U8)) (0 : Usize tgt) 9 = .ok (List.replicate 9 0) from rfl, ok_bind,
    copyFromSlice, if_pos (by rw [List.length_drop, List.length_drop, hl]; rfl), ok_bind, List.drop_drop,
    show Usize.val (8 : Usize tgt) = 8 from rfl]
  have hw : putSlice (List.replicate (Usize.val (16 : Usize tgt)) (0 : U8)) (0 : Usize tgt) 9 (b.toList.drop (32 + 8)) =
      b.toList.drop 40 ++ List.replicate 7 0 := rfl
  rw [hw, fromLeBytes, if_pos (by rw [List.length_append, List.length_drop, hl]; rfl), ok_bind, new_internal_eq is_legacy]
  cases Verif.ChaCha.newInternal .legacy (Vector.ofFn fun i : Fin 32 => b[i.val]) ((b.toList.drop 32).take 8) with
  | error _ => rfl
  | ok c =>
    show (Rng.set_word_pos tgt (reprR R (Verif.ChaCha.Rng.ofCore c)) (Verif.ChaCha.fromLeBytes 128 (b.toList.drop 40 ++ List.replicate 7 0)) >>= _) =
      Except.map _ (Verif.ChaCha.Rng.setWordPos _ _ _ _)
    rw [set_word_pos_eq hB e ht]
    cases Verif.ChaCha.Rng.setWordPos (Rounds.count R) e _ (Verif.ChaCha.Rng.ofCore c) with
    | error _ => rfl
    | ok _ => rfl

theorem eq_eq (r r' : Verif.ChaCha.Rng) : Rng.eq tgt (reprR R r) (reprR R r') = .ok (r.eq r') := by
  rw [Rng.eq, get_seed_eq, ok_bind, get_seed_eq, ok_bind, get_stream_eq, get_stream_eq, get_word_pos_eq, get_word_pos_eq, Verif.ChaCha.Rng.eq]
  by_cases h : r.getSeed = r'.getSeed
  · by_cases h' : r.getStream = r'.getStream
    · simp only [h, h', ok_bind, pure_eq, beq_self_eq_true, if_true, true_and]
      refine congrArg Except.ok ?_
      rw [Bool.eq_iff_iff, beq_iff_eq, decide_eq_true_iff]
    · have hb : (r.getStream == r'.getStream) = false := beq_eq_false_iff_ne.mpr h'
      simp [h, h', hb, ok_bind, pure_eq]
  · have h' : (r.getSeed.toList == r'.getSeed.toList) = false := beq_eq_false_iff_ne.mpr fun hc => h (Vector.toList_inj.mp hc)
    simp [h, h', ok_bind, pure_eq]

/-! ### Histories -/

include hB in
theorem step_eq (ht : 16 ≤ tgt.bits) (r : Verif.ChaCha.Rng) (op : Verif.Spec.Rng.RngOp) :
    Rng.step tgt (reprR R r) op = (Verif.ChaCha.Rng.step tgt.mode (Rounds.count R) e r op).map fun x => (x.1, reprR R x.2) := by
  cases op with
  | nextU32 =>
    show ((do let r0 ← BlockRng.next_word tgt (reprB R r); pure _) >>= _) = _
    rw [next_eq hB e]; rfl
  | nextU64 =>
    show ((do let r0 ← BlockRng.next_u64_from_u32 tgt (reprB R r); pure _) >>= _) = _
    rw [next64_eq hB e]; rfl
  | fill n =>
    show ((do let r0 ← BlockRng.fill_bytes tgt (reprB R r) (List.replicate n 0); pure _) >>= _) = _
    rw [fill_eq hB e, List.length_replicate]; rfl
  | setWordPos p =>
    rw [Rng.step, set_word_pos_eq hB e ht, Verif.ChaCha.Rng.step]
    cases Verif.ChaCha.Rng.setWordPos (Rounds.count R) e p r <;> rfl
  | setBlockPos p =>
    rw [Rng.step, set_block_pos_eq hB e, Verif.ChaCha.Rng.step]
    cases Verif.ChaCha.Rng.setBlockPos (Rounds.count R) e p r <;> rfl
  | setStream p =>
    rw [Rng.step, set_stream_eq hB e, Verif.ChaCha.Rng.step]
    cases Verif.ChaCha.Rng.setStream (Rounds.count R) e p r <;> rfl
  | getWordPos => rw [Rng.step, get_word_pos_eq]; rfl
  | getBlockPos =>
    rw [Rng.step, get_block_pos_eq, Verif.ChaCha.Rng.step]
    cases r.getBlockPos tgt.mode <;> rfl
  | getStream => rw [Rng.step, get_stream_eq]; rfl
  | getSeed => rw [Rng.step, get_seed_eq]; rfl
  | serialize =>
    rw [Rng.step, serialize_eq, Verif.ChaCha.Rng.step]
    cases r.serialize tgt.mode <;> rfl
  | load b =>
    rw [Rng.step, deserialize_eq hB e ht, Verif.ChaCha.Rng.step]
    cases Verif.ChaCha.Rng.deserialize (Rounds.count R) e b <;> rfl
  | reload =>
    rw [Rng.step, serialize_eq, Verif.ChaCha.Rng.step]
    cases r.serialize tgt.mode with
    | error _ => rfl
    | ok b =>
      show (Rng.deserialize_state tgt b.toList >>= _) = Except.map _ (Verif.ChaCha.Rng.deserialize _ e b >>= _)
      rw [deserialize_eq hB e ht]
      cases Verif.ChaCha.Rng.deserialize (Rounds.count R) e b <;> rfl

include hB in
theorem run_eq (ht : 16 ≤ tgt.bits) : ∀ (h : List (Env × Verif.Spec.Rng.RngOp)) (r : Verif.ChaCha.Rng),
    Rng.run tgt (h.map Prod.snd) (reprR R r) = (Verif.ChaCha.Rng.run tgt.mode (Rounds.count R) h r).map fun x => (x.1, reprR R x.2)
  | [], r => rfl
  | (e, op) :: h, r => by
    rw [List.map_cons, Rng.run, step_eq hB e ht, Verif.ChaCha.Rng.run]
    cases Verif.ChaCha.Rng.step tgt.mode (Rounds.count R) e r op with
    | error _ => rfl
    | ok x =>
      show (Rng.run tgt (h.map Prod.snd) (reprR R x.2) >>= _) = Except.map _ (Verif.ChaCha.Rng.run _ _ h x.2 >>= _)
      rw [run_eq ht h x.2]
      cases Verif.ChaCha.Rng.run tgt.mode (Rounds.count R) h x.2 <;> rfl

end

end Verif.Rust.ChaCha
