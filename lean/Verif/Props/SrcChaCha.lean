import Verif.Rust.ChaChaApi
import Verif.Proof.SrcChaCha
import Verif.Props.Rng
/-!
# C82: the text of `chacha20` is ChaCha
-/
namespace Verif.Rust.ChaCha
open Spec

variable {tgt : Target} {R V : Type} [Rounds R] [Variant V]

theorem genBlock_eq {v : Verif.ChaCha.Variant} (hV : Is V v) (s : Verif.ChaCha.State) :
    genBlock R V tgt (repr R V s) = .ok (leBytes (Verif.ChaCha.runRounds (Rounds.count R) s), repr R V (Verif.ChaCha.softAdvance v s)) :=
  blockOf_ok (by rw [gen_ks_block_eq hV s _ (List.length_replicate ..)]; rfl)

/-- The states of the text's core that stand for block `n`. -/
def Rel (R V : Type) [Rounds R] [Variant V] (v : Verif.ChaCha.Variant) (s0 : Verif.ChaCha.State) (c : ChaChaCore R V) (n : Nat) : Prop :=
  c = repr R V (Verif.ChaCha.at' v s0 n)

/-- The law of the core from the counter functions of the variant. -/
theorem seekLaw_of {v : Verif.ChaCha.Variant} (hV : Is V v) (s0 : Verif.ChaCha.State)
    (hrem : ∀ s, (core R V tgt).remaining (repr R V s) = Verif.ChaCha.remainingBlocks tgt.bits v s)
    (hget : ∀ s, (core R V tgt).getPos (repr R V s) = (Verif.ChaCha.getBlockPos v s).toNat)
    (hset : ∀ s n, (core R V tgt).setPos (repr R V s) n = repr R V (Verif.ChaCha.setBlockPos v s (BitVec.ofNat _ n)))
    (hw : RInt.width (Variant.Counter V) = 8 * v.ctrBytes) :
    SeekLaw (core R V tgt) tgt.bits (Verif.ChaCha.ksOf (Rounds.count R) v s0) (Rel R V v s0) (2 ^ (8 * v.ctrBytes) - 1) where
  process := by
    intro e c n hr
    refine ⟨1, by decide, ?_⟩
    intro α f a n' h hw
    refine run_ofBlock_ref 1 (genBlock R V tgt) (Verif.ChaCha.ksOf (Rounds.count R) v s0) (Rel R V v s0) (some (2 ^ (8 * v.ctrBytes) - 1)) ?_ _ c n a n'
      hr h hw
    intro c n hr _
    refine ⟨_, ?_, rfl⟩
    rw [hr, genBlock_eq hV, Verif.ChaCha.softAdvance_eq, Verif.ChaCha.advance_at']
    rfl
  remaining := by
    intro c n hr hw
    have h := (Verif.ChaCha.seekLaw tgt.bits (Rounds.count R) v s0).remaining (Verif.ChaCha.at' v s0 n) n rfl hw
    rw [← h, hr]
    exact hrem _
  getPos := by
    intro c n hr hn
    have h := (Verif.ChaCha.seekLaw tgt.bits (Rounds.count R) v s0).getPos (Verif.ChaCha.at' v s0 n) n rfl hn
    rw [← h, hr]
    exact hget _
  setPos := by
    intro c n m hr hm
    rw [hr]
    refine (hset _ m).trans ?_
    simp only [Verif.ChaCha.at', Verif.ChaCha.setBlockPos_setBlockPos]
    rfl
  ctrMax := by
    have h2 : (0 : Nat) < 2 ^ (8 * v.ctrBytes) := Nat.two_pow_pos _
    show _ = 2 ^ RInt.width (Variant.Counter V)
    rw [hw]
    omega

theorem seekLaw_ietf (s0 : Verif.ChaCha.State) :
    SeekLaw (core R Ietf tgt) tgt.bits (Verif.ChaCha.ksOf (Rounds.count R) .ietf s0) (Rel R Ietf .ietf s0) (2 ^ 32 - 1) := by
  refine seekLaw_of is_ietf s0 ?_ ?_ ?_ rfl
  · intro s
    simp only [core, remaining_ietf, Option.map_map]
    exact Option.map_id' ..
  · intro s
    simp only [core, get_ietf]
    rfl
  · intro s n
    have h := set_ietf (tgt := tgt) (R := R) s (BitVec.ofNat 32 n)
    have h' : ChaChaCore.set_block_pos tgt (repr R Ietf s) (RInt.ofNat n) = .ok ((), repr R Ietf (Verif.ChaCha.Ietf.setBlockPos s (BitVec.ofNat 32 n))) := h
    simp only [core, h']
    rfl

theorem seekLaw_legacy (s0 : Verif.ChaCha.State) :
    SeekLaw (core R Legacy tgt) tgt.bits (Verif.ChaCha.ksOf (Rounds.count R) .legacy s0) (Rel R Legacy .legacy s0) (2 ^ 64 - 1) := by
  refine seekLaw_of is_legacy s0 ?_ ?_ ?_ rfl
  · intro s
    simp only [core, remaining_legacy, Option.map_map]
    exact Option.map_id' ..
  · intro s
    simp only [core, get_legacy]
    rfl
  · intro s n
    have h := set_legacy (tgt := tgt) (R := R) s (BitVec.ofNat 64 n)
    have h' : ChaChaCore.set_block_pos tgt (repr R Legacy s) (RInt.ofNat n) =
      .ok ((), repr R Legacy (Verif.ChaCha.Legacy.setBlockPos s (BitVec.ofNat 64 n))) := h
    simp only [core, h']
    rfl

theorem seekLawX (s0 : Verif.ChaCha.State) :
    SeekLaw (coreX R tgt) tgt.bits (Verif.ChaCha.ksOf (Rounds.count R) .ietf s0) (fun c n => Rel R Ietf .ietf s0 c.f0 n) (2 ^ 32 - 1) where
  process := by
    intro e c n hr
    obtain ⟨par, h1, h2⟩ := (seekLaw_ietf (tgt := tgt) s0).process e c.f0 n hr
    refine ⟨par, h1, fun α f a n' h hw => ?_⟩
    obtain ⟨s', h3, h4⟩ := h2 α f a n' h hw
    refine ⟨⟨s'⟩, ?_, h4⟩
    have h3' : (Verif.Backend.ofBlock 1 (genBlock R Ietf tgt)).call f c.f0 = .ok (a, s') := h3
    simp only [coreX, h3']
    rfl
  remaining := fun c n hr hw => (seekLaw_ietf (tgt := tgt) s0).remaining c.f0 n hr hw
  getPos := by
    intro c n hr hn
    have h := (seekLaw_ietf (tgt := tgt) (R := R) s0).getPos c.f0 n hr hn
    have hc : c = ⟨repr R Ietf (Verif.ChaCha.at' .ietf s0 n)⟩ := congrArg XChaChaCore.mk hr
    rw [hc] at h ⊢
    have h1 : XChaChaCore.get_block_pos tgt (⟨repr R Ietf (Verif.ChaCha.at' .ietf s0 n)⟩ : XChaChaCore R) =
        .ok (Verif.ChaCha.Ietf.getBlockPos (Verif.ChaCha.at' .ietf s0 n)) := by
      rw [XChaChaCore.get_block_pos, get_ietf]
    simp only [core, get_ietf] at h
    simp only [coreX, h1]
    exact h
  setPos := by
    intro c n m hr hm
    have hc : c = ⟨repr R Ietf (Verif.ChaCha.at' .ietf s0 n)⟩ := congrArg XChaChaCore.mk hr
    rw [hc]
    have h : XChaChaCore.set_block_pos tgt (⟨repr R Ietf (Verif.ChaCha.at' .ietf s0 n)⟩ : XChaChaCore R) (BitVec.ofNat 32 m) =
        .ok ((), ⟨repr R Ietf (Verif.ChaCha.Ietf.setBlockPos (Verif.ChaCha.at' .ietf s0 n) (BitVec.ofNat 32 m))⟩) := by
      rw [XChaChaCore.set_block_pos, set_ietf]
      rfl
    simp only [coreX, h]
    exact congrArg (repr R Ietf) (Verif.ChaCha.setBlockPos_setBlockPos .ietf s0 _ _)
  ctrMax := rfl

end Verif.Rust.ChaCha

namespace Verif
open Spec Rust

/-- **C82**.  The Rust text of `chacha20` with the portable backend, read statement by statement, on every target and for every number of double rounds:
construction succeeds, and under every history of calls and seeks the object cannot be told from a cursor over the keystream of RFC 8439. -/
theorem C82_ietf (tgt : Target) (R : Type) [Rust.ChaCha.Rounds R] (key : Vector U8 32) (nonce : Vector U8 12) :
    ∃ c : Rust.ChaCha.ChaChaCore R Rust.ChaCha.Ietf, Rust.ChaCha.ChaChaCore.new tgt key.toList nonce.toList = .ok c ∧
      IsSeekStream tgt.bits (Rust.ChaCha.core R Rust.ChaCha.Ietf tgt) (fun i => (Spec.ChaCha.serialize (Spec.ChaCha.core (Rust.ChaCha.Rounds.count R)
        (Spec.ChaCha.ietfInput key nonce (i / 64))))[i % 64]'(Nat.mod_lt _ (by decide))) (2 ^ 32 - 1) (Wrapper.fromCore c) 0 := by
  refine ⟨_, Rust.ChaCha.new_eq key nonce, ?_⟩
  have law := Rust.ChaCha.seekLaw_ietf (tgt := tgt) (R := R) (ChaCha.ietfState key nonce)
  rw [show ChaCha.ksOf (Rust.ChaCha.Rounds.count R) .ietf (ChaCha.ietfState key nonce) = Spec.ChaCha.ietfBlock (Rust.ChaCha.Rounds.count R) key nonce from
    funext fun n => ChaCha.ksOf_ietf _ key nonce n] at law
  exact law.isSeekStream (by decide) _ 0 (At.fromCore _ _ (congrArg (Rust.ChaCha.repr R Rust.ChaCha.Ietf) rfl) _)

/-- **C82**, Bernstein's ChaCha20 with the 64-bit counter. -/
theorem C82_legacy (tgt : Target) (key : Vector U8 32) (nonce : Vector U8 8) :
    ∃ c : Rust.ChaCha.ChaCha20LegacyCore, Rust.ChaCha.ChaCha20LegacyCore.new tgt key.toList nonce.toList = .ok c ∧
      IsSeekStream tgt.bits (Rust.ChaCha.core Rust.ChaCha.R20 Rust.ChaCha.Legacy tgt) (fun i => (Spec.ChaCha.serialize (Spec.ChaCha.core 10
        (Spec.ChaCha.djbInput key nonce (i / 64))))[i % 64]'(Nat.mod_lt _ (by decide))) (2 ^ 64 - 1) (Wrapper.fromCore c) 0 := by
  refine ⟨_, Rust.ChaCha.newLegacy_eq key nonce, ?_⟩
  have law := Rust.ChaCha.seekLaw_legacy (tgt := tgt) (R := Rust.ChaCha.R20) (ChaCha.legacyState key nonce)
  rw [show ChaCha.ksOf (Rust.ChaCha.Rounds.count Rust.ChaCha.R20) .legacy (ChaCha.legacyState key nonce) = Spec.ChaCha.djbBlock 10 key nonce from
    funext fun n => ChaCha.ksOf_legacy _ key nonce n] at law
  refine law.isSeekStream (by decide) _ 0 (At.fromCore _ _ (congrArg (Rust.ChaCha.repr _ _) ?_) _)
  show ChaCha.legacyState key nonce = ChaCha.at' .legacy (ChaCha.setupState key 0 0 _ _) 0
  rw [ChaCha.at'_legacy]
  rfl

/-- **C82**, XChaCha. -/
theorem C82_xchacha (tgt : Target) (R : Type) [Rust.ChaCha.Rounds R] (key : Vector U8 32) (nonce : Vector U8 24) :
    ∃ c : Rust.ChaCha.XChaChaCore R, Rust.ChaCha.XChaChaCore.new tgt key.toList nonce.toList = .ok c ∧
      IsSeekStream tgt.bits (Rust.ChaCha.coreX R tgt)
        (fun i => (Spec.ChaCha.xBlock (Rust.ChaCha.Rounds.count R) key nonce (i / 64))[i % 64]'(Nat.mod_lt _ (by decide))) (2 ^ 32 - 1)
        (Wrapper.fromCore c) 0 := by
  have hn : ChaCha.newX (Rust.ChaCha.Rounds.count R) key nonce =
      .ok (ChaCha.ietfState (Spec.ChaCha.xSubkey (Rust.ChaCha.Rounds.count R) key nonce) (Spec.ChaCha.xNonce nonce)) := by
    simp only [ChaCha.newX_eq, ChaCha.hchacha_eq]
    rw [ChaCha.newIetf_eq]; rfl
  refine ⟨_, by rw [Rust.ChaCha.newX_eq, hn]; rfl, ?_⟩
  have law := Rust.ChaCha.seekLawX (tgt := tgt) (R := R)
    (ChaCha.ietfState (Spec.ChaCha.xSubkey (Rust.ChaCha.Rounds.count R) key nonce) (Spec.ChaCha.xNonce nonce))
  rw [show ChaCha.ksOf (Rust.ChaCha.Rounds.count R) .ietf (ChaCha.ietfState (Spec.ChaCha.xSubkey (Rust.ChaCha.Rounds.count R) key nonce)
    (Spec.ChaCha.xNonce nonce)) = Spec.ChaCha.xBlock (Rust.ChaCha.Rounds.count R) key nonce from funext fun n => ChaCha.ksOf_ietf _ _ _ n] at law
  exact law.isSeekStream (by decide) _ 0 (At.fromCore _ _ (congrArg (Rust.ChaCha.repr R Rust.ChaCha.Ietf) rfl) _)

/-- **C82**, HChaCha: `hchacha` never panics and is the published function. -/
theorem C82_hchacha (tgt : Target) (R : Type) [Rust.ChaCha.Rounds R] (key : Vector U8 32) (input : Vector U8 16) :
    Rust.ChaCha.hchacha (R := R) tgt key.toList input.toList = .ok (Spec.ChaCha.hchacha (Rust.ChaCha.Rounds.count R) key input).toList := by
  rw [Rust.ChaCha.hchacha_text_eq, ChaCha.hchacha_eq]

/-- **C82**, construction from a nonce of any length: the matrix of RFC 8439 for twelve bytes, that of Bernstein for eight, with the 64-bit counter, and
a failed assertion for every other length. -/
theorem C82_new (tgt : Target) (R : Type) [Rust.ChaCha.Rounds R] (key : Vector U8 32) (iv : List U8) :
    (iv.length ≠ 12 → (Rust.ChaCha.ChaChaCore.new_internal tgt key.toList iv : Except Panic (Rust.ChaCha.ChaChaCore R Rust.ChaCha.Ietf)) = .error .assertion) ∧
    (iv.length ≠ 8 → (Rust.ChaCha.ChaChaCore.new_internal tgt key.toList iv : Except Panic (Rust.ChaCha.ChaChaCore R Rust.ChaCha.Legacy)) = .error .assertion) ∧
    (∀ nonce : Vector U8 12, ∃ s, rows s = Spec.ChaCha.ietfInput key nonce 0 ∧
      Rust.ChaCha.ChaChaCore.new_internal tgt key.toList nonce.toList = .ok (⟨s.toList, ()⟩ : Rust.ChaCha.ChaChaCore R Rust.ChaCha.Ietf)) ∧
    ∀ nonce : Vector U8 8, ∃ s, rows s = Spec.ChaCha.djbInput key nonce 0 ∧
      Rust.ChaCha.ChaChaCore.new_internal tgt key.toList nonce.toList = .ok (⟨s.toList, ()⟩ : Rust.ChaCha.ChaChaCore R Rust.ChaCha.Legacy) := by
  refine ⟨fun h => ?_, fun h => ?_, fun nonce => ⟨ChaCha.ietfState key nonce, ?_, ?_⟩, fun nonce => ⟨ChaCha.legacyState key nonce, ?_, ?_⟩⟩
  · rw [Rust.ChaCha.new_internal_eq Rust.ChaCha.is_ietf, ChaCha.newInternal]
    by_cases h4 : iv.length = 4 ∨ iv.length = 8 ∨ iv.length = 12
    · rw [if_neg (by omega), dif_neg (by simp only [ChaCha.Variant.ctrBytes]; omega)]; rfl
    · rw [if_pos h4]; rfl
  · rw [Rust.ChaCha.new_internal_eq Rust.ChaCha.is_legacy, ChaCha.newInternal]
    by_cases h4 : iv.length = 4 ∨ iv.length = 8 ∨ iv.length = 12
    · rw [if_neg (by omega), dif_neg (by simp only [ChaCha.Variant.ctrBytes]; omega)]; rfl
    · rw [if_pos h4]; rfl
  · exact ChaCha.toMat_setupState key fun j => match j with
      | 0 => BitVec.ofNat 32 0
      | 1 => leWord nonce.toList 0
      | 2 => leWord nonce.toList 1
      | 3 => leWord nonce.toList 2
  · rw [Rust.ChaCha.new_internal_eq Rust.ChaCha.is_ietf, ChaCha.newInternal_ietf key _ (Vector.length_toList ..)]
    rfl
  · exact ChaCha.toMat_setupState key fun j => match j with
      | 0 => BitVec.ofNat 32 0
      | 1 => BitVec.ofNat 32 (0 / 2 ^ 32)
      | 2 => leWord nonce.toList 0
      | 3 => leWord nonce.toList 1
  · rw [Rust.ChaCha.new_internal_eq Rust.ChaCha.is_legacy, ChaCha.newInternal_legacy key _ (Vector.length_toList ..)]
    rfl

/-- **C82**, one block, from any sixteen words, whatever the block held before: ChaCha of the words, and the counter one further - word 12 alone for the
32-bit counter, words 12 and 13 for the 64-bit one, modulo the size of the counter.  The drop code leaves nothing of the words. -/
theorem C82_block (tgt : Target) (R V : Type) [Rust.ChaCha.Rounds R] [Rust.ChaCha.Variant V] (s : Vector U32 16) (block : List U8) (hb : block.length = 64) :
    (Rust.ChaCha.Backend.gen_ks_block tgt ⟨(⟨s.toList, ()⟩ : Rust.ChaCha.ChaChaCore R Rust.ChaCha.Ietf)⟩ block =
      .ok ((), ⟨⟨(s.set 12 (s[12] + 1)).toList, ()⟩⟩, (Spec.ChaCha.serialize (Spec.ChaCha.core (Rust.ChaCha.Rounds.count R) (rows s))).toList)) ∧
    (Rust.ChaCha.Backend.gen_ks_block tgt ⟨(⟨s.toList, ()⟩ : Rust.ChaCha.ChaChaCore R Rust.ChaCha.Legacy)⟩ block =
      .ok ((), ⟨⟨(withCounter s (counterOf s + 1)).toList, ()⟩⟩, (Spec.ChaCha.serialize (Spec.ChaCha.core (Rust.ChaCha.Rounds.count R) (rows s))).toList)) ∧
    Rust.ChaCha.ChaChaCore.drop tgt (⟨s.toList, ()⟩ : Rust.ChaCha.ChaChaCore R V) = .ok ((), ⟨List.replicate 16 0, ()⟩) := by
  refine ⟨?_, ?_, Rust.ChaCha.drop_eq s⟩
  · refine (Rust.ChaCha.gen_ks_block_eq Rust.ChaCha.is_ietf s block hb).trans ?_
    rw [ChaCha.softAdvance_eq, ChaCha.advance_ietf, ChaCha.leBytes_runRounds]
    rfl
  · refine (Rust.ChaCha.gen_ks_block_eq Rust.ChaCha.is_legacy s block hb).trans ?_
    rw [ChaCha.softAdvance_eq, advance_withCounter, ChaCha.leBytes_runRounds]
    rfl

/-- **C82**, the counters: reading and writing them never panics, they are word 12, or the 64-bit number in words 12 and 13, and `remaining_blocks` is the
distance to their last value, if that fits `usize`. -/
theorem C82_counter (tgt : Target) (R : Type) [Rust.ChaCha.Rounds R] (s : Vector U32 16) (p : U32) (q : U64) :
    (Rust.ChaCha.ChaChaCore.get_block_pos tgt (⟨s.toList, ()⟩ : Rust.ChaCha.ChaChaCore R Rust.ChaCha.Ietf) = .ok s[12] ∧
      Rust.ChaCha.ChaChaCore.set_block_pos tgt (⟨s.toList, ()⟩ : Rust.ChaCha.ChaChaCore R Rust.ChaCha.Ietf) p = .ok ((), ⟨(s.set 12 p).toList, ()⟩) ∧
      Rust.ChaCha.ChaChaCore.remaining_blocks tgt (⟨s.toList, ()⟩ : Rust.ChaCha.ChaChaCore R Rust.ChaCha.Ietf) =
        .ok (if 2 ^ 32 - 1 - s[12].toNat < 2 ^ tgt.bits then some ⟨2 ^ 32 - 1 - s[12].toNat⟩ else none)) ∧
    Rust.ChaCha.ChaChaCore.get_block_pos tgt (⟨s.toList, ()⟩ : Rust.ChaCha.ChaChaCore R Rust.ChaCha.Legacy) = .ok (BitVec.ofNat 64 (counterOf s)) ∧
      Rust.ChaCha.ChaChaCore.set_block_pos tgt (⟨s.toList, ()⟩ : Rust.ChaCha.ChaChaCore R Rust.ChaCha.Legacy) q =
        .ok ((), ⟨(withCounter s q.toNat).toList, ()⟩) ∧
      Rust.ChaCha.ChaChaCore.remaining_blocks tgt (⟨s.toList, ()⟩ : Rust.ChaCha.ChaChaCore R Rust.ChaCha.Legacy) =
        .ok (if 2 ^ 64 - 1 - counterOf s < 2 ^ tgt.bits then some ⟨2 ^ 64 - 1 - counterOf s⟩ else none) := by
  have hc : (ChaCha.Legacy.getBlockPos s) = BitVec.ofNat 64 (counterOf s) := by
    apply BitVec.eq_of_toNat_eq
    rw [ChaCha.Legacy.getBlockPos, ChaCha.join_toNat, BitVec.toNat_ofNat, counterOf]
    have := s[12].isLt; have := s[13].isLt
    omega
  have hlt : counterOf s < 2 ^ 64 := by
    rw [counterOf]
    have := s[12].isLt; have := s[13].isLt
    omega
  have hr : ∀ (w n : Nat), n < 2 ^ w → (BitVec.allOnes w - BitVec.ofNat w n).toNat = 2 ^ w - 1 - n := by
    intro w n hn
    rw [BitVec.toNat_sub_of_le, BitVec.toNat_allOnes, BitVec.toNat_ofNat, Nat.mod_eq_of_lt hn]
    rw [BitVec.le_def, BitVec.toNat_allOnes, BitVec.toNat_ofNat, Nat.mod_eq_of_lt hn]
    omega
  refine ⟨⟨Rust.ChaCha.get_ietf s, Rust.ChaCha.set_ietf s p, ?_⟩, ?_, ?_, ?_⟩
  · refine (Rust.ChaCha.remaining_ietf s).trans (congrArg _ ?_)
    have h := hr 32 s[12].toNat s[12].isLt
    rw [BitVec.ofNat_toNat, BitVec.setWidth_eq] at h
    have h' : (BitVec.allOnes (8 * ChaCha.Variant.ietf.ctrBytes) - ChaCha.getBlockPos .ietf s).toNat = 2 ^ 32 - 1 - s[12].toNat := h
    rw [ChaCha.remainingBlocks, h']
    split <;> rfl
  · exact (Rust.ChaCha.get_legacy s).trans (congrArg _ hc)
  · refine (Rust.ChaCha.set_legacy s q).trans ?_
    rw [withCounter, ← ChaCha.at'_legacy_words]
    refine congrArg (fun t => Except.ok ((), Rust.ChaCha.repr R Rust.ChaCha.Legacy t)) ?_
    show _ = ChaCha.Legacy.setBlockPos s (BitVec.ofNat 64 q.toNat)
    rw [BitVec.ofNat_toNat, BitVec.setWidth_eq]
  · refine (Rust.ChaCha.remaining_legacy s).trans (congrArg _ ?_)
    have h := hr 64 (counterOf s) hlt
    rw [← hc] at h
    have h' : (BitVec.allOnes (8 * ChaCha.Variant.legacy.ctrBytes) - ChaCha.getBlockPos .legacy s).toNat = 2 ^ 64 - 1 - counterOf s := h
    rw [ChaCha.remainingBlocks, h']
    split <;> rfl

/-- **C82**, the refill of the generators, from any sixteen words, whatever the buffer held before: the words of four consecutive blocks, with counters
modulo `2^64`, and the counter four further. -/
theorem C82_refill (tgt : Target) (ht : 16 ≤ tgt.bits) (R V : Type) [Rust.ChaCha.Rounds R] [Rust.ChaCha.Variant V] (s : Vector U32 16) (buffer : List U32)
    (hb : buffer.length = 64) :
    ∃ ws : Vector U32 64, (∀ k (hk : k < 64), ws[k] =
        (Spec.ChaCha.core (Rust.ChaCha.Rounds.count R) (rows (withCounter s (counterOf s + k / 16))))[k / 4 % 4][k % 4]) ∧
      Rust.ChaCha.Backend.gen_ks_blocks tgt ⟨(⟨s.toList, ()⟩ : Rust.ChaCha.ChaChaCore R V)⟩ buffer =
        .ok ((), ⟨⟨(withCounter s (counterOf s + 4)).toList, ()⟩⟩, ws.toList) := by
  obtain ⟨ws, h1, h2, _⟩ := C27_refill (Rust.ChaCha.Rounds.count R) s
  refine ⟨ws, h1, (Rust.ChaCha.gen_ks_blocks_eq ht s buffer hb).trans ?_⟩
  rw [h2]
  rfl

/-- XChaCha20 and the legacy cipher on a 16-bit target with overflow checks. -/
example : ∃ (tgt : Target) (c : Rust.ChaCha.XChaChaCore Rust.ChaCha.R20) (d : Rust.ChaCha.ChaCha20LegacyCore), tgt.bits = 16 ∧ tgt.mode = .debug ∧
    Rust.ChaCha.XChaChaCore.new tgt (Sample.bytes 32 0).toList (Sample.bytes 24 1).toList = .ok c ∧
    Rust.ChaCha.ChaCha20LegacyCore.new tgt (Sample.bytes 32 0).toList (Sample.bytes 8 1).toList = .ok d := by
  obtain ⟨c, hc, _⟩ := C82_xchacha ⟨.debug, 16⟩ Rust.ChaCha.R20 (Sample.bytes 32 0) (Sample.bytes 24 1)
  obtain ⟨d, hd, _⟩ := C82_legacy ⟨.debug, 16⟩ (Sample.bytes 32 0) (Sample.bytes 8 1)
  exact ⟨⟨.debug, 16⟩, c, d, rfl, rfl, hc, hd⟩

/-- ChaCha12, and its first keystream byte with a zero key and nonce. -/
example : (∃ c : Rust.ChaCha.ChaChaCore Rust.ChaCha.R12 Rust.ChaCha.Ietf,
      Rust.ChaCha.ChaChaCore.new ⟨.release, 64⟩ (Vector.replicate 32 0#8).toList (Vector.replicate 12 0#8).toList = .ok c) ∧
    (Spec.ChaCha.serialize (Spec.ChaCha.core 6 (Spec.ChaCha.ietfInput (Vector.replicate 32 0) (Vector.replicate 12 0) 0)))[0] = 0x9B :=
  ⟨(C82_ietf ⟨.release, 64⟩ Rust.ChaCha.R12 (Vector.replicate 32 0) (Vector.replicate 12 0)).imp fun _ h => h.1, by decide +kernel⟩

/-- HChaCha20 of the draft's example: the first byte of the subkey. -/
example : ∃ b : List U8, Rust.ChaCha.hchacha (R := Rust.ChaCha.R20) ⟨.debug, 32⟩ (Sample.bytes 32 0).toList
    #v[0, 0, 0, 9, 0, 0, 0, 0x4a, 0, 0, 0, 0, 0x31, 0x41, 0x59, 0x27].toList = .ok b ∧ b.head? = some 0x82 :=
  ⟨_, C82_hchacha ⟨.debug, 32⟩ Rust.ChaCha.R20 (Sample.bytes 32 0) #v[0, 0, 0, 9, 0, 0, 0, 0x4a, 0, 0, 0, 0, 0x31, 0x41, 0x59, 0x27], by decide +kernel⟩

/-- A nonce of eight bytes does not fit the 32-bit counter, one of sixteen does not fit at all. -/
example : (Rust.ChaCha.ChaChaCore.new_internal ⟨.release, 64⟩ (Sample.bytes 32 0).toList (List.replicate 8 1) :
      Except Panic (Rust.ChaCha.ChaChaCore Rust.ChaCha.R20 Rust.ChaCha.Ietf)) = .error .assertion ∧
    (Rust.ChaCha.ChaChaCore.new_internal ⟨.release, 64⟩ (Sample.bytes 32 0).toList (List.replicate 16 1) :
      Except Panic (Rust.ChaCha.ChaChaCore Rust.ChaCha.R20 Rust.ChaCha.Legacy)) = .error .assertion :=
  ⟨(C82_new ⟨.release, 64⟩ Rust.ChaCha.R20 (Sample.bytes 32 0) _).1 (by decide), (C82_new ⟨.release, 64⟩ Rust.ChaCha.R20 (Sample.bytes 32 0) _).2.1 (by decide)⟩

/-- The last 32-bit counter: no panic, back to 0 with the 32-bit counter, on to word 13 with the 64-bit one. -/
example : (∃ b, Rust.ChaCha.Backend.gen_ks_block ⟨.debug, 64⟩
      ⟨(⟨((Vector.replicate 16 7#32).set 12 0xFFFFFFFF#32).toList, ()⟩ : Rust.ChaCha.ChaChaCore Rust.ChaCha.R8 Rust.ChaCha.Ietf)⟩ (List.replicate 64 7) =
      .ok ((), ⟨⟨((Vector.replicate 16 7#32).set 12 0).toList, ()⟩⟩, b)) ∧
    ∃ b, Rust.ChaCha.Backend.gen_ks_block ⟨.debug, 64⟩
      ⟨(⟨((Vector.replicate 16 7#32).set 12 0xFFFFFFFF#32).toList, ()⟩ : Rust.ChaCha.ChaChaCore Rust.ChaCha.R8 Rust.ChaCha.Legacy)⟩ (List.replicate 64 7) =
      .ok ((), ⟨⟨(((Vector.replicate 16 7#32).set 12 0).set 13 8).toList, ()⟩⟩, b) := by
  have h : ∀ s t u : Vector U32 16, s.set 12 (s[12] + 1) = t → withCounter s (counterOf s + 1) = u →
      (∃ b, Rust.ChaCha.Backend.gen_ks_block ⟨.debug, 64⟩ ⟨(⟨s.toList, ()⟩ : Rust.ChaCha.ChaChaCore Rust.ChaCha.R8 Rust.ChaCha.Ietf)⟩ (List.replicate 64 7) =
        .ok ((), ⟨⟨t.toList, ()⟩⟩, b)) ∧
      ∃ b, Rust.ChaCha.Backend.gen_ks_block ⟨.debug, 64⟩ ⟨(⟨s.toList, ()⟩ : Rust.ChaCha.ChaChaCore Rust.ChaCha.R8 Rust.ChaCha.Legacy)⟩ (List.replicate 64 7) =
        .ok ((), ⟨⟨u.toList, ()⟩⟩, b) := by
    rintro s _ _ rfl rfl
    have := C82_block ⟨.debug, 64⟩ Rust.ChaCha.R8 Rust.ChaCha.Ietf s (List.replicate 64 7) (List.length_replicate ..)
    exact ⟨⟨_, this.1⟩, _, this.2.1⟩
  exact h _ _ _ (by decide +kernel) (by decide +kernel)

/-- On a 16-bit target the remaining blocks of the 32-bit counter are too many, until the last 65536. -/
example : ∀ s : Vector U32 16, (s[12] = 0 → Rust.ChaCha.ChaChaCore.remaining_blocks ⟨.debug, 16⟩
      (⟨s.toList, ()⟩ : Rust.ChaCha.ChaChaCore Rust.ChaCha.R20 Rust.ChaCha.Ietf) = .ok none) ∧
    (s[12] = 0xFFFFFF00 → Rust.ChaCha.ChaChaCore.remaining_blocks ⟨.debug, 16⟩
      (⟨s.toList, ()⟩ : Rust.ChaCha.ChaChaCore Rust.ChaCha.R20 Rust.ChaCha.Ietf) = .ok (some ⟨255⟩)) := by
  intro s
  have h := (C82_counter ⟨.debug, 16⟩ Rust.ChaCha.R20 s 0 0).1.2.2
  exact ⟨fun h0 => by rw [h, h0]; rfl, fun h0 => by rw [h, h0]; rfl⟩

/-- A refill that straddles the end of the 64-bit counter. -/
example : ∃ ws, Rust.ChaCha.Backend.gen_ks_blocks ⟨.debug, 32⟩
      ⟨(⟨(withCounter (Vector.replicate 16 7) (2 ^ 64 - 2)).toList, ()⟩ : Rust.ChaCha.ChaChaCore Rust.ChaCha.R8 Rust.ChaCha.Legacy)⟩ (List.replicate 64 1) =
    .ok ((), ⟨⟨(withCounter (withCounter (Vector.replicate 16 7) (2 ^ 64 - 2)) (2 ^ 64 + 2)).toList, ()⟩⟩, ws) := by
  have hc : counterOf (withCounter (Vector.replicate 16 7) (2 ^ 64 - 2)) + 4 = 2 ^ 64 + 2 := by decide +kernel
  obtain ⟨ws, _, h⟩ := C82_refill ⟨.debug, 32⟩ (by decide) Rust.ChaCha.R8 Rust.ChaCha.Legacy (withCounter (Vector.replicate 16 7) (2 ^ 64 - 2))
    (List.replicate 64 1) (List.length_replicate ..)
  rw [hc] at h
  exact ⟨ws.toList, h⟩

end Verif
