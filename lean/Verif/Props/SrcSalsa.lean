import Verif.Rust.SalsaApi
import Verif.Proof.SrcSalsa
import Verif.Props.Salsa
/-!
# C81: the text of `salsa20` is Salsa20
-/
namespace Verif.Rust.Salsa
open Spec

variable {tgt : Target} {R : Type} [Unsigned R]

theorem genBlock_eq (s : Verif.Salsa.State) :
    genBlock R tgt (repr R s) = (Verif.Salsa.genBlock tgt.mode (Unsigned.value R) s).map fun r => (r.1, repr R r.2) := by
  cases h : Verif.Salsa.genBlock tgt.mode (Unsigned.value R) s with
  | error p =>
    rw [genBlock, blockOf, gen_ks_block_eq s _ (List.length_replicate ..), h]
    rfl
  | ok r => exact blockOf_ok (by rw [gen_ks_block_eq s _ (List.length_replicate ..), h]; rfl)

/-- The states of the text's core that stand for block `n`. -/
def Rel (R : Type) [Unsigned R] (s0 : Verif.Salsa.State) (c : SalsaCore R) (n : Nat) : Prop := c = repr R (Verif.Salsa.at' s0 n)

theorem seekLaw (s0 : Verif.Salsa.State) :
    SeekLaw (core R tgt) tgt.bits (Verif.Salsa.ksOf (Unsigned.value R) s0) (Rel R s0) (2 ^ 64 - 1) where
  process := by
    intro e c n hr
    refine ⟨1, by decide, ?_⟩
    intro α f a n' h hw
    refine run_ofBlock_ref 1 (genBlock R tgt) (Verif.Salsa.ksOf (Unsigned.value R) s0) (Rel R s0) (some (2 ^ 64 - 1)) ?_ _ c n a n' hr h hw
    intro c n hr hw
    have hn : n + 1 ≤ 2 ^ 64 - 1 := hw _ rfl
    refine ⟨_, ?_, rfl⟩
    rw [hr, genBlock_eq, Verif.Salsa.genBlock_at' tgt.mode _ s0 n (.inr (by omega))]
    rfl
  remaining := by
    intro c n hr hw
    have h := (Verif.Salsa.seekLaw Unit tgt.bits tgt.mode (Unsigned.value R) s0).remaining (Verif.Salsa.at' s0 n) n rfl hw
    rw [← h, hr]
    simp only [core, remaining_blocks_eq, Option.map_map]
    exact Option.map_id' ..
  getPos := by
    intro c n hr hn
    have h := (Verif.Salsa.seekLaw Unit tgt.bits tgt.mode (Unsigned.value R) s0).getPos (Verif.Salsa.at' s0 n) n rfl hn
    rw [← h, hr]
    simp only [core, get_block_pos_eq]
    rfl
  setPos := by
    intro c n m hr hm
    rw [hr]
    simp only [core, set_block_pos_eq, Rel, Verif.Salsa.at', Verif.Salsa.setBlockPos_setBlockPos]
  ctrMax := rfl

theorem seekLawX (s0 : Verif.Salsa.State) :
    SeekLaw (coreX R tgt) tgt.bits (Verif.Salsa.ksOf (Unsigned.value R) s0) (fun c n => Rel R s0 c.f0 n) (2 ^ 64 - 1) where
  process := by
    intro e c n hr
    obtain ⟨par, h1, h2⟩ := (seekLaw (tgt := tgt) s0).process e c.f0 n hr
    refine ⟨par, h1, fun α f a n' h hw => ?_⟩
    obtain ⟨s', h3, h4⟩ := h2 α f a n' h hw
    refine ⟨⟨s'⟩, ?_, h4⟩
    have h3' : (Verif.Backend.ofBlock 1 (genBlock R tgt)).call f c.f0 = .ok (a, s') := h3
    simp only [coreX, h3']
    rfl
  remaining := fun c n hr hw => (seekLaw (tgt := tgt) s0).remaining c.f0 n hr hw
  getPos := fun c n hr hn => (seekLaw (tgt := tgt) s0).getPos c.f0 n hr hn
  setPos := by
    intro c n m hr hm
    have hc : c = ⟨repr R (Verif.Salsa.at' s0 n)⟩ := congrArg XSalsaCore.mk hr
    rw [hc]
    have h : XSalsaCore.set_block_pos tgt (⟨repr R (Verif.Salsa.at' s0 n)⟩ : XSalsaCore R) (BitVec.ofNat 64 m) =
        .ok ((), ⟨repr R (Verif.Salsa.setBlockPos (Verif.Salsa.at' s0 n) (BitVec.ofNat 64 m))⟩) := by
      rw [XSalsaCore.set_block_pos, set_block_pos_eq]
      rfl
    simp only [coreX, h]
    simp only [Rel, Verif.Salsa.at', Verif.Salsa.setBlockPos_setBlockPos]
  ctrMax := rfl

end Verif.Rust.Salsa

namespace Verif
open Spec Rust

/-- **C81**.  The Rust text of `salsa20`, read statement by statement, on every target with at least 16-bit `usize` and for every number `R` of double
rounds: construction succeeds, and under every history of calls and seeks the object cannot be told from a cursor over the published keystream. -/
theorem C81_salsa (tgt : Target) (ht : 16 ≤ tgt.bits) (R : Type) [Unsigned R] (key : Vector U8 32) (nonce : Vector U8 8) :
    ∃ c : Rust.Salsa.SalsaCore R, Rust.Salsa.SalsaCore.new tgt key.toList nonce.toList = .ok c ∧
      IsSeekStream tgt.bits (Rust.Salsa.core R tgt) (fun i => (Spec.Salsa.serialize (Spec.Salsa.hash (Unsigned.value R)
        (Spec.Salsa.input key nonce (i / 64))))[i % 64]'(Nat.mod_lt _ (by decide))) (2 ^ 64 - 1) (Wrapper.fromCore c) 0 := by
  refine ⟨_, Rust.Salsa.new_eq ht key nonce, ?_⟩
  have law := Rust.Salsa.seekLaw (tgt := tgt) (R := R) (Salsa.new key nonce)
  rw [show Salsa.ksOf (Unsigned.value R) (Salsa.new key nonce) = Spec.Salsa.block (Unsigned.value R) key nonce from
    funext fun n => Salsa.ksOf_new _ key nonce n] at law
  exact law.isSeekStream (by decide) _ 0 (At.fromCore _ _ (congrArg (Rust.Salsa.repr R) (Salsa.rel_new key nonce)) _)

/-- **C81**, XSalsa20. -/
theorem C81_xsalsa (tgt : Target) (ht : 16 ≤ tgt.bits) (R : Type) [Unsigned R] (key : Vector U8 32) (nonce : Vector U8 24) :
    ∃ c : Rust.Salsa.XSalsaCore R, Rust.Salsa.XSalsaCore.new tgt key.toList nonce.toList = .ok c ∧
      IsSeekStream tgt.bits (Rust.Salsa.coreX R tgt)
        (fun i => (Spec.Salsa.xBlock (Unsigned.value R) key nonce (i / 64))[i % 64]'(Nat.mod_lt _ (by decide))) (2 ^ 64 - 1) (Wrapper.fromCore c) 0 := by
  refine ⟨_, Rust.Salsa.newX_eq ht key nonce, ?_⟩
  have law := Rust.Salsa.seekLawX (tgt := tgt) (R := R) (Salsa.newX (Unsigned.value R) key nonce)
  have hn : Salsa.newX (Unsigned.value R) key nonce = Salsa.new (Spec.Salsa.hsalsa (Unsigned.value R) key (Vector.ofFn fun i : Fin 16 => nonce[i.val]))
      (Vector.ofFn fun i : Fin 8 => nonce[16 + i.val]) := by
    rw [Salsa.newX, Salsa.hsalsa_eq]
  rw [hn] at law
  rw [show Salsa.ksOf (Unsigned.value R) (Salsa.new (Spec.Salsa.hsalsa (Unsigned.value R) key (Vector.ofFn fun i : Fin 16 => nonce[i.val]))
      (Vector.ofFn fun i : Fin 8 => nonce[16 + i.val])) = Spec.Salsa.xBlock (Unsigned.value R) key nonce from
    funext fun n => Salsa.ksOf_new _ _ _ n] at law
  rw [hn]
  exact law.isSeekStream (by decide) _ 0 (At.fromCore _ _ (congrArg (Rust.Salsa.repr R) (Salsa.rel_new _ _)) _)

/-- **C81**, HSalsa20: `hsalsa` never panics and is the published function. -/
theorem C81_hsalsa (tgt : Target) (R : Type) [Unsigned R] (key : Vector U8 32) (input : Vector U8 16) :
    Rust.Salsa.hsalsa (R := R) tgt key.toList input.toList = .ok (Spec.Salsa.hsalsa (Unsigned.value R) key input).toList := by
  rw [Rust.Salsa.hsalsa_eq, Salsa.hsalsa_eq]

/-- **C81**, one block, from any sixteen words, whatever the block held before: the Salsa20 hash of the words, and the counter one further.  The only
panic is the increment of the last counter, in builds with overflow checks.  The drop code leaves nothing of the words. -/
theorem C81_block (tgt : Target) (R : Type) [Unsigned R] (s : Vector U32 16) (block : List U8) (hb : block.length = 64) :
    (Rust.Salsa.SalsaCore.from_raw_state tgt s.toList >>= fun c : Rust.Salsa.SalsaCore R => Rust.Salsa.Backend.gen_ks_block tgt ⟨c⟩ block) =
      (if tgt.mode = .debug ∧ salsaCounter s = 2 ^ 64 - 1 then .error .overflow
      else .ok ((), ⟨⟨((s.set 8 (BitVec.ofNat 32 (salsaCounter s + 1))).set 9 (BitVec.ofNat 32 ((salsaCounter s + 1) / 2 ^ 32))).toList⟩⟩,
        (Spec.Salsa.serialize (Spec.Salsa.hash (Unsigned.value R) (rows s))).toList)) ∧
    Rust.Salsa.SalsaCore.drop tgt (⟨s.toList⟩ : Rust.Salsa.SalsaCore R) = .ok ((), ⟨List.replicate 16 0⟩) := by
  refine ⟨?_, Rust.Salsa.drop_eq s⟩
  show Rust.Salsa.Backend.gen_ks_block tgt ⟨Rust.Salsa.repr R s⟩ block = _
  have h := C32_raw tgt.mode (Unsigned.value R) s
  rw [Salsa.fromRawState] at h
  rw [Rust.Salsa.gen_ks_block_eq s block hb, h]
  by_cases hp : tgt.mode = .debug ∧ salsaCounter s = 2 ^ 64 - 1
  · rw [if_pos hp, if_pos hp]; rfl
  · rw [if_neg hp, if_neg hp]; rfl

/-- **C81**, the counter: reading and writing it never panics, it is the 64-bit number in words 8 and 9, and `remaining_blocks` is the distance to its
last value, if that fits `usize`. -/
theorem C81_counter (tgt : Target) (R : Type) [Unsigned R] (s : Vector U32 16) (p : U64) :
    Rust.Salsa.SalsaCore.get_block_pos tgt (⟨s.toList⟩ : Rust.Salsa.SalsaCore R) = .ok (BitVec.ofNat 64 (salsaCounter s)) ∧
    Rust.Salsa.SalsaCore.set_block_pos tgt (⟨s.toList⟩ : Rust.Salsa.SalsaCore R) p =
      .ok ((), ⟨((s.set 8 (BitVec.ofNat 32 p.toNat)).set 9 (BitVec.ofNat 32 (p.toNat / 2 ^ 32))).toList⟩) ∧
    Rust.Salsa.SalsaCore.remaining_blocks tgt (⟨s.toList⟩ : Rust.Salsa.SalsaCore R) =
      .ok (if 2 ^ 64 - 1 - salsaCounter s < 2 ^ tgt.bits then some ⟨2 ^ 64 - 1 - salsaCounter s⟩ else none) := by
  have hc : (Salsa.getBlockPos s).toNat = salsaCounter s := Salsa.getBlockPos_toNat s
  refine ⟨?_, ?_, ?_⟩
  · refine (Rust.Salsa.get_block_pos_eq s).trans (congrArg _ ?_)
    rw [← hc, BitVec.ofNat_toNat, BitVec.setWidth_eq]
  · refine (Rust.Salsa.set_block_pos_eq s p).trans ?_
    rw [← Salsa.at'_words, Salsa.at', BitVec.ofNat_toNat, BitVec.setWidth_eq]
    rfl
  · refine (Rust.Salsa.remaining_blocks_eq s).trans (congrArg _ ?_)
    have hr : (BitVec.allOnes 64 - Salsa.getBlockPos s).toNat = 2 ^ 64 - 1 - salsaCounter s := by
      have := (Salsa.getBlockPos s).isLt
      rw [BitVec.toNat_sub_of_le, BitVec.toNat_allOnes, hc]
      rw [BitVec.le_def, BitVec.toNat_allOnes]
      omega
    rw [Salsa.remainingBlocks, hr]
    split <;> rfl

/-- `typenum::U10`. -/
structure U10
instance : Unsigned U10 := ⟨10⟩

/-- XSalsa20 on a 16-bit target with overflow checks. -/
example : ∃ (tgt : Target) (c : Rust.Salsa.XSalsaCore U10), 16 ≤ tgt.bits ∧ tgt.mode = .debug ∧
    Rust.Salsa.XSalsaCore.new tgt (Sample.bytes 32 0).toList (Sample.bytes 24 1).toList = .ok c :=
  ⟨⟨.debug, 16⟩, (C81_xsalsa ⟨.debug, 16⟩ (by decide) U10 (Sample.bytes 32 0) (Sample.bytes 24 1)).imp fun _ h => ⟨by decide, rfl, h.1⟩⟩

/-- The last counter: a panic with overflow checks, counter 0 without. -/
example : (Rust.Salsa.Backend.gen_ks_block ⟨.debug, 64⟩ ⟨(⟨(Vector.replicate 16 0xFFFFFFFF#32).toList⟩ : Rust.Salsa.SalsaCore U10)⟩ (List.replicate 64 7) =
      .error .overflow) ∧
    ∃ c b, Rust.Salsa.Backend.gen_ks_block ⟨.release, 64⟩ ⟨(⟨(Vector.replicate 16 0xFFFFFFFF#32).toList⟩ : Rust.Salsa.SalsaCore U10)⟩ (List.replicate 64 7) =
      .ok ((), c, b) := by
  have h : ∀ (tgt : Target) (s : Vector U32 16) (b : List U8), b.length = 64 → salsaCounter s = 2 ^ 64 - 1 →
      ∃ r, Rust.Salsa.Backend.gen_ks_block tgt ⟨(⟨s.toList⟩ : Rust.Salsa.SalsaCore U10)⟩ b = if tgt.mode = .debug then .error .overflow else .ok ((), r) := by
    intro tgt s b hb hs
    have := (C81_block tgt U10 s b hb).1
    simp only [hs, and_true] at this
    exact ⟨_, this⟩
  obtain ⟨_, h1⟩ := h ⟨.debug, 64⟩ (Vector.replicate 16 0xFFFFFFFF#32) (List.replicate 64 7) (List.length_replicate ..) (by decide)
  obtain ⟨r, h2⟩ := h ⟨.release, 64⟩ (Vector.replicate 16 0xFFFFFFFF#32) (List.replicate 64 7) (List.length_replicate ..) (by decide)
  exact ⟨h1.trans (if_pos rfl), r.1, r.2, h2.trans (if_neg nofun)⟩

/-- On a 64-bit target the remaining blocks are known, on a 32-bit one they are too many. -/
example : (Rust.Salsa.SalsaCore.remaining_blocks ⟨.debug, 64⟩ (⟨(Vector.replicate 16 0#32).toList⟩ : Rust.Salsa.SalsaCore U10) =
      .ok (some ⟨2 ^ 64 - 1⟩)) ∧
    Rust.Salsa.SalsaCore.remaining_blocks ⟨.debug, 32⟩ (⟨(Vector.replicate 16 0#32).toList⟩ : Rust.Salsa.SalsaCore U10) = .ok none :=
  ⟨(C81_counter ⟨.debug, 64⟩ U10 (Vector.replicate 16 0#32) 0).2.2.trans (congrArg _ (if_pos (by decide))),
    (C81_counter ⟨.debug, 32⟩ U10 (Vector.replicate 16 0#32) 0).2.2.trans (congrArg _ (if_neg (by decide)))⟩

end Verif
