import Verif.Rust.RabbitApi
import Verif.Proof.SrcRabbit
import Verif.Proof.RabbitPeriod
import Verif.Props.Others
/-!
# C79: the text of `rabbit` is Rabbit
-/
namespace Verif.Rust.Rabbit
open Spec

variable {tgt : Target}

theorem next_block_eq (s : Verif.Rabbit.State) :
    State.next_block tgt (repr s) = (Verif.Rabbit.genBlock tgt.mode s).map fun r => (r.1.toList, repr r.2) := by
  rw [State.next_block, next_state_eq, Verif.Rabbit.genBlock]
  cases Verif.Rabbit.nextState tgt.mode s with
  | error p => rfl
  | ok s =>
    simp only [Except.map, ok_bind, extract_eq]
    rfl

/-- `gen_ks_block` of the text, on any block. -/
theorem gen_ks_block_eq (s : Verif.Rabbit.State) (block : List U8) (hb : block.length = 16) :
    Backend.gen_ks_block tgt ⟨repr s⟩ block = (Verif.Rabbit.genBlock tgt.mode s).map fun r => ((), ⟨repr r.2⟩, r.1.toList) := by
  rw [Backend.gen_ks_block, next_block_eq]
  cases Verif.Rabbit.genBlock tgt.mode s with
  | error p => rfl
  | ok r =>
    simp only [Except.map, ok_bind, copyFromSlice]
    rw [if_pos (by rw [hb, Vector.length_toList])]
    rfl

theorem new_eq (ht : 16 ≤ tgt.bits) (key : Vector U8 16) :
    RabbitKeyOnlyCore.new tgt key.toList = (Verif.Rabbit.setupKey tgt.mode key).map fun s => ⟨repr s⟩ := by
  rw [RabbitKeyOnlyCore.new, setup_key_eq ht]
  cases Verif.Rabbit.setupKey tgt.mode key <;> rfl

theorem inner_iv_init_eq (iv : Vector U8 8) (s : Verif.Rabbit.State) :
    RabbitCore.inner_iv_init tgt ⟨repr s⟩ iv.toList = (Verif.Rabbit.setupIv tgt.mode iv s).map fun s => ⟨repr s⟩ := by
  rw [RabbitCore.inner_iv_init]
  dsimp only
  rw [setup_iv_eq]
  cases Verif.Rabbit.setupIv tgt.mode iv s <;> rfl

theorem gen_rel {i0 : Spec.Rabbit.Inner} {s : Verif.Rabbit.State} {n : Nat} (h : Verif.Rabbit.Rel i0 s n) :
    ∃ s', (∀ block : List U8, block.length = 16 → Backend.gen_ks_block tgt ⟨repr s⟩ block =
      .ok ((), ⟨repr s'⟩, (Spec.Rabbit.block i0 n).toList)) ∧ Verif.Rabbit.Rel i0 s' (n + 1) := by
  obtain ⟨s', h1, h2⟩ := Verif.Rabbit.genBlock_rel tgt.mode i0 s n h
  exact ⟨s', fun block hb => by rw [gen_ks_block_eq s block hb, h1]; rfl, h2⟩

theorem keyOnlyLaw (u : Nat) (i0 : Spec.Rabbit.Inner) :
    CoreLaw (keyOnlyCore tgt) u (Spec.Rabbit.block i0) (fun c n => ∃ s, c = ⟨repr s⟩ ∧ Verif.Rabbit.Rel i0 s n) none where
  process x c n hr := by
    refine ⟨1, Nat.le_refl _, fun α f a n' hf hw => run_ofBlock_ref 1 (blockOf 16 fun (s : RabbitKeyOnlyCore) b => do
      let (_, backend, block) ← Backend.gen_ks_block tgt ⟨s.state⟩ b
      return ((), ⟨backend.f0⟩, block)) (Spec.Rabbit.block i0) (fun c n => ∃ s, c = ⟨repr s⟩ ∧ Verif.Rabbit.Rel i0 s n) none ?_ (f 1) c n a n' hr hf hw⟩
    rintro _ n ⟨s, rfl, h⟩ _
    obtain ⟨s', h1, h2⟩ := gen_rel (tgt := tgt) h
    exact ⟨⟨repr s'⟩, blockOf_ok (by rw [h1 _ (by rw [List.length_replicate]), ok_bind]; rfl), s', rfl, h2⟩
  remaining c n _ _ := rfl

theorem coreLaw (u : Nat) (i0 : Spec.Rabbit.Inner) :
    CoreLaw (core tgt) u (Spec.Rabbit.block i0) (fun c n => ∃ s, c = ⟨repr s⟩ ∧ Verif.Rabbit.Rel i0 s n) none where
  process x c n hr := by
    refine ⟨1, Nat.le_refl _, fun α f a n' hf hw => run_ofBlock_ref 1 (blockOf 16 fun (s : RabbitCore) b => do
      let (_, backend, block) ← Backend.gen_ks_block tgt ⟨s.state⟩ b
      return ((), ⟨backend.f0⟩, block)) (Spec.Rabbit.block i0) (fun c n => ∃ s, c = ⟨repr s⟩ ∧ Verif.Rabbit.Rel i0 s n) none ?_ (f 1) c n a n' hr hf hw⟩
    rintro _ n ⟨s, rfl, h⟩ _
    obtain ⟨s', h1, h2⟩ := gen_rel (tgt := tgt) h
    exact ⟨⟨repr s'⟩, blockOf_ok (by rw [h1 _ (by rw [List.length_replicate]), ok_bind]; rfl), s', rfl, h2⟩
  remaining c n _ _ := rfl

end Verif.Rust.Rabbit

namespace Verif
open Spec Rust

/-- **C79**, key only.  The Rust text of `rabbit`, read statement by statement, on every target: construction succeeds and the object cannot be told from a
cursor over the keystream of RFC 4503 without IV. -/
theorem C79_keyOnly (tgt : Target) (ht : 16 ≤ tgt.bits) (key : Vector U8 16) :
    ∃ c, Rust.Rabbit.RabbitKeyOnlyCore.new tgt key.toList = .ok c ∧
      IsStream tgt.bits (Rust.Rabbit.keyOnlyCore tgt)
        (fun i => (Spec.Rabbit.block (Spec.Rabbit.keySetup key) (i / 16))[i % 16]'(Nat.mod_lt _ (by decide))) none (Wrapper.fromCore c) 0 := by
  refine ⟨⟨Rust.Rabbit.repr (Rabbit.setupKeyPure key)⟩, ?_, ?_⟩
  · rw [Rust.Rabbit.new_eq ht, Rabbit.setupKey_eq]; rfl
  · exact (Rust.Rabbit.keyOnlyLaw tgt.bits _).isStream (by decide) _ 0 (At.fromCore _ _ ⟨_, rfl, Rabbit.rel_keyOnly key⟩ _)

/-- **C79**, key and IV. -/
theorem C79_rabbit (tgt : Target) (ht : 16 ≤ tgt.bits) (key : Vector U8 16) (iv : Vector U8 8) :
    ∃ k c, Rust.Rabbit.RabbitKeyOnlyCore.new tgt key.toList = .ok k ∧ Rust.Rabbit.RabbitCore.inner_iv_init tgt k iv.toList = .ok c ∧
      IsStream tgt.bits (Rust.Rabbit.core tgt)
        (fun i => (Spec.Rabbit.block (Spec.Rabbit.ivSetup iv (Spec.Rabbit.keySetup key)) (i / 16))[i % 16]'(Nat.mod_lt _ (by decide)))
        none (Wrapper.fromCore c) 0 := by
  refine ⟨⟨Rust.Rabbit.repr (Rabbit.setupKeyPure key)⟩, ⟨Rust.Rabbit.repr (Rabbit.next4Pure (Rabbit.ivXor iv (Rabbit.setupKeyPure key)))⟩, ?_, ?_, ?_⟩
  · rw [Rust.Rabbit.new_eq ht, Rabbit.setupKey_eq]; rfl
  · rw [Rust.Rabbit.inner_iv_init_eq, Rabbit.setupIv_eq]; rfl
  · exact (Rust.Rabbit.coreLaw tgt.bits _).isStream (by decide) _ 0 (At.fromCore _ _ ⟨_, rfl, Rabbit.rel_iv key iv⟩ _)

/-- **C79**, one block, at any point of the stream and of either type: what `gen_ks_block` leaves in the block does not depend on what it held, and
is block `n` of the keystream; the drop code leaves nothing of the state. -/
theorem C79_block (tgt : Target) (s : Rabbit.State) (block : List U8) (hb : block.length = 16) :
    (∃ s', Rust.Rabbit.Backend.gen_ks_block tgt ⟨Rust.Rabbit.repr s⟩ block =
      .ok ((), ⟨Rust.Rabbit.repr s'⟩, (Spec.Rabbit.extract (Rabbit.view s').X).toList)) ∧
    Rust.Rabbit.State.drop tgt (Rust.Rabbit.repr s) = .ok ((), ⟨List.replicate 8 0, List.replicate 8 0, 0⟩) := by
  obtain ⟨s', h, _⟩ := C37_step s
  refine ⟨⟨s', ?_⟩, ?_⟩
  · rw [Rust.Rabbit.gen_ks_block_eq s block hb, Rabbit.genBlock, h, ← Rabbit.extract_eq]; rfl
  · have hz : ∀ v : Vector U32 8, Zeroize.zeroize v.toList = List.replicate 8 (0 : U32) := fun v => by rw [toList8 v]; rfl
    simp only [Rust.Rabbit.State.drop, Rust.Rabbit.repr, hz]
    rfl

/-- A 16-bit target with overflow checks. -/
example : ∃ (tgt : Target) (k : Rust.Rabbit.RabbitKeyOnlyCore), 16 ≤ tgt.bits ∧ tgt.mode = .debug ∧
    Rust.Rabbit.RabbitKeyOnlyCore.new tgt (Sample.bytes 16 3).toList = .ok k :=
  ⟨⟨.debug, 16⟩, (C79_keyOnly ⟨.debug, 16⟩ (by decide) (Sample.bytes 16 3)).imp fun _ h => ⟨by decide, rfl, h.1⟩⟩

example : ∃ block : List U8, block.length = 16 := ⟨List.replicate 16 0xff, rfl⟩

end Verif
