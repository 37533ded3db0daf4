import Verif.Rust.Hc256Api
import Verif.Proof.SrcHc256
import Verif.Props.Others
/-!
# C80: the text of `hc-256` is HC-256
-/
namespace Verif.Rust.Hc256
open Spec

variable {tgt : Target}

theorem toLe_eq (w : U32) : toLeBytes w = (toLe32 w).toList := by
  rw [toList4 (toLe32 w)]
  rfl

/-- `gen_ks_block` of the text, on any block. -/
theorem gen_ks_block_eq (ht : 16 ≤ tgt.bits) (s : Verif.Hc256.State) (block : List U8) (hb : block.length = 4) :
    Backend.gen_ks_block tgt ⟨repr s⟩ block =
      (Verif.Hc256.genBlock tgt.mode tgt.bits s).map fun r => ((), ⟨repr r.2⟩, r.1.toList) := by
  rw [Backend.gen_ks_block, gen_word_eq ht, Verif.Hc256.genBlock]
  cases Verif.Hc256.genWord tgt.mode tgt.bits s with
  | error p => rfl
  | ok r =>
    simp only [Except.map, ok_bind, copyFromSlice, toLe_eq]
    rw [if_pos (by rw [hb, Vector.length_toList])]
    rfl

theorem coreLaw (ht : 16 ≤ tgt.bits) (key iv : Vector U8 32) :
    CoreLaw (core tgt) tgt.bits (Spec.Hc256.block key iv)
      (fun c n => ∃ s, c = repr s ∧ Verif.Hc256.Rel (Spec.Hc256.initialise key iv) s n) none where
  process x c n hr := by
    refine ⟨1, Nat.le_refl _, fun α f a n' hf hw => run_ofBlock_ref 1 (blockOf 4 fun (s : Hc256Core) b => do
      let (_, backend, block) ← Backend.gen_ks_block tgt ⟨s⟩ b
      return ((), backend.f0, block)) (Spec.Hc256.block key iv)
      (fun c n => ∃ s, c = repr s ∧ Verif.Hc256.Rel (Spec.Hc256.initialise key iv) s n) none ?_ (f 1) c n a n' hr hf hw⟩
    rintro _ n ⟨s, rfl, h⟩ _
    obtain ⟨s', h1, h2⟩ := Verif.Hc256.genBlock_rel tgt.mode ht key iv s n h
    exact ⟨repr s', blockOf_ok (by rw [gen_ks_block_eq ht s _ (by rw [List.length_replicate]), h1]; rfl), s', rfl, h2⟩
  remaining c n _ _ := rfl

end Verif.Rust.Hc256

namespace Verif
open Spec Rust

/-- **C80**.  The Rust text of `hc-256`, read statement by statement, on every target with at least 16-bit `usize`: construction succeeds and the object
cannot be told from a cursor over the published keystream (output word `n` is bytes `4n .. 4n+3`, little-endian). -/
theorem C80_hc256 (tgt : Target) (ht : 16 ≤ tgt.bits) (key iv : Vector U8 32) :
    ∃ c, Rust.Hc256.Hc256Core.new tgt key.toList iv.toList = .ok c ∧
      IsStream tgt.bits (Rust.Hc256.core tgt) (fun i => leByte (Spec.Hc256.word key iv (i / 4)).toNat (i % 4)) none (Wrapper.fromCore c) 0 := by
  obtain ⟨s, hs, hr⟩ := Hc256.new_eq tgt.mode ht key iv
  refine ⟨Rust.Hc256.repr s, by rw [Rust.Hc256.new_eq ht, hs]; rfl, ?_⟩
  have h := (Rust.Hc256.coreLaw ht key iv).isStream (by decide) _ 0 (At.fromCore _ _ ⟨s, rfl, hr⟩ _)
  have hs : byteStream (Spec.Hc256.block key iv) (by decide) = fun i => leByte (Spec.Hc256.word key iv (i / 4)).toNat (i % 4) := by
    funext i
    simp only [byteStream, Spec.Hc256.block, Vector.getElem_ofFn]
  rw [hs] at h
  exact h

/-- **C80**, one word, in any state whose index is below 2048, reachable or not: what `gen_ks_block` leaves in the block does not depend on what it held,
no operation panics, the index stays below 2048, and the drop code leaves nothing of the state. -/
theorem C80_block (tgt : Target) (ht : 16 ≤ tgt.bits) (s : Hc256.State) (hs : s.idx.toNat < 2048) (block : List U8) (hb : block.length = 4) :
    (∃ s', Rust.Hc256.Backend.gen_ks_block tgt ⟨Rust.Hc256.repr s⟩ block =
        .ok ((), ⟨Rust.Hc256.repr s'⟩, (List.range 4).map fun k => leByte (Spec.Hc256.step s.idx.toNat (Hc256.view s)).1.toNat k) ∧
      Hc256.view s' = (Spec.Hc256.step s.idx.toNat (Hc256.view s)).2 ∧ s'.idx.toNat = (s.idx.toNat + 1) % 2048) ∧
    Rust.Hc256.Hc256Core.drop tgt (Rust.Hc256.repr s) = .ok ((), ⟨List.replicate 1024 0, List.replicate 1024 0, 0⟩) := by
  obtain ⟨s', h1, h2, h3⟩ := Hc256.genWord_step tgt.mode ht s s.idx.toNat (Nat.mod_eq_of_lt hs).symm
  refine ⟨⟨s', ?_, h2, h3⟩, ?_⟩
  · rw [Rust.Hc256.gen_ks_block_eq ht s block hb, Hc256.genBlock, h1]
    show Except.ok _ = _
    refine congrArg (fun l => Except.ok ((), (⟨Rust.Hc256.repr s'⟩ : Rust.Hc256.Backend), l)) ?_
    apply List.ext_getElem
    · simp
    · intro k h4 h5
      rw [Vector.length_toList] at h4
      rw [Vector.getElem_toList, toLe32_getElem _ _ h4]
      simp
  · have hz : ∀ v : Vector U32 1024, Zeroize.zeroize v.toList = List.replicate 1024 (0 : U32) := by
      intro v
      show v.toList.map (fun _ => (0 : U32)) = _
      rw [List.map_const', Vector.length_toList]
    simp only [Rust.Hc256.Hc256Core.drop, Rust.Hc256.repr, hz]
    rfl

/-- A 16-bit target with overflow checks. -/
example : ∃ (tgt : Target) (c : Rust.Hc256.Hc256Core), 16 ≤ tgt.bits ∧ tgt.mode = .debug ∧
    Rust.Hc256.Hc256Core.new tgt (Sample.bytes 32 0).toList (Sample.bytes 32 1).toList = .ok c :=
  ⟨⟨.debug, 16⟩, (C80_hc256 ⟨.debug, 16⟩ (by decide) (Sample.bytes 32 0) (Sample.bytes 32 1)).imp fun _ h => ⟨by decide, rfl, h.1⟩⟩

example : ∃ (s : Hc256.State) (block : List U8), s.idx.toNat < 2048 ∧ block.length = 4 :=
  ⟨⟨Vector.replicate 1024 3, Vector.replicate 1024 7, 2047⟩, [1, 2, 3, 4], by decide, rfl⟩

end Verif
