import Verif.Rust.Src.ChaCha
import Verif.Proof.SrcSalsa
import Verif.Proof.ChaChaSetup
/-!
# The text of `chacha20` computes the model
-/
namespace Verif.Rust

/-- `for (src, dst) in bytes.chunks_exact(4).zip(dst_slice) { *dst = u32::from_le_bytes(src.try_into().unwrap()); }`. -/
theorem load_dst {n : Nat} (st : Vector U32 n) (l : List U8) (w : Nat → U32) (m : Nat) (hm : m ≤ n)
    (hw : ∀ k, k < m → fromLeBytes (chunk l 4 k) = .ok (w k)) :
    (forIn (List.range m) st.toList fun (r : Nat) (s : List U32) => do
      let _ ← nth s r
      let r9 ← Unwrap.unwrap (TryInto.tryInto (β := List U8) (chunk l 4 r))
      let r10 ← fromLeBytes r9
      pure (ForInStep.yield (s.set r r10))) = .ok (setRange st 0 w m).toList := by
  refine forIn_range m (fun k => (setRange st 0 w k).toList) _ _ rfl ?_
  intro k hk
  rw [nth_vec _ _ (show k < n by omega), ok_bind]
  show (fromLeBytes (chunk l 4 k) >>= _) = _
  rw [hw k hk, ok_bind, toList_set _ _ (show k < n by omega), setRange_succ _ _ _ _ (show 0 + k < n by omega)]
  simp only [Nat.zero_add]
  rfl

section
variable {α : Type} {tgt : Target}

theorem slice_putSlice (o x : List α) (a b : Usize tgt) (h : a.val ≤ b.val) (hb : b.val ≤ o.length) (hx : x.length = b.val - a.val) :
    slice (putSlice o a b x) a b = .ok x := by
  have ht : (o.take a.val).length = a.val := by rw [List.length_take]; omega
  rw [slice_ok _ _ _ h (by rw [putSlice, List.length_append, List.length_append, ht, List.length_drop]; omega), putSlice, List.append_assoc,
    List.drop_left' ht, List.take_left' hx]

theorem putSlice_putSlice (o x y : List α) (a b : Usize tgt) (h : a.val ≤ b.val) (hb : b.val ≤ o.length) (hx : x.length = b.val - a.val) :
    putSlice (putSlice o a b x) a b y = putSlice o a b y := by
  have ht : (o.take a.val).length = a.val := by rw [List.length_take]; omega
  have hx' : (o.take a.val ++ x).length = b.val := by rw [List.length_append, ht]; omega
  rw [putSlice, putSlice, List.drop_left' hx', List.append_assoc (o.take a.val), List.take_left' ht, putSlice]

theorem putSlice_length (o x : List α) (a b : Usize tgt) (h : a.val ≤ b.val) (hb : b.val ≤ o.length) (hx : x.length = b.val - a.val) :
    (putSlice o a b x).length = o.length := by
  rw [putSlice, List.length_append, List.length_append, List.length_take, List.length_drop]; omega

theorem putSlice_self (o : List α) (a b : Usize tgt) (h : a.val ≤ b.val) :
    putSlice o a b ((o.drop a.val).take (b.val - a.val)) = o := by
  have h2 : o.drop b.val = (o.drop a.val).drop (b.val - a.val) := by rw [List.drop_drop]; congr 1; omega
  rw [putSlice, List.append_assoc, h2, List.take_append_drop, List.take_append_drop]

end

/-- `for (chunk, val) in out[a..b].chunks_exact_mut(4).zip(words) { chunk.copy_from_slice(&val.to_le_bytes()); }`. -/
theorem out_slice {tgt : Target} {m : Nat} (w : Vector U32 m) (o : List U8) (a b : Usize tgt) (bOf : List U8 → Usize tgt) (h : a.val ≤ b.val)
    (hb : b.val ≤ o.length) (hm : b.val - a.val = 4 * m) (hOf : ∀ x : List U8, x.length = o.length → bOf x = b) :
    (forIn (List.range m) o fun (r : Nat) (out : List U8) => do
      let r28 ← slice out a (bOf out)
      let r29 ← nth w.toList r
      let r30 ← copyFromSlice (chunk r28 4 r) (toLeBytes r29)
      let r31 ← slice out a (bOf out)
      pure (ForInStep.yield (putSlice out a (bOf out) (putChunk r31 4 r r30)))) = .ok (putSlice o a b (leBytes w).toList) := by
  have hd : ((o.drop a.val).take (b.val - a.val)).length = 4 * m := by rw [List.length_take, List.length_drop]; omega
  generalize hx : (o.drop a.val).take (b.val - a.val) = x at hd
  rw [← wrote_all w x hd]
  refine forIn_range m (fun k => putSlice o a b (wrote w x k)) _ _ (by rw [wrote_zero, ← hx, putSlice_self _ _ _ h]) ?_
  intro k hk
  have hl := wrote_length w x hd k (by omega)
  rw [hOf _ (putSlice_length o _ a b h hb (by omega)), slice_putSlice _ _ _ _ h hb (by omega), ok_bind, nth_vec _ _ hk, ok_bind]
  have hs := wrote_succ w x hd k hk
  rw [hs.1, ok_bind, ok_bind, hs.2, putSlice_putSlice _ _ _ _ _ h hb (by omega)]
  rfl

end Verif.Rust

namespace Verif.Rust.ChaCha
open Spec

/-- A state of the model as a value of the Rust structure. -/
def repr (R V : Type) [Rounds R] [Variant V] (s : Verif.ChaCha.State) : ChaChaCore R V := ⟨s.toList, ()⟩

variable {tgt : Target} {R V : Type} [Rounds R] [Variant V]

theorem state_words_eq : STATE_WORDS tgt = .ok ⟨16⟩ := rfl

theorem constants_eq : CONSTANTS tgt = .ok Verif.ChaCha.constants.toList := rfl

theorem quarter_round_eq (a b c d : Usize tgt) (ha : a.val < 16) (hb : b.val < 16) (hc : c.val < 16) (hd : d.val < 16) (s : Verif.ChaCha.State) :
    quarter_round tgt a b c d s.toList = .ok ((), (Verif.ChaCha.quarterRound ⟨a.val, ha⟩ ⟨b.val, hb⟩ ⟨c.val, hc⟩ ⟨d.val, hd⟩ s).toList) := by
  rw [quarter_round]
  dsimp only
  rw [idx_vec _ a ha, ok_bind, idx_vec _ b hb, ok_bind, upd_vec _ a ha, ok_bind]
  generalize hs1 : s.set a.val _ ha = s1
  rw [idx_vec _ a ha, ok_bind, idx_vec _ d hd, ok_bind, upd_vec _ d hd, ok_bind]
  generalize hs2 : s1.set d.val _ hd = s2
  rw [idx_vec _ d hd, ok_bind, upd_vec _ d hd, ok_bind]
  generalize hs3 : s2.set d.val _ hd = s3
  rw [idx_vec _ c hc, ok_bind, idx_vec _ d hd, ok_bind, upd_vec _ c hc, ok_bind]
  generalize hs4 : s3.set c.val _ hc = s4
  rw [idx_vec _ c hc, ok_bind, idx_vec _ b hb, ok_bind, upd_vec _ b hb, ok_bind]
  generalize hs5 : s4.set b.val _ hb = s5
  rw [idx_vec _ b hb, ok_bind, upd_vec _ b hb, ok_bind]
  generalize hs6 : s5.set b.val _ hb = s6
  rw [idx_vec _ a ha, ok_bind, idx_vec _ b hb, ok_bind, upd_vec _ a ha, ok_bind]
  generalize hs7 : s6.set a.val _ ha = s7
  rw [idx_vec _ a ha, ok_bind, idx_vec _ d hd, ok_bind, upd_vec _ d hd, ok_bind]
  generalize hs8 : s7.set d.val _ hd = s8
  rw [idx_vec _ d hd, ok_bind, upd_vec _ d hd, ok_bind]
  generalize hs9 : s8.set d.val _ hd = s9
  rw [idx_vec _ c hc, ok_bind, idx_vec _ d hd, ok_bind, upd_vec _ c hc, ok_bind]
  generalize hs10 : s9.set c.val _ hc = s10
  rw [idx_vec _ c hc, ok_bind, idx_vec _ b hb, ok_bind, upd_vec _ b hb, ok_bind]
  generalize hs11 : s10.set b.val _ hb = s11
  rw [idx_vec _ b hb, ok_bind, upd_vec _ b hb, ok_bind]
  generalize hs12 : s11.set b.val _ hb = s12
  subst hs1 hs2 hs3 hs4 hs5 hs6 hs7 hs8 hs9 hs10 hs11 hs12
  rfl

/-- The body of the round loop. -/
theorem double_round_text (s : Verif.ChaCha.State) :
    (do
      let r1 ← quarter_round tgt 0 4 8 12 s.toList
      let r2 ← quarter_round tgt 1 5 9 13 r1.2
      let r3 ← quarter_round tgt 2 6 10 14 r2.2
      let r4 ← quarter_round tgt 3 7 11 15 r3.2
      let r5 ← quarter_round tgt 0 5 10 15 r4.2
      let r6 ← quarter_round tgt 1 6 11 12 r5.2
      let r7 ← quarter_round tgt 2 7 8 13 r6.2
      let r8 ← quarter_round tgt 3 4 9 14 r7.2
      pure (ForInStep.yield r8.2)) = .ok (.yield (Verif.ChaCha.doubleRound s).toList) := by
  have q0 : ∀ s, quarter_round tgt 0 4 8 12 (Vector.toList s) = .ok ((), (Verif.ChaCha.quarterRound 0 4 8 12 s).toList) := fun s =>
    quarter_round_eq 0 4 8 12 (show 0 < 16 by decide) (show 4 < 16 by decide) (show 8 < 16 by decide) (show 12 < 16 by decide) s
  have q1 : ∀ s, quarter_round tgt 1 5 9 13 (Vector.toList s) = .ok ((), (Verif.ChaCha.quarterRound 1 5 9 13 s).toList) := fun s =>
    quarter_round_eq 1 5 9 13 (show 1 < 16 by decide) (show 5 < 16 by decide) (show 9 < 16 by decide) (show 13 < 16 by decide) s
  have q2 : ∀ s, quarter_round tgt 2 6 10 14 (Vector.toList s) = .ok ((), (Verif.ChaCha.quarterRound 2 6 10 14 s).toList) := fun s =>
    quarter_round_eq 2 6 10 14 (show 2 < 16 by decide) (show 6 < 16 by decide) (show 10 < 16 by decide) (show 14 < 16 by decide) s
  have q3 : ∀ s, quarter_round tgt 3 7 11 15 (Vector.toList s) = .ok ((), (Verif.ChaCha.quarterRound 3 7 11 15 s).toList) := fun s =>
    quarter_round_eq 3 7 11 15 (show 3 < 16 by decide) (show 7 < 16 by decide) (show 11 < 16 by decide) (show 15 < 16 by decide) s
  have q4 : ∀ s, quarter_round tgt 0 5 10 15 (Vector.toList s) = .ok ((), (Verif.ChaCha.quarterRound 0 5 10 15 s).toList) := fun s =>
    quarter_round_eq 0 5 10 15 (show 0 < 16 by decide) (show 5 < 16 by decide) (show 10 < 16 by decide) (show 15 < 16 by decide) s
  have q5 : ∀ s, quarter_round tgt 1 6 11 12 (Vector.toList s) = .ok ((), (Verif.ChaCha.quarterRound 1 6 11 12 s).toList) := fun s =>
    quarter_round_eq 1 6 11 12 (show 1 < 16 by decide) (show 6 < 16 by decide) (show 11 < 16 by decide) (show 12 < 16 by decide) s
  have q6 : ∀ s, quarter_round tgt 2 7 8 13 (Vector.toList s) = .ok ((), (Verif.ChaCha.quarterRound 2 7 8 13 s).toList) := fun s =>
    quarter_round_eq 2 7 8 13 (show 2 < 16 by decide) (show 7 < 16 by decide) (show 8 < 16 by decide) (show 13 < 16 by decide) s
  have q7 : ∀ s, quarter_round tgt 3 4 9 14 (Vector.toList s) = .ok ((), (Verif.ChaCha.quarterRound 3 4 9 14 s).toList) := fun s =>
    quarter_round_eq 3 4 9 14 (show 3 < 16 by decide) (show 4 < 16 by decide) (show 9 < 16 by decide) (show 14 < 16 by decide) s
  rw [Verif.ChaCha.doubleRound]
  generalize Verif.ChaCha.quarterRound = Q at *
  rw [q0, ok_bind, q1, ok_bind, q2, ok_bind, q3, ok_bind, q4, ok_bind, q5, ok_bind, q6, ok_bind, q7, ok_bind]
  rfl

theorem rounds_text (n : Nat) (s : Verif.ChaCha.State) :
    (forIn (List.range n) s.toList fun (_ : Nat) (st : List U32) => do
      let r1 ← quarter_round tgt 0 4 8 12 st
      let r2 ← quarter_round tgt 1 5 9 13 r1.2
      let r3 ← quarter_round tgt 2 6 10 14 r2.2
      let r4 ← quarter_round tgt 3 7 11 15 r3.2
      let r5 ← quarter_round tgt 0 5 10 15 r4.2
      let r6 ← quarter_round tgt 1 6 11 12 r5.2
      let r7 ← quarter_round tgt 2 7 8 13 r6.2
      let r8 ← quarter_round tgt 3 4 9 14 r7.2
      pure (ForInStep.yield r8.2)) = .ok (iter n Verif.ChaCha.doubleRound s).toList := by
  refine forIn_range n (fun k => (iter k Verif.ChaCha.doubleRound s).toList) _ _ rfl ?_
  intro k hk
  rw [double_round_text, Salsa.iter_succ_out]

theorem run_rounds_eq (s : Verif.ChaCha.State) : run_rounds (R := R) tgt s.toList = .ok (Verif.ChaCha.runRounds (Rounds.count R) s).toList := by
  rw [run_rounds]
  dsimp only
  rw [show Usize.val (Rounds.COUNT R tgt) - Usize.val (0 : Usize tgt) = Rounds.count R from rfl, rounds_text, ok_bind]
  rw [Verif.ChaCha.runRounds]
  generalize iter (Rounds.count R) Verif.ChaCha.doubleRound s = res
  have hl : min res.toList.length s.toList.length = 16 := by simp only [Vector.length_toList]; rfl
  rw [hl, forIn_range 16 (fun k => (fill (Vector.zipWith (· + ·) res s) res k).toList) _ _ (by rw [fill_zero]), ok_bind]
  · rw [fill_all]; rfl
  · intro k hk
    rw [nth_vec _ _ hk, ok_bind, nth_vec _ _ hk, ok_bind, toList_set _ _ hk, ← fill_succ _ _ _ hk, fill_get _ _ _ _ hk (Nat.le_refl _),
      Vector.getElem_zipWith]
    rfl


/-! ### Counters -/

/-- `&state[12..]`. -/
theorem tail_slice (s : Verif.ChaCha.State) :
    slice s.toList (12 : Usize tgt) (len tgt s.toList) = .ok (#v[s[12], s[13], s[14], s[15]] : Vector U32 4).toList := by
  rw [slice_ok s.toList (12 : Usize tgt) (len tgt s.toList) (show 12 ≤ s.toList.length by rw [Vector.length_toList]; decide) (Nat.le_refl _),
    len, Vector.length_toList, toList16 s]
  rfl

theorem put_tail (s : Verif.ChaCha.State) (a b c d : U32) :
    putSlice s.toList (12 : Usize tgt) (len tgt s.toList) [a, b, c, d] = ((((s.set 12 a).set 13 b).set 14 c).set 15 d).toList := by
  rw [len, Vector.length_toList, toList16 s, toList16 ((((s.set 12 a).set 13 b).set 14 c).set 15 d)]
  simp only [Vector.getElem_set]
  rfl

theorem set_self (s : Verif.ChaCha.State) (i : Nat) (h : i < 16) (x : U32) (hx : x = s[i]) : s.set i x = s := by
  subst hx
  exact Vector.set_getElem_self ..

theorem get_ietf (s : Verif.ChaCha.State) : ChaChaCore.get_block_pos tgt (repr R Ietf s) = .ok (Verif.ChaCha.Ietf.getBlockPos s) := by
  rw [ChaChaCore.get_block_pos, repr]
  dsimp only
  rw [tail_slice, ok_bind]
  rfl

theorem set_ietf (s : Verif.ChaCha.State) (p : U32) :
    ChaChaCore.set_block_pos tgt (repr R Ietf s) p = .ok ((), repr R Ietf (Verif.ChaCha.Ietf.setBlockPos s p)) := by
  rw [ChaChaCore.set_block_pos, repr]
  dsimp only
  rw [tail_slice, ok_bind, show Variant.set_block_pos Ietf tgt (#v[s[12], s[13], s[14], s[15]] : Vector U32 4).toList p =
    .ok ((), [p, s[13], s[14], s[15]]) from rfl, ok_bind]
  dsimp only
  rw [put_tail, set_self _ 15, set_self _ 14, set_self _ 13]
  · rfl
  · rw [Vector.getElem_set_ne]; decide
  · rw [Vector.getElem_set_ne, Vector.getElem_set_ne] <;> decide
  · rw [Vector.getElem_set_ne, Vector.getElem_set_ne, Vector.getElem_set_ne] <;> decide

theorem get_legacy_text (row : List U32) : Variant.get_block_pos Legacy tgt row = Legacy.get_block_pos tgt row := rfl

theorem set_legacy_text (row : List U32) (p : U64) : Variant.set_block_pos Legacy tgt row p = Legacy.set_block_pos tgt row p := rfl

theorem get_legacy (s : Verif.ChaCha.State) : ChaChaCore.get_block_pos tgt (repr R Legacy s) = .ok (Verif.ChaCha.Legacy.getBlockPos s) := by
  rw [ChaChaCore.get_block_pos, repr]
  dsimp only
  rw [tail_slice, ok_bind]
  rw [get_legacy_text, Legacy.get_block_pos, idx_vec _ (1 : Usize tgt) (show 1 < 4 by decide), ok_bind, shl_ok _ 32 (by decide), ok_bind,
    idx_vec _ (0 : Usize tgt) (show 0 < 4 by decide), ok_bind, cast_bv, cast_bv]
  rfl

theorem set_legacy (s : Verif.ChaCha.State) (p : U64) :
    ChaChaCore.set_block_pos tgt (repr R Legacy s) p = .ok ((), repr R Legacy (Verif.ChaCha.Legacy.setBlockPos s p)) := by
  rw [ChaChaCore.set_block_pos, repr]
  dsimp only
  rw [tail_slice, ok_bind, show Variant.set_block_pos Legacy tgt (#v[s[12], s[13], s[14], s[15]] : Vector U32 4).toList p =
    .ok ((), [(p &&& 0xFFFFFFFF#64).setWidth 32, (p >>> 32).setWidth 32, s[14], s[15]]) by
      rw [set_legacy_text, Legacy.set_block_pos]
      dsimp only
      rw [upd_vec _ (0 : Usize tgt) (show 0 < 4 by decide), ok_bind, shr_ok _ 32 (by decide), ok_bind,
        upd_vec _ (1 : Usize tgt) (show 1 < 4 by decide), ok_bind, cast_bv, cast_bv]
      rfl, ok_bind]
  dsimp only
  rw [put_tail, set_self _ 15, set_self _ 14]
  · rfl
  · rw [Vector.getElem_set_ne, Vector.getElem_set_ne] <;> decide
  · rw [Vector.getElem_set_ne, Vector.getElem_set_ne, Vector.getElem_set_ne] <;> decide

theorem remaining_text {w : Nat} (p : BitVec w) :
    (do
      let r0 ← sub tgt (maxValue (BitVec w)) p
      pure (TryInto.tryInto (β := Usize tgt) r0)) =
    .ok ((if (BitVec.allOnes w - p).toNat < 2 ^ tgt.bits then some (BitVec.allOnes w - p).toNat else none).map Usize.mk) := by
  have hm : maxValue (BitVec w) = BitVec.allOnes w := by
    apply BitVec.eq_of_toNat_eq
    rw [BitVec.toNat_allOnes]
    show (BitVec.ofNat w (2 ^ w - 1)).toNat = _
    rw [BitVec.toNat_ofNat, Nat.mod_eq_of_lt]
    have := Nat.two_pow_pos w
    omega
  have hs : sub tgt (maxValue (BitVec w)) p = .ok (BitVec.allOnes w - p) := by
    rw [hm]
    exact if_pos (show p.toNat ≤ (BitVec.allOnes w).toNat by rw [BitVec.toNat_allOnes]; have := p.isLt; omega)
  rw [hs, ok_bind, pure_eq]
  refine congrArg _ ?_
  generalize BitVec.allOnes w - p = r
  show (if r.toNat < 2 ^ tgt.bits then some (⟨r.toNat % 2 ^ tgt.bits⟩ : Usize tgt) else none) = _
  by_cases h : r.toNat < 2 ^ tgt.bits
  · rw [if_pos h, if_pos h, Nat.mod_eq_of_lt h]; rfl
  · rw [if_neg h, if_neg h]; rfl

theorem remaining_ietf (s : Verif.ChaCha.State) :
    ChaChaCore.remaining_blocks tgt (repr R Ietf s) = .ok ((Verif.ChaCha.remainingBlocks tgt.bits .ietf s).map Usize.mk) := by
  rw [ChaChaCore.remaining_blocks, get_ietf, ok_bind]
  exact remaining_text (tgt := tgt) (Verif.ChaCha.Ietf.getBlockPos s)

theorem remaining_legacy (s : Verif.ChaCha.State) :
    ChaChaCore.remaining_blocks tgt (repr R Legacy s) = .ok ((Verif.ChaCha.remainingBlocks tgt.bits .legacy s).map Usize.mk) := by
  rw [ChaChaCore.remaining_blocks, get_legacy, ok_bind]
  exact remaining_text (tgt := tgt) (Verif.ChaCha.Legacy.getBlockPos s)

/-! ### Blocks -/

/-- The Rust type `V` is the variant `v`, as far as the size of its counter goes. -/
def Is (V : Type) [Variant V] (v : Verif.ChaCha.Variant) : Prop := RInt.width (Variant.Counter V) / 8 = v.ctrBytes

theorem is_ietf : Is Ietf .ietf := rfl

theorem is_legacy : Is Legacy .legacy := rfl

/-- The loop at the end of `gen_ks_block`. -/
theorem block_text (res : Vector U32 16) (block : List U8) (hb : block.length = 64) :
    (forIn (List.range (min (block.length / 4) res.toList.length)) block fun (r : Nat) (blk : List U8) => do
      let r8 ← nth res.toList r
      let r9 ← copyFromSlice (chunk blk 4 r) (toLeBytes r8)
      pure (ForInStep.yield (putChunk blk 4 r r9))) = .ok (leBytes res).toList := by
  have hl : min (block.length / 4) res.toList.length = 16 := by rw [hb, Vector.length_toList]; rfl
  rw [hl, forIn_range 16 (wrote res block) _ block rfl, wrote_all res block hb]
  intro k hk
  rw [nth_vec _ _ hk, ok_bind]
  have h := wrote_succ res block hb k hk
  rw [h.1, ok_bind, h.2]
  rfl

theorem gen_ks_block_eq {v : Verif.ChaCha.Variant} (hV : Is V v) (s : Verif.ChaCha.State) (block : List U8) (hb : block.length = 64) :
    Backend.gen_ks_block tgt ⟨repr R V s⟩ block =
      .ok ((), ⟨repr R V (Verif.ChaCha.softAdvance v s)⟩, (leBytes (Verif.ChaCha.runRounds (Rounds.count R) s)).toList) := by
  rw [Backend.gen_ks_block, repr]
  dsimp only
  rw [run_rounds_eq, ok_bind]
  generalize Verif.ChaCha.runRounds (Rounds.count R) s = res
  rw [idx_vec s (13 : Usize tgt) (show 13 < 16 by decide), ok_bind, shl_ok _ 32 (by decide), ok_bind,
    idx_vec s (12 : Usize tgt) (show 12 < 16 by decide), ok_bind, upd_vec s (12 : Usize tgt) (show 12 < 16 by decide), ok_bind, shr_ok _ 32 (by decide), ok_bind,
    upd_vec _ (13 : Usize tgt) (show 13 < 16 by decide), ok_bind, block_text res block hb, ok_bind, ok_bind, cast_bv, cast_bv, cast_bv, cast_bv,
    Verif.ChaCha.softAdvance]
  have h8 : (sizeOfTy tgt (Variant.Counter V) == 8) = decide (v.ctrBytes = 8) := by
    rw [← hV]
    exact Rabbit.usize_beq _ _
  rw [h8]
  cases v
  · rfl
  · rfl

theorem drop_eq (s : Verif.ChaCha.State) : ChaChaCore.drop tgt (repr R V s) = .ok ((), ⟨List.replicate 16 0, ()⟩) := by
  have hz : Zeroize.zeroize s.toList = List.replicate 16 (0 : U32) := by
    show s.toList.map (fun _ => (0 : U32)) = _
    rw [List.map_const', Vector.length_toList]
  rw [ChaChaCore.drop, repr]
  dsimp only
  rw [hz]
  rfl


/-! ### Four blocks for the generator -/

/-- The state after `k` blocks of `gen_ks_blocks`. -/
def rngState (dr : Nat) (s : Verif.ChaCha.State) (k : Nat) : Verif.ChaCha.State := iter k (fun s => (Verif.ChaCha.softRngStep dr s).2) s

/-- The words of the first `k` blocks. -/
def rngWords (dr : Nat) (s : Verif.ChaCha.State) : Nat → List U32
  | 0 => []
  | k + 1 => rngWords dr s k ++ (Verif.ChaCha.runRounds dr (rngState dr s k)).toList

theorem rngWords_length (dr : Nat) (s : Verif.ChaCha.State) (k : Nat) : (rngWords dr s k).length = 16 * k := by
  induction k with
  | zero => rfl
  | succ k ih => rw [rngWords, List.length_append, ih, Vector.length_toList]; omega

theorem gen_ks_blocks_eq (ht : 16 ≤ tgt.bits) (s : Verif.ChaCha.State) (buffer : List U32) (hb : buffer.length = 64) :
    Backend.gen_ks_blocks tgt ⟨repr R V s⟩ buffer =
      .ok ((), ⟨repr R V (Verif.ChaCha.softGenKsBlocks (Rounds.count R) s).2⟩, (Verif.ChaCha.softGenKsBlocks (Rounds.count R) s).1.toList) := by
  rw [Backend.gen_ks_blocks]
  dsimp only
  rw [show Usize.val (4 : Usize tgt) - Usize.val (0 : Usize tgt) = 4 from rfl,
    forIn_range 4 (fun k => ((⟨repr R V (rngState (Rounds.count R) s k)⟩ : Backend R V), rngWords (Rounds.count R) s k ++ buffer.drop (16 * k))) _ (⟨repr R V s⟩, buffer) rfl, ok_bind]
  · dsimp only
    rw [show buffer.drop (16 * 4) = [] from List.drop_of_length_le (by omega), List.append_nil]
    simp only [rngWords, rngState, iter, Verif.ChaCha.softGenKsBlocks, List.nil_append, Vector.toList_append]
    rfl
  · intro k hk
    have hn : rngState (Rounds.count R) s (k + 1) = (Verif.ChaCha.softRngStep (Rounds.count R) (rngState (Rounds.count R) s k)).2 := Salsa.iter_succ_out _ k s
    have hl := rngWords_length (Rounds.count R) s k
    have hp : ∀ x : List U32, putSlice (rngWords (Rounds.count R) s k ++ buffer.drop (16 * k)) (⟨16 * k⟩ : Usize tgt) ⟨16 * (k + 1)⟩ x =
        rngWords (Rounds.count R) s k ++ x ++ buffer.drop (16 * (k + 1)) := by
      intro x
      rw [putSlice, List.take_left' hl, List.drop_append, List.drop_of_length_le (by rw [hl]; show 16 * k ≤ 16 * (k + 1); omega), List.nil_append, hl, List.drop_drop]
      congr 2
      dsimp only
      omega
    have hs : ∃ y : List U32, slice (rngWords (Rounds.count R) s k ++ buffer.drop (16 * k)) (⟨16 * k⟩ : Usize tgt) ⟨16 * (k + 1)⟩ = .ok y ∧ y.length = 16 := by
      refine ⟨_, slice_ok _ _ _ (show 16 * k ≤ 16 * (k + 1) by omega)
        (show 16 * (k + 1) ≤ _ by rw [List.length_append, hl, List.length_drop]; omega), ?_⟩
      rw [List.length_take, List.length_drop, List.length_append, hl, List.length_drop]
      dsimp only
      omega
    obtain ⟨y, hs, hy⟩ := hs
    have hc : cast (Usize tgt) 16#8 = ⟨16⟩ := cast_byte ht 16#8
    have hm1 : mul tgt (⟨Usize.val (0 : Usize tgt) + k⟩ : Usize tgt) (cast (Usize tgt) 16#8) = .ok ⟨16 * k⟩ := by
      rw [hc]
      refine (mul_usize _ _ (pow_bits ht (show (0 + k) * 16 < 65536 by omega))).trans ?_
      exact congrArg (fun n => Except.ok (Usize.mk n)) (show (0 + k) * 16 = 16 * k by omega)
    have ha1 : add tgt (⟨Usize.val (0 : Usize tgt) + k⟩ : Usize tgt) 1 = .ok ⟨k + 1⟩ := by
      refine (add_usize _ _ (pow_bits ht (show (0 + k) + 1 < 65536 by omega))).trans ?_
      exact congrArg (fun n => Except.ok (Usize.mk n)) (show (0 + k) + 1 = k + 1 by omega)
    have hm2 : mul tgt (⟨k + 1⟩ : Usize tgt) (cast (Usize tgt) 16#8) = .ok ⟨16 * (k + 1)⟩ := by
      rw [hc, mul_usize _ _ (pow_bits ht (show (k + 1) * 16 < 65536 by omega))]
      exact congrArg (fun n => Except.ok (Usize.mk n)) (show (k + 1) * 16 = 16 * (k + 1) by omega)
    rw [hn, rngWords]
    generalize rngState (Rounds.count R) s k = t
    generalize rngWords (Rounds.count R) s k = ws at *
    rw [Verif.ChaCha.softRngStep, repr]
    dsimp only
    rw [run_rounds_eq, ok_bind]
    generalize Verif.ChaCha.runRounds (Rounds.count R) t = res
    rw [idx_vec t (13 : Usize tgt) (show 13 < 16 by decide), ok_bind, shl_ok _ 32 (by decide), ok_bind,
      idx_vec t (12 : Usize tgt) (show 12 < 16 by decide), ok_bind, upd_vec t (12 : Usize tgt) (show 12 < 16 by decide), ok_bind, shr_ok _ 32 (by decide), ok_bind,
      upd_vec _ (13 : Usize tgt) (show 13 < 16 by decide), ok_bind, show BLOCK_WORDS tgt = .ok 16#8 from rfl, ok_bind,
      hm1, ok_bind, ha1, ok_bind, ok_bind, hm2, ok_bind, hs, ok_bind, copyFromSlice,
      if_pos (by rw [hy, Vector.length_toList]), ok_bind, hp, cast_bv, cast_bv, cast_bv, cast_bv]
    rfl

/-! ### Construction -/

theorem len_eq {α : Type} (l : List α) (n : Nat) : (len tgt l == (OfNat.ofNat n : Usize tgt)) = decide (l.length = n) := Rabbit.usize_beq _ _

theorem new_internal_eq {v : Verif.ChaCha.Variant} (hV : Is V v) (key : Vector U8 32) (iv : List U8) :
    ChaChaCore.new_internal tgt key.toList iv = (Verif.ChaCha.newInternal v key iv).map (repr R V) := by
  rw [ChaChaCore.new_internal, len_eq, len_eq, len_eq]
  by_cases h4 : iv.length = 4 ∨ iv.length = 8 ∨ iv.length = 12
  · have ha : assert (decide (iv.length = 4) || decide (iv.length = 8) || decide (iv.length = 12)) = .ok () := by
      rw [assert, if_pos]
      simpa only [Bool.or_eq_true, decide_eq_true_eq, or_assoc] using h4
    have hsz : ∀ n : Nat, div tgt (sizeOfTy tgt (Variant.Counter V)) (sizeOfTy tgt U32) = .ok ⟨v.ctrBytes / 4⟩ := by
      intro _
      rw [sizeOfTy, hV]
      exact Hc256.div_usize _ 4 (by decide)
    have hk : ∀ k, k < 8 → fromLeBytes (chunk key.toList 4 k) = .ok (leWord key.toList k) :=
      fun k hk => by rw [chunk_word key k (by omega), wordAt_eq_leWord]
    have hi : ∀ k, 4 * k + 3 < iv.length → fromLeBytes (chunk iv 4 k) = .ok (leWord iv k) := by
      intro k hk
      rw [chunk, list_take4_drop iv k hk, fromLe4, le32_list_eq_leWord iv k hk]
    rw [ha, ok_bind, state_words_eq, ok_bind, hsz 0, ok_bind]
    dsimp only
    rw [show splitAt (List.replicate 16 (0 : U32)) (4 : Usize tgt) = .ok ((Vector.replicate 4 (0 : U32)).toList, List.replicate 12 0) from rfl, ok_bind]
    dsimp only
    rw [show splitAt (List.replicate 12 (0 : U32)) (8 : Usize tgt) = .ok ((Vector.replicate 8 (0 : U32)).toList, List.replicate 4 0) from rfl, ok_bind]
    dsimp only
    rw [constants_eq]
    cases v with
    | ietf =>
      rw [show splitAt (List.replicate 4 (0 : U32)) (⟨Verif.ChaCha.Variant.ctrBytes .ietf / 4⟩ : Usize tgt) =
        .ok ([0], (Vector.replicate 3 (0 : U32)).toList) from rfl, ok_bind, ok_bind, Hc256.copy_vec, ok_bind]
      dsimp only
      rw [show min (key.toList.length / 4) (Vector.replicate 8 (0 : U32)).toList.length = 8 by rw [Vector.length_toList, Vector.length_toList]; rfl,
        load_dst _ key.toList (leWord key.toList) 8 (Nat.le_refl _) hk, ok_bind]
      have hv : (sizeOfVal tgt (Vector.replicate 3 (0 : U32)).toList == sizeOfVal tgt iv) = decide (12 = iv.length) := by
        refine (Rabbit.usize_beq _ _).trans ?_
        rw [Vector.length_toList]
        show decide (4 * 3 = 1 * iv.length) = _
        rw [Nat.one_mul]
      rw [hv]
      by_cases h12 : iv.length = 12
      · rw [Verif.ChaCha.newInternal_ietf key iv h12, assert, if_pos (decide_eq_true h12.symm), ok_bind,
          show min (iv.length / 4) (Vector.replicate 3 (0 : U32)).toList.length = 3 by rw [h12, Vector.length_toList]; rfl,
          load_dst _ iv (leWord iv) 3 (Nat.le_refl _) fun k hk => hi k (by omega), ok_bind]
        rfl
      · rw [assert, if_neg (by simpa using fun h : 12 = iv.length => h12 h.symm)]
        rw [Verif.ChaCha.newInternal, if_neg (by omega), dif_neg (by simp only [Verif.ChaCha.Variant.ctrBytes]; omega)]
        rfl
    | legacy =>
      rw [show splitAt (List.replicate 4 (0 : U32)) (⟨Verif.ChaCha.Variant.ctrBytes .legacy / 4⟩ : Usize tgt) =
        .ok ([0, 0], (Vector.replicate 2 (0 : U32)).toList) from rfl, ok_bind, ok_bind, Hc256.copy_vec, ok_bind]
      dsimp only
      rw [show min (key.toList.length / 4) (Vector.replicate 8 (0 : U32)).toList.length = 8 by rw [Vector.length_toList, Vector.length_toList]; rfl,
        load_dst _ key.toList (leWord key.toList) 8 (Nat.le_refl _) hk, ok_bind]
      have hv : (sizeOfVal tgt (Vector.replicate 2 (0 : U32)).toList == sizeOfVal tgt iv) = decide (8 = iv.length) := by
        refine (Rabbit.usize_beq _ _).trans ?_
        rw [Vector.length_toList]
        show decide (4 * 2 = 1 * iv.length) = _
        rw [Nat.one_mul]
      rw [hv]
      by_cases h8 : iv.length = 8
      · rw [Verif.ChaCha.newInternal_legacy key iv h8, assert, if_pos (decide_eq_true h8.symm), ok_bind,
          show min (iv.length / 4) (Vector.replicate 2 (0 : U32)).toList.length = 2 by rw [h8, Vector.length_toList]; rfl,
          load_dst _ iv (leWord iv) 2 (Nat.le_refl _) fun k hk => hi k (by omega), ok_bind]
        rfl
      · rw [assert, if_neg (by simpa using fun h : 8 = iv.length => h8 h.symm)]
        rw [Verif.ChaCha.newInternal, if_neg (by omega), dif_neg (by simp only [Verif.ChaCha.Variant.ctrBytes]; omega)]
        rfl
  · have ha : assert (decide (iv.length = 4) || decide (iv.length = 8) || decide (iv.length = 12)) = .error .assertion := by
      rw [assert, if_neg]
      simpa only [Bool.or_eq_true, decide_eq_true_eq, or_assoc] using h4
    rw [ha, Verif.ChaCha.newInternal, if_pos h4]
    rfl

theorem new_eq (key : Vector U8 32) (iv : Vector U8 12) :
    ChaChaCore.new tgt key.toList iv.toList = .ok (repr R Ietf (Verif.ChaCha.ietfState key iv)) := by
  have h := Verif.ChaCha.newIetf_eq key iv
  rw [Verif.ChaCha.newIetf] at h
  rw [ChaChaCore.new, new_internal_eq is_ietf, h]
  rfl

theorem newLegacy_eq (key : Vector U8 32) (iv : Vector U8 8) :
    ChaCha20LegacyCore.new tgt key.toList iv.toList = .ok (repr R20 Legacy (Verif.ChaCha.legacyState key iv)) := by
  have h := Verif.ChaCha.newLegacy_eq key iv
  rw [Verif.ChaCha.newLegacy] at h
  rw [ChaCha20LegacyCore.new, new_internal_eq is_legacy, h]
  rfl

/-! ### HChaCha and XChaCha -/

/-- The output of `hchacha` from the state after the rounds. -/
def outOf (s : Verif.ChaCha.State) : Vector U8 32 := leBytes (k := 8) #v[s[0], s[1], s[2], s[3], s[12], s[13], s[14], s[15]]

theorem hchacha_def (dr : Nat) (key : Vector U8 32) (inp : Vector U8 16) :
    Verif.ChaCha.hchacha dr key inp = outOf (iter dr Verif.ChaCha.doubleRound (Verif.ChaCha.hchachaState key inp)) := rfl

theorem leBytes_append {a b : Nat} (v : Vector U32 a) (w : Vector U32 b) : (leBytes (v ++ w)).toList = (leBytes v).toList ++ (leBytes w).toList := by
  apply List.ext_getElem
  · simp; omega
  · intro i h1 h2
    rw [Vector.length_toList] at h1
    by_cases hi : i < 4 * a
    · rw [List.getElem_append_left (by rw [Vector.length_toList]; exact hi)]
      simp only [Vector.getElem_toList, leBytes, Vector.getElem_ofFn]
      rw [Vector.getElem_append_left (by omega)]
    · rw [List.getElem_append_right (by rw [Vector.length_toList]; omega)]
      simp only [Vector.getElem_toList, leBytes, Vector.getElem_ofFn, Vector.length_toList]
      rw [Vector.getElem_append_right (by omega) (by omega)]
      simp only [show (i - 4 * a) / 4 = i / 4 - a by omega, show (i - 4 * a) % 4 = i % 4 by omega]

theorem out_text (s : Verif.ChaCha.State) :
    (do
      let r25 ← slice s.toList (0 : Usize tgt) 4
      let r26 ← slice (List.replicate 32 (0 : U8)) (0 : Usize tgt) 16
      let o1 ← forIn (List.range (min (r26.length / 4) r25.length)) (List.replicate 32 (0 : U8)) fun (r : Nat) (out : List U8) => do
        let r28 ← slice out (0 : Usize tgt) 16
        let r29 ← nth r25 r
        let r30 ← copyFromSlice (chunk r28 4 r) (toLeBytes r29)
        let r31 ← slice out (0 : Usize tgt) 16
        pure (ForInStep.yield (putSlice out (0 : Usize tgt) 16 (putChunk r31 4 r r30)))
      let r32 ← slice s.toList (12 : Usize tgt) (len tgt s.toList)
      let r33 ← slice o1 (16 : Usize tgt) (len tgt o1)
      let o2 ← forIn (List.range (min (r33.length / 4) r32.length)) o1 fun (r : Nat) (out : List U8) => do
        let r28 ← slice out (16 : Usize tgt) (len tgt out)
        let r29 ← nth r32 r
        let r30 ← copyFromSlice (chunk r28 4 r) (toLeBytes r29)
        let r31 ← slice out (16 : Usize tgt) (len tgt out)
        pure (ForInStep.yield (putSlice out (16 : Usize tgt) (len tgt out) (putChunk r31 4 r r30)))
      pure o2) = .ok (outOf s).toList := by
  have h0 : slice s.toList (0 : Usize tgt) 4 = .ok (#v[s[0], s[1], s[2], s[3]] : Vector U32 4).toList := by rw [toList16 s]; rfl
  rw [h0, ok_bind, slice_ok (List.replicate 32 (0 : U8)) (0 : Usize tgt) 16 (show 0 ≤ 16 by decide) (show 16 ≤ 32 by decide), ok_bind, tail_slice]
  have ho : outOf s = leBytes ((#v[s[0], s[1], s[2], s[3]] : Vector U32 4) ++ (#v[s[12], s[13], s[14], s[15]] : Vector U32 4)) := rfl
  rw [ho, leBytes_append]
  generalize (#v[s[0], s[1], s[2], s[3]] : Vector U32 4) = v
  generalize (#v[s[12], s[13], s[14], s[15]] : Vector U32 4) = w
  rw [show min ((((List.replicate 32 (0 : U8)).drop (Usize.val (0 : Usize tgt))).take (Usize.val (16 : Usize tgt) - Usize.val (0 : Usize tgt))).length / 4)
    v.toList.length = 4 by
      rw [Vector.length_toList, List.length_take, List.length_drop, List.length_replicate]
      show min (min (16 - 0) (32 - 0) / 4) 4 = 4
      decide]
  rw [out_slice v (List.replicate 32 (0 : U8)) (0 : Usize tgt) 16 (fun _ => 16) (show 0 ≤ 16 by decide) (show 16 ≤ 32 by decide) rfl (fun _ _ => rfl), ok_bind, ok_bind]
  have h1 : putSlice (List.replicate 32 (0 : U8)) (0 : Usize tgt) 16 (leBytes v).toList = (leBytes v).toList ++ List.replicate 16 0 := rfl
  rw [h1]
  generalize hx : (leBytes v).toList = x
  have hxl : x.length = 16 := by rw [← hx, Vector.length_toList]
  have hol : (x ++ List.replicate 16 (0 : U8)).length = 32 := by rw [List.length_append, hxl, List.length_replicate]
  generalize ho1 : x ++ List.replicate 16 (0 : U8) = o1 at hol
  rw [slice_ok o1 (16 : Usize tgt) (len tgt o1) (show 16 ≤ o1.length by omega) (Nat.le_refl _), ok_bind]
  rw [show min (((o1.drop (Usize.val (16 : Usize tgt))).take (Usize.val (len tgt o1) - Usize.val (16 : Usize tgt))).length / 4) w.toList.length = 4 by
    rw [Vector.length_toList, List.length_take, List.length_drop, len, hol]
    show min (min (32 - 16) (32 - 16) / 4) 4 = 4
    decide]
  rw [out_slice w o1 (16 : Usize tgt) (len tgt o1) (len tgt) (show 16 ≤ o1.length by omega) (Nat.le_refl _)
    (show o1.length - 16 = 4 * 4 by omega) (fun y hy => congrArg Usize.mk hy)]
  rw [putSlice, ← ho1, List.take_left' (show x.length = Usize.val (16 : Usize tgt) from hxl), len, List.drop_length, List.append_nil]

theorem hchacha_text_eq (key : Vector U8 32) (inp : Vector U8 16) :
    hchacha (R := R) tgt key.toList inp.toList = .ok (Verif.ChaCha.hchacha (Rounds.count R) key inp).toList := by
  have hs : ∀ (v : Vector U32 16) (a b : Nat), a ≤ b → b ≤ 16 → slice v.toList (OfNat.ofNat a : Usize tgt) (OfNat.ofNat b : Usize tgt) = .ok ((v.toList.drop a).take (b - a)) :=
    fun v a b h hb => slice_ok v.toList _ _ h (show b ≤ _ by rw [Vector.length_toList]; exact hb)
  rw [hchacha, state_words_eq, ok_bind, constants_eq]
  dsimp only
  rw [ok_bind, show slice (List.replicate 16 (0 : U32)) (0 : Usize tgt) 4 = .ok (Vector.replicate 4 (0 : U32)).toList from rfl, ok_bind, Hc256.copy_vec, ok_bind]
  rw [show putSlice (List.replicate 16 (0 : U32)) (0 : Usize tgt) 4 Verif.ChaCha.constants.toList =
    (#v[0x61707865#32, 0x3320646e#32, 0x79622d32#32, 0x6b206574#32, 0, 0, 0, 0, 0, 0, 0, 0, 0, 0, 0, 0] : Vector U32 16).toList from rfl]
  rw [hs _ 4 12 (by decide) (by decide), ok_bind]
  rw [show ∀ v : Vector U32 16, min ((v.toList.drop 4).take (12 - 4)).length (key.toList.length / 4) = 8 by intro v; simp]
  rw [load_slice _ key.toList (fun k => leWord key.toList k) (fun l => fromLeBytes l.f0) 4 12 8 (show 4 + 8 ≤ 12 by decide) (show 12 ≤ 16 by decide)
    (fun k hk => by show fromLeBytes (chunk key.toList 4 k) = _; rw [chunk_word key k (by omega), wordAt_eq_leWord]), ok_bind, hs _ 12 16 (by decide) (by decide), ok_bind]
  rw [show ∀ v : Vector U32 16, min ((v.toList.drop 12).take (16 - 12)).length (inp.toList.length / 4) = 4 by intro v; simp]
  rw [load_slice _ inp.toList (fun k => leWord inp.toList k) (fun l => fromLeBytes l.f0) 12 16 4 (show 12 + 4 ≤ 16 by decide) (show 16 ≤ 16 by decide)
    (fun k hk => by show fromLeBytes (chunk inp.toList 4 k) = _; rw [chunk_word inp k (by omega), wordAt_eq_leWord]), ok_bind]
  rw [show Usize.val (Rounds.COUNT R tgt) - Usize.val (0 : Usize tgt) = Rounds.count R from rfl, rounds_text, ok_bind]
  generalize hst : setRange _ (Usize.val (12 : Usize tgt)) _ 4 = st
  have hst' : st = Verif.ChaCha.hchachaState key inp := by
    subst hst
    rw [Verif.ChaCha.hchachaState_eq]
    rfl
  rw [hchacha_def, ← hst']
  simp only [bind_pure]
  exact out_text _

theorem newX_eq (key : Vector U8 32) (iv : Vector U8 24) :
    XChaChaCore.new tgt key.toList iv.toList = (Verif.ChaCha.newX (Rounds.count R) key iv).map fun s => (⟨repr R Ietf s⟩ : XChaChaCore R) := by
  have h0 : (iv.toList.drop 0).take 16 = (Vector.ofFn fun i : Fin 16 => iv[i.val] : Vector U8 16).toList := by
    apply List.ext_getElem
    · simp
    · intro i h1 h2; simp
  rw [XChaChaCore.new, slice_ok iv.toList (0 : Usize tgt) 16 (show 0 ≤ 16 by decide) (show 16 ≤ _ by rw [Vector.length_toList]; decide), ok_bind,
    show (iv.toList.drop (Usize.val (0 : Usize tgt))).take (Usize.val (16 : Usize tgt) - Usize.val (0 : Usize tgt)) = (iv.toList.drop 0).take 16 from rfl, h0]
  show (hchacha tgt _ _ >>= _) = _
  rw [hchacha_text_eq, ok_bind]
  dsimp only
  rw [slice_ok iv.toList (16 : Usize tgt) (len tgt iv.toList) (show 16 ≤ iv.toList.length by rw [Vector.length_toList]; decide) (Nat.le_refl _), ok_bind,
    show (iv.toList.drop (Usize.val (16 : Usize tgt))).take (Usize.val (len tgt iv.toList) - Usize.val (16 : Usize tgt)) = iv.toList.drop 16 by
      rw [len, Vector.length_toList, List.take_of_length_le (by rw [List.length_drop, Vector.length_toList]; exact Nat.le_refl _)]; rfl]
  rw [show slice (List.replicate (Usize.val (12 : Usize tgt)) (0 : U8)) (4 : Usize tgt) (len tgt (List.replicate (Usize.val (12 : Usize tgt)) (0 : U8))) =
    .ok (List.replicate 8 0) from rfl, ok_bind, copyFromSlice, if_pos (by rw [List.length_replicate, List.length_drop, Vector.length_toList]), ok_bind]
  rw [show ∀ x : List U8, putSlice (List.replicate (Usize.val (12 : Usize tgt)) (0 : U8)) (4 : Usize tgt) (len tgt (List.replicate (Usize.val (12 : Usize tgt)) (0 : U8))) x =
    List.replicate 4 0#8 ++ x by intro x; rw [putSlice]; exact List.append_nil _]
  rw [new_internal_eq is_ietf, Verif.ChaCha.newX]
  generalize Verif.ChaCha.newInternal _ _ _ = r
  cases r <;> rfl

end Verif.Rust.ChaCha
