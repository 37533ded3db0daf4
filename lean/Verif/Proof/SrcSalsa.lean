import Verif.Rust.Src.Salsa
import Verif.Proof.SrcBytes
import Verif.Proof.SrcHc256
import Verif.Proof.SalsaStream
/-!
# The text of `salsa20` computes the model
-/
namespace Verif.Rust

/-- The loops that load words into the state: `for (i, chunk) in bytes.chunks(4).enumerate() { state[p + i] = u32::from_le_bytes(chunk.try_into().unwrap()); }`. -/
theorem load_words {tgt : Target} (ht : 16 ≤ tgt.bits) {n : Nat} (hn : n < 65536) (st : Vector U32 n) (l : List U8) (w : Nat → U32) (p : Usize tgt) (m : Nat)
    (hp : p.val + m ≤ n) (hw : ∀ k, k < m → fromLeBytes (chunk l 4 k) = .ok (w k)) :
    (forIn (List.range m) st.toList fun (r : Nat) (s : List U32) => do
      let r6 ← Unwrap.unwrap (TryInto.tryInto (β := List U8) (chunk l 4 r))
      let r7 ← fromLeBytes r6
      let r8 ← add tgt p ⟨r⟩
      let r9 ← upd s r8 r7
      pure (ForInStep.yield r9)) = .ok (setRange st p.val w m).toList := by
  refine forIn_range m (fun k => (setRange st p.val w k).toList) _ _ rfl ?_
  intro k hk
  show (fromLeBytes (chunk l 4 k) >>= _) = _
  rw [hw k hk, ok_bind, add_usize _ _ (pow_bits ht (show p.val + k < 65536 by omega)), ok_bind,
    upd_vec (setRange st p.val w k) ⟨p.val + k⟩ (show p.val + k < n by omega), ok_bind, setRange_succ _ _ _ _ (show p.val + k < n by omega)]
  rfl

theorem leWord_chunk {n : Nat} (v : Vector U8 n) (a m k : Nat) (h : 4 * k + 4 ≤ m) (hn : 4 * (a + k) + 3 < n) :
    fromLeBytes (chunk ((v.toList.drop (4 * a)).take m) 4 k) = .ok (Spec.leWord v.toList (a + k)) := by
  rw [chunk_word_drop v a m k h hn, wordAt_eq_leWord]

theorem slice_ok {α : Type} {tgt : Target} (l : List α) (a b : Usize tgt) (h : a.val ≤ b.val) (hb : b.val ≤ l.length) :
    slice l a b = .ok ((l.drop a.val).take (b.val - a.val)) := if_pos ⟨h, hb⟩

theorem putSlice_set {α : Type} {tgt : Target} {n : Nat} (v : Vector α n) (a b : Usize tgt) (k : Nat) (x : α) (h : a.val + k < b.val) (hb : b.val ≤ n) :
    putSlice v.toList a b (((v.toList.drop a.val).take (b.val - a.val)).set k x) = (v.set (a.val + k) x (by omega)).toList := by
  rw [putSlice, Vector.toList_set]
  apply List.ext_getElem
  · simp; omega
  · intro i h1 h2
    rw [List.length_set, Vector.length_toList] at h2
    rw [List.getElem_set]
    by_cases ha : i < a.val
    · rw [List.getElem_append_left (by simp; omega), List.getElem_append_left (by simp; omega), List.getElem_take, if_neg (by omega)]
    · by_cases hi : i < b.val
      · rw [List.getElem_append_left (by simp; omega), List.getElem_append_right (by simp; omega), List.getElem_set]
        have e : (v.toList.take a.val).length = a.val := by rw [List.length_take, Vector.length_toList]; omega
        by_cases hk : a.val + k = i
        · rw [if_pos (by rw [e]; omega), if_pos hk]
        · rw [if_neg (by rw [e]; omega), if_neg hk, List.getElem_take, List.getElem_drop]
          exact getElem_congr_idx (by rw [e]; omega)
      · rw [List.getElem_append_right (by simp; omega), List.getElem_drop, if_neg (by omega)]
        exact getElem_congr_idx (by simp; omega)

/-- The same loops over a part of the state: `state[a..b].iter_mut().zip(bytes.chunks_exact(4)).for_each(|(v, chunk)| *v = to_u32(chunk))`. -/
theorem load_slice {tgt : Target} {n : Nat} (st : Vector U32 n) (l : List U8) (w : Nat → U32) (toU32 : List U8 → Except Panic U32)
    (a b : Usize tgt) (m : Nat) (hm : a.val + m ≤ b.val) (hb : b.val ≤ n) (hw : ∀ k, k < m → toU32 (chunk l 4 k) = .ok (w k)) :
    (forIn (List.range m) st.toList fun (r : Nat) (s : List U32) => do
      let r6 ← slice s a b
      let _ ← nth r6 r
      let r8 ← toU32 (chunk l 4 r)
      let r9 ← slice s a b
      pure (ForInStep.yield (putSlice s a b (r9.set r r8)))) = .ok (setRange st a.val w m).toList := by
  refine forIn_range m (fun k => (setRange st a.val w k).toList) _ _ rfl ?_
  intro k hk
  have hl : ∀ v : Vector U32 n, b.val ≤ v.toList.length := fun v => by rw [Vector.length_toList]; exact hb
  rw [slice_ok _ a b (by omega) (hl _), ok_bind, nth_ok _ _ (by rw [List.length_take, List.length_drop, Vector.length_toList]; omega), ok_bind,
    hw k hk, ok_bind, ok_bind, putSlice_set _ a b k _ (by omega) hb, setRange_succ _ _ _ _ (by omega)]
  rfl

end Verif.Rust

namespace Verif.Rust.Salsa
open Spec

/-- A state of the model as a value of the Rust structure. -/
def repr (R : Type) [Unsigned R] (s : Verif.Salsa.State) : SalsaCore R := ⟨s.toList⟩

variable {tgt : Target} {R : Type} [Unsigned R]

theorem state_words_eq : STATE_WORDS tgt = .ok ⟨16⟩ := rfl

theorem constants_eq : CONSTANTS tgt = .ok Verif.Salsa.constants.toList := rfl

theorem quarter_round_eq (a b c d : Usize tgt) (ha : a.val < 16) (hb : b.val < 16) (hc : c.val < 16) (hd : d.val < 16) (s : Verif.Salsa.State) :
    quarter_round tgt a b c d s.toList = .ok ((), (Verif.Salsa.quarterRound ⟨a.val, ha⟩ ⟨b.val, hb⟩ ⟨c.val, hc⟩ ⟨d.val, hd⟩ s).toList) := by
  rw [quarter_round]
  dsimp only
  rw [idx_vec _ a ha, ok_bind, idx_vec _ d hd, ok_bind, idx_vec _ b hb, ok_bind, upd_vec _ b hb, ok_bind]
  generalize hs1 : s.set b.val _ hb = s1
  rw [idx_vec _ b hb, ok_bind, idx_vec _ a ha, ok_bind, idx_vec _ c hc, ok_bind, upd_vec _ c hc, ok_bind]
  generalize hs2 : s1.set c.val _ hc = s2
  rw [idx_vec _ c hc, ok_bind, idx_vec _ b hb, ok_bind, idx_vec _ d hd, ok_bind, upd_vec _ d hd, ok_bind]
  generalize hs3 : s2.set d.val _ hd = s3
  rw [idx_vec _ d hd, ok_bind, idx_vec _ c hc, ok_bind, idx_vec _ a ha, ok_bind, upd_vec _ a ha, ok_bind]
  generalize hs4 : s3.set a.val _ ha = s4
  subst hs1 hs2 hs3 hs4
  rfl

/-- The body of the round loop. -/
theorem double_round_text (s : Verif.Salsa.State) :
    (do
      let r1 ← quarter_round tgt 0 4 8 12 s.toList
      let r2 ← quarter_round tgt 5 9 13 1 r1.2
      let r3 ← quarter_round tgt 10 14 2 6 r2.2
      let r4 ← quarter_round tgt 15 3 7 11 r3.2
      let r5 ← quarter_round tgt 0 1 2 3 r4.2
      let r6 ← quarter_round tgt 5 6 7 4 r5.2
      let r7 ← quarter_round tgt 10 11 8 9 r6.2
      let r8 ← quarter_round tgt 15 12 13 14 r7.2
      pure (ForInStep.yield r8.2)) = .ok (.yield (Verif.Salsa.doubleRound s).toList) := by
  have q0 : ∀ s, quarter_round tgt 0 4 8 12 (Vector.toList s) = .ok ((), (Verif.Salsa.quarterRound 0 4 8 12 s).toList) := fun s =>
    quarter_round_eq 0 4 8 12 (show 0 < 16 by decide) (show 4 < 16 by decide) (show 8 < 16 by decide) (show 12 < 16 by decide) s
  have q1 : ∀ s, quarter_round tgt 5 9 13 1 (Vector.toList s) = .ok ((), (Verif.Salsa.quarterRound 5 9 13 1 s).toList) := fun s =>
    quarter_round_eq 5 9 13 1 (show 5 < 16 by decide) (show 9 < 16 by decide) (show 13 < 16 by decide) (show 1 < 16 by decide) s
  have q2 : ∀ s, quarter_round tgt 10 14 2 6 (Vector.toList s) = .ok ((), (Verif.Salsa.quarterRound 10 14 2 6 s).toList) := fun s =>
    quarter_round_eq 10 14 2 6 (show 10 < 16 by decide) (show 14 < 16 by decide) (show 2 < 16 by decide) (show 6 < 16 by decide) s
  have q3 : ∀ s, quarter_round tgt 15 3 7 11 (Vector.toList s) = .ok ((), (Verif.Salsa.quarterRound 15 3 7 11 s).toList) := fun s =>
    quarter_round_eq 15 3 7 11 (show 15 < 16 by decide) (show 3 < 16 by decide) (show 7 < 16 by decide) (show 11 < 16 by decide) s
  have q4 : ∀ s, quarter_round tgt 0 1 2 3 (Vector.toList s) = .ok ((), (Verif.Salsa.quarterRound 0 1 2 3 s).toList) := fun s =>
    quarter_round_eq 0 1 2 3 (show 0 < 16 by decide) (show 1 < 16 by decide) (show 2 < 16 by decide) (show 3 < 16 by decide) s
  have q5 : ∀ s, quarter_round tgt 5 6 7 4 (Vector.toList s) = .ok ((), (Verif.Salsa.quarterRound 5 6 7 4 s).toList) := fun s =>
    quarter_round_eq 5 6 7 4 (show 5 < 16 by decide) (show 6 < 16 by decide) (show 7 < 16 by decide) (show 4 < 16 by decide) s
  have q6 : ∀ s, quarter_round tgt 10 11 8 9 (Vector.toList s) = .ok ((), (Verif.Salsa.quarterRound 10 11 8 9 s).toList) := fun s =>
    quarter_round_eq 10 11 8 9 (show 10 < 16 by decide) (show 11 < 16 by decide) (show 8 < 16 by decide) (show 9 < 16 by decide) s
  have q7 : ∀ s, quarter_round tgt 15 12 13 14 (Vector.toList s) = .ok ((), (Verif.Salsa.quarterRound 15 12 13 14 s).toList) := fun s =>
    quarter_round_eq 15 12 13 14 (show 15 < 16 by decide) (show 12 < 16 by decide) (show 13 < 16 by decide) (show 14 < 16 by decide) s
  rw [Verif.Salsa.doubleRound]
  generalize Verif.Salsa.quarterRound = Q at *
  rw [q0, ok_bind, q1, ok_bind, q2, ok_bind, q3, ok_bind, q4, ok_bind, q5, ok_bind, q6, ok_bind, q7, ok_bind]
  rfl

theorem iter_succ_out {α : Type} (f : α → α) (n : Nat) : ∀ x, iter (n + 1) f x = f (iter n f x) := by
  induction n with
  | zero => intro x; rfl
  | succ n ih => intro x; exact ih (f x)

theorem rounds_text (n : Nat) (s : Verif.Salsa.State) :
    (forIn (List.range n) s.toList fun (_ : Nat) (st : List U32) => do
      let r1 ← quarter_round tgt 0 4 8 12 st
      let r2 ← quarter_round tgt 5 9 13 1 r1.2
      let r3 ← quarter_round tgt 10 14 2 6 r2.2
      let r4 ← quarter_round tgt 15 3 7 11 r3.2
      let r5 ← quarter_round tgt 0 1 2 3 r4.2
      let r6 ← quarter_round tgt 5 6 7 4 r5.2
      let r7 ← quarter_round tgt 10 11 8 9 r6.2
      let r8 ← quarter_round tgt 15 12 13 14 r7.2
      pure (ForInStep.yield r8.2)) = .ok (iter n Verif.Salsa.doubleRound s).toList := by
  refine forIn_range n (fun k => (iter k Verif.Salsa.doubleRound s).toList) _ _ rfl ?_
  intro k hk
  rw [double_round_text, iter_succ_out]

theorem run_rounds_eq (s : Verif.Salsa.State) : run_rounds (R := R) tgt s.toList = .ok (Verif.Salsa.runRounds (Unsigned.value R) s).toList := by
  rw [run_rounds]
  dsimp only
  rw [show Usize.val (Unsigned.USIZE R tgt) - Usize.val (0 : Usize tgt) = Unsigned.value R from rfl, rounds_text, ok_bind]
  rw [Verif.Salsa.runRounds]
  generalize iter (Unsigned.value R) Verif.Salsa.doubleRound s = res
  have hl : min res.toList.length s.toList.length = 16 := by simp only [Vector.length_toList]; rfl
  rw [hl, forIn_range 16 (fun k => (fill (Vector.zipWith (· + ·) res s) res k).toList) _ _ (by rw [fill_zero]), ok_bind]
  · rw [fill_all]; rfl
  · intro k hk
    rw [nth_vec _ _ hk, ok_bind, nth_vec _ _ hk, ok_bind, toList_set _ _ hk, ← fill_succ _ _ _ hk, fill_get _ _ _ _ hk (Nat.le_refl _),
      Vector.getElem_zipWith]
    rfl

theorem get_block_pos_eq (s : Verif.Salsa.State) : SalsaCore.get_block_pos tgt (repr R s) = .ok (Verif.Salsa.getBlockPos s) := by
  rw [SalsaCore.get_block_pos, repr]
  dsimp only
  rw [idx_vec s (8 : Usize tgt) (show 8 < 16 by decide), ok_bind, idx_vec s (9 : Usize tgt) (show 9 < 16 by decide), ok_bind,
    shl_ok _ 32 (by decide), ok_bind, cast_bv, cast_bv]
  exact if_pos (Verif.Salsa.getBlockPos_no_overflow s)

theorem set_block_pos_eq (s : Verif.Salsa.State) (p : U64) :
    SalsaCore.set_block_pos tgt (repr R s) p = .ok ((), repr R (Verif.Salsa.setBlockPos s p)) := by
  rw [SalsaCore.set_block_pos, repr]
  dsimp only
  rw [upd_vec s (8 : Usize tgt) (show 8 < 16 by decide), ok_bind, shr_ok _ 32 (by decide), ok_bind,
    upd_vec _ (9 : Usize tgt) (show 9 < 16 by decide), ok_bind, cast_bv, cast_bv]
  rfl

theorem remaining_blocks_eq (s : Verif.Salsa.State) :
    SalsaCore.remaining_blocks tgt (repr R s) = .ok ((Verif.Salsa.remainingBlocks tgt.bits s).map Usize.mk) := by
  rw [SalsaCore.remaining_blocks, get_block_pos_eq, ok_bind, Verif.Salsa.remainingBlocks]
  generalize Verif.Salsa.getBlockPos s = p
  have hm : maxValue U64 = BitVec.allOnes 64 := by decide +kernel
  have hs : sub tgt (maxValue U64) p = .ok (BitVec.allOnes 64 - p) := by
    rw [hm]
    exact if_pos (show p.toNat ≤ (BitVec.allOnes 64).toNat by rw [BitVec.toNat_allOnes]; have := p.isLt; omega)
  rw [hs, ok_bind, pure_eq]
  refine congrArg _ ?_
  generalize BitVec.allOnes 64 - p = r
  show (if r.toNat < 2 ^ tgt.bits then some (⟨r.toNat % 2 ^ tgt.bits⟩ : Usize tgt) else none) = _
  by_cases h : r.toNat < 2 ^ tgt.bits
  · rw [if_pos h, if_pos h, Nat.mod_eq_of_lt h]; rfl
  · rw [if_neg h, if_neg h]; rfl

theorem incr_eq (p : U64) : add tgt p 1 = Verif.Salsa.incr tgt.mode p := by
  have h : RInt.toNat p + RInt.toNat (1 : U64) < 2 ^ RInt.width U64 ↔ p ≠ BitVec.allOnes 64 := by
    show p.toNat + 1 < 2 ^ 64 ↔ _
    rw [Ne, ← BitVec.toNat_inj, BitVec.toNat_allOnes]
    have := p.isLt
    omega
  rw [add, Verif.Salsa.incr.eq_def]
  by_cases hp : p = BitVec.allOnes 64
  · rw [if_neg (fun hc => h.mp hc hp), if_pos hp, hp, overflowed]
    cases tgt.mode <;> rfl
  · rw [if_pos (h.mpr hp), if_neg hp]; rfl

/-- `gen_ks_block` of the text, on any block. -/
theorem gen_ks_block_eq (s : Verif.Salsa.State) (block : List U8) (hb : block.length = 64) :
    Backend.gen_ks_block tgt ⟨repr R s⟩ block =
      (Verif.Salsa.genBlock tgt.mode (Unsigned.value R) s).map fun r => ((), ⟨repr R r.2⟩, r.1.toList) := by
  rw [Backend.gen_ks_block]
  dsimp only
  rw [show SalsaCore.state (repr R s) = s.toList from rfl, run_rounds_eq, ok_bind, get_block_pos_eq, ok_bind, incr_eq, Verif.Salsa.genBlock]
  dsimp only
  generalize Verif.Salsa.runRounds (Unsigned.value R) s = res
  cases Verif.Salsa.incr tgt.mode (Verif.Salsa.getBlockPos s) with
  | error p => rfl
  | ok p =>
    rw [ok_bind, set_block_pos_eq, ok_bind, ok_bind]
    have hl : min (block.length / 4) res.toList.length = 16 := by rw [hb, Vector.length_toList]; rfl
    rw [hl, forIn_range 16 (wrote res block) _ block rfl, ok_bind, wrote_all res block hb]
    · rfl
    · intro k hk
      rw [nth_vec _ _ hk, ok_bind]
      have h := wrote_succ res block hb k hk
      rw [h.1, ok_bind, h.2]
      rfl

theorem new_eq (ht : 16 ≤ tgt.bits) (key : Vector U8 32) (iv : Vector U8 8) :
    SalsaCore.new tgt key.toList iv.toList = .ok (repr R (Verif.Salsa.new key iv)) := by
  have hc : ∀ i (h : i < 4), idx Verif.Salsa.constants.toList (OfNat.ofNat i : Usize tgt) = .ok Verif.Salsa.constants[i] := fun i h => idx_vec _ _ h
  have hu : ∀ (v : Vector U32 16) i (h : i < 16) x, upd v.toList (OfNat.ofNat i : Usize tgt) x = .ok (v.set i x).toList := fun v i h x => upd_vec v _ h x
  rw [SalsaCore.new, state_words_eq, ok_bind, constants_eq]
  dsimp only
  rw [ok_bind, hc 0 (by decide), ok_bind, show List.replicate 16 (0 : U32) = (Vector.replicate 16 (0 : U32)).toList from rfl, hu _ 0 (by decide), ok_bind,
    slice_ok key.toList (0 : Usize tgt) 16 (show 0 ≤ 16 by decide) (show 16 ≤ _ by rw [Vector.length_toList]; decide), ok_bind]
  rw [show (key.toList.drop (Usize.val (0 : Usize tgt))).take (Usize.val (16 : Usize tgt) - Usize.val (0 : Usize tgt)) =
    (key.toList.drop (4 * 0)).take 16 from rfl]
  rw [show (((key.toList.drop (4 * 0)).take 16).length + 4 - 1) / 4 = 4 by simp]
  rw [load_words ht (by decide) _ _ (fun k => leWord key.toList (0 + k)) 1 4 (show 1 + 4 ≤ 16 by decide)
    (fun k hk => leWord_chunk key 0 16 k (by omega) (by omega)), ok_bind, ok_bind, hc 1 (by decide), ok_bind, hu _ 5 (by decide), ok_bind]
  rw [show (iv.toList.length + 4 - 1) / 4 = 2 by simp]
  rw [load_words ht (by decide) _ iv.toList (fun k => leWord iv.toList k) 6 2 (show 6 + 2 ≤ 16 by decide)
    (fun k hk => by rw [chunk_word iv k (by omega), wordAt_eq_leWord]), ok_bind, hu _ 8 (by decide), ok_bind, hu _ 9 (by decide), ok_bind, ok_bind,
    hc 2 (by decide), ok_bind, hu _ 10 (by decide), ok_bind]
  rw [slice_ok key.toList (16 : Usize tgt) (len tgt key.toList) (show 16 ≤ key.toList.length by rw [Vector.length_toList]; decide) (Nat.le_refl _), ok_bind]
  rw [show (key.toList.drop (Usize.val (16 : Usize tgt))).take (Usize.val (len tgt key.toList) - Usize.val (16 : Usize tgt)) =
    (key.toList.drop (4 * 4)).take 16 by rw [len, Vector.length_toList]; rfl]
  rw [show (((key.toList.drop (4 * 4)).take 16).length + 4 - 1) / 4 = 4 by simp]
  rw [load_words ht (by decide) _ _ (fun k => leWord key.toList (4 + k)) 11 4 (show 11 + 4 ≤ 16 by decide)
    (fun k hk => leWord_chunk key 4 16 k (by omega) (by omega)), ok_bind, ok_bind, hc 3 (by decide), ok_bind, hu _ 15 (by decide), ok_bind]
  rw [Verif.Salsa.new_eq, repr, pure_eq]
  refine congrArg (fun v : Vector U32 16 => Except.ok (SalsaCore.mk v.toList)) ?_
  rfl

theorem to_u32_eq (l : List U8) : to_u32 tgt l = fromLeBytes l := rfl

/-- The output loop of `hsalsa`. -/
def outOf (s : Verif.Salsa.State) : Vector U8 32 := leBytes (k := 8) #v[s[0], s[5], s[10], s[15], s[6], s[7], s[8], s[9]]

theorem hsalsa_def (dr : Nat) (key : Vector U8 32) (inp : Vector U8 16) :
    Verif.Salsa.hsalsa dr key inp = outOf (iter dr Verif.Salsa.doubleRound (Verif.Salsa.hsalsaState key inp)) := rfl

theorem out_text (s : Verif.Salsa.State) (o : List U8) (ho : o.length = 4 * 8) :
    (forIn (List.range (o.length / 4)) o fun (r : Nat) (out : List U8) => do
      let r42 ← idx ([0, 5, 10, 15, 6, 7, 8, 9] : List (Usize tgt)) (⟨r⟩ : Usize tgt)
      let r43 ← idx s.toList r42
      let r44 ← copyFromSlice (chunk out 4 r) (toLeBytes r43)
      pure (ForInStep.yield (putChunk out 4 r r44))) = .ok (outOf s).toList := by
  rw [ho, show 4 * 8 / 4 = 8 from rfl, outOf]
  generalize hw : (#v[s[0], s[5], s[10], s[15], s[6], s[7], s[8], s[9]] : Vector U32 8) = w
  rw [forIn_range 8 (wrote w o) _ o rfl, wrote_all w o ho]
  intro k hk
  have hi : ∃ j : Usize tgt, idx [0, 5, 10, 15, 6, 7, 8, 9] (⟨k⟩ : Usize tgt) = .ok j ∧ idx s.toList j = .ok w[k] := by
    subst hw
    rcases k with _ | _ | _ | _ | _ | _ | _ | _ | k
    · exact ⟨0, rfl, idx_vec _ _ (show 0 < 16 by decide)⟩
    · exact ⟨5, rfl, idx_vec _ _ (show 5 < 16 by decide)⟩
    · exact ⟨10, rfl, idx_vec _ _ (show 10 < 16 by decide)⟩
    · exact ⟨15, rfl, idx_vec _ _ (show 15 < 16 by decide)⟩
    · exact ⟨6, rfl, idx_vec _ _ (show 6 < 16 by decide)⟩
    · exact ⟨7, rfl, idx_vec _ _ (show 7 < 16 by decide)⟩
    · exact ⟨8, rfl, idx_vec _ _ (show 8 < 16 by decide)⟩
    · exact ⟨9, rfl, idx_vec _ _ (show 9 < 16 by decide)⟩
    · omega
  obtain ⟨j, h1, h2⟩ := hi
  have h := wrote_succ w o ho k hk
  rw [h1, ok_bind, h2, ok_bind, h.1, ok_bind, h.2]
  rfl

theorem hsalsa_eq (key : Vector U8 32) (inp : Vector U8 16) :
    hsalsa (R := R) tgt key.toList inp.toList = .ok (Verif.Salsa.hsalsa (Unsigned.value R) key inp).toList := by
  have hc : ∀ i (h : i < 4), idx Verif.Salsa.constants.toList (OfNat.ofNat i : Usize tgt) = .ok Verif.Salsa.constants[i] := fun i h => idx_vec _ _ h
  have hu : ∀ (v : Vector U32 16) i (h : i < 16) x, upd v.toList (OfNat.ofNat i : Usize tgt) x = .ok (v.set i x).toList := fun v i h x => upd_vec v _ h x
  have hs : ∀ (v : Vector U32 16) (a b : Nat), a ≤ b → b ≤ 16 → slice v.toList (OfNat.ofNat a : Usize tgt) (OfNat.ofNat b : Usize tgt) = .ok ((v.toList.drop a).take (b - a)) :=
    fun v a b h hb => slice_ok v.toList _ _ h (show b ≤ _ by rw [Vector.length_toList]; exact hb)
  rw [hsalsa, constants_eq]
  dsimp only
  rw [ok_bind, hc 0 (by decide), ok_bind, show List.replicate (Usize.val (16 : Usize tgt)) (0 : U32) = (Vector.replicate 16 (0 : U32)).toList from rfl,
    hu _ 0 (by decide), ok_bind,
    slice_ok key.toList (0 : Usize tgt) 16 (show 0 ≤ 16 by decide) (show 16 ≤ _ by rw [Vector.length_toList]; decide), ok_bind]
  rw [show (key.toList.drop (Usize.val (0 : Usize tgt))).take (Usize.val (16 : Usize tgt) - Usize.val (0 : Usize tgt)) =
    (key.toList.drop (4 * 0)).take 16 from rfl, hs _ 1 5 (by decide) (by decide), ok_bind]
  rw [show ∀ v : Vector U32 16, min ((v.toList.drop 1).take (5 - 1)).length (((key.toList.drop (4 * 0)).take 16).length / 4) = 4 by intro v; simp]
  rw [load_slice _ _ (fun k => leWord key.toList (0 + k)) (to_u32 tgt) 1 5 4 (show 1 + 4 ≤ 5 by decide) (show 5 ≤ 16 by decide)
    (fun k hk => leWord_chunk key 0 16 k (by omega) (by omega)), ok_bind, ok_bind, hc 1 (by decide), ok_bind, hu _ 5 (by decide), ok_bind,
    hs _ 6 10 (by decide) (by decide), ok_bind]
  rw [show ∀ v : Vector U32 16, min ((v.toList.drop 6).take (10 - 6)).length (inp.toList.length / 4) = 4 by intro v; simp]
  rw [load_slice _ inp.toList (fun k => leWord inp.toList k) (to_u32 tgt) 6 10 4 (show 6 + 4 ≤ 10 by decide) (show 10 ≤ 16 by decide)
    (fun k hk => by rw [to_u32_eq, chunk_word inp k (by omega), wordAt_eq_leWord]), ok_bind, ok_bind, hc 2 (by decide), ok_bind, hu _ 10 (by decide), ok_bind]
  rw [slice_ok key.toList (16 : Usize tgt) (len tgt key.toList) (show 16 ≤ key.toList.length by rw [Vector.length_toList]; decide) (Nat.le_refl _), ok_bind]
  rw [show (key.toList.drop (Usize.val (16 : Usize tgt))).take (Usize.val (len tgt key.toList) - Usize.val (16 : Usize tgt)) =
    (key.toList.drop (4 * 4)).take 16 by rw [len, Vector.length_toList]; rfl, hs _ 11 15 (by decide) (by decide), ok_bind]
  rw [show ∀ v : Vector U32 16, min ((v.toList.drop 11).take (15 - 11)).length (((key.toList.drop (4 * 4)).take 16).length / 4) = 4 by intro v; simp]
  rw [load_slice _ _ (fun k => leWord key.toList (4 + k)) (to_u32 tgt) 11 15 4 (show 11 + 4 ≤ 15 by decide) (show 15 ≤ 16 by decide)
    (fun k hk => leWord_chunk key 4 16 k (by omega) (by omega)), ok_bind, ok_bind, hc 3 (by decide), ok_bind, hu _ 15 (by decide), ok_bind]
  rw [show Usize.val (Unsigned.USIZE R tgt) - Usize.val (0 : Usize tgt) = Unsigned.value R from rfl, rounds_text, ok_bind]
  generalize hst : Vector.set _ 15 _ _ = st
  have hst' : st = Verif.Salsa.hsalsaState key inp := by
    subst hst
    rw [Verif.Salsa.hsalsaState_eq]
    rfl
  rw [hsalsa_def, ← hst', out_text _ _ rfl, ok_bind]
  rfl

theorem newX_eq (ht : 16 ≤ tgt.bits) (key : Vector U8 32) (iv : Vector U8 24) :
    XSalsaCore.new tgt key.toList iv.toList = .ok (⟨repr R (Verif.Salsa.newX (Unsigned.value R) key iv)⟩ : XSalsaCore R) := by
  have h0 : (iv.toList.drop 0).take 16 = (Vector.ofFn fun i : Fin 16 => iv[i.val] : Vector U8 16).toList := by
    apply List.ext_getElem
    · simp
    · intro i h1 h2; simp
  have h1 : (iv.toList.drop 16).take 8 = (Vector.ofFn fun i : Fin 8 => iv[16 + i.val] : Vector U8 8).toList := by
    apply List.ext_getElem
    · simp
    · intro i h1 h2; simp
  rw [XSalsaCore.new, slice_ok iv.toList (0 : Usize tgt) 16 (show 0 ≤ 16 by decide) (show 16 ≤ _ by rw [Vector.length_toList]; decide), ok_bind,
    show (iv.toList.drop (Usize.val (0 : Usize tgt))).take (Usize.val (16 : Usize tgt) - Usize.val (0 : Usize tgt)) = (iv.toList.drop 0).take 16 from rfl, h0]
  show (hsalsa tgt _ _ >>= _) = _
  rw [hsalsa_eq, ok_bind]
  dsimp only
  rw [slice_ok iv.toList (16 : Usize tgt) (len tgt iv.toList) (show 16 ≤ iv.toList.length by rw [Vector.length_toList]; decide) (Nat.le_refl _), ok_bind,
    show (iv.toList.drop (Usize.val (16 : Usize tgt))).take (Usize.val (len tgt iv.toList) - Usize.val (16 : Usize tgt)) = (iv.toList.drop 16).take 8 by
      rw [len, Vector.length_toList]; rfl, h1, copyFromSlice, if_pos (by rw [List.length_replicate, Vector.length_toList]), ok_bind, new_eq ht, ok_bind]
  rfl

theorem drop_eq (s : Verif.Salsa.State) : SalsaCore.drop tgt (repr R s) = .ok ((), ⟨List.replicate 16 0⟩) := by
  have hz : Zeroize.zeroize s.toList = List.replicate 16 (0 : U32) := by
    show s.toList.map (fun _ => (0 : U32)) = _
    rw [List.map_const', Vector.length_toList]
  rw [SalsaCore.drop, repr]
  dsimp only
  rw [hz]
  rfl

end Verif.Rust.Salsa
