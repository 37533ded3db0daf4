import Verif.Rust.Src.Hc256
import Verif.Proof.SrcRabbit
import Verif.Proof.Hc256
/-!
# The text of `hc-256` computes the model
-/
namespace Verif.Rust

theorem idx_get {tgt : Target} {n : Nat} (v : Vector U32 n) (i : Usize tgt) : idx v.toList i = Verif.Hc256.get v i.val := by
  by_cases h : i.val < n
  · rw [idx_vec v i h, Verif.Hc256.get, dif_pos h]
  · rw [idx, nth, dif_neg (by rw [Vector.length_toList]; exact h), Verif.Hc256.get, dif_neg h]

theorem upd_put {tgt : Target} {n : Nat} (v : Vector U32 n) (i : Usize tgt) (x : U32) :
    upd v.toList i x = (Verif.Hc256.put v i.val x).map Vector.toList := by
  by_cases h : i.val < n
  · rw [upd_vec v i h, Verif.Hc256.put, dif_pos h]; rfl
  · rw [upd, if_neg (by rw [Vector.length_toList]; exact h), Verif.Hc256.put, dif_neg h]; rfl

theorem sub_usize {tgt : Target} (a b : Usize tgt) (h : b.val ≤ a.val) (ha : a.val < 2 ^ tgt.bits) : sub tgt a b = .ok ⟨a.val - b.val⟩ := by
  have h1 : RInt.toNat b ≤ RInt.toNat a := h
  rw [sub, if_pos h1]
  show Except.ok (⟨(a.val + 2 ^ tgt.bits - b.val) % 2 ^ tgt.bits⟩ : Usize tgt) = _
  rw [show a.val + 2 ^ tgt.bits - b.val = (a.val - b.val) + 2 ^ tgt.bits by omega, Nat.add_mod_right, Nat.mod_eq_of_lt (by omega)]

end Verif.Rust

namespace Verif.Rust.Hc256
open Verif.Hc256 (get put forRange)

/-- A state of the model as a value of the Rust structure. -/
def repr (s : Verif.Hc256.State) : Hc256Core := ⟨s.ptable.toList, s.qtable.toList, s.idx⟩

variable {tgt : Target}

theorem table_size_eq : TABLE_SIZE tgt = .ok ⟨1024⟩ := rfl

theorem table_mask_eq (ht : 16 ≤ tgt.bits) : TABLE_MASK tgt = .ok ⟨1023⟩ := by
  rw [TABLE_MASK, table_size_eq, ok_bind]
  exact sub_usize _ _ (show 1 ≤ 1024 by decide) (pow_bits ht (show 1024 < 65536 by decide))

theorem init_size_eq : INIT_SIZE tgt = .ok ⟨2660⟩ := rfl

theorem div_usize (a b : Nat) (h : b ≠ 0) : div tgt (⟨a⟩ : Usize tgt) ⟨b⟩ = .ok ⟨a / b⟩ := if_neg h

theorem key_words_eq : KEY_WORDS tgt = .ok ⟨8⟩ := div_usize 256 32 (by decide)

theorem iv_words_eq : IV_WORDS tgt = .ok ⟨8⟩ := div_usize 256 32 (by decide)

theorem f1_eq (x : U32) : f1 tgt x = .ok (Verif.Hc256.f1 x) := rfl

theorem f2_eq (x : U32) : f2 tgt x = .ok (Verif.Hc256.f2 x) := rfl

theorem add32_eq (a b : U32) : add tgt a b = Verif.Hc256.add32 tgt.mode a b := rfl

theorem g1_eq (ht : 16 ≤ tgt.bits) (s : Verif.Hc256.State) (x y : U32) :
    Hc256Core.g1 tgt (repr s) x y = Verif.Hc256.g tgt.bits s.qtable x y := by
  rw [Hc256Core.g1, table_mask_eq ht, ok_bind, repr, idx_get]
  rfl

theorem g2_eq (ht : 16 ≤ tgt.bits) (s : Verif.Hc256.State) (x y : U32) :
    Hc256Core.g2 tgt (repr s) x y = Verif.Hc256.g tgt.bits s.ptable x y := by
  rw [Hc256Core.g2, table_mask_eq ht, ok_bind, repr, idx_get]
  rfl

theorem h1_eq (s : Verif.Hc256.State) (x : U32) : Hc256Core.h1 tgt (repr s) x = Verif.Hc256.h tgt.mode tgt.bits s.qtable x := by
  simp only [Hc256Core.h1, repr, idx_get, shr_ok _ 8 (show 8 < 32 by decide), shr_ok _ 16 (show 16 < 32 by decide),
    shr_ok _ 24 (show 24 < 32 by decide), ok_bind, add32_eq]
  rfl

theorem h2_eq (s : Verif.Hc256.State) (x : U32) : Hc256Core.h2 tgt (repr s) x = Verif.Hc256.h tgt.mode tgt.bits s.ptable x := by
  simp only [Hc256Core.h2, repr, idx_get, shr_ok _ 8 (show 8 < 32 by decide), shr_ok _ 16 (show 16 < 32 by decide),
    shr_ok _ 24 (show 24 < 32 by decide), ok_bind, add32_eq]
  rfl

theorem mask_lt (x : Nat) : x &&& 1023 < 1024 := Nat.lt_of_le_of_lt Nat.and_le_right (by decide)

/-- Either half of `gen_word`. -/
theorem half_text (t o : Vector U32 1024) (j : Nat) (hj : j < 1024) (G : U32 → U32 → Except Panic U32) (H : List U32 → U32 → Except Panic U32)
    (mk : List U32 → Hc256Core) (hG : ∀ x y, G x y = Verif.Hc256.g tgt.bits o x y)
    (hH : ∀ (v : Vector U32 1024) x, H v.toList x = Verif.Hc256.h tgt.mode tgt.bits o x) :
    (do
      let r3 ← idx t.toList (⟨j⟩ : Usize tgt)
      let r5 ← idx t.toList (⟨Verif.Hc256.back tgt.bits j 10⟩ : Usize tgt)
      let r7 ← idx t.toList (⟨Verif.Hc256.back tgt.bits j 3⟩ : Usize tgt)
      let r9 ← idx t.toList (⟨Verif.Hc256.back tgt.bits j 1023⟩ : Usize tgt)
      let r10 ← G r7 r9
      let r11 ← upd t.toList (⟨j⟩ : Usize tgt) (RInt.wadd (RInt.wadd r3 r5) r10)
      let r13 ← idx r11 (⟨Verif.Hc256.back tgt.bits j 12⟩ : Usize tgt)
      let r14 ← H r11 r13
      let r15 ← idx r11 (⟨j⟩ : Usize tgt)
      pure (RInt.bxor r14 r15, mk r11)) =
    (Verif.Hc256.half tgt.mode tgt.bits t o j).map fun r => (r.1, mk r.2.toList) := by
  have hb : ∀ n, Verif.Hc256.back tgt.bits j n < 1024 := fun n => mask_lt _
  have hi : ∀ (v : Vector U32 1024) (n : Nat) (h : n < 1024), idx v.toList (⟨n⟩ : Usize tgt) = .ok v[n] := fun v n h => idx_vec v ⟨n⟩ h
  have hu : ∀ (v : Vector U32 1024) (n : Nat) (h : n < 1024) (x : U32), upd v.toList (⟨n⟩ : Usize tgt) x = .ok (v.set n x).toList :=
    fun v n h x => upd_vec v ⟨n⟩ h x
  rw [hi _ _ hj, ok_bind, hi _ _ (hb 10), ok_bind, hi _ _ (hb 3), ok_bind, hi _ _ (hb 1023), ok_bind, hG, Verif.Hc256.half,
    Verif.Hc256.get_ok _ _ (hb 3), ok_bind, Verif.Hc256.get_ok _ _ (hb 1023), ok_bind]
  generalize Verif.Hc256.g tgt.bits o _ _ = gv
  cases gv with
  | error p => rfl
  | ok gv =>
    rw [ok_bind, ok_bind, Verif.Hc256.get_ok _ _ hj, ok_bind, Verif.Hc256.get_ok _ _ (hb 10), ok_bind, hu _ _ hj, ok_bind]
    dsimp only
    rw [Verif.Hc256.put_ok _ _ _ hj, ok_bind]
    rw [show RInt.wadd (RInt.wadd t[j] (t[Verif.Hc256.back tgt.bits j 10]'(hb 10))) gv = t[j] + (t[Verif.Hc256.back tgt.bits j 10]'(hb 10)) + gv from rfl]
    generalize t.set j _ hj = t'
    rw [hi _ _ (hb 12), ok_bind, hH, Verif.Hc256.get_ok _ _ (hb 12), ok_bind]
    generalize Verif.Hc256.h tgt.mode tgt.bits o _ = hv
    cases hv with
    | error p => rfl
    | ok hv =>
      rw [ok_bind, ok_bind, hi _ _ hj, Verif.Hc256.get_ok _ _ hj]
      rfl

theorem gen_word_eq (ht : 16 ≤ tgt.bits) (s : Verif.Hc256.State) :
    Hc256Core.gen_word tgt (repr s) = (Verif.Hc256.genWord tgt.mode tgt.bits s).map fun r => (r.1, repr r.2) := by
  have hb : ∀ (j : Nat) (n : Nat), RInt.band (RInt.wsub (⟨j⟩ : Usize tgt) (OfNat.ofNat n)) ⟨1023⟩ = ⟨Verif.Hc256.back tgt.bits j n⟩ := fun _ _ => rfl
  have hbl : ∀ j n, Verif.Hc256.back tgt.bits j n < 1024 := fun j n => mask_lt _
  have hj : RInt.band (cast (Usize tgt) s.idx) (⟨1023⟩ : Usize tgt) = ⟨Verif.Hc256.toUsize tgt.bits s.idx &&& 1023⟩ := rfl
  have hjl : Verif.Hc256.toUsize tgt.bits s.idx &&& 1023 < 1024 := mask_lt _
  have h2 : sub tgt (2048 : U32) 1 = .ok 2047#32 := rfl
  have hlt : lt (cast (Usize tgt) s.idx) 1024 = decide (Verif.Hc256.toUsize tgt.bits s.idx < 1024) := rfl
  rw [Hc256Core.gen_word, Verif.Hc256.genWord]
  simp only [table_mask_eq ht, ok_bind, add32_eq, h2]
  simp only [repr, hj, hb]
  cases Verif.Hc256.add32 tgt.mode s.idx 1 with
  | error p => rfl
  | ok i' =>
    simp only [ok_bind, hlt]
    generalize hjj : Verif.Hc256.toUsize tgt.bits s.idx &&& 1023 = j at hjl
    by_cases hc : Verif.Hc256.toUsize tgt.bits s.idx < 1024
    · rw [if_pos (decide_eq_true hc), if_pos hc]
      rw [half_text s.ptable s.qtable j hjl (Hc256Core.g1 tgt ⟨s.ptable.toList, s.qtable.toList, RInt.band i' 2047#32⟩)
        (fun p => Hc256Core.h1 tgt ⟨p, s.qtable.toList, RInt.band i' 2047#32⟩) (fun p => ⟨p, s.qtable.toList, RInt.band i' 2047#32⟩)
        (fun x y => g1_eq ht ⟨s.ptable, s.qtable, i' &&& 2047#32⟩ x y) (fun v x => h1_eq ⟨v, s.qtable, i' &&& 2047#32⟩ x)]
      cases Verif.Hc256.half tgt.mode tgt.bits s.ptable s.qtable j <;> rfl
    · rw [if_neg (by rw [decide_eq_false hc]; decide), if_neg hc]
      rw [half_text s.qtable s.ptable j hjl (Hc256Core.g2 tgt ⟨s.ptable.toList, s.qtable.toList, RInt.band i' 2047#32⟩)
        (fun q => Hc256Core.h2 tgt ⟨s.ptable.toList, q, RInt.band i' 2047#32⟩) (fun q => ⟨s.ptable.toList, q, RInt.band i' 2047#32⟩)
        (fun x y => g2_eq ht ⟨s.ptable, s.qtable, i' &&& 2047#32⟩ x y) (fun v x => h2_eq ⟨s.ptable, v, i' &&& 2047#32⟩ x)]
      cases Verif.Hc256.half tgt.mode tgt.bits s.qtable s.ptable j <;> rfl

theorem forRange_fold {σ : Type} (f : Nat → σ → Except Panic σ) (n : Nat) :
    ∀ a s, forRange f a n s = (List.range n).foldlM (fun s k => f (a + k) s) s := by
  have h : ∀ n a s, forRange f a n s = (List.range' a n).foldlM (fun s k => f k s) s := by
    intro n
    induction n with
    | zero => intro a s; rfl
    | succ n ih =>
      intro a s
      rw [List.range'_succ, List.foldlM_cons, forRange]
      refine congrArg _ (funext fun s => ih (a + 1) s)
  intro a s
  rw [h, List.range'_eq_map_range, List.foldlM_map]

/-- A loop of the text that does what a loop of the model does. -/
theorem forIn_forRange {τ σ : Type} (R : τ → σ) (a n : Nat) (g : Nat → τ → Except Panic τ) (f : Nat → σ → Except Panic (ForInStep σ))
    (h : ∀ k s, k < n → f k (R s) = (g (a + k) s).map fun s => .yield (R s)) (s₀ : σ) (s : τ) (h₀ : s₀ = R s) :
    forIn (List.range n) s₀ f = (forRange g a n s).map R := by
  rw [forIn_repr R n (fun k => g (a + k)) f h s₀ s h₀, forRange_fold]

theorem idx_byte {n : Nat} (v : Vector U8 n) (i : Nat) : idx v.toList (⟨i⟩ : Usize tgt) = Verif.Hc256.getByte v i := by
  by_cases h : i < n
  · rw [idx_vec v ⟨i⟩ h, Verif.Hc256.getByte, dif_pos h]
  · rw [idx, nth, dif_neg (by rw [Vector.length_toList]; exact h), Verif.Hc256.getByte, dif_neg h]

theorem slice_table (d : Vector U32 2660) (a b : Usize tgt) (h : a.val + 1024 ≤ 2660) (hb : b.val = a.val + 1024) :
    slice d.toList a b = .ok (Verif.Hc256.sliceTable d a.val h).toList := by
  rw [slice, if_pos ⟨by omega, by rw [Vector.length_toList]; omega⟩]
  refine congrArg _ ?_
  apply List.ext_getElem
  · simp; omega
  · intro i h1 h2
    simp [Verif.Hc256.sliceTable]

/-- The loading of a word, lines 77-80 and 84-87. -/
theorem load_text (ht : 16 ≤ tgt.bits) (key : Vector U8 32) (k : Nat) (hk : k < 8) {ρ : Type} (K : U32 → Except Panic ρ) :
    (do
      let r5 ← mul tgt (4 : Usize tgt) ⟨k⟩
      let r6 ← idx key.toList r5
      let r7 ← mul tgt (4 : Usize tgt) ⟨k⟩
      let r8 ← add tgt r7 1
      let r9 ← idx key.toList r8
      let r10 ← shl tgt (RInt.band (cast U32 r9) 255) 8
      let r11 ← mul tgt (4 : Usize tgt) ⟨k⟩
      let r12 ← add tgt r11 2
      let r13 ← idx key.toList r12
      let r14 ← shl tgt (RInt.band (cast U32 r13) 255) 16
      let r15 ← mul tgt (4 : Usize tgt) ⟨k⟩
      let r16 ← add tgt r15 3
      let r17 ← idx key.toList r16
      let r18 ← shl tgt (RInt.band (cast U32 r17) 255) 24
      K (RInt.bor (RInt.bor (RInt.bor (RInt.band (cast U32 r6) 255) r10) r14) r18)) = Verif.Hc256.loadWord key k >>= K := by
  have hmul : mul tgt (4 : Usize tgt) ⟨k⟩ = .ok ⟨4 * k⟩ := mul_usize _ _ (pow_bits ht (show 4 * k < 65536 by omega))
  have hadd : ∀ n, n < 4 → add tgt (⟨4 * k⟩ : Usize tgt) (OfNat.ofNat n) = .ok ⟨4 * k + n⟩ :=
    fun n hn => add_usize _ _ (pow_bits ht (show 4 * k + n < 65536 by omega))
  have hb : ∀ n, n < 4 → ∃ b, Verif.Hc256.getByte key (4 * k + n) = .ok b := fun n hn => ⟨_, Verif.Hc256.getByte_ok key (4 * k + n) (by omega)⟩
  obtain ⟨b0, h0⟩ := hb 0 (by decide)
  obtain ⟨b1, h1⟩ := hb 1 (by decide)
  obtain ⟨b2, h2⟩ := hb 2 (by decide)
  obtain ⟨b3, h3⟩ := hb 3 (by decide)
  rw [Nat.add_zero] at h0
  simp only [hmul, ok_bind, hadd 1 (by decide), hadd 2 (by decide), hadd 3 (by decide), idx_byte, Verif.Hc256.loadWord, h0, h1, h2, h3, cast_bv,
    shl_ok _ 8 (show 8 < 32 by decide), shl_ok _ 16 (show 16 < 32 by decide), shl_ok _ 24 (show 24 < 32 by decide)]
  rfl

theorem slice_all {α : Type} {n : Nat} (v : Vector α n) (a b : Usize tgt) (ha : a.val = 0) (hb : b.val = n) : slice v.toList a b = .ok v.toList := by
  have hl : v.toList.length = n := Vector.length_toList ..
  rw [slice, if_pos ⟨by omega, by omega⟩, ha, hb, Nat.sub_zero, List.drop_zero, List.take_of_length_le (by omega)]

theorem copy_vec {α : Type} {n : Nat} (v w : Vector α n) : copyFromSlice v.toList w.toList = .ok w.toList :=
  if_pos (by rw [Vector.length_toList, Vector.length_toList])

theorem put_all {α : Type} {n : Nat} (v w : Vector α n) (a b : Usize tgt) (ha : a.val = 0) (hb : b.val = n) :
    putSlice v.toList a b w.toList = w.toList := by
  have hl : v.toList.length = n := Vector.length_toList ..
  rw [putSlice, ha, hb, List.take_zero, List.nil_append, List.drop_of_length_le (by omega), List.append_nil]

theorem new_eq (ht : 16 ≤ tgt.bits) (key iv : Vector U8 32) :
    Hc256Core.new tgt key.toList iv.toList = (Verif.Hc256.new tgt.mode tgt.bits key iv).map repr := by
  have hadd : ∀ k n, k < 2000 → n < 2000 → add tgt (⟨k⟩ : Usize tgt) (OfNat.ofNat n) = .ok ⟨k + n⟩ :=
    fun k n hk hn => add_usize _ _ (pow_bits ht (show k + n < 65536 by omega))
  have hadd' : ∀ k n, k < 2000 → n < 2000 → add tgt (⟨k⟩ : Usize tgt) ⟨n⟩ = .ok ⟨k + n⟩ := hadd
  have hsub : ∀ k n, n ≤ k → k < 2660 → sub tgt (⟨k⟩ : Usize tgt) (OfNat.ofNat n) = .ok ⟨k - n⟩ :=
    fun k n hn hk => sub_usize _ _ hn (pow_bits ht (show k < 65536 by omega))
  rw [Hc256Core.new, Verif.Hc256.new, Verif.Hc256.expand]
  rw [table_size_eq, ok_bind, ok_bind, init_size_eq, ok_bind, key_words_eq, ok_bind, iv_words_eq]
  have hz : List.replicate (Usize.val (⟨1024⟩ : Usize tgt)) (0 : U32) = (Vector.replicate 1024 0).toList := (Vector.toList_replicate ..).symm
  have hd : List.replicate (Usize.val (⟨2660⟩ : Usize tgt)) (0 : U32) = (Vector.replicate 2660 0).toList := (Vector.toList_replicate ..).symm
  rw [hz, hd]
  generalize Vector.replicate 1024 (0 : U32) = z
  generalize Vector.replicate 2660 (0 : U32) = d
  simp only [ok_bind, val_lit, Nat.sub_zero, Nat.zero_add]
  clear hz hd
  rw [forIn_forRange Vector.toList 0 8 (fun i d => do put d i (← Verif.Hc256.loadWord key i)) _ ?_ _ d rfl]
  · generalize forRange (fun i d => do put d i (← Verif.Hc256.loadWord key i)) 0 8 d = x
    cases x with
    | error p => rfl
    | ok d =>
    rw [show Except.map Vector.toList (.ok d : Except Panic (Vector U32 2660)) = .ok d.toList from rfl, ok_bind, ok_bind]
    rw [forIn_forRange Vector.toList 0 8 (fun i d => do put d (i + 8) (← Verif.Hc256.loadWord iv i)) _ ?_ _ d rfl]
    · generalize forRange (fun i d => do put d (i + 8) (← Verif.Hc256.loadWord iv i)) 0 8 d = x
      cases x with
      | error p => rfl
      | ok d =>
      rw [show Except.map Vector.toList (.ok d : Except Panic (Vector U32 2660)) = .ok d.toList from rfl, ok_bind, ok_bind]
      rw [hadd' 8 8 (by decide) (by decide), ok_bind]
      dsimp only
      rw [show 2660 - (8 + 8) = 2660 - 16 from rfl, forIn_forRange Vector.toList 16 (2660 - 16) Verif.Hc256.expandStep _ ?_ _ d rfl]
      · generalize forRange Verif.Hc256.expandStep 16 (2660 - 16) d = x
        cases x with
        | error p => rfl
        | ok d =>
        rw [show Except.map Vector.toList (.ok d : Except Panic (Vector U32 2660)) = .ok d.toList from rfl, ok_bind, ok_bind]
        rw [hadd 1024 512 (by decide) (by decide), ok_bind, hadd 1024 1536 (by decide) (by decide)]
        rw [slice_table d 512 ⟨1024 + 512⟩ (show 512 + 1024 ≤ 2660 by decide) (show 1024 + 512 = 512 + 1024 by decide), ok_bind]
        rw [slice_all z 0 ⟨1024⟩ rfl rfl, ok_bind, copy_vec, ok_bind, ok_bind]
        rw [slice_table d 1536 ⟨1024 + 1536⟩ (show 1536 + 1024 ≤ 2660 by decide) (show 1024 + 1536 = 1536 + 1024 by decide), ok_bind]
        rw [ok_bind, copy_vec, ok_bind]
        rw [put_all z _ 0 ⟨1024⟩ rfl rfl, put_all z _ 0 ⟨1024⟩ rfl rfl]
        rw [forIn_forRange repr 0 4096 (fun _ s => do return (← Verif.Hc256.genWord tgt.mode tgt.bits s).2) _ ?_
          ⟨(Verif.Hc256.sliceTable d (Usize.val (512 : Usize tgt)) _).toList, (Verif.Hc256.sliceTable d (Usize.val (1536 : Usize tgt)) _).toList, 0⟩
          ⟨Verif.Hc256.sliceTable d 512, Verif.Hc256.sliceTable d 1536, 0⟩ rfl]
        · generalize forRange (fun _ s => do return (← Verif.Hc256.genWord tgt.mode tgt.bits s).2) 0 4096 _ = x
          cases x <;> rfl
        · intro k s hk
          rw [gen_word_eq ht]
          cases Verif.Hc256.genWord tgt.mode tgt.bits s <;> rfl
      · intro k d hk
        rw [show 8 + 8 + k = 16 + k from rfl]
        rw [hsub _ 2 (by omega) (by omega), ok_bind, hsub _ 7 (by omega) (by omega), hsub _ 15 (by omega) (by omega), hsub _ 16 (by omega) (by omega)]
        rw [Verif.Hc256.expandStep, idx_get]
        dsimp only
        cases get d (16 + k - 2) with
        | error p => rfl
        | ok a =>
        rw [ok_bind, ok_bind, f2_eq, ok_bind, ok_bind, idx_get]
        dsimp only
        cases get d (16 + k - 7) with
        | error p => rfl
        | ok b =>
        rw [ok_bind, ok_bind, ok_bind, idx_get]
        dsimp only
        cases get d (16 + k - 15) with
        | error p => rfl
        | ok c =>
        rw [ok_bind, ok_bind, f1_eq, ok_bind, ok_bind, idx_get]
        dsimp only
        cases get d (16 + k - 16) with
        | error p => rfl
        | ok e =>
        rw [ok_bind, ok_bind, upd_put]
        dsimp only
        generalize hw : RInt.wadd (α := U32) _ _ = w
        rw [show Verif.Hc256.f2 a + b + Verif.Hc256.f1 c + e + BitVec.ofNat 32 (16 + k) = w from hw]
        cases put d (16 + k) w <;> rfl
    · intro k d hk
      rw [load_text ht iv k hk fun w => do
        let r37 ← add tgt (⟨k⟩ : Usize tgt) ⟨8⟩
        let r19 ← upd d.toList r37 w
        pure (ForInStep.yield r19)]
      rw [Nat.zero_add, hadd' k 8 (by omega) (by decide)]
      cases Verif.Hc256.loadWord iv k with
      | error p => rfl
      | ok w =>
        rw [ok_bind, ok_bind, ok_bind, upd_put]
        dsimp only
        cases put d (k + 8) w <;> rfl
  · intro k d hk
    rw [load_text ht key k hk fun w => do
      let r19 ← upd d.toList (⟨k⟩ : Usize tgt) w
      pure (ForInStep.yield r19)]
    rw [Nat.zero_add]
    cases Verif.Hc256.loadWord key k with
    | error p => rfl
    | ok w =>
      rw [ok_bind, ok_bind, upd_put]
      dsimp only
      cases put d k w <;> rfl

end Verif.Rust.Hc256
