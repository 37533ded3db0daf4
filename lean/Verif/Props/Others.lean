import Verif.Props.Sample
import Verif.Proof.Ciphers
import Mathlib.Data.Fintype.EquivFin
/-!
# HC-256, Rabbit and RC4 (C33 - C41)
-/
namespace Verif
open Spec

/-! ## HC-256 -/

/-- **C33**.  On targets with at least 16-bit `usize`, `Hc256::new` succeeds and the object cannot be told from a cursor over the
published HC-256 keystream (output word `n` is bytes `4n .. 4n+3`, little-endian), without any limit. -/
theorem C33_hc256 (u : Nat) (hu : 16 ≤ u) (m : Mode) (key iv : Vector U8 32) :
    ∃ w, Hc256.cipher m u key iv = .ok w ∧
      IsStream u (Hc256.core m u) (fun i => leByte (Spec.Hc256.word key iv (i / 4)).toNat (i % 4)) none w 0 := by
  obtain ⟨w, hc, h⟩ := PlainCipher.isStream u hu (.hc256 m key iv)
  refine ⟨w, hc, ?_⟩
  have hs : (PlainCipher.hc256 m key iv).stream = fun i => leByte (Spec.Hc256.word key iv (i / 4)).toNat (i % 4) := by
    funext i
    simp only [PlainCipher.stream, byteStream, Spec.Hc256.block, Vector.getElem_ofFn]
  rw [hs] at h
  exact h

example : (16 : Nat) ≤ 32 ∧ ∃ w, Hc256.cipher .debug 32 (Sample.bytes 32 0) (Sample.bytes 32 1) = .ok w := by
  obtain ⟨w, h, _⟩ := C33_hc256 32 (by decide) .debug (Sample.bytes 32 0) (Sample.bytes 32 1)
  exact ⟨by decide, w, h⟩

theorem Hc256.genMany_ok (m : Mode) {u : Nat} (hu : 16 ≤ u) (n : Nat) (s : Hc256.State) (h : s.idx.toNat < 2048) :
    ∃ l s', genMany (Hc256.genBlock m u) n s = .ok (l, s') ∧ l.length = n ∧ s'.idx.toNat < 2048 := by
  induction n generalizing s with
  | zero => exact ⟨[], s, rfl, rfl, h⟩
  | succ n ih =>
    obtain ⟨s₁, h1, _, h2⟩ := Hc256.genWord_step m hu s s.idx.toNat (Nat.mod_eq_of_lt h).symm
    obtain ⟨l, s₂, h3, h4, h5⟩ := ih s₁ (by rw [h2]; exact Nat.mod_lt _ (by decide))
    refine ⟨toLe32 (Spec.Hc256.step s.idx.toNat (Hc256.view s)).1 :: l, s₂, ?_, by rw [List.length_cons, h4], h5⟩
    rw [genMany, Hc256.genBlock, h1, Rabbit.ok_bind]
    show (genMany (Hc256.genBlock m u) n s₁ >>= _) = _
    rw [h3]; rfl

/-- **C34**.  Construction succeeds for every key and IV; from the fresh state, and from any state whatever whose index is below 2048,
any number of words can be generated without panic (no index out of bounds, no overflow), and the index stays below 2048. -/
theorem C34_no_panic (u : Nat) (hu : 16 ≤ u) (m : Mode) :
    (∀ key iv, ∃ s, Hc256.new m u key iv = .ok s ∧ s.idx.toNat < 2048) ∧
    ∀ s : Hc256.State, s.idx.toNat < 2048 → ∀ n, ∃ l s', genMany (Hc256.genBlock m u) n s = .ok (l, s') ∧ l.length = n ∧
      s'.idx.toNat < 2048 := by
  refine ⟨fun key iv => ?_, fun s h n => Hc256.genMany_ok m hu n s h⟩
  obtain ⟨s, h1, h2⟩ := Hc256.new_eq m hu key iv
  exact ⟨s, h1, by rw [h2.2]; decide⟩

/-- The bound is needed: in a state with an index of `2^32 - 1`, which is not reachable, the increment overflows. -/
example : Hc256.genBlock .debug 64 ⟨Vector.replicate 1024 0, Vector.replicate 1024 0, 0xFFFFFFFF#32⟩ = .error .overflow := by
  rw [Hc256.genBlock, Hc256.genWord]
  show ((Hc256.add32 .debug 0xFFFFFFFF#32 1#32 >>= fun idx => _) >>= fun ws => _) = _
  rw [show Hc256.add32 .debug 0xFFFFFFFF#32 1#32 = .error .overflow from rfl]
  rfl

example : ∃ s : Hc256.State, s.idx.toNat < 2048 := ⟨⟨Vector.replicate 1024 0, Vector.replicate 1024 0, 5⟩, by decide⟩

/-! ## Rabbit -/

/-- **C35**, key only. -/
theorem C35_keyOnly (u : Nat) (m : Mode) (key : Vector U8 16) :
    ∃ w, Rabbit.cipherKeyOnly m key = .ok w ∧
      IsStream u (Rabbit.core m) (fun i => (Spec.Rabbit.block (Spec.Rabbit.keySetup key) (i / 16))[i % 16]'(Nat.mod_lt _ (by decide)))
        none w 0 := by
  refine ⟨Wrapper.fromCore (Rabbit.setupKeyPure key), ?_, ?_⟩
  · rw [Rabbit.cipherKeyOnly, Rabbit.setupKey_eq, Rabbit.ok_bind]; rfl
  · exact (Rabbit.coreLaw m u _).isStream (by decide) _ 0 (At.fromCore _ _ (Rabbit.rel_keyOnly key) _)

example : ∃ w, Rabbit.cipherKeyOnly .debug (Sample.bytes 16 3) = .ok w :=
  (C35_keyOnly 64 .debug (Sample.bytes 16 3)).imp fun _ h => h.1

/-- **C35**, key and IV.  The object cannot be told from a cursor over the keystream of RFC 4503, without any limit. -/
theorem C35_rabbit (u : Nat) (m : Mode) (key : Vector U8 16) (iv : Vector U8 8) :
    ∃ w, Rabbit.cipher m key iv = .ok w ∧
      IsStream u (Rabbit.core m)
        (fun i => (Spec.Rabbit.block (Spec.Rabbit.ivSetup iv (Spec.Rabbit.keySetup key)) (i / 16))[i % 16]'(Nat.mod_lt _ (by decide)))
        none w 0 := by
  refine ⟨Wrapper.fromCore (Rabbit.next4Pure (Rabbit.ivXor iv (Rabbit.setupKeyPure key))), ?_, ?_⟩
  · rw [Rabbit.cipher, Rabbit.setupKey_eq, Rabbit.ok_bind, Rabbit.setupIv_eq, Rabbit.ok_bind]; rfl
  · exact (Rabbit.coreLaw m u _).isStream (by decide) _ 0 (At.fromCore _ _ (Rabbit.rel_iv key iv) _)

/-- First bytes of RFC 4503 appendix A.1 (zero key; the RFC prints blocks as numbers, most significant octet first) and A.2 (zero IV). -/
example : (Spec.Rabbit.block (Spec.Rabbit.keySetup (Vector.replicate 16 0)) 0)[15] = 0xB1 ∧
    (Spec.Rabbit.block (Spec.Rabbit.ivSetup (Vector.replicate 8 0) (Spec.Rabbit.keySetup (Vector.replicate 16 0))) 0)[15] = 0xC6 := by
  decide +kernel

theorem Rabbit.genMany_rel (m : Mode) (i0 : Spec.Rabbit.Inner) (n : Nat) (s : Rabbit.State) (k : Nat) (h : Rabbit.Rel i0 s k) :
    ∃ l s', genMany (Rabbit.genBlock m) n s = .ok (l, s') ∧ l.length = n ∧ Rabbit.Rel i0 s' (k + n) := by
  induction n generalizing s k with
  | zero => exact ⟨[], s, rfl, rfl, h⟩
  | succ n ih =>
    obtain ⟨s₁, h1, h2⟩ := Rabbit.genBlock_rel m i0 s k h
    obtain ⟨l, s₂, h3, h4, h5⟩ := ih s₁ (k + 1) h2
    refine ⟨Spec.Rabbit.block i0 k :: l, s₂, ?_, by rw [List.length_cons, h4], ?_⟩
    · rw [genMany, h1, Rabbit.ok_bind]
      show (genMany (Rabbit.genBlock m) n s₁ >>= _) = _
      rw [h3]; rfl
    · rw [show k + (n + 1) = k + 1 + n by omega]; exact h5

theorem Rabbit.nextPure_carry (s : Rabbit.State) : (Rabbit.nextPure s).carry.toNat ≤ 1 := by
  have h : ∀ b : U8, (b &&& 1).toNat ≤ 1 := by
    intro b
    rw [BitVec.toNat_and]
    exact Nat.and_le_right
  exact h _

/-- **C36**.  From any state with carry 0 or 1 - in particular every fresh one, `C37_fresh` - the states after `i` and after `j`
blocks are different whenever `i < j < i + 2^256 - 1`. -/
theorem C36_no_cycle (m : Mode) (s : Rabbit.State) (hs : s.carry.toNat ≤ 1) (i j : Nat) (hij : i < j) (hj : j < i + (2 ^ 256 - 1))
    (l l' : List (Vector U8 16)) (t t' : Rabbit.State) (ht : genMany (Rabbit.genBlock m) i s = .ok (l, t))
    (ht' : genMany (Rabbit.genBlock m) j s = .ok (l', t')) : t ≠ t' := by
  obtain ⟨_, t₁, h1, _, h2, _⟩ := Rabbit.genMany_rel m (Rabbit.view s) i s 0 ⟨rfl, hs⟩
  obtain ⟨_, t₂, h3, _, h4, _⟩ := Rabbit.genMany_rel m (Rabbit.view s) j s 0 ⟨rfl, hs⟩
  rw [h1] at ht; rw [h3] at ht'
  simp only [Except.ok.injEq, Prod.mk.injEq] at ht ht'
  obtain ⟨_, rfl⟩ := ht
  obtain ⟨_, rfl⟩ := ht'
  intro e
  rw [e, h4, Nat.zero_add, Nat.zero_add] at h2
  have hd := Rabbit.period (Rabbit.view s) i (j - i) (by rw [show i + (j - i) = j by omega]; exact h2)
  have := Nat.le_of_dvd (by omega) hd
  have hN : Rabbit.N = 2 ^ 256 - 1 := rfl
  omega

/-- The `2^64` blocks of the code comment (rabbit/src/lib.rs:281-285) are covered. -/
example : (2 : Nat) ^ 64 < 0 + (2 ^ 256 - 1) := by decide

/-- **C37**, one step: whatever the state (even with an arbitrary byte as carry), no addition or multiplication overflows: the step succeeds
and is the same with and without overflow checks; the new carry is 0 or 1. -/
theorem C37_step (s : Rabbit.State) : ∃ s', (∀ m, Rabbit.nextState m s = .ok s') ∧ s'.carry.toNat ≤ 1 :=
  ⟨Rabbit.nextPure s, fun m => Rabbit.nextState_eq m s, Rabbit.nextPure_carry s⟩

/-- From the largest values there are, in both modes. -/
example : ∃ s', Rabbit.nextState .debug ⟨Vector.replicate 8 0xFFFFFFFF#32, Vector.replicate 8 0xFFFFFFFF#32, 0xFF#8⟩ = .ok s' :=
  (C37_step _).imp fun _ h => h.1 .debug

/-- **C37**, fresh objects: both set-ups succeed, agree in the two modes, and leave a carry of 0 or 1. -/
theorem C37_fresh (key : Vector U8 16) (iv : Vector U8 8) :
    ∃ s t, s.carry.toNat ≤ 1 ∧ t.carry.toNat ≤ 1 ∧ ∀ m, Rabbit.setupKey m key = .ok s ∧ Rabbit.setupIv m iv s = .ok t :=
  ⟨Rabbit.setupKeyPure key, Rabbit.next4Pure (Rabbit.ivXor iv (Rabbit.setupKeyPure key)), (Rabbit.rel_keyOnly key).2,
    (Rabbit.rel_iv key iv).2, fun m => ⟨Rabbit.setupKey_eq m key, Rabbit.setupIv_eq m iv _⟩⟩

example : ∃ s t, Rabbit.setupKey .debug (Sample.bytes 16 3) = .ok s ∧ Rabbit.setupIv .debug (Sample.bytes 8 9) s = .ok t := by
  obtain ⟨s, t, -, -, h⟩ := C37_fresh (Sample.bytes 16 3) (Sample.bytes 8 9)
  exact ⟨s, t, h .debug⟩

/-- **C37**, any number of blocks: the same result in both modes, carry 0 or 1. -/
theorem C37_blocks (s : Rabbit.State) (hs : s.carry.toNat ≤ 1) (n : Nat) :
    ∃ l s', (∀ m, genMany (Rabbit.genBlock m) n s = .ok (l, s')) ∧ s'.carry.toNat ≤ 1 := by
  induction n generalizing s with
  | zero => exact ⟨[], s, fun _ => rfl, hs⟩
  | succ n ih =>
    obtain ⟨l, s', h1, h2⟩ := ih (Rabbit.nextPure s) (Rabbit.nextPure_carry s)
    refine ⟨Rabbit.extract (Rabbit.nextPure s) :: l, s', fun m => ?_, h2⟩
    rw [genMany, Rabbit.genBlock_eq, Rabbit.ok_bind]
    show (genMany (Rabbit.genBlock m) n (Rabbit.nextPure s) >>= _) = _
    rw [h1]; rfl

example : ∃ s : Rabbit.State, s.carry.toNat ≤ 1 ∧ s.c[0] = 0xFFFFFFFF#32 :=
  ⟨⟨Vector.replicate 8 0xFFFFFFFF#32, Vector.replicate 8 0xFFFFFFFF#32, 1⟩, by decide, by decide⟩

/-! ## RC4 -/

/-- **C38**.  For every key of 1 to 256 bytes, the object cannot be told from a cursor over the RC4 keystream, without any limit. -/
theorem C38_rc4 (u : Nat) (key : List U8) (hkey : 1 ≤ key.length ∧ key.length ≤ 256) :
    ∃ s, Rc4.newFromSlice key = .ok (.ok s) ∧ Simulates Rc4.step (FitsUsize u) (Cursor.io (Spec.Rc4.stream key) none) s 0 := by
  obtain ⟨s, hs, hr⟩ := Rc4.newFromSlice_ok key hkey
  refine ⟨s, hs, fun h _ => ?_⟩
  obtain ⟨s', h1, _⟩ := Rc4.history_rel key h s 0 hr
  exact ⟨s', h1⟩

/-- Key "Key". -/
example : 1 ≤ [0x4b, 0x65, (0x79 : U8)].length ∧ [0x4b, 0x65, (0x79 : U8)].length ≤ 256 := by decide

/-- **C39**.  The outcome of `new_from_slice` by length, and `new` never fails. -/
theorem C39_length :
    (∀ key : List U8, (∃ s, Rc4.newFromSlice key = .ok (.ok s)) ∨ Rc4.newFromSlice key = .ok (.error .invalidLength)) ∧
    (∀ key : List U8, Rc4.newFromSlice key = .ok (.error .invalidLength) ↔ key.length = 0 ∨ 256 < key.length) ∧
    (∀ key : Vector U8 32, ∃ s, Rc4.new key = .ok s ∧ Rc4.newFromSlice key.toList = .ok (.ok s)) := by
  refine ⟨fun key => ?_, fun key => ⟨fun h => ?_, fun h => Rc4.newFromSlice_err key (by omega)⟩, fun key => ?_⟩
  · by_cases h : 1 ≤ key.length ∧ key.length ≤ 256
    · obtain ⟨s, hs, _⟩ := Rc4.newFromSlice_ok key h
      exact .inl ⟨s, hs⟩
    · exact .inr (Rc4.newFromSlice_err key h)
  · apply Decidable.byContradiction
    intro hn
    obtain ⟨s, hs, _⟩ := Rc4.newFromSlice_ok key (by omega)
    rw [hs] at h
    cases h
  · obtain ⟨s, hs, _⟩ := Rc4.newFromSlice_ok key.toList (by rw [Vector.length_toList]; decide)
    refine ⟨s, ?_, hs⟩
    rw [Rc4.new, hs, Rabbit.ok_bind]; rfl

/-- Lengths on both sides of the gate. -/
example : ¬ (([] : List U8).length ≠ 0) ∧ (List.replicate 257 (0 : U8)).length > 256 ∧ [(1 : U8)].length ≤ 256 := by
  rw [List.length_replicate]; decide

/-- The state of RC4 after a history of calls is a state of the published generator. -/
theorem Rc4.reach_after (key : List U8) (s : Rc4.State) (hs : Rc4.newFromSlice key = .ok (.ok s)) (h : List (Unit × Op))
    (os : List Obs) (t : Rc4.State) (ht : runHistory Rc4.step h s = .ok (os, t)) : ∃ n, Rc4.view t = Spec.Rc4.after key n := by
  by_cases hk : 1 ≤ key.length ∧ key.length ≤ 256
  · obtain ⟨s₁, hs₁, hr⟩ := Rc4.newFromSlice_ok key hk
    rw [hs] at hs₁
    cases hs₁
    obtain ⟨t₁, h1, h2⟩ := Rc4.history_rel key h s 0 hr
    rw [h1] at ht
    cases ht
    exact ⟨_, h2⟩
  · rw [Rc4.newFromSlice_err key hk] at hs
    cases hs

/-- **C40**, permutation: after any history each of the 256 byte values is at exactly one place of the table. -/
theorem C40_permutation (key : List U8) (s : Rc4.State) (hs : Rc4.newFromSlice key = .ok (.ok s)) (h : List (Unit × Op))
    (os : List Obs) (t : Rc4.State) (ht : runHistory Rc4.step h s = .ok (os, t)) (v : U8) :
    ∃ i : Fin 256, t.state[i] = v ∧ ∀ i' : Fin 256, t.state[i'] = v → i' = i := by
  obtain ⟨n, hn⟩ := Rc4.reach_after key s hs h os t ht
  have hinj : Function.Injective (Rc4.tab t.state) := by
    have := Rc4.after_injective key n
    rw [← hn] at this
    exact this
  obtain ⟨i, hi⟩ := Finite.surjective_of_injective hinj (Spec.Rc4.num v)
  refine ⟨i, Rc4.num_inj hi, fun i' hi' => hinj ?_⟩
  rw [hi]
  exact congrArg Spec.Rc4.num hi'

/-- Key `1, 2, 3`, after two bytes: where the value 77 is. -/
example : ∃ s os t, Rc4.newFromSlice [1, 2, 3] = .ok (.ok s) ∧ runHistory Rc4.step [((), .apply [7, 7])] s = .ok (os, t) ∧
    ∃ i : Fin 256, t.state[i] = 77 := by
  obtain ⟨s, hs, hr⟩ := Rc4.newFromSlice_ok [1, 2, 3] (by decide)
  obtain ⟨t, h1, _⟩ := Rc4.history_rel [1, 2, 3] [((), .apply [7, 7])] s 0 hr
  exact ⟨s, _, t, hs, h1, (C40_permutation [1, 2, 3] s hs _ _ t h1 77).imp fun _ h => h.1⟩

/-- **C40**, no merging: different states (whatever they are) never step to the same state. -/
theorem C40_no_merge (s t : Rc4.State) (h : s ≠ t) : (Rc4.prga s).2 ≠ (Rc4.prga t).2 := by
  intro e
  apply h
  apply Rc4.view_inj
  apply Rc4.next_injective
  rw [← (Rc4.prga_view s).1, ← (Rc4.prga_view t).1, e]

example : ∃ s t : Rc4.State, s ≠ t := ⟨⟨Vector.replicate 256 0, 0, 0⟩, ⟨Vector.replicate 256 0, 1, 0⟩, fun h => absurd (congrArg Rc4.State.i h) (by decide)⟩

/-- **C41**.  After any history, the generator is not in a state of Finney's cycle. -/
theorem C41_finney (key : List U8) (s : Rc4.State) (hs : Rc4.newFromSlice key = .ok (.ok s)) (h : List (Unit × Op))
    (os : List Obs) (t : Rc4.State) (ht : runHistory Rc4.step h s = .ok (os, t)) :
    ¬ (t.j = t.i + 1 ∧ t.state[t.j.toNat]'t.j.isLt = 1) := by
  obtain ⟨n, hn⟩ := Rc4.reach_after key s hs h os t ht
  rintro ⟨h1, h2⟩
  apply Rc4.no_finney key n
  rw [← hn]
  refine ⟨?_, ?_⟩
  · show Spec.Rc4.num t.j = Spec.Rc4.num t.i + 1
    rw [h1, Rc4.num_add]; rfl
  · show Spec.Rc4.num (t.state[t.j.toNat]'t.j.isLt) = 1
    rw [h2]; rfl

/-- Finney's states exist - they are just not reachable - and histories do run. -/
example : (∃ t : Rc4.State, t.j = t.i + 1 ∧ t.state[t.j.toNat]'t.j.isLt = 1) ∧
    ∃ s os t, Rc4.newFromSlice [1, 2, 3] = .ok (.ok s) ∧ runHistory Rc4.step [((), .apply [7, 7])] s = .ok (os, t) := by
  constructor
  · exact ⟨⟨Vector.replicate 256 1, 0, 1⟩, by decide, Vector.getElem_replicate _⟩
  · obtain ⟨s, hs, hr⟩ := Rc4.newFromSlice_ok [1, 2, 3] (by decide)
    obtain ⟨t, h1, _⟩ := Rc4.history_rel [1, 2, 3] [((), .apply [7, 7])] s 0 hr
    exact ⟨s, _, t, hs, h1⟩

end Verif
