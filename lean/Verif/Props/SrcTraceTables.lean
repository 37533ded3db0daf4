import Verif.Proof.Recovery
import Verif.Proof.RecoveryTables
/-!
# What can be seen of RC4 and HC-256 tells their keys and states (C96)

The other ciphers of the repository look at places of memory that do not depend on anything secret (C90, C94, C95).  RC4 and HC-256 look up table entries at places that do
(C90), and this is how much that tells: who sees which entries are looked at while the key is set up knows the key, and who sees it later for long enough knows the whole state.
-/
namespace Verif
open Rust

/-- The set-up of RC4 is seen to do the same for two keys exactly if the keys, each repeated up to 256 bytes, are the same. -/
theorem C96_rc4_key (tgt : Target) (ht : 16 ≤ tgt.bits) (key key' : List U8) (h : 1 ≤ key.length ∧ key.length ≤ 256) (h' : 1 ≤ key'.length ∧ key'.length ≤ 256) :
    (Rust.Rc4.Rc4.new_from_slice_tr tgt key).2 = (Rust.Rc4.Rc4.new_from_slice_tr tgt key').2 ↔
      ∀ k, k < 256 → key[k % key.length]'(Nat.mod_lt _ h.1) = key'[k % key'.length]'(Nat.mod_lt _ h'.1) := by
  rw [Rust.Rc4.new_seen ht key h, Rust.Rc4.new_seen ht key' h']
  constructor
  · intro e
    exact Rust.Rc4.keys h.1 h'.1 (flatMap_inj 256 (fun _ _ => rfl) (List.append_cancel_left e))
  · intro e
    have hk : key ≠ [] := by rintro rfl; simp at h
    have hk' : key' ≠ [] := by rintro rfl; simp at h'
    have all : ∀ k, k ≤ 256 → Rust.Rc4.rounds key k = Rust.Rc4.rounds key' k := by
      intro k
      induction k with
      | zero => intro _; rw [Rust.Rc4.rounds_zero, Rust.Rc4.rounds_zero]
      | succ k ih =>
        intro hk1
        rw [Rust.Rc4.rounds_succ key hk k hk1 (Nat.mod_lt _ h.1), Rust.Rc4.rounds_succ key' hk' k hk1 (Nat.mod_lt _ h'.1), ih (by omega), e k hk1]
    refine congrArg _ (List.flatMap_congr fun k hk => ?_)
    rw [Rust.Rc4.round, Rust.Rc4.round, all (k + 1) (List.mem_range.1 hk)]

/-- Keys of the same length are told apart. -/
theorem C96_rc4_key_length (tgt : Target) (ht : 16 ≤ tgt.bits) (key key' : List U8) (h : 1 ≤ key.length ∧ key.length ≤ 256) (hl : key'.length = key.length)
    (e : (Rust.Rc4.Rc4.new_from_slice_tr tgt key).2 = (Rust.Rc4.Rc4.new_from_slice_tr tgt key').2) : key = key' := by
  have := (C96_rc4_key tgt ht key key' h (by rw [hl]; exact h)).1 e
  refine List.ext_getElem hl.symm fun k h1 h2 => ?_
  have := this k (by omega)
  simp only [hl, Nat.mod_eq_of_lt h1] at this
  exact this

example : (Rust.Rc4.Rc4.new_from_slice_tr ⟨.release, 64⟩ [1, 2]).2 ≠ (Rust.Rc4.Rc4.new_from_slice_tr ⟨.release, 64⟩ [1, 3]).2 :=
  fun h => absurd (C96_rc4_key_length ⟨.release, 64⟩ (by decide) [1, 2] [1, 3] (by decide) rfl h) (by decide)

example : (Rust.Rc4.Rc4.new_from_slice_tr ⟨.release, 64⟩ [1, 2]).2 = (Rust.Rc4.Rc4.new_from_slice_tr ⟨.release, 64⟩ [1, 2, 1, 2]).2 :=
  (C96_rc4_key ⟨.release, 64⟩ (by decide) [1, 2] [1, 2, 1, 2] (by decide) (by decide)).2 fun k _ => by
    have h : (k % 4 = 0 ∧ k % 2 = 0) ∨ (k % 4 = 1 ∧ k % 2 = 1) ∨ (k % 4 = 2 ∧ k % 2 = 0) ∨ (k % 4 = 3 ∧ k % 2 = 1) := by omega
    rcases h with ⟨a, b⟩ | ⟨a, b⟩ | ⟨a, b⟩ | ⟨a, b⟩ <;> simp [a, b]

/-- Who sees 257 bytes of RC4 knows the state it started from: tables and both places. -/
theorem C96_rc4_state (tgt : Target) (ht : 16 ≤ tgt.bits) (S S' : Vector U8 256) (i j i' j' : U8) (d d' : List U8) (hd : 257 ≤ d.length)
    (h : (Rust.Rc4.Rc4.unchecked_write_keystream_tr tgt ⟨S.toList, i, j⟩ d).2 = (Rust.Rc4.Rc4.unchecked_write_keystream_tr tgt ⟨S'.toList, i', j'⟩ d').2) :
    S = S' ∧ i = i' ∧ j = j' := by
  have h1 := Rust.Rc4.write_seen ht ⟨S, i, j⟩ d
  have h2 := Rust.Rc4.write_seen ht ⟨S', i', j'⟩ d'
  rw [Rust.Rc4.repr] at h1 h2
  rw [h1, h2] at h
  injection h with hl h
  injection hl with hl
  rw [← hl] at h
  have h := flatMap_inj _ (fun _ _ => by rfl) h
  have := Rust.Rc4.states (s := ⟨S, i, j⟩) (s' := ⟨S', i', j'⟩) fun k hk => h k (by omega)
  injection this with a b c
  exact ⟨a, b, c⟩

/-- The same of encryption, whatever is encrypted. -/
theorem C96_rc4_apply (tgt : Target) (ht : 16 ≤ tgt.bits) (S S' : Vector U8 256) (i j i' j' : U8) (d d' : List (InOut U8)) (hd : 257 ≤ d.length)
    (h : (Rust.Rc4.Rc4.unchecked_apply_keystream_inout_tr tgt ⟨S.toList, i, j⟩ d).2 = (Rust.Rc4.Rc4.unchecked_apply_keystream_inout_tr tgt ⟨S'.toList, i', j'⟩ d').2) :
    S = S' ∧ i = i' ∧ j = j' := by
  have h1 := Rust.Rc4.apply_seen ht ⟨S, i, j⟩ d
  have h2 := Rust.Rc4.apply_seen ht ⟨S', i', j'⟩ d'
  rw [Rust.Rc4.repr] at h1 h2
  rw [h1, h2] at h
  injection h with hl h
  injection hl with hl
  rw [← hl] at h
  have h := flatMap_inj _ (fun _ _ => by rfl) h
  have := Rust.Rc4.states (s := ⟨S, i, j⟩) (s' := ⟨S', i', j'⟩) fun k hk => h k (by omega)
  injection this with a b c
  exact ⟨a, b, c⟩

example (S : Vector U8 256) (h : S[200] ≠ 7) :
    (Rust.Rc4.Rc4.unchecked_write_keystream_tr ⟨.debug, 16⟩ ⟨S.toList, 3, 9⟩ (List.replicate 300 0)).2 ≠
      (Rust.Rc4.Rc4.unchecked_write_keystream_tr ⟨.debug, 16⟩ ⟨(S.set 200 7).toList, 3, 9⟩ (List.replicate 300 0)).2 := fun e => by
  have := (C96_rc4_state _ (by decide) S (S.set 200 7) 3 9 3 9 _ _ (by rw [List.length_replicate]; decide) e).1
  exact h ((congrArg (fun v : Vector U8 256 => v[200]) this).trans (Vector.getElem_set_self _))

/-- The set-up of HC-256 is seen to do the same only for the same key and nonce. -/
theorem C96_hc256_key (tgt : Target) (ht : 16 ≤ tgt.bits) (key iv key' iv' : Vector U8 32)
    (h : (Rust.Hc256.Hc256Core.new_tr tgt key.toList iv.toList).2 = (Rust.Hc256.Hc256Core.new_tr tgt key'.toList iv'.toList).2) : key = key' ∧ iv = iv' :=
  Rust.Hc256.keys ht h

example (tgt : Target) (ht : 16 ≤ tgt.bits) (iv : Vector U8 32) :
    (Rust.Hc256.Hc256Core.new_tr tgt (Vector.replicate 32 0).toList iv.toList).2 ≠ (Rust.Hc256.Hc256Core.new_tr tgt ((Vector.replicate 32 0).set 31 128).toList iv.toList).2 :=
  fun e => absurd (congrArg (fun v : Vector U8 32 => v[31]) (C96_hc256_key tgt ht _ iv _ iv e).1) (by rw [Vector.getElem_set_self, Vector.getElem_replicate]; decide)

/-- Who sees 5132 words of HC-256 knows the state it started from. -/
theorem C96_hc256_state (tgt : Target) (ht : 16 ≤ tgt.bits) (P Q P' Q' : Vector U32 1024) (i i' : U32) (hi : i.toNat < 2048) (hi' : i'.toNat < 2048) (n : Nat) (hn : 5132 ≤ n)
    (h : (Rust.Hc256.words tgt n ⟨P.toList, Q.toList, i⟩).2 = (Rust.Hc256.words tgt n ⟨P'.toList, Q'.toList, i'⟩).2) : P = P' ∧ Q = Q' ∧ i = i' := by
  have := Rust.Hc256.states ht (s := ⟨P, Q, i⟩) (s' := ⟨P', Q', i'⟩) hi hi' hn h
  injection this with a b c
  exact ⟨a, b, c⟩

example (P Q : Vector U32 1024) (h : Q[1000] ≠ 0) :
    (Rust.Hc256.words ⟨.debug, 32⟩ 6000 ⟨P.toList, Q.toList, 77⟩).2 ≠ (Rust.Hc256.words ⟨.debug, 32⟩ 6000 ⟨P.toList, (Q.set 1000 0).toList, 77⟩).2 := fun e => by
  have := (C96_hc256_state _ (by decide) P Q P (Q.set 1000 0) 77 77 (by decide) (by decide) 6000 (by decide) e).2.1
  exact h ((congrArg (fun v : Vector U32 1024 => v[1000]) this).trans (Vector.getElem_set_self _))

end Verif
