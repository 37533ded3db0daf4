import Verif.Props.Sample
import Verif.Proof.Counter
/-!
# Salsa20 (C29, C30, C31, C32)
-/
namespace Verif
open Spec

/-- **C29**.  A Salsa object cannot be told from a cursor over the published Salsa20 keystream: block `n` is the Salsa20 hash of
the expanded key, the nonce and the 64-bit counter `n`. -/
theorem C29_salsa (u : Nat) (m : Mode) (dr : Nat) (key : Vector U8 32) (nonce : Vector U8 8) :
    IsSeekStream u (Salsa.core ChaCha.Env u m dr)
      (fun i => (Spec.Salsa.serialize (Spec.Salsa.hash dr (Spec.Salsa.input key nonce (i / 64))))[i % 64]'(Nat.mod_lt _ (by decide)))
      (2 ^ 64 - 1) (Salsa.cipher key nonce) 0 := by
  obtain ⟨w, hc, h⟩ := SeekCipher.isSeekStream u (.salsa m dr key nonce)
  cases hc
  exact h

/-- First keystream byte of eSTREAM set 1, vector 0 (key 80 00 .. 00, zero nonce). -/
example : (Spec.Salsa.serialize (Spec.Salsa.hash 10 (Spec.Salsa.input ((Vector.replicate 32 0).set 0 0x80) (Vector.replicate 8 0) 0)))[0] = 0xE3 := by
  decide +kernel

/-- Reading 70 bytes and seeking back is among the histories spoken about. -/
example : ∃ w, (SeekCipher.salsa .debug 10 (Sample.bytes 32 0) (Sample.bytes 8 0)).Reach 64 Sample.history
    (Cursor.run (Cursor.step 64 (SeekCipher.salsa .debug 10 (Sample.bytes 32 0) (Sample.bytes 8 0)).stream
      (some (64 * (SeekCipher.salsa .debug 10 (Sample.bytes 32 0) (Sample.bytes 8 0)).blocks))) (Sample.history.map (·.2)) 0).1 w :=
  SeekCipher.reach_exists 64 _ _ (Sample.history_allowed _)

/-- **C30**.  `hsalsa` is the published HSalsa20 function (for any number of double rounds). -/
theorem C30_hsalsa (dr : Nat) (key : Vector U8 32) (input : Vector U8 16) :
    Salsa.hsalsa dr key input = Spec.Salsa.hsalsa dr key input := Salsa.hsalsa_eq dr key input

/-- First two bytes of the HSalsa20 output in section 8 of "Cryptography in NaCl" (first key). -/
example : (Salsa.hsalsa 10
    #v[0x4a,0x5d,0x9d,0x5b,0xa4,0xce,0x2d,0xe1,0x72,0x8e,0x3b,0xf4,0x80,0x35,0x0f,0x25,0xe0,0x7e,0x21,0xc9,0x47,0xd1,0x9e,0x33,0x76,0xf0,0x9b,0x3c,0x1e,0x16,0x17,0x42]
    (Vector.replicate 16 0))[0] = 0x1b := by decide +kernel

/-- **C31**.  `XSalsa::new(key, nonce)` is the very same object as `Salsa::new(hsalsa(key, nonce[..16]), nonce[16..])` and every
call on it runs the same code: all histories agree, including the final object. -/
theorem C31_xsalsa (u : Nat) (m : Mode) (dr : Nat) (key : Vector U8 32) (nonce : Vector U8 24) (h : List (ChaCha.Env × SeekOp)) :
    runHistory (fun x w op => Wrapper.seekStep (Salsa.core ChaCha.Env u m dr) x w op) h (Salsa.cipherX dr key nonce) =
    runHistory (fun x w op => Wrapper.seekStep (Salsa.core ChaCha.Env u m dr) x w op) h
      (Salsa.cipher (Spec.Salsa.hsalsa dr key (Vector.ofFn fun i : Fin 16 => nonce[i.val]))
        (Vector.ofFn fun i : Fin 8 => nonce[16 + i.val])) := by
  have hc : Salsa.cipherX dr key nonce = Salsa.cipher
      (Spec.Salsa.hsalsa dr key (Vector.ofFn fun i : Fin 16 => nonce[i.val])) (Vector.ofFn fun i : Fin 8 => nonce[16 + i.val]) := by
    rw [Salsa.cipherX, Salsa.cipher, Salsa.newX, Salsa.hsalsa_eq]
  rw [hc]

/-- Both sides are computations that do happen. -/
example : ∃ w os, runHistory (fun x w op => Wrapper.seekStep (Salsa.core ChaCha.Env 64 .debug 10) x w op) Sample.history
    (Salsa.cipherX 10 (Sample.bytes 32 0) (Sample.bytes 24 7)) = .ok (os, w) := by
  obtain ⟨w, hr⟩ := SeekCipher.reach_exists 64 (.xsalsa .debug 10 (Sample.bytes 32 0) (Sample.bytes 24 7)) Sample.history
    (Sample.history_allowed _)
  obtain ⟨w₀, hc, hrun⟩ := hr.run
  cases hc
  exact ⟨w, _, hrun⟩

/-- The 64-bit counter in words 8 and 9. -/
def salsaCounter (s : Vector U32 16) : Nat := s[8].toNat + 2 ^ 32 * s[9].toNat

/-- **C32**.  `from_raw_state(s)` followed by one block: the Salsa core hash of `s`, and the counter one further; with overflow
checks it panics exactly when the counter is `2^64 - 1`, without them it never panics and the counter wraps. -/
theorem C32_raw (m : Mode) (dr : Nat) (s : Vector U32 16) :
    Salsa.genBlock m dr (Salsa.fromRawState s) =
      if m = .debug ∧ salsaCounter s = 2 ^ 64 - 1 then .error .overflow
      else .ok (Spec.Salsa.serialize (Spec.Salsa.hash dr (rows s)),
        (s.set 8 (BitVec.ofNat 32 (salsaCounter s + 1))).set 9 (BitVec.ofNat 32 ((salsaCounter s + 1) / 2 ^ 32))) := by
  have hc : (Salsa.getBlockPos s).toNat = salsaCounter s := Salsa.getBlockPos_toNat s
  have hself : s = Salsa.at' s (salsaCounter s) := by
    rw [Salsa.at', ← hc, BitVec.ofNat_toNat, BitVec.setWidth_eq, Salsa.setBlockPos_getBlockPos]
  by_cases hp : m = .debug ∧ salsaCounter s = 2 ^ 64 - 1
  · rw [if_pos hp]
    have hall : Salsa.getBlockPos s = BitVec.allOnes 64 := by
      apply BitVec.eq_of_toNat_eq
      rw [hc, hp.2]; rfl
    rw [hp.1]
    show (Salsa.incr .debug (Salsa.getBlockPos s) >>= fun pos => _) = _
    rw [hall]; rfl
  · rw [if_neg hp]
    have hlt : salsaCounter s < 2 ^ 64 := by rw [← hc]; exact (Salsa.getBlockPos s).isLt
    have h := Salsa.genBlock_ok m dr s (by
      rw [hc]
      cases m with
      | debug => right; have : salsaCounter s ≠ 2 ^ 64 - 1 := fun e => hp ⟨rfl, e⟩; omega
      | release => left; rfl)
    refine h.trans ?_
    have h1 : leBytes (Salsa.runRounds dr s) = Spec.Salsa.serialize (Spec.Salsa.hash dr (rows s)) := by
      have := Salsa.ksOf_rows dr s (salsaCounter s)
      rw [Salsa.ksOf, ← hself] at this
      exact this
    have h2 : Salsa.setBlockPos s (Salsa.getBlockPos s + 1) = Salsa.at' s (salsaCounter s + 1) := by
      rw [Salsa.at']
      refine congrArg (Salsa.setBlockPos s) ?_
      apply BitVec.eq_of_toNat_eq
      rw [BitVec.toNat_add, hc, BitVec.toNat_ofNat]; rfl
    rw [h1, h2, Salsa.at'_words]

/-- Both branches occur. -/
example : (Salsa.genBlock .debug 4 (Salsa.fromRawState (Vector.replicate 16 0xFFFFFFFF#32)) = .error .overflow) ∧
    ∃ b s, Salsa.genBlock .debug 4 (Salsa.fromRawState (Vector.replicate 16 7#32)) = .ok (b, s) := by
  constructor
  · rw [C32_raw, if_pos (by decide)]
  · rw [C32_raw, if_neg (by decide)]
    exact ⟨_, _, rfl⟩

end Verif
