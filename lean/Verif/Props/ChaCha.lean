import Verif.Proof.ChaChaIndep
import Verif.Proof.Stream
import Verif.Props.Sample
/-!
# ChaCha: keystream, backends, selection (C01, C02, C03)

`u` is the width of `usize`, `dr` the number of double rounds (4, 6, 10 for ChaCha8/12/20), `Env` the circumstances of a call
(build configuration, detected CPU features).
-/
namespace Verif.ChaCha
open Spec

/-! ## C01 -/

/-- Keystream bytes of RFC 8439 ChaCha. -/
abbrev ietfStream (dr : Nat) (key : Vector U8 32) (nonce : Vector U8 12) : Nat → U8 :=
  byteStream (Spec.ChaCha.ietfBlock dr key nonce) (by decide)

/-- Keystream bytes of Bernstein's ChaCha (64-bit counter, 64-bit nonce). -/
abbrev djbStream (dr : Nat) (key : Vector U8 32) (nonce : Vector U8 8) : Nat → U8 :=
  byteStream (Spec.ChaCha.djbBlock dr key nonce) (by decide)

/-- **C01** (`ChaCha8/12/20`).  Construction succeeds, and every history of calls - each run on whatever backend - shows
the caller exactly what a cursor over the RFC 8439 keystream with limit `64 * (2^32 - 1)` bytes shows. -/
theorem C01_ietf (u dr : Nat) (key : Vector U8 32) (nonce : Vector U8 12) :
    ∃ w, cipherIetf key nonce = .ok w ∧
      IsSeekStream u (core u dr .ietf) (ietfStream dr key nonce) (2 ^ 32 - 1) w 0 := by
  refine ⟨Wrapper.fromCore (ietfState key nonce), by simp only [cipherIetf, newIetf_eq]; rfl, ?_⟩
  have hks : ksOf dr .ietf (ietfState key nonce) = Spec.ChaCha.ietfBlock dr key nonce :=
    funext fun n => ksOf_ietf dr key nonce n
  have law := seekLaw u dr .ietf (ietfState key nonce)
  rw [hks] at law
  exact law.isSeekStream (by decide) _ 0 (At.fromCore _ _ (by exact rfl) _)

/-- RFC 8439, 2.3.2: the first byte of the block with counter 1. -/
example : (Spec.ChaCha.ietfBlock 10 (Sample.bytes 32 0) #v[0, 0, 0, 9, 0, 0, 0, 0x4a, 0, 0, 0, 0] 1)[0] = 0x10 := by decide +kernel

/-- The histories spoken about include reading 70 bytes on AVX2 and seeking on the portable backend. -/
example : ∃ w os w', cipherIetf (Sample.bytes 32 0) (Sample.bytes 12 1) = .ok w ∧
    runHistory (fun x w op => Wrapper.seekStep (core 64 10 .ietf) x w op) Sample.history w = .ok (os, w') := by
  obtain ⟨w, h1, h2⟩ := C01_ietf 64 10 (Sample.bytes 32 0) (Sample.bytes 12 1)
  obtain ⟨w', h3⟩ := h2 Sample.history (Sample.history_allowed (.chacha 10 (Sample.bytes 32 0) (Sample.bytes 12 1)))
  exact ⟨w, _, w', h1, h3⟩

/-- **C01** (`ChaCha20Legacy`), with limit `64 * (2^64 - 1)` bytes. -/
theorem C01_legacy (u dr : Nat) (key : Vector U8 32) (nonce : Vector U8 8) :
    ∃ w, cipherLegacy key nonce = .ok w ∧
      IsSeekStream u (core u dr .legacy) (djbStream dr key nonce) (2 ^ 64 - 1) w 0 := by
  refine ⟨Wrapper.fromCore (legacyState key nonce), by simp only [cipherLegacy, newLegacy_eq]; rfl, ?_⟩
  have hks : ksOf dr .legacy (legacyState key nonce) = Spec.ChaCha.djbBlock dr key nonce :=
    funext fun n => ksOf_legacy dr key nonce n
  have law := seekLaw u dr .legacy (legacyState key nonce)
  rw [hks] at law
  refine law.isSeekStream (by decide) _ 0 (At.fromCore _ _ ?_ _)
  show legacyState key nonce = at' .legacy (setupState key 0 0 _ _) 0
  rw [at'_legacy]
  rfl

example : ∃ w os w', ChaCha.cipherLegacy (Sample.bytes 32 0) (Sample.bytes 8 1) = .ok w ∧
    runHistory (fun x w op => Wrapper.seekStep (ChaCha.core 64 10 .legacy) x w op) Sample.history w = .ok (os, w') := by
  obtain ⟨w, h1, h2⟩ := ChaCha.C01_legacy 64 10 (Sample.bytes 32 0) (Sample.bytes 8 1)
  obtain ⟨w', h3⟩ := h2 Sample.history (Sample.history_allowed (.chachaLegacy 10 (Sample.bytes 32 0) (Sample.bytes 8 1)))
  exact ⟨w, _, w', h1, h3⟩

/-! ## C02, C03 -/

/-- **C02**.  For every client (any sequence of single-block, parallel and tail requests, adaptive or not), every state
and every previous contents of the output buffers, each SIMD backend returns what the portable block function would
return to that client, panics exactly when it would, and leaves the same state.  (The client is told the backend's
`ParBlocksSize`: 4, 4, 16, 8.) -/
theorem C02_backends {α : Type} (dr : Nat) (V : Variant) (f : Closure 64 α) (s : State) (old : Nat → List Block)
    (hold : ∀ n, (old n).length = n) :
    Sse2.inner dr V f s = (Backend.ofBlock 4 (softGenBlock dr V)).call f s ∧
    Avx2.inner dr V f s = (Backend.ofBlock 4 (softGenBlock dr V)).call f s ∧
    Avx512.inner dr V old f s = (Backend.ofBlock 16 (softGenBlock dr V)).call f s ∧
    Neon.inner dr V f s = (Backend.ofBlock 8 (softGenBlock dr V)).call f s ∧
    (soft dr V).call f s = (Backend.ofBlock 1 (softGenBlock dr V)).call f s :=
  ⟨Sse2.inner_eq dr V f s, Avx2.inner_eq dr V f s, Avx512.inner_eq dr V old hold f s, Neon.inner_eq dr V f s, rfl⟩

/-- A client that asks for a batch, then one block: on SSE2 at a counter of `2^32 - 2`, where the batch straddles the wrap. -/
example : ∃ r, Sse2.inner 10 .ietf (fun _ => .par fun l => .block fun b => .done (b :: l))
    ((Vector.replicate 16 0).set 12 0xFFFFFFFE#32) = .ok r :=
  ⟨_, rfl⟩

/-- **C03**.  The same calls made under different circumstances (build flags, target, CPU features - even changing from call to
call) give the same observations and the same final object, for every object in every state. -/
theorem C03_selection (u dr : Nat) (V : Variant) (h₁ h₂ : List (Env × SeekOp))
    (h : h₁.map (·.2) = h₂.map (·.2)) (w : Wrapper 64 State) :
    runHistory (fun x w op => Wrapper.seekStep (core u dr V) x w op) h₁ w =
      runHistory (fun x w op => Wrapper.seekStep (core u dr V) x w op) h₂ w :=
  history_env u dr V h₁ h₂ h w

/-- Two histories with the same calls on different backends. -/
example : [(Sample.avx2, SeekOp.seek 5)] ≠ [(Sample.soft, .seek 5)] ∧
    [(Sample.avx2, SeekOp.seek 5)].map (·.2) = [(Sample.soft, .seek 5)].map (·.2) := by
  refine ⟨fun h => ?_, rfl⟩
  simp only [List.cons.injEq, Prod.mk.injEq] at h
  exact absurd (congrArg (fun e : Env => e.build.backend) h.1.1) (by decide)

end Verif.ChaCha
