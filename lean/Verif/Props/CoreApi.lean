import Verif.Proof.CoreApi
import Verif.Props.Sample
/-!
# The block-level interface of the cores (C59)
-/
namespace Verif
open Spec

/-- Does stepping past the last counter value panic?  Only Salsa's `+ 1` in a build with overflow checks. -/
def SeekCipher.checked : SeekCipher → Bool
  | .salsa m .. => m == .debug
  | .xsalsa m .. => m == .debug
  | _ => false

/-- The core made by `new`, with what is known about it. -/
theorem SeekCipher.ctrLaw (u : Nat) (c : SeekCipher) : ∃ Rel, CtrLaw (c.core u) u c.ctrBits c.checked c.block Rel ∧
    SeekLaw (c.core u) u c.block Rel c.blocks ∧ ∃ s₀, c.create u = .ok (Wrapper.fromCore s₀) ∧ Rel s₀ 0 := by
  cases c with
  | chacha dr key nonce =>
    have l1 := ChaCha.ctrLaw u dr .ietf (ChaCha.ietfState key nonce)
    have l2 := ChaCha.seekLaw u dr .ietf (ChaCha.ietfState key nonce)
    rw [show ChaCha.ksOf dr .ietf (ChaCha.ietfState key nonce) = Spec.ChaCha.ietfBlock dr key nonce from
      funext fun n => ChaCha.ksOf_ietf dr key nonce n] at l1 l2
    refine ⟨_, l1, l2, ChaCha.ietfState key nonce, ?_, rfl⟩
    show ChaCha.cipherIetf key nonce = _
    simp only [ChaCha.cipherIetf, ChaCha.newIetf_eq]; rfl
  | chachaLegacy dr key nonce =>
    have l1 := ChaCha.ctrLaw u dr .legacy (ChaCha.legacyState key nonce)
    have l2 := ChaCha.seekLaw u dr .legacy (ChaCha.legacyState key nonce)
    rw [show ChaCha.ksOf dr .legacy (ChaCha.legacyState key nonce) = Spec.ChaCha.djbBlock dr key nonce from
      funext fun n => ChaCha.ksOf_legacy dr key nonce n] at l1 l2
    refine ⟨_, l1, l2, ChaCha.legacyState key nonce, ?_, ?_⟩
    · show ChaCha.cipherLegacy key nonce = _
      simp only [ChaCha.cipherLegacy, ChaCha.newLegacy_eq]; rfl
    · show ChaCha.legacyState key nonce = ChaCha.at' .legacy (ChaCha.setupState key 0 0 _ _) 0
      rw [ChaCha.at'_legacy]
      rfl
  | xchacha dr key nonce =>
    have l1 := ChaCha.ctrLaw u dr .ietf (ChaCha.ietfState (Spec.ChaCha.xSubkey dr key nonce) (Spec.ChaCha.xNonce nonce))
    have l2 := ChaCha.seekLaw u dr .ietf (ChaCha.ietfState (Spec.ChaCha.xSubkey dr key nonce) (Spec.ChaCha.xNonce nonce))
    rw [show ChaCha.ksOf dr .ietf (ChaCha.ietfState (Spec.ChaCha.xSubkey dr key nonce) (Spec.ChaCha.xNonce nonce)) =
      Spec.ChaCha.xBlock dr key nonce from funext fun n => ChaCha.ksOf_ietf dr _ _ n] at l1 l2
    refine ⟨_, l1, l2, ChaCha.ietfState (Spec.ChaCha.xSubkey dr key nonce) (Spec.ChaCha.xNonce nonce), ?_, rfl⟩
    show ChaCha.cipherX dr key nonce = _
    simp only [ChaCha.cipherX, ChaCha.newX_eq, ChaCha.hchacha_eq]
    rw [ChaCha.newIetf_eq]; rfl
  | salsa m dr key nonce =>
    have l1 := Salsa.ctrLaw ChaCha.Env u m dr (Salsa.new key nonce)
    have l2 := Salsa.seekLaw ChaCha.Env u m dr (Salsa.new key nonce)
    rw [show Salsa.ksOf dr (Salsa.new key nonce) = Spec.Salsa.block dr key nonce from
      funext fun n => Salsa.ksOf_new dr key nonce n] at l1 l2
    exact ⟨_, l1, l2, Salsa.new key nonce, rfl, Salsa.rel_new key nonce⟩
  | xsalsa m dr key nonce =>
    have l1 := Salsa.ctrLaw ChaCha.Env u m dr (Salsa.newX dr key nonce)
    have l2 := Salsa.seekLaw ChaCha.Env u m dr (Salsa.newX dr key nonce)
    rw [show Salsa.ksOf dr (Salsa.newX dr key nonce) = Spec.Salsa.xBlock dr key nonce from
      funext fun n => by rw [Salsa.newX, Salsa.ksOf_new, Salsa.hsalsa_eq]; rfl] at l1 l2
    exact ⟨_, l1, l2, Salsa.newX dr key nonce, rfl, Salsa.rel_new _ _⟩

/-- A history across the end of the counter: position it on the last block, ask for three blocks, look at the position. -/
def Sample.coreHistory (k : Nat) : List (ChaCha.Env × SeekCoreOp 64) :=
  [(Sample.avx2, .setPos (2 ^ k - 1)), (Sample.avx2, .io .remaining), (Sample.avx2, .io (.writeBlocks 3)), (Sample.soft, .getPos)]

/-- **C59**.  The core of every seekable cipher, used directly, is a block counter: whatever is called on it in whatever order, each call
under its own choice of backend, the caller sees the blocks of the published keystream with the counter taken modulo `2^32` or
`2^64`, positions and remaining blocks accordingly, and a panic exactly where a Salsa core with overflow checks steps past its last
counter value. -/
theorem C59_seekable (u : Nat) (c : SeekCipher) : ∃ s₀, c.create u = .ok (Wrapper.fromCore s₀) ∧
    ∀ h : List (ChaCha.Env × SeekCoreOp 64), (∀ e ∈ h, Counter.Fits c.ctrBits e.2) →
      (runCalls (c.core u).call h s₀).map (·.1) = (Counter.run (Counter.step u c.ctrBits c.checked c.block) (h.map (·.2)) 0).map (·.1) := by
  obtain ⟨Rel, law, _, s₀, hc, hr⟩ := c.ctrLaw u
  refine ⟨s₀, hc, fun h hh => ?_⟩
  have := law.run h s₀ 0 hr (Nat.two_pow_pos _) hh
  cases hrun : Counter.run (Counter.step u c.ctrBits c.checked c.block) (h.map (·.2)) 0 with
  | error e =>
    rw [hrun] at this
    rw [show runCalls (c.core u).call h s₀ = .error e from this]
    rfl
  | ok r =>
    obtain ⟨os, n⟩ := r
    rw [hrun] at this
    obtain ⟨s, hs, _⟩ := this
    rw [hs]
    rfl

/-- The hypotheses of `C59` hold for that history; ChaCha20 shows block `2^32 - 1` followed by blocks 0 and 1 and is then at 2. -/
example : (∀ e ∈ Sample.coreHistory 32, Counter.Fits Sample.chacha20.ctrBits e.2) ∧ Sample.chacha20.checked = false ∧
    Counter.run (Counter.step 64 Sample.chacha20.ctrBits Sample.chacha20.checked Sample.chacha20.block) ((Sample.coreHistory 32).map (·.2)) 0 =
      .ok ([.unit, .remaining (some 0), .blocks [(Sample.chacha20.block (2 ^ 32 - 1)).toList, (Sample.chacha20.block 0).toList,
        (Sample.chacha20.block 1).toList], .pos 2], 2) := by
  refine ⟨?_, rfl, rfl⟩
  intro e he
  simp only [Sample.coreHistory, List.mem_cons, List.not_mem_nil, or_false] at he
  rcases he with rfl | rfl | rfl | rfl
  · show 2 ^ 32 - 1 < 2 ^ 32; omega
  all_goals trivial

/-- **C59**.  ChaCha cores never panic, and neither do Salsa cores in a build without overflow checks. -/
theorem C59_no_panic (u : Nat) (c : SeekCipher) (hc : c.checked = false) (s₀ : (c.core u).σ) (hs : c.create u = .ok (Wrapper.fromCore s₀))
    (h : List (ChaCha.Env × SeekCoreOp 64)) (hh : ∀ e ∈ h, Counter.Fits c.ctrBits e.2) :
    ∃ os s, runCalls (c.core u).call h s₀ = .ok (os, s) := by
  obtain ⟨s₁, h1, h2⟩ := C59_seekable u c
  rw [hs] at h1
  simp only [Except.ok.injEq, Wrapper.fromCore, Wrapper.mk.injEq, and_true] at h1
  rw [← h1] at h2
  have h3 := h2 h hh
  have key : ∀ (l : List (SeekCoreOp 64)) n, ∃ r, Counter.run (Counter.step u c.ctrBits c.checked c.block) l n = .ok r := by
    intro l
    induction l with
    | nil => intro n; exact ⟨_, rfl⟩
    | cons op l ih =>
      intro n
      have : ∃ o n', Counter.step u c.ctrBits c.checked c.block n op = .ok (o, n') := by
        have hm : ∀ k, Counter.move c.ctrBits c.checked n k = .ok ((n + k) % 2 ^ c.ctrBits) := by
          intro k
          rw [Counter.move, hc]
          rfl
        cases op with
        | io op => cases op <;> simp only [Counter.step, Counter.io, hm, Except.map] <;> exact ⟨_, _, rfl⟩
        | getPos => exact ⟨_, _, rfl⟩
        | setPos b => exact ⟨_, _, rfl⟩
      obtain ⟨o, n', e⟩ := this
      obtain ⟨r, hr⟩ := ih n'
      exact ⟨_, by simp only [Counter.run, e, hr, Except.map]; rfl⟩
  obtain ⟨r, hr⟩ := key (h.map (·.2)) 0
  rw [hr] at h3
  cases hrun : runCalls (c.core u).call h s₀ with
  | error e => rw [hrun] at h3; nomatch h3
  | ok r => exact ⟨r.1, r.2, rfl⟩

/-- XSalsa20 with overflow checks panics on the same calls. -/
example : Counter.run (Counter.step 64 Sample.xsalsa20.ctrBits Sample.xsalsa20.checked Sample.xsalsa20.block)
    ((Sample.coreHistory 64).map (·.2)) 0 = .error .overflow := rfl

/-- **C59** (`try_apply_keystream_partial`).  After any calls that brought the counter to `n`, consuming the core on a message of any
length encrypts it with the keystream from byte `64 n` on, if that much keystream is left, and otherwise reports an error and leaves the
message alone. -/
theorem C59_tail (u : Nat) (c : SeekCipher) (s₀ s : (c.core u).σ) (hs : c.create u = .ok (Wrapper.fromCore s₀))
    (h : List (ChaCha.Env × SeekCoreOp 64)) (hh : ∀ e ∈ h, Counter.Fits c.ctrBits e.2) (os : List CoreObs)
    (hrun : runCalls (c.core u).call h s₀ = .ok (os, s)) (x : ChaCha.Env) (data : List U8) (hlen : data.length < 2 ^ u) :
    ∃ n, Counter.run (Counter.step u c.ctrBits c.checked c.block) (h.map (·.2)) 0 = .ok (os, n) ∧ n < 2 ^ c.ctrBits ∧
      (c.core u).tryApplyPartial x s data = .ok (if 64 * n + data.length ≤ 64 * c.blocks then
        (.ok (), List.zipWith (· ^^^ ·) data (window c.stream (64 * n) data.length)) else (.error .streamCipherError, data)) := by
  obtain ⟨Rel, law, law', s₁, hc, hr⟩ := c.ctrLaw u
  rw [hs] at hc
  simp only [Except.ok.injEq, Wrapper.fromCore, Wrapper.mk.injEq, and_true] at hc
  rw [← hc] at hr
  have := law.run h s₀ 0 hr (Nat.two_pow_pos _) hh
  cases hr' : Counter.run (Counter.step u c.ctrBits c.checked c.block) (h.map (·.2)) 0 with
  | error e =>
    rw [hr'] at this
    rw [show runCalls (c.core u).call h s₀ = .error e from this] at hrun
    nomatch hrun
  | ok r =>
    obtain ⟨os', n⟩ := r
    rw [hr'] at this
    obtain ⟨s', e, hrel, hn⟩ := this
    rw [e] at hrun
    simp only [Except.ok.injEq, Prod.mk.injEq] at hrun
    obtain ⟨rfl, rfl⟩ := hrun
    refine ⟨n, rfl, hn, ?_⟩
    have := law'.tryPartial (by decide) x s' n hrel (by intro L e; cases e; show n ≤ 2 ^ c.ctrBits - 1; omega) data hlen
    rw [this]
    by_cases hle : 64 * n + data.length ≤ 64 * c.blocks
    · rw [if_pos hle, if_pos (by intro L e; cases e; exact hle)]; rfl
    · rw [if_neg hle, if_neg (fun h => hle (h _ rfl))]

/-- The hypotheses of `C59_tail` hold together: some history runs (here the one above). -/
example : ∃ s₀ os s, Sample.chacha20.create 64 = .ok (Wrapper.fromCore s₀) ∧
    runCalls (Sample.chacha20.core 64).call (Sample.coreHistory 32) s₀ = .ok (os, s) := by
  obtain ⟨s₀, h0, _⟩ := C59_seekable 64 Sample.chacha20
  refine ⟨s₀, ?_⟩
  obtain ⟨os, s, h⟩ := C59_no_panic 64 Sample.chacha20 rfl s₀ h0 (Sample.coreHistory 32) (by
    intro e he
    simp only [Sample.coreHistory, List.mem_cons, List.not_mem_nil, or_false] at he
    rcases he with rfl | rfl | rfl | rfl
    · show 2 ^ 32 - 1 < 2 ^ 32; omega
    all_goals trivial)
  exact ⟨os, s, h0, h⟩

/-- **C59** (HC-256). -/
theorem C59_hc256 (m : Mode) (u : Nat) (hu : 16 ≤ u) (key iv : Vector U8 32) : ∃ s₀, Hc256.new m u key iv = .ok s₀ ∧
    ∀ h : List (Unit × CoreOp 4), ∃ os n s, Counter.run (Counter.plain (Spec.Hc256.block key iv)) (h.map (·.2)) 0 = .ok (os, n) ∧
      runCalls (Hc256.core m u).call h s₀ = .ok (os, s) ∧
      ∀ data : List U8, data.length < 2 ^ u → (Hc256.core m u).tryApplyPartial () s data =
        .ok (.ok (), List.zipWith (· ^^^ ·) data (window (byteStream (Spec.Hc256.block key iv) (by decide)) (4 * n) data.length)) := by
  obtain ⟨s₀, h0, hr⟩ := Hc256.new_eq m hu key iv
  refine ⟨s₀, h0, fun h => ?_⟩
  obtain ⟨os, n, s, h1, h2, h3⟩ := (Hc256.coreLaw m hu key iv).plainRun h s₀ 0 hr
  refine ⟨os, n, s, h1, h2, fun data hlen => ?_⟩
  rw [(Hc256.coreLaw m hu key iv).tryPartial (by decide) () s n h3 (by intro L e; cases e) data hlen, if_pos (by intro L e; cases e)]
  rfl

/-- Three words on the core, then a tail of five bytes. -/
example : ∃ s₀ os n s, Hc256.new .debug 64 (Sample.bytes 32 0) (Sample.bytes 32 7) = .ok s₀ ∧
    Counter.run (Counter.plain (Spec.Hc256.block (Sample.bytes 32 0) (Sample.bytes 32 7))) [.writeBlocks 3] 0 = .ok (os, n) ∧ n = 3 ∧
    runCalls (Hc256.core .debug 64).call [((), .writeBlocks 3)] s₀ = .ok (os, s) := by
  obtain ⟨s₀, h0, h1⟩ := C59_hc256 .debug 64 (by decide) (Sample.bytes 32 0) (Sample.bytes 32 7)
  obtain ⟨os, n, s, h2, h3, _⟩ := h1 [((), .writeBlocks 3)]
  refine ⟨s₀, os, n, s, h0, h2, ?_, h3⟩
  have h4 : Except.map Prod.snd (Counter.run (Counter.plain (Spec.Hc256.block (Sample.bytes 32 0) (Sample.bytes 32 7))) [.writeBlocks 3] 0) = .ok 3 := rfl
  have h5 : Except.map Prod.snd (Counter.run (Counter.plain (Spec.Hc256.block (Sample.bytes 32 0) (Sample.bytes 32 7))) [.writeBlocks 3] 0) = .ok n :=
    congrArg (Except.map Prod.snd) h2
  exact Except.ok.inj (h5.symm.trans h4)

/-- **C59** (Rabbit without and with an IV). -/
theorem C59_rabbit (m : Mode) (u : Nat) (key : Vector U8 16) (iv : Option (Vector U8 8)) :
    ∃ s₀, (Rabbit.setupKey m key >>= fun s => match iv with | none => .ok s | some iv => Rabbit.setupIv m iv s) = .ok s₀ ∧
    ∀ h : List (Unit × CoreOp 16), ∃ os n s,
      Counter.run (Counter.plain (Spec.Rabbit.block (match iv with
        | none => Spec.Rabbit.keySetup key | some iv => Spec.Rabbit.ivSetup iv (Spec.Rabbit.keySetup key)))) (h.map (·.2)) 0 = .ok (os, n) ∧
      runCalls (Rabbit.core m).call h s₀ = .ok (os, s) ∧
      ∀ data : List U8, data.length < 2 ^ u → (Rabbit.core m).tryApplyPartial () s data =
        .ok (.ok (), List.zipWith (· ^^^ ·) data (window (byteStream (Spec.Rabbit.block (match iv with
          | none => Spec.Rabbit.keySetup key | some iv => Spec.Rabbit.ivSetup iv (Spec.Rabbit.keySetup key))) (by decide)) (16 * n) data.length)) := by
  have main : ∀ (i0 : Spec.Rabbit.Inner) (s₀ : Rabbit.State), Rabbit.Rel i0 s₀ 0 →
      ∀ h : List (Unit × CoreOp 16), ∃ os n s, Counter.run (Counter.plain (Spec.Rabbit.block i0)) (h.map (·.2)) 0 = .ok (os, n) ∧
      runCalls (Rabbit.core m).call h s₀ = .ok (os, s) ∧
      ∀ data : List U8, data.length < 2 ^ u → (Rabbit.core m).tryApplyPartial () s data =
        .ok (.ok (), List.zipWith (· ^^^ ·) data (window (byteStream (Spec.Rabbit.block i0) (by decide)) (16 * n) data.length)) := by
    intro i0 s₀ hr h
    obtain ⟨os, n, s, h1, h2, h3⟩ := (Rabbit.coreLaw m u i0).plainRun h s₀ 0 hr
    refine ⟨os, n, s, h1, h2, fun data hlen => ?_⟩
    rw [(Rabbit.coreLaw m u i0).tryPartial (by decide) () s n h3 (by intro L e; cases e) data hlen, if_pos (by intro L e; cases e)]
    rfl
  cases iv with
  | none => exact ⟨Rabbit.setupKeyPure key, by rw [Rabbit.setupKey_eq]; rfl, main _ _ (Rabbit.rel_keyOnly key)⟩
  | some iv =>
    refine ⟨Rabbit.next4Pure (Rabbit.ivXor iv (Rabbit.setupKeyPure key)), ?_, main _ _ (Rabbit.rel_iv key iv)⟩
    rw [Rabbit.setupKey_eq, Rabbit.ok_bind]
    exact Rabbit.setupIv_eq ..

example : ∃ s₀ os s, Rabbit.setupKey .debug (Sample.bytes 16 0) = .ok s₀ ∧
    runCalls (Rabbit.core .debug).call [((), .writeBlocks 3), ((), .remaining)] s₀ = .ok (os, s) := by
  obtain ⟨s₀, h0, h1⟩ := C59_rabbit .debug 64 (Sample.bytes 16 0) none
  obtain ⟨os, n, s, _, h3, _⟩ := h1 [((), .writeBlocks 3), ((), .remaining)]
  refine ⟨s₀, os, s, ?_, h3⟩
  revert h0
  cases Rabbit.setupKey .debug (Sample.bytes 16 0) with
  | ok s => exact id
  | error p => exact fun h => nomatch h


end Verif
