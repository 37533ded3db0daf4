import Verif.Proof.Edge
import Verif.Props.Sample
/-!
# Seeks into the block at the top of the counter range (C51)
-/
namespace Verif
open Spec

/-- **C51**, complete description.  With no condition on seek targets: a fresh object of any seekable cipher (Salsa and XSalsa: without
overflow checks) behaves as the edge cursor - for ever, in every history. -/
theorem C51_all_seeks (u : Nat) (c : SeekCipher) (hw : c.Wraps) :
    ∃ w, c.create u = .ok w ∧ Simulates (c.step u) (FitsAny u) (Edge.step 64 c.stream c.blocks) w 64 := by
  obtain ⟨Rel, law, wl, s₀, hc, hr⟩ := c.wrapLaw u hw
  refine ⟨_, hc, ?_⟩
  intro h hh
  obtain ⟨w', h1, -⟩ := Edge.history_spec law wl (by decide) h _ 64
    ((Edge.at_iff (by decide) _ 0).2 (At.fromCore (by decide) s₀ hr _)) hh
  exact ⟨w', h1⟩

/-- Salsa20 without overflow checks is one of the ciphers that the claim covers. -/
example : ∃ w, (SeekCipher.salsa .release 10 (Sample.bytes 32 0) (Sample.bytes 8 9)).create 64 = .ok w :=
  (C51_all_seeks 64 (.salsa .release 10 (Sample.bytes 32 0) (Sample.bytes 8 9)) rfl).imp fun _ h => h.1

/-- **C51**, reuse.  After any history, a seek to byte `r` of the block with the largest counter, `0 < r < 64`, is accepted; the next
`64 - r` bytes are the rest of that block, and the bytes after them are the keystream from offset 0 - the bytes that a fresh
object starts with. -/
theorem C51_reuse (u : Nat) (c : SeekCipher) (hw : c.Wraps) (w : c.Obj u) (hc : c.create u = .ok w) (h : List (ChaCha.Env × SeekOp))
    (hh : ∀ e ∈ h, FitsAny u e.2) (x y : ChaCha.Env) (r n : Nat) (hr : 0 < r) (hr' : r < 64) (hn : n ≤ 64 * c.blocks)
    (buf : List U8) (hbuf : buf.length = 64 - r + n) (hlen : buf.length < 2 ^ u) :
    ∃ os w', runHistory (c.step u) (h ++ [(x, .seek (64 * c.blocks + r)), (y, .io (.write buf))]) w =
      .ok (os ++ [.done (.ok ()), .data (.ok ()) ((c.block c.blocks).toList.drop r ++ window c.stream 0 n)], w') := by
  obtain ⟨w₀, hc', hs⟩ := C51_all_seeks u c hw
  rw [hc] at hc'
  cases hc'
  obtain ⟨w', h1⟩ := hs (h ++ [(x, .seek (64 * c.blocks + r)), (y, .io (.write buf))]) (by
    intro e he
    rcases List.mem_append.1 he with he | he
    · exact hh e he
    · simp only [List.mem_cons, List.not_mem_nil, or_false] at he
      rcases he with rfl | rfl
      · trivial
      · exact hlen)
  refine ⟨(Cursor.run (Edge.step 64 c.stream c.blocks) (h.map (·.2)) 64).1, w', h1.trans ?_⟩
  rw [List.map_append, Cursor.run_append]
  generalize Cursor.run (Edge.step 64 c.stream c.blocks) (h.map (·.2)) 64 = p
  refine congrArg (fun l => Except.ok (p.1 ++ l, w')) ?_
  have a4 : Within (some (64 + 64 * c.blocks)) (r + buf.length) := by
    intro L e; cases e; omega
  have e1 : Edge.step 64 c.stream c.blocks p.2 (.seek (64 * c.blocks + r)) = (.done (.ok ()), r) := by
    simp only [Edge.step]
    rw [if_neg (by omega), if_pos (by omega), Nat.add_sub_cancel_left]
  have e2 : Edge.step 64 c.stream c.blocks r (.io (.write buf)) =
      (.data (.ok ()) (window (edgeStream 64 c.stream c.blocks) r buf.length), r + buf.length) := by
    simp only [Edge.step, Cursor.io]
    rw [if_pos a4]
  simp only [List.map_cons, List.map_nil, Cursor.run, e1, e2]
  refine congrArg (fun l => [Obs.done (.ok ()), Obs.data (.ok ()) l]) ?_
  have hlast : (c.block c.blocks).toList.drop r = window (edgeStream 64 c.stream c.blocks) r (64 - r) := by
    have e : c.block c.blocks = Edge.shiftKs c.block c.blocks 0 := rfl
    rw [e, block_window (Edge.shiftKs c.block c.blocks) (by decide), window_drop, Nat.mul_zero, Nat.zero_add, Edge.stream_shift]
    rfl
  rw [hlast, hbuf, window_add, show r + (64 - r) = 64 + 0 by omega, Edge.window_shift]

/-- The IETF cipher at 256 GiB: a seek to byte 61 of the forbidden block, then 5 bytes: 3 of that block, then the first two of the stream. -/
example : ∃ w w' os, Sample.chacha20.create 64 = .ok w ∧
    runHistory (Sample.chacha20.step 64)
      (Sample.history ++ [(Sample.avx2, .seek (64 * Sample.chacha20.blocks + 61)), (Sample.soft, .io (.write [0, 0, 0, 0, 0]))]) w =
      .ok (os ++ [.done (.ok ()), .data (.ok ()) ((Sample.chacha20.block (2 ^ 32 - 1)).toList.drop 61 ++
        window Sample.chacha20.stream 0 2)], w') := by
  obtain ⟨w, hc, -⟩ := C51_all_seeks 64 Sample.chacha20 trivial
  obtain ⟨os, w', h⟩ := C51_reuse 64 Sample.chacha20 trivial w hc Sample.history (by
    intro e he
    have := Sample.history_allowed Sample.chacha20 e he
    revert this
    cases e.2 with
    | io op => exact id
    | seek q => exact fun _ => trivial
    | pos m => exact fun _ => trivial) Sample.avx2 Sample.soft 61 2 (by decide) (by decide) (by decide) [0, 0, 0, 0, 0] rfl (by decide)
  exact ⟨w, w', os, hc, h⟩

/-- **C51**, Salsa and XSalsa with overflow checks: the same seek panics, whatever the object has been through. -/
theorem C51_salsa_panics (u : Nat) (c : SeekCipher) (hc : ¬ c.Wraps) (w : c.Obj u) (x : ChaCha.Env) (r : Nat) (hr : 0 < r) (hr' : r < 64) :
    c.step u x w (.seek (64 * c.blocks + r)) = .error .overflow := by
  have main : ∀ (dr : Nat) (w : Wrapper 64 Salsa.State),
      Wrapper.trySeek (Salsa.core ChaCha.Env u .debug dr) x w (64 * (2 ^ 64 - 1) + r) = .error .overflow := by
    intro dr w
    unfold Wrapper.trySeek
    have hb : (64 * (2 ^ 64 - 1) + r) / 64 = 2 ^ 64 - 1 := by omega
    have hm : (64 * (2 ^ 64 - 1) + r) % 64 = r := by omega
    rw [hb, hm]
    have hp : Salsa.genBlock .debug dr (Salsa.setBlockPos w.core (BitVec.ofNat 64 (2 ^ 64 - 1))) = .error .overflow := by
      unfold Salsa.genBlock
      rw [Salsa.getBlockPos_setBlockPos]
      rfl
    have h1 : ¬ 2 ^ 64 - 1 ≥ 2 ^ (Salsa.core ChaCha.Env u .debug dr).ctrBits :=
      (by decide : ¬ 2 ^ 64 - 1 ≥ 2 ^ 64)
    have h2 : ¬ r = 0 := by omega
    rw [if_neg h1, if_neg h2]
    simp only [Salsa.core, Salsa.soft, Backend.call, Backend.ofBlock, writeBlockClosure, Prog.run, hp, bind, Except.bind]
  cases c with
  | chacha => exact absurd trivial hc
  | chachaLegacy => exact absurd trivial hc
  | xchacha => exact absurd trivial hc
  | salsa m dr key nonce =>
    cases m with
    | release => exact absurd rfl hc
    | debug => exact (congrArg (fun e => e >>= _) (main dr w)).trans rfl
  | xsalsa m dr key nonce =>
    cases m with
    | release => exact absurd rfl hc
    | debug => exact (congrArg (fun e => e >>= _) (main dr w)).trans rfl

/-- `C51_salsa_panics` applies to objects that exist. -/
example : ∃ os w, (SeekCipher.salsa .debug 10 (Sample.bytes 32 0) (Sample.bytes 8 9)).Reach 64 [] os w ∧
    (SeekCipher.salsa .debug 10 (Sample.bytes 32 0) (Sample.bytes 8 9)).step 64 Sample.soft w
      (.seek (64 * (2 ^ 64 - 1) + 1)) = .error .overflow := by
  obtain ⟨w, hw⟩ := (SeekCipher.salsa .debug 10 (Sample.bytes 32 0) (Sample.bytes 8 9)).reach_exists 64 [] (by intro e he; cases he)
  exact ⟨_, w, hw, C51_salsa_panics 64 _ (by intro h; cases (show Mode.debug = .release from h)) w Sample.soft 1 (by decide) (by decide)⟩

end Verif
