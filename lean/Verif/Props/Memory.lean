import Verif.Proof.Memory
import Verif.Props.Sample
/-!
# Encryption in place and from buffer to buffer (C61)
-/
namespace Verif
open Spec

theorem SeekCipher.plain (u : Nat) (c : SeekCipher) : Plain (c.core u).toCore := by
  cases c
  · exact ChaCha.plain u _ _
  · exact ChaCha.plain u _ _
  · exact ChaCha.plain u _ _
  · exact Salsa.plain _ u _ _
  · exact Salsa.plain _ u _ _

theorem refines_wrapper {bs : Nat} {χ : Type} {C : Core bs χ} (hp : Plain C) (hbs : 0 < bs) (x : χ) (w : Wrapper bs C.σ) (b : InOutBuf) (mem : Mem)
    (r : Except CipherError Unit) (out : List U8) (w' : Wrapper bs C.σ) (hb : b.Ok)
    (h : w.step C x (.apply (mem.read b.inp b.len)) = .ok (.data r out, w')) :
    w.tryApplyMem C x b mem = .ok (r, memAfter mem b.out out r, w') := by
  have hrel := tryApplyMem_rel hp hbs x w b hb mem
  simp only [Wrapper.step, bind, Except.bind, pure, Except.pure] at h
  generalize w.tryApply C x (mem.read b.inp b.len) = y at hrel h
  generalize w.tryApplyMem C x b mem = z at hrel ⊢
  cases hrel with
  | error e => cases h
  | @ok a b' hab =>
    simp only [Except.ok.injEq, Prod.mk.injEq, Obs.data.injEq] at h
    obtain ⟨⟨rfl, rfl⟩, rfl⟩ := h
    obtain ⟨a1, a2, a3⟩ := a
    obtain ⟨h1, h2, h3⟩ := hab
    dsimp only at h1 h2 h3 ⊢
    rw [h1, h2, h3]

theorem SeekCipher.refines (u : Nat) (c : SeekCipher) :
    Refines (fun x w b m => Wrapper.tryApplyMem (c.core u).toCore x w b m) (c.step u) .io :=
  fun x w b mem r out w' hb h => refines_wrapper (c.plain u) (by decide) x w b mem r out w' hb h

theorem PlainCipher.refines (u : Nat) (c : PlainCipher) : Refines (c.applyMem u) (c.step u) id := by
  intro x w b mem r out w' hb h
  cases c with
  | hc256 m key iv => exact refines_wrapper (Hc256.plain m u) (by decide) x w b mem r out w' hb h
  | rabbitKeyOnly m key => exact refines_wrapper (Rabbit.plain m) (by decide) x w b mem r out w' hb h
  | rabbit m key iv => exact refines_wrapper (Rabbit.plain m) (by decide) x w b mem r out w' hb h
  | rc4 key hk =>
    have h : (Except.ok (Obs.data (.ok ()) (Rc4.applyKeystream (mem.read b.inp b.len) w).1, (Rc4.applyKeystream (mem.read b.inp b.len) w).2) :
      Except Panic (Obs × Rc4.State)) = .ok (.data r out, w') := h
    simp only [Except.ok.injEq, Prod.mk.injEq, Obs.data.injEq] at h
    obtain ⟨⟨rfl, rfl⟩, rfl⟩ := h
    show Except.ok (Except.ok (), (Rc4.applyLoop b.len b.inp b.out mem w).1, (Rc4.applyLoop b.len b.inp b.out mem w).2) = _
    rw [Rc4.applyLoop_eq b.len b.inp b.out mem w hb]
    rfl

/-- What the calls of a seekable cipher that have no buffer do to a cursor. -/
def SeekCipher.navStep (c : SeekCipher) (p : Nat) : Nav → Obs × Nat
  | .seek q => if Within (some (64 * c.blocks)) q then (.done (.ok ()), q) else (.done (.error .overflowError), p)
  | .pos snMax => if (p + 64 - 1) / 64 * 64 ≤ snMax then (.num (.ok p), p) else (.num (.error .overflowError), p)

/-- Seeks into the block beyond the end are left out (see C51). -/
def SeekCipher.NavOk (c : SeekCipher) : Nav → Prop
  | .seek q => q ≤ 64 * c.blocks ∨ 64 * (c.blocks + 1) ≤ q
  | .pos _ => True

/-- The hypotheses of `C61` are satisfiable: seek, encrypt in place across three blocks, decrypt into another buffer. -/
def Sample.memHistory : List (ChaCha.Env × MemCall Nav) :=
  [(avx2, .other (.seek 5)), (avx2, .inout ⟨1000, 1000, 150⟩), (soft, .other (.seek 5)), (soft, .b2b 1000 150 2000 150), (soft, .b2b 0 3 10 4)]

theorem Sample.memHistory_fits : ∀ e ∈ Sample.memHistory, MemCursor.Fits 64 Sample.chacha20.NavOk e.2 := by
  intro e he
  simp only [Sample.memHistory, List.mem_cons, List.not_mem_nil, or_false] at he
  rcases he with rfl | rfl | rfl | rfl | rfl
  · exact Or.inl (by decide)
  · exact ⟨Or.inl rfl, by decide⟩
  · exact Or.inl (by decide)
  · exact ⟨Or.inl (by decide), by decide, by decide⟩
  · exact ⟨Or.inl (by decide), by decide, by decide⟩

/-- **C61**.  Any history of calls on buffers in memory - in place, from one buffer to another, plain keystream, seeks - mixed with
other stores: results and the whole memory are those of a cursor that XORs the stream onto the input as it was before the call. -/
theorem C61_seekable (u : Nat) (c : SeekCipher) (mem : Mem) (h : List (ChaCha.Env × MemCall Nav))
    (hh : ∀ e ∈ h, MemCursor.Fits u c.NavOk e.2) :
    ∃ w₀ os w mem', c.create u = .ok w₀ ∧ runHistory (c.memStep u) h (w₀, mem) = .ok (os, w, mem') ∧
      os = (MemCursor.run (MemCursor.step c.stream (some (64 * c.blocks)) c.navStep) (h.map (·.2)) (0, mem)).1 ∧
      mem' = (MemCursor.run (MemCursor.step c.stream (some (64 * c.blocks)) c.navStep) (h.map (·.2)) (0, mem)).2.2 := by
  obtain ⟨w₀, hc, hs⟩ := c.isSeekStream u
  have hnav : (fun p i => Cursor.step 64 c.stream (some (64 * c.blocks)) p (Nav.op i)) = c.navStep := by
    funext p i; cases i <;> rfl
  have hok : (fun i => c.Allowed u (Nav.op i)) = c.NavOk := by
    funext i; cases i <;> rfl
  have := memHistory_spec (nav := Nav.op) (c.ioLike u) (c.refines u) h w₀ 0 mem hs (by rw [hok]; exact hh)
  rw [hnav] at this
  obtain ⟨w, hw, -⟩ := this
  exact ⟨w₀, _, w, _, hc, hw, rfl, rfl⟩

/-- The plaintext comes back in the second buffer. -/
example (mem : Mem) : ∃ w₀ os w mem', Sample.chacha20.create 64 = .ok w₀ ∧
    runHistory (Sample.chacha20.memStep 64) Sample.memHistory (w₀, mem) = .ok (os, w, mem') ∧
    mem' (2000 + 149) = mem (1000 + 149) ∧ os.getLast? = some (.done (.error .streamCipherError)) := by
  obtain ⟨w₀, os, w, mem', h1, h2, h3, h4⟩ := C61_seekable 64 Sample.chacha20 mem Sample.memHistory Sample.memHistory_fits
  refine ⟨w₀, os, w, mem', h1, h2, ?_, ?_⟩
  · rw [h4]
    have e1 : Within (some (64 * Sample.chacha20.blocks)) 5 := by decide
    have e2 : Within (some (64 * Sample.chacha20.blocks)) (5 + 150) := by decide
    simp only [Sample.memHistory, List.map_cons, List.map_nil, MemCursor.run, MemCursor.step, SeekCipher.navStep, e1, e2, if_true, and_self]
    simp [MemCursor.put, BitVec.xor_assoc]
  · rw [h3]
    have e1 : Within (some (64 * Sample.chacha20.blocks)) 5 := by decide
    have e2 : Within (some (64 * Sample.chacha20.blocks)) (5 + 150) := by decide
    simp only [Sample.memHistory, List.map_cons, List.map_nil, MemCursor.run, MemCursor.step, SeekCipher.navStep, e1, e2, if_true, and_self]
    rfl

/-- **C61** (HC-256, Rabbit and RC4). -/
theorem C61_plain (u : Nat) (hu : 16 ≤ u) (c : PlainCipher) (mem : Mem) (h : List (Unit × MemCall Empty))
    (hh : ∀ e ∈ h, MemCursor.Fits u (fun _ => True) e.2) :
    ∃ w₀ os w mem', c.create u = .ok w₀ ∧ runHistory (c.memStep u) h (w₀, mem) = .ok (os, w, mem') ∧
      os = (MemCursor.run (MemCursor.step c.stream none fun _ i => i.elim) (h.map (·.2)) (0, mem)).1 ∧
      mem' = (MemCursor.run (MemCursor.step c.stream none fun _ i => i.elim) (h.map (·.2)) (0, mem)).2.2 := by
  obtain ⟨w₀, hc, hs⟩ := c.isStream u hu
  have hnav : (fun (p : Nat) (i : Empty) => Cursor.io c.stream none p (Empty.elim i)) = fun _ i => i.elim := by
    funext p i; exact i.elim
  have hok : (fun i : Empty => FitsUsize u (Empty.elim i)) = fun _ => True := by
    funext i; exact i.elim
  have := memHistory_spec (nav := Empty.elim) (c.ioLike u) (c.refines u) h w₀ 0 mem hs (by rw [hok]; exact hh)
  rw [hnav] at this
  obtain ⟨w, hw, -⟩ := this
  exact ⟨w₀, _, w, _, hc, hw, rfl, rfl⟩

/-- Rabbit: 20 bytes in place, then 5 bytes into another buffer, and a call whose buffers have different lengths. -/
example (mem : Mem) : ∃ w₀ os w mem', Sample.rabbit.create 16 = .ok w₀ ∧
    runHistory (Sample.rabbit.memStep 16) [((), .inout ⟨100, 100, 20⟩), ((), .b2b 100 5 300 5), ((), .b2b 100 5 300 6)] (w₀, mem) =
      .ok (os, w, mem') ∧ os = [.done (.ok ()), .done (.ok ()), .done (.error .streamCipherError)] := by
  obtain ⟨w₀, os, w, mem', h1, h2, h3, _⟩ := C61_plain 16 (by decide) Sample.rabbit mem
    [((), .inout ⟨100, 100, 20⟩), ((), .b2b 100 5 300 5), ((), .b2b 100 5 300 6)] (by
      intro e he
      simp only [List.mem_cons, List.not_mem_nil, or_false] at he
      rcases he with rfl | rfl | rfl
      · exact ⟨Or.inl rfl, by decide⟩
      · exact ⟨Or.inl (by decide), by decide, by decide⟩
      · exact ⟨Or.inl (by decide), by decide, by decide⟩)
  exact ⟨w₀, os, w, mem', h1, h2, h3.trans rfl⟩

/-- **C61**.  After any history, encrypting the same bytes in place and into another buffer - on whatever backends - gives the same result and
the same bytes; the latter leaves its input, and everything else outside its output buffer, as it was. -/
theorem C61_b2b (u : Nat) (c : SeekCipher) (mem : Mem) (h : List (ChaCha.Env × MemCall Nav))
    (hh : ∀ e ∈ h, MemCursor.Fits u c.NavOk e.2) (x x' : ChaCha.Env) (inp out n : Nat) (hd : inp + n ≤ out ∨ out + n ≤ inp) (hn : n < 2 ^ u) :
    ∃ w₀ os w m o w1 m1 w2 m2, c.create u = .ok w₀ ∧ runHistory (c.memStep u) h (w₀, mem) = .ok (os, w, m) ∧
      c.memStep u x (w, m) (.b2b inp n out n) = .ok (o, w1, m1) ∧ c.memStep u x' (w, m) (.inout ⟨inp, inp, n⟩) = .ok (o, w2, m2) ∧
      (o = .done (.ok ()) → m1.read out n = m2.read inp n) ∧ m1.read inp n = m.read inp n ∧
      ∀ a, ¬ (out ≤ a ∧ a < out + n) → m1 a = m a := by
  obtain ⟨w₀, hc, hs⟩ := c.isSeekStream u
  have hok : (fun i => c.Allowed u (Nav.op i)) = c.NavOk := by
    funext i; cases i <;> rfl
  obtain ⟨w, hw, hs'⟩ := memHistory_spec (nav := Nav.op) (c.ioLike u) (c.refines u) h w₀ 0 mem hs (by rw [hok]; exact hh)
  obtain ⟨o, w1, m1, w2, m2, hr⟩ := memStep_b2b (nav := Nav.op) (c.ioLike u) (c.refines u) x x' w _ hs' _ inp out n hd hn
  exact ⟨w₀, _, w, _, o, w1, m1, w2, m2, hc, hw, hr⟩

example (mem : Mem) : ∃ w₀ o w1 m1 w2 m2, Sample.chacha20.create 64 = .ok w₀ ∧
    Sample.chacha20.memStep 64 Sample.avx2 (w₀, mem) (.b2b 1000 150 2000 150) = .ok (o, w1, m1) ∧
    Sample.chacha20.memStep 64 Sample.soft (w₀, mem) (.inout ⟨1000, 1000, 150⟩) = .ok (o, w2, m2) ∧
    m1.read 1000 150 = mem.read 1000 150 := by
  obtain ⟨w₀, os, w, m, o, w1, m1, w2, m2, h1, h2, h3, h4, _, h5, _⟩ :=
    C61_b2b 64 Sample.chacha20 mem [] (by intro e he; cases he) Sample.avx2 Sample.soft 1000 2000 150 (Or.inl (by decide)) (by decide)
  simp only [runHistory, Except.ok.injEq, Prod.mk.injEq] at h2
  obtain ⟨-, rfl, rfl⟩ := h2
  exact ⟨w₀, o, w1, m1, w2, m2, h1, h3, h4, h5⟩

/-- **C61** (HC-256, Rabbit and RC4). -/
theorem C61_b2b_plain (u : Nat) (hu : 16 ≤ u) (c : PlainCipher) (mem : Mem) (h : List (Unit × MemCall Empty))
    (hh : ∀ e ∈ h, MemCursor.Fits u (fun _ => True) e.2) (inp out n : Nat) (hd : inp + n ≤ out ∨ out + n ≤ inp) (hn : n < 2 ^ u) :
    ∃ w₀ os w m o w1 m1 w2 m2, c.create u = .ok w₀ ∧ runHistory (c.memStep u) h (w₀, mem) = .ok (os, w, m) ∧
      c.memStep u () (w, m) (.b2b inp n out n) = .ok (o, w1, m1) ∧ c.memStep u () (w, m) (.inout ⟨inp, inp, n⟩) = .ok (o, w2, m2) ∧
      (o = .done (.ok ()) → m1.read out n = m2.read inp n) ∧ m1.read inp n = m.read inp n ∧
      ∀ a, ¬ (out ≤ a ∧ a < out + n) → m1 a = m a := by
  obtain ⟨w₀, hc, hs⟩ := c.isStream u hu
  have hok : (fun i : Empty => FitsUsize u (Empty.elim i)) = fun _ => True := by
    funext i; exact i.elim
  obtain ⟨w, hw, hs'⟩ := memHistory_spec (nav := Empty.elim) (c.ioLike u) (c.refines u) h w₀ 0 mem hs (by rw [hok]; exact hh)
  obtain ⟨o, w1, m1, w2, m2, hr⟩ := memStep_b2b (nav := Empty.elim) (c.ioLike u) (c.refines u) () () w _ hs' _ inp out n hd hn
  exact ⟨w₀, _, w, _, o, w1, m1, w2, m2, hc, hw, hr⟩

example (mem : Mem) : ∃ w₀ o w1 m1 w2 m2, Sample.rabbit.create 16 = .ok w₀ ∧
    Sample.rabbit.memStep 16 () (w₀, mem) (.b2b 100 20 300 20) = .ok (o, w1, m1) ∧
    Sample.rabbit.memStep 16 () (w₀, mem) (.inout ⟨100, 100, 20⟩) = .ok (o, w2, m2) ∧ m1.read 100 20 = mem.read 100 20 := by
  obtain ⟨w₀, os, w, m, o, w1, m1, w2, m2, h1, h2, h3, h4, _, h5, _⟩ :=
    C61_b2b_plain 16 (by decide) Sample.rabbit mem [] (by intro e he; cases he) 100 300 20 (Or.inl (by decide)) (by decide)
  simp only [runHistory, Except.ok.injEq, Prod.mk.injEq] at h2
  obtain ⟨-, rfl, rfl⟩ := h2
  exact ⟨w₀, o, w1, m1, w2, m2, h1, h3, h4, h5⟩

/-- The condition on buffers matters: RC4's loop on regions that overlap with the output one byte ahead encrypts its own output. -/
theorem C61_overlap : ∃ (mem : Mem) (s : Rc4.State),
    (Rc4.applyLoop 2 0 1 mem s).1.read 1 2 ≠ (Rc4.applyKeystream (mem.read 0 2) s).1 := by
  refine ⟨fun x => if x = 0 then 1 else 0, ⟨Vector.replicate 256 0, 0, 0⟩, ?_⟩
  decide +kernel

end Verif
