import Verif.Proof.Ciphers
import Verif.Props.Sample
/-!
# Properties common to all stream ciphers of the repository (C04 - C11)

Statements about seekable ciphers quantify over `c : SeekCipher` (all types, keys, nonces, round counts), over `u` (width of
`usize`) and over all histories of allowed calls `h` on a fresh object, each call under its own circumstances (backend).
`booked h os` is the caller's own bookkeeping of the position.  For the ciphers without seeking
(`PlainCipher`: HC-256, Rabbit with and without IV, RC4) `16 ≤ u` is what Rust guarantees.
-/
namespace Verif
open Spec

/-! ## Objects for the examples -/

/-- ChaCha20 at position 5, with 59 bytes buffered. -/
theorem Sample.chacha20_at5 : ∃ os w, Sample.chacha20.Reach 64 Sample.history os w ∧ SeekCipher.booked Sample.history os = 5 := by
  obtain ⟨w, hw⟩ := Sample.chacha20.reach_exists 64 _ (Sample.history_allowed _)
  exact ⟨_, w, hw, by rw [SeekCipher.booked, trackAll_run]; rfl⟩

/-- Calls that take Rabbit to position 23. -/
def Sample.rabbitHistory : List (Unit × Op) := [((), .apply [1, 2, 3]), ((), .write (List.replicate 20 9))]

theorem Sample.rabbit_at23 : ∃ os w, Sample.rabbit.Reach 16 Sample.rabbitHistory os w ∧
    PlainCipher.booked Sample.rabbitHistory os = 23 := by
  have hok : ∀ e ∈ Sample.rabbitHistory, FitsUsize 16 e.2 := by
    intro e he
    simp only [Sample.rabbitHistory, List.mem_cons, List.not_mem_nil, or_false] at he
    rcases he with rfl | rfl
    · show [(1 : U8), 2, 3].length < 2 ^ 16
      decide
    · show (List.replicate 20 (9 : U8)).length < 2 ^ 16
      decide
  obtain ⟨w, hw⟩ := Sample.rabbit.reach_exists 16 (by decide) _ hok
  refine ⟨_, w, hw, ?_⟩
  exact (Sample.rabbit.ioLike 16).trackAll [Op.apply [1, 2, 3], Op.write (List.replicate 20 9)] 0

/-! ## C04 -/

/-- **C04**, seekable ciphers.  Two objects of the same cipher stand at the same position (after whatever histories).  One
encrypts a message in pieces `cs`, successfully; the other is given the resulting bytes, cut into any other pieces `cs'`:
it gives back the message. -/
theorem C04_seekable (u : Nat) (c : SeekCipher) {h h' : List (ChaCha.Env × SeekOp)} {os os' : List Obs} {w w' : c.Obj u}
    (hr : c.Reach u h os w) (hr' : c.Reach u h' os' w') (hpos : SeekCipher.booked h os = SeekCipher.booked h' os')
    (cs : List (ChaCha.Env × List U8)) (hcs : ∀ e ∈ cs, e.2.length < 2 ^ u)
    (oe : List Obs) (v : c.Obj u) (henc : runHistory (c.step u) (applies .io cs) w = .ok (oe, v))
    (ct : List U8) (hct : outBytes oe = some ct)
    (cs' : List (ChaCha.Env × List U8)) (hcs' : ∀ e ∈ cs', e.2.length < 2 ^ u) (hmsg : message cs' = ct) :
    ∃ od v', runHistory (c.step u) (applies .io cs') w' = .ok (od, v') ∧ outBytes od = some (message cs) := by
  have h' := hr'.simulates.1
  rw [← hpos] at h'
  exact decrypt_generic (c.ioLike u) hr.simulates.2 hr.simulates.1 h' cs hcs oe v henc ct hct cs' hcs' hmsg

/-- The hypotheses of `C04_seekable` can be met: after 70 bytes and a seek to 5, a message in two pieces. -/
example : ∃ os w oe v ct, Sample.chacha20.Reach 64 Sample.history os w ∧ SeekCipher.booked Sample.history os = 5 ∧
    runHistory (Sample.chacha20.step 64) (applies .io [(Sample.avx2, [1, 2, 3]), (Sample.soft, [4, 5, 6, 7])]) w = .ok (oe, v) ∧
    outBytes oe = some ct ∧ ct.length = 7 := by
  obtain ⟨w, hw⟩ := Sample.chacha20.reach_exists 64 _ (Sample.history_allowed _)
  have hb : SeekCipher.booked Sample.history (Cursor.run (Cursor.step 64 Sample.chacha20.stream
      (some (64 * Sample.chacha20.blocks))) (Sample.history.map (·.2)) 0).1 = 5 := by
    rw [SeekCipher.booked, trackAll_run]; rfl
  have hs := hw.simulates
  rw [hb] at hs
  obtain ⟨v, h1, _⟩ := hs.1.applies_run (Sample.chacha20.ioLike 64)
    [(Sample.avx2, [1, 2, 3]), (Sample.soft, [4, 5, 6, 7])] (by decide)
  have h2 := (Cursor.run_applies Sample.chacha20.stream (some (64 * Sample.chacha20.blocks))
    [[1, 2, 3], [4, 5, 6, 7]] 5 (by decide)).1
  exact ⟨_, w, _, v, _, hw, hb, h1, h2, by simp [window_length]⟩

/-- **C04**, other ciphers (no limit, so encryption always succeeds). -/
theorem C04_plain (u : Nat) (hu : 16 ≤ u) (c : PlainCipher) {h h' : List (Unit × Op)} {os os' : List Obs} {w w' : c.Obj}
    (hr : c.Reach u h os w) (hr' : c.Reach u h' os' w') (hpos : PlainCipher.booked h os = PlainCipher.booked h' os')
    (cs : List (Unit × List U8)) (hcs : ∀ e ∈ cs, e.2.length < 2 ^ u)
    (cs' : List (Unit × List U8)) (hcs' : ∀ e ∈ cs', e.2.length < 2 ^ u) :
    ∃ oe v ct, runHistory (c.step u) (applies id cs) w = .ok (oe, v) ∧ outBytes oe = some ct ∧
      (message cs' = ct →
        ∃ od v', runHistory (c.step u) (applies id cs') w' = .ok (od, v') ∧ outBytes od = some (message cs)) := by
  have hs := hr.simulates hu
  have hs' := hr'.simulates hu
  rw [← hpos] at hs'
  obtain ⟨v, h1, _⟩ := hs.applies_run (c.ioLike u) cs hcs
  have hw : Within none (PlainCipher.booked h os + (cs.map (·.2)).flatten.length) := by intro L h; cases h
  have h2 := (Cursor.run_applies c.stream none _ _ hw).1
  refine ⟨_, v, _, h1, h2, ?_⟩
  intro hmsg
  exact decrypt_generic (c.ioLike u) (by intro L h; cases h) hs hs' cs hcs _ v h1 _ h2 cs' hcs' hmsg

/-- Rabbit at position 23: a message in two pieces, given back by an equal object in three. -/
example : ∃ os w oe v ct, Sample.rabbit.Reach 16 Sample.rabbitHistory os w ∧ PlainCipher.booked Sample.rabbitHistory os = 23 ∧
    runHistory (Sample.rabbit.step 16) (applies id [((), [1, 2, 3]), ((), [4, 5, 6, 7])]) w = .ok (oe, v) ∧ outBytes oe = some ct ∧
    ∀ a b c : List U8, a.length < 2 ^ 16 → b.length < 2 ^ 16 → c.length < 2 ^ 16 → message [((), a), ((), b), ((), c)] = ct →
      ∃ od v', runHistory (Sample.rabbit.step 16) (applies id [((), a), ((), b), ((), c)]) w = .ok (od, v') ∧
        outBytes od = some [1, 2, 3, 4, 5, 6, 7] := by
  obtain ⟨os, w, hw, hb⟩ := Sample.rabbit_at23
  obtain ⟨oe, v, ct, h1, h2, _⟩ := C04_plain 16 (by decide) _ hw hw rfl [((), [1, 2, 3]), ((), [4, 5, 6, 7])] (by decide) [] (by decide)
  refine ⟨os, w, oe, v, ct, hw, hb, h1, h2, ?_⟩
  intro a b c ha hb' hc hm
  obtain ⟨oe', v', ct', h1', h2', h3⟩ := C04_plain 16 (by decide) _ hw hw rfl [((), [1, 2, 3]), ((), [4, 5, 6, 7])] (by decide)
    [((), a), ((), b), ((), c)] (by
      intro e he
      simp only [List.mem_cons, List.not_mem_nil, or_false] at he
      rcases he with rfl | rfl | rfl <;> assumption)
  rw [h1] at h1'
  simp only [Except.ok.injEq, Prod.mk.injEq] at h1'
  rw [← h1'.1, h2] at h2'
  exact h3 (hm.trans (Option.some.inj h2'))

/-! ## C05 -/

/-- **C05**, seekable ciphers.  Encrypting in pieces gives the bytes that one call would give (and fails, somewhere, iff that one
call fails); when it succeeds, the two objects cannot be told apart afterwards. -/
theorem C05_seekable (u : Nat) (c : SeekCipher) {h : List (ChaCha.Env × SeekOp)} {os : List Obs} {w : c.Obj u}
    (hr : c.Reach u h os w) (cs : List (ChaCha.Env × List U8)) (x : ChaCha.Env) (hcs : ∀ e ∈ cs, e.2.length < 2 ^ u)
    (htot : (message cs).length < 2 ^ u) :
    ∃ o₁ v o₂ v', runHistory (c.step u) (applies .io cs) w = .ok (o₁, v) ∧
      c.step u x w (.io (.apply (message cs))) = .ok (o₂, v') ∧
      outBytes o₁ = outBytes [o₂] ∧ (∀ out, outBytes o₁ = some out → Indist (c.step u) (c.Allowed u) v v') := by
  obtain ⟨o₁, v, o₂, v', h1, h2, h3, h4⟩ := chunks_generic (c.ioLike u) hr.simulates.2 hr.simulates.1 cs x hcs htot
  refine ⟨o₁, v, o₂, v', h1, ?_, h3, h4⟩
  simp only [runHistory, bind, Except.bind, pure, Except.pure] at h2
  cases h : c.step u x w (.io (.apply (message cs))) with
  | error e => rw [h] at h2; cases h2
  | ok r =>
    rw [h] at h2
    simp only [Except.ok.injEq, Prod.mk.injEq, List.cons.injEq, and_true] at h2
    rw [← h2.1, ← h2.2]

/-- Two pieces on different backends against one call, at position 5. -/
example : ∃ os w o₁ v o₂ v', Sample.chacha20.Reach 64 Sample.history os w ∧
    runHistory (Sample.chacha20.step 64) (applies .io [(Sample.avx2, [1, 2, 3]), (Sample.soft, [4, 5])]) w = .ok (o₁, v) ∧
    Sample.chacha20.step 64 Sample.avx2 w (.io (.apply [1, 2, 3, 4, 5])) = .ok (o₂, v') ∧ outBytes o₁ = outBytes [o₂] := by
  obtain ⟨os, w, hw, hb⟩ := Sample.chacha20_at5
  obtain ⟨o₁, v, o₂, v', h1, h2, h3, _⟩ := C05_seekable 64 _ hw [(Sample.avx2, [1, 2, 3]), (Sample.soft, [4, 5])] Sample.avx2
    (by decide) (by decide)
  exact ⟨os, w, o₁, v, o₂, v', hw, h1, h2, h3⟩

/-- **C05**, other ciphers. -/
theorem C05_plain (u : Nat) (hu : 16 ≤ u) (c : PlainCipher) {h : List (Unit × Op)} {os : List Obs} {w : c.Obj}
    (hr : c.Reach u h os w) (cs : List (Unit × List U8)) (hcs : ∀ e ∈ cs, e.2.length < 2 ^ u)
    (htot : (message cs).length < 2 ^ u) :
    ∃ o₁ v o₂ v', runHistory (c.step u) (applies id cs) w = .ok (o₁, v) ∧
      c.step u () w (.apply (message cs)) = .ok (o₂, v') ∧
      outBytes o₁ = outBytes [o₂] ∧ (∀ out, outBytes o₁ = some out → Indist (c.step u) (FitsUsize u) v v') := by
  obtain ⟨o₁, v, o₂, v', h1, h2, h3, h4⟩ :=
    chunks_generic (c.ioLike u) (by intro L h; cases h) (hr.simulates hu) cs () hcs htot
  refine ⟨o₁, v, o₂, v', h1, ?_, h3, h4⟩
  simp only [runHistory, bind, Except.bind, pure, Except.pure, id] at h2
  cases h : c.step u () w (.apply (message cs)) with
  | error e => rw [h] at h2; cases h2
  | ok r =>
    rw [h] at h2
    simp only [Except.ok.injEq, Prod.mk.injEq, List.cons.injEq, and_true] at h2
    rw [← h2.1, ← h2.2]

example : ∃ os w o₁ v o₂ v', Sample.rabbit.Reach 16 Sample.rabbitHistory os w ∧
    runHistory (Sample.rabbit.step 16) (applies id [((), [1, 2, 3]), ((), [4, 5])]) w = .ok (o₁, v) ∧
    Sample.rabbit.step 16 () w (.apply [1, 2, 3, 4, 5]) = .ok (o₂, v') ∧ outBytes o₁ = outBytes [o₂] := by
  obtain ⟨os, w, hw, hb⟩ := Sample.rabbit_at23
  obtain ⟨o₁, v, o₂, v', h1, h2, h3, _⟩ := C05_plain 16 (by decide) _ hw [((), [1, 2, 3]), ((), [4, 5])] (by decide) (by decide)
  exact ⟨os, w, o₁, v, o₂, v', hw, h1, h2, h3⟩

/-! ## C06 -/

/-- **C06**, seekable ciphers.  `try_write_keystream(buf)` succeeds iff `try_apply_keystream` of as many zeros does, stores the same
bytes whatever `buf` held (on failure it leaves `buf` alone), and moves the cipher identically. -/
theorem C06_seekable (u : Nat) (c : SeekCipher) {h : List (ChaCha.Env × SeekOp)} {os : List Obs} {w : c.Obj u}
    (hr : c.Reach u h os w) (x y : ChaCha.Env) (buf : List U8) (hbuf : buf.length < 2 ^ u) :
    ∃ r o₁ o₂ v v', runHistory (c.step u) [(x, .io (.write buf))] w = .ok ([.data r o₁], v) ∧
      runHistory (c.step u) [(y, .io (.apply (List.replicate buf.length 0)))] w = .ok ([.data r o₂], v') ∧
      (o₁ = match r with | .ok () => o₂ | .error _ => buf) ∧ Indist (c.step u) (c.Allowed u) v v' :=
  write_generic (c.ioLike u) hr.simulates.1 x y buf hbuf

/-- Four bytes of keystream at position 5: stored over `[9, 9, 9, 9]`, or added to zeros. -/
example : ∃ os w r o₁ o₂ v v', Sample.chacha20.Reach 64 Sample.history os w ∧
    runHistory (Sample.chacha20.step 64) [(Sample.avx2, .io (.write [9, 9, 9, 9]))] w = .ok ([.data r o₁], v) ∧
    runHistory (Sample.chacha20.step 64) [(Sample.soft, .io (.apply [0, 0, 0, 0]))] w = .ok ([.data r o₂], v') := by
  obtain ⟨os, w, hw, hb⟩ := Sample.chacha20_at5
  obtain ⟨r, o₁, o₂, v, v', h1, h2, _⟩ := C06_seekable 64 _ hw Sample.avx2 Sample.soft [9, 9, 9, 9] (by decide)
  exact ⟨os, w, r, o₁, o₂, v, v', hw, h1, h2⟩

/-- **C06**, in the XOR form: what `apply` XORs into the data is what `write` would have stored. -/
theorem C06_seekable_xor (u : Nat) (c : SeekCipher) {h : List (ChaCha.Env × SeekOp)} {os : List Obs} {w : c.Obj u}
    (hr : c.Reach u h os w) (x y : ChaCha.Env) (data buf : List U8) (hlen : buf.length = data.length)
    (hd : data.length < 2 ^ u) :
    ∃ r o₁ o₂ v v', runHistory (c.step u) [(x, .io (.write buf))] w = .ok ([.data r o₁], v) ∧
      runHistory (c.step u) [(y, .io (.apply data))] w = .ok ([.data r o₂], v') ∧
      (r = .ok () → o₂ = List.zipWith (· ^^^ ·) data o₁) ∧ (r ≠ .ok () → o₁ = buf ∧ o₂ = data) ∧
      Indist (c.step u) (c.Allowed u) v v' :=
  apply_write_generic (c.ioLike u) hr.simulates.1 x y data buf hlen hd

example : ∃ os w r o₁ o₂ v v', Sample.chacha20.Reach 64 Sample.history os w ∧
    runHistory (Sample.chacha20.step 64) [(Sample.avx2, .io (.write [9, 9, 9, 9]))] w = .ok ([.data r o₁], v) ∧
    runHistory (Sample.chacha20.step 64) [(Sample.soft, .io (.apply [1, 2, 3, 4]))] w = .ok ([.data r o₂], v') := by
  obtain ⟨os, w, hw, hb⟩ := Sample.chacha20_at5
  obtain ⟨r, o₁, o₂, v, v', h1, h2, _⟩ := C06_seekable_xor 64 _ hw Sample.avx2 Sample.soft [1, 2, 3, 4] [9, 9, 9, 9] rfl (by decide)
  exact ⟨os, w, r, o₁, o₂, v, v', hw, h1, h2⟩

/-- **C06**, other ciphers. -/
theorem C06_plain (u : Nat) (hu : 16 ≤ u) (c : PlainCipher) {h : List (Unit × Op)} {os : List Obs} {w : c.Obj}
    (hr : c.Reach u h os w) (buf : List U8) (hbuf : buf.length < 2 ^ u) :
    ∃ r o₁ o₂ v v', runHistory (c.step u) [((), .write buf)] w = .ok ([.data r o₁], v) ∧
      runHistory (c.step u) [((), .apply (List.replicate buf.length 0))] w = .ok ([.data r o₂], v') ∧
      (o₁ = match r with | .ok () => o₂ | .error _ => buf) ∧ Indist (c.step u) (FitsUsize u) v v' :=
  write_generic (c.ioLike u) (hr.simulates hu) () () buf hbuf

example : ∃ os w r o₁ o₂ v v', Sample.rabbit.Reach 16 Sample.rabbitHistory os w ∧
    runHistory (Sample.rabbit.step 16) [((), .write [9, 9, 9, 9])] w = .ok ([.data r o₁], v) ∧
    runHistory (Sample.rabbit.step 16) [((), .apply [0, 0, 0, 0])] w = .ok ([.data r o₂], v') := by
  obtain ⟨os, w, hw, hb⟩ := Sample.rabbit_at23
  obtain ⟨r, o₁, o₂, v, v', h1, h2, _⟩ := C06_plain 16 (by decide) _ hw [9, 9, 9, 9] (by decide)
  exact ⟨os, w, r, o₁, o₂, v, v', hw, h1, h2⟩

/-- **C06**, other ciphers, XOR form. -/
theorem C06_plain_xor (u : Nat) (hu : 16 ≤ u) (c : PlainCipher) {h : List (Unit × Op)} {os : List Obs} {w : c.Obj}
    (hr : c.Reach u h os w) (data buf : List U8) (hlen : buf.length = data.length) (hd : data.length < 2 ^ u) :
    ∃ r o₁ o₂ v v', runHistory (c.step u) [((), .write buf)] w = .ok ([.data r o₁], v) ∧
      runHistory (c.step u) [((), .apply data)] w = .ok ([.data r o₂], v') ∧
      (r = .ok () → o₂ = List.zipWith (· ^^^ ·) data o₁) ∧ (r ≠ .ok () → o₁ = buf ∧ o₂ = data) ∧
      Indist (c.step u) (FitsUsize u) v v' :=
  apply_write_generic (c.ioLike u) (hr.simulates hu) () () data buf hlen hd

example : ∃ os w r o₁ o₂ v v', Sample.rabbit.Reach 16 Sample.rabbitHistory os w ∧
    runHistory (Sample.rabbit.step 16) [((), .write [9, 9, 9, 9])] w = .ok ([.data r o₁], v) ∧
    runHistory (Sample.rabbit.step 16) [((), .apply [1, 2, 3, 4])] w = .ok ([.data r o₂], v') := by
  obtain ⟨os, w, hw, hb⟩ := Sample.rabbit_at23
  obtain ⟨r, o₁, o₂, v, v', h1, h2, _⟩ := C06_plain_xor 16 (by decide) _ hw [1, 2, 3, 4] [9, 9, 9, 9] rfl (by decide)
  exact ⟨os, w, r, o₁, o₂, v, v', hw, h1, h2⟩

/-! ## C07 -/

/-- **C07**.  After any history, a seek to `q` up to the end of the stream succeeds.  From then on the object is a cursor over the
published keystream of its key and nonce at byte `q`; and it cannot be told from a fresh object that has read `q` bytes,
in calls of whatever sizes. -/
theorem C07_seek (u : Nat) (c : SeekCipher) {h : List (ChaCha.Env × SeekOp)} {os : List Obs} {w : c.Obj u}
    (hr : c.Reach u h os w) (x : ChaCha.Env) (q : Nat) (hq : q ≤ 64 * c.blocks) :
    ∃ w₁, c.step u x w (.seek q) = .ok (.done (.ok ()), w₁) ∧
      IsSeekStream u (c.core u) c.stream c.blocks w₁ q ∧
      ∀ (k : List (ChaCha.Env × Op)) (_ : ∀ e ∈ k, FitsUsize u e.2) (ok : List Obs) (w₂ : c.Obj u),
        c.Reach u (k.map fun e => (e.1, .io e.2)) ok w₂ → SeekCipher.booked (k.map fun e => (e.1, .io e.2)) ok = q →
        Indist (c.step u) (c.Allowed u) w₁ w₂ := by
  have hal : ∀ e ∈ [(x, SeekOp.seek q)], c.Allowed u e.2 := by
    intro e he; rw [List.mem_singleton.1 he]; exact Or.inl hq
  obtain ⟨w₁, h1⟩ := hr.simulates.1 _ hal
  have h2 := (hr.simulates.1.after _ hal _ _ h1).2
  have hw : Within (some (64 * c.blocks)) q := by intro L e; cases e; exact hq
  simp only [List.map_cons, List.map_nil, Cursor.run, Cursor.step, if_pos hw] at h1 h2
  refine ⟨w₁, ?_, h2, ?_⟩
  · simp only [runHistory, bind, Except.bind, pure, Except.pure] at h1
    cases h : c.step u x w (.seek q) with
    | error e => rw [h] at h1; cases h1
    | ok r =>
      rw [h] at h1
      simp only [Except.ok.injEq, Prod.mk.injEq, List.cons.injEq, and_true] at h1
      rw [← h1.1, ← h1.2]
  · intro k _ okk w₂ hr₂ hb
    have h3 := hr₂.simulates.1
    rw [hb] at h3
    exact fun a b hab hok => h2.same h3 a b hab hok

/-- Seeking to the very end of the 256 GiB stream is covered. -/
example : ∃ os w w₁, Sample.chacha20.Reach 64 Sample.history os w ∧
    Sample.chacha20.step 64 Sample.avx2 w (.seek (64 * (2 ^ 32 - 1))) = .ok (.done (.ok ()), w₁) := by
  obtain ⟨w, hw⟩ := Sample.chacha20.reach_exists 64 _ (Sample.history_allowed _)
  obtain ⟨w₁, h1, _⟩ := C07_seek 64 _ hw Sample.avx2 (64 * (2 ^ 32 - 1)) (by decide)
  exact ⟨_, w, w₁, hw, h1⟩

/-! ## C08 -/

/-- **C08**.  After any history, `try_current_pos` in a type with maximum `snMax` reports the booked position exactly if the end of
the block it lies in can be expressed in that type, and an overflow error otherwise. -/
theorem C08_current_pos (u : Nat) (c : SeekCipher) {h : List (ChaCha.Env × SeekOp)} {os : List Obs} {w : c.Obj u}
    (hr : c.Reach u h os w) (x : ChaCha.Env) (snMax : Nat) :
    c.step u x w (.pos snMax) = .ok (.num (if (SeekCipher.booked h os + 63) / 64 * 64 ≤ snMax then
      .ok (SeekCipher.booked h os) else .error .overflowError), w) := by
  obtain ⟨Rel, law, hat⟩ := hr.at
  have := tryCurrentPos_spec law (by decide) w _ hat snMax
  simp only [SeekCipher.step, Wrapper.seekStep, this]
  rfl

example : ∃ os w, Sample.xsalsa20.Reach 64 Sample.history os w ∧
    Sample.xsalsa20.step 64 Sample.avx2 w (.pos (2 ^ 32 - 1)) = .ok (.num (.ok 5), w) ∧
    Sample.xsalsa20.step 64 Sample.avx2 w (.pos 63) = .ok (.num (.error .overflowError), w) := by
  obtain ⟨w, hw⟩ := Sample.xsalsa20.reach_exists 64 _ (Sample.history_allowed _)
  have hb : SeekCipher.booked Sample.history (Cursor.run (Cursor.step 64 Sample.xsalsa20.stream
      (some (64 * Sample.xsalsa20.blocks))) (Sample.history.map (·.2)) 0).1 = 5 := by
    rw [SeekCipher.booked, trackAll_run]; rfl
  have h1 := C08_current_pos 64 _ hw Sample.avx2 (2 ^ 32 - 1)
  have h2 := C08_current_pos 64 _ hw Sample.avx2 63
  rw [hb] at h1 h2
  exact ⟨_, w, hw, h1, h2⟩

/-! ## C09 -/

/-- **C09**.  After any history, with `p` the booked position, a request of `n` bytes (`n` a `usize`) succeeds iff
`p + n ≤ 64 * (2^32 - 1)` resp. `64 * (2^64 - 1)`; if it fails, the error is `StreamCipherError`, the caller's bytes are
unchanged and the cipher is the very same value as before. -/
theorem C09_exhaustion (u : Nat) (c : SeekCipher) {h : List (ChaCha.Env × SeekOp)} {os : List Obs} {w : c.Obj u}
    (hr : c.Reach u h os w) (x : ChaCha.Env) (data : List U8) (hlen : data.length < 2 ^ u) :
    (SeekCipher.booked h os + data.length ≤ 64 * (2 ^ c.ctrBits - 1) →
      (∃ out w', c.step u x w (.io (.apply data)) = .ok (.data (.ok ()) out, w')) ∧
      (∃ out w', c.step u x w (.io (.write data)) = .ok (.data (.ok ()) out, w'))) ∧
    (¬ SeekCipher.booked h os + data.length ≤ 64 * (2 ^ c.ctrBits - 1) →
      c.step u x w (.io (.apply data)) = .ok (.data (.error .streamCipherError) data, w) ∧
      c.step u x w (.io (.write data)) = .ok (.data (.error .streamCipherError) data, w)) := by
  obtain ⟨Rel, law, hat⟩ := hr.at
  have h1 := tryApply_spec law.toCoreLaw (by decide) x w _ hat data hlen
  have h2 := tryWrite_spec law.toCoreLaw (by decide) x w _ hat data hlen
  have hiff : Within (byteLimit 64 (some c.blocks)) (SeekCipher.booked h os + data.length) ↔
      SeekCipher.booked h os + data.length ≤ 64 * (2 ^ c.ctrBits - 1) :=
    ⟨fun h => h _ rfl, fun h L e => by cases e; exact h⟩
  constructor
  · intro hle
    rw [if_pos (hiff.2 hle)] at h1 h2
    obtain ⟨w1, e1, _⟩ := h1
    obtain ⟨w2, e2, _⟩ := h2
    exact ⟨⟨_, w1, by simp only [SeekCipher.step, Wrapper.seekStep, Wrapper.step, e1]; rfl⟩,
      ⟨_, w2, by simp only [SeekCipher.step, Wrapper.seekStep, Wrapper.step, e2]; rfl⟩⟩
  · intro hle
    rw [if_neg (fun h => hle (hiff.1 h))] at h1 h2
    exact ⟨by simp only [SeekCipher.step, Wrapper.seekStep, Wrapper.step, h1]; rfl,
      by simp only [SeekCipher.step, Wrapper.seekStep, Wrapper.step, h2]; rfl⟩

/-- Both cases occur: 3 bytes before the end of the stream, 3 bytes can be had and 4 cannot. -/
example : ∃ os w w' out, Sample.chacha20.Reach 64 [(Sample.avx2, .seek (64 * (2 ^ 32 - 1) - 3))] os w ∧
    Sample.chacha20.step 64 Sample.soft w (.io (.apply [1, 2, 3])) = .ok (.data (.ok ()) out, w') ∧
    Sample.chacha20.step 64 Sample.soft w (.io (.apply [1, 2, 3, 4])) =
      .ok (.data (.error .streamCipherError) [1, 2, 3, 4], w) := by
  have hal : ∀ e ∈ [(Sample.avx2, SeekOp.seek (64 * (2 ^ 32 - 1) - 3))], Sample.chacha20.Allowed 64 e.2 := by
    intro e he; rw [List.mem_singleton.1 he]
    exact Or.inl (by decide)
  obtain ⟨w, hw⟩ := Sample.chacha20.reach_exists 64 _ hal
  have hb : SeekCipher.booked [(Sample.avx2, SeekOp.seek (64 * (2 ^ 32 - 1) - 3))]
      (Cursor.run (Cursor.step 64 Sample.chacha20.stream (some (64 * Sample.chacha20.blocks)))
        [SeekOp.seek (64 * (2 ^ 32 - 1) - 3)] 0).1 = 64 * (2 ^ 32 - 1) - 3 := by
    rw [SeekCipher.booked]
    exact (trackAll_run 64 Sample.chacha20.stream (some (64 * Sample.chacha20.blocks)) _ 0).trans (by decide)
  obtain ⟨⟨out, w', h1⟩, _⟩ := (C09_exhaustion 64 _ hw Sample.soft [1, 2, 3] (by decide)).1 (by
    refine Nat.le_trans (Nat.le_of_eq (congrArg (· + 3) hb)) (by decide))
  have h2 := ((C09_exhaustion 64 _ hw Sample.soft [1, 2, 3, 4] (by decide)).2 (by
    intro hle
    have : 64 * (2 ^ 32 - 1) - 3 + 4 ≤ 64 * (2 ^ 32 - 1) := Nat.le_trans (Nat.le_of_eq (congrArg (· + 4) hb.symm)) hle
    exact absurd this (by decide))).1
  exact ⟨_, w, w', out, hw, h1, h2⟩

/-! ## C10 -/

namespace SeekCipher

theorem block_eq (c : SeekCipher) (n : Nat) : c.block n = c.blockFn (c.input n) := by cases c <;> rfl

theorem ofNat32_inj {a b : Nat} (h : BitVec.ofNat 32 a = BitVec.ofNat 32 b) : a % 2 ^ 32 = b % 2 ^ 32 := by
  simpa using congrArg BitVec.toNat h

theorem input_injective (c : SeekCipher) {n m : Nat} (hn : n < 2 ^ c.ctrBits) (hm : m < 2 ^ c.ctrBits)
    (h : c.input n = c.input m) : n = m := by
  have e32 : ∀ {a b : Nat}, a < 2 ^ 32 → b < 2 ^ 32 → BitVec.ofNat 32 a = BitVec.ofNat 32 b → a = b := by
    intro a b ha hb h
    have := ofNat32_inj h
    omega
  have e64 : ∀ {a b : Nat}, a < 2 ^ 64 → b < 2 ^ 64 → BitVec.ofNat 32 a = BitVec.ofNat 32 b →
      BitVec.ofNat 32 (a / 2 ^ 32) = BitVec.ofNat 32 (b / 2 ^ 32) → a = b := by
    intro a b ha hb h h'
    have := ofNat32_inj h
    have := ofNat32_inj h'
    omega
  cases c with
  | chacha dr key nonce => exact e32 hn hm (congrArg (fun M : Vector (Vector U32 4) 4 => M[3][0]) h)
  | chachaLegacy dr key nonce =>
    exact e64 hn hm (congrArg (fun M : Vector (Vector U32 4) 4 => M[3][0]) h)
      (congrArg (fun M : Vector (Vector U32 4) 4 => M[3][1]) h)
  | xchacha dr key nonce => exact e32 hn hm (congrArg (fun M : Vector (Vector U32 4) 4 => M[3][0]) h)
  | salsa m dr key nonce =>
    exact e64 hn hm (congrArg (fun M : Vector (Vector U32 4) 4 => M[2][0]) h)
      (congrArg (fun M : Vector (Vector U32 4) 4 => M[2][1]) h)
  | xsalsa m dr key nonce =>
    exact e64 hn hm (congrArg (fun M : Vector (Vector U32 4) 4 => M[2][0]) h)
      (congrArg (fun M : Vector (Vector U32 4) 4 => M[2][1]) h)

end SeekCipher

/-- **C10** (counter).  After any history, the block counter inside the object is the number of blocks up to the booked position,
rounded up - as a number, not modulo anything - and at most `2^32 - 1` resp. `2^64 - 1`: it never wrapped. -/
theorem C10_counter (u : Nat) (c : SeekCipher) {h : List (ChaCha.Env × SeekOp)} {os : List Obs} {w : c.Obj u}
    (hr : c.Reach u h os w) :
    (c.core u).getPos w.core = (SeekCipher.booked h os + 63) / 64 ∧
      (c.core u).getPos w.core ≤ 2 ^ c.ctrBits - 1 := by
  obtain ⟨Rel, law, ⟨n, hrel, hp, hwn⟩, hple, hppos, _⟩ := hr.at
  have hn : n ≤ c.blocks := hwn _ rfl
  have hg := law.getPos w.core n hrel hn
  rw [hg]
  refine ⟨?_, hn⟩
  generalize SeekCipher.booked h os = p at *
  omega

/-- An object in the last usable block: its counter is `2^32 - 1`, the largest value it takes. -/
example : ∃ os w, Sample.chacha20.Reach 64 [(Sample.avx2, .seek (64 * (2 ^ 32 - 1) - 3))] os w ∧
    (Sample.chacha20.core 64).getPos w.core = 2 ^ 32 - 1 := by
  have hal : ∀ e ∈ [(Sample.avx2, SeekOp.seek (64 * (2 ^ 32 - 1) - 3))], Sample.chacha20.Allowed 64 e.2 := by
    intro e he; rw [List.mem_singleton.1 he]
    exact Or.inl (by decide)
  obtain ⟨w, hw⟩ := Sample.chacha20.reach_exists 64 _ hal
  refine ⟨_, w, hw, (C10_counter 64 _ hw).1.trans ?_⟩
  rw [SeekCipher.booked, trackAll_run]
  rfl

/-- **C10** (bytes).  Byte `j` of any successful request, at stream offset `i`, comes from the block with counter
`i / 64`, which is below `2^32 - 1` resp. `2^64 - 1`, at byte index `i % 64`. -/
theorem C10_bytes (u : Nat) (c : SeekCipher) {h : List (ChaCha.Env × SeekOp)} {os : List Obs} {w : c.Obj u}
    (hr : c.Reach u h os w) (p : Nat) (hp : SeekCipher.booked h os = p) (x : ChaCha.Env) (data out : List U8) (w' : c.Obj u) (hlen : data.length < 2 ^ u) :
    (c.step u x w (.io (.apply data)) = .ok (.data (.ok ()) out, w') →
      ∀ (j : Nat) (hj : j < data.length), (p + j) / 64 < 2 ^ c.ctrBits - 1 ∧
        out[j]? = some (data[j] ^^^ (c.blockFn (c.input ((p + j) / 64)))[(p + j) % 64]'(by omega))) ∧
    (c.step u x w (.io (.write data)) = .ok (.data (.ok ()) out, w') →
      ∀ (j : Nat) (_ : j < data.length), (p + j) / 64 < 2 ^ c.ctrBits - 1 ∧
        out[j]? = some ((c.blockFn (c.input ((p + j) / 64)))[(p + j) % 64]'(by omega))) := by
  obtain ⟨Rel, law, hat⟩ := hr.at
  rw [hp] at hat
  have h1 := tryApply_spec law.toCoreLaw (by decide) x w _ hat data hlen
  have h2 := tryWrite_spec law.toCoreLaw (by decide) x w _ hat data hlen
  have hlim : Within (byteLimit 64 (some c.blocks)) (p + data.length) → ∀ j < data.length, (p + j) / 64 < 2 ^ c.ctrBits - 1 := by
    intro hw j hj
    have hle : p + data.length ≤ 64 * (2 ^ c.ctrBits - 1) := hw _ rfl
    omega
  constructor
  · intro hst j hj
    by_cases hw : Within (byteLimit 64 (some c.blocks)) (p + data.length)
    · rw [if_pos hw] at h1
      obtain ⟨w1, e1, _⟩ := h1
      simp only [SeekCipher.step, Wrapper.seekStep, Wrapper.step, e1, bind, Except.bind, pure, Except.pure, Except.ok.injEq,
        Prod.mk.injEq, Obs.data.injEq, true_and] at hst
      refine ⟨hlim hw j hj, ?_⟩
      rw [← hst.1]
      have hl : j < (xorBytes data (window (byteStream c.block (by decide)) p data.length)).length := by
        simp [xorBytes, window_length, hj]
      rw [List.getElem?_eq_getElem hl]
      simp only [xorBytes, List.getElem_zipWith, window, List.getElem_map, List.getElem_range, byteStream, SeekCipher.block_eq]
    · rw [if_neg hw] at h1
      simp only [SeekCipher.step, Wrapper.seekStep, Wrapper.step, h1, bind, Except.bind, pure, Except.pure, Except.ok.injEq,
        Prod.mk.injEq, Obs.data.injEq] at hst
      cases hst.1.1
  · intro hst j hj
    by_cases hw : Within (byteLimit 64 (some c.blocks)) (p + data.length)
    · rw [if_pos hw] at h2
      obtain ⟨w1, e1, _⟩ := h2
      simp only [SeekCipher.step, Wrapper.seekStep, Wrapper.step, e1, bind, Except.bind, pure, Except.pure, Except.ok.injEq,
        Prod.mk.injEq, Obs.data.injEq, true_and] at hst
      refine ⟨hlim hw j hj, ?_⟩
      rw [← hst.1]
      have hl : j < (window (byteStream c.block (by decide)) p data.length).length := by
        simp [window_length, hj]
      rw [List.getElem?_eq_getElem hl]
      simp only [window, List.getElem_map, List.getElem_range, byteStream, SeekCipher.block_eq]
    · rw [if_neg hw] at h2
      simp only [SeekCipher.step, Wrapper.seekStep, Wrapper.step, h2, bind, Except.bind, pure, Except.pure, Except.ok.injEq,
        Prod.mk.injEq, Obs.data.injEq] at hst
      cases hst.1.1

/-- The first byte of the block with counter 1 is obtained as byte 59 of a read at position 5. -/
example : ∃ os w out w', Sample.chacha20.Reach 64 Sample.history os w ∧
    Sample.chacha20.step 64 Sample.soft w (.io (.write (List.replicate 60 0))) = .ok (.data (.ok ()) out, w') ∧
    out[59]? = some (Sample.chacha20.blockFn (Sample.chacha20.input 1))[0] := by
  obtain ⟨os, w, hw, hb⟩ := Sample.chacha20_at5
  obtain ⟨_, out, w', h1⟩ := (C09_exhaustion 64 _ hw Sample.soft (List.replicate 60 0) (by decide)).1 (by rw [hb]; decide)
  exact ⟨os, w, out, w', hw, h1,
    ((C10_bytes 64 _ hw 5 hb Sample.soft (List.replicate 60 0) out w' (by decide)).2 h1 59 (by decide)).2⟩

/-- **C10** (no repetition).  Different offsets below the limit come from different (block input, byte index) pairs. -/
theorem C10_distinct (c : SeekCipher) {i i' : Nat} (hi : i / 64 < 2 ^ c.ctrBits - 1) (hi' : i' / 64 < 2 ^ c.ctrBits - 1)
    (h : (c.input (i / 64), i % 64) = (c.input (i' / 64), i' % 64)) : i = i' := by
  simp only [Prod.mk.injEq] at h
  have := c.input_injective (by omega) (by omega) h.1
  omega

example : (3 * 64 + 5) / 64 < 2 ^ Sample.chacha20.ctrBits - 1 := by decide

/-! ## C11 -/

/-- **C11** (what is reported).  After any history, `remaining_blocks` is the true number of remaining blocks if that is a `usize`,
and `None` otherwise. -/
theorem C11_remaining (u : Nat) (c : SeekCipher) {h : List (ChaCha.Env × SeekOp)} {os : List Obs} {w : c.Obj u}
    (hr : c.Reach u h os w) :
    (c.core u).remaining w.core =
      if (2 ^ c.ctrBits - 1) - (SeekCipher.booked h os + 63) / 64 < 2 ^ u then
        some ((2 ^ c.ctrBits - 1) - (SeekCipher.booked h os + 63) / 64) else none := by
  obtain ⟨Rel, law, ⟨n, hrel, hp, hwn⟩, hple, hppos, _⟩ := hr.at
  have := law.remaining w.core n hrel hwn
  rw [this]
  have hn : (SeekCipher.booked h os + 63) / 64 = n := by
    generalize SeekCipher.booked h os = p at *
    omega
  rw [hn]
  rfl

/-- On a 16-bit target ChaCha20 reports no limit at the start, and the true number near the end. -/
example : (∃ w, Sample.chacha20.Reach 16 [] [] w ∧ (Sample.chacha20.core 16).remaining w.core = none) ∧
    (∃ w os, Sample.chacha20.Reach 16 [(Sample.avx2, .seek (64 * (2 ^ 32 - 8)))] os w ∧
      (Sample.chacha20.core 16).remaining w.core = some 7) := by
  constructor
  · obtain ⟨w, hw⟩ := Sample.chacha20.reach_exists 16 [] (by intro e he; cases he)
    exact ⟨w, hw, (C11_remaining 16 _ hw).trans (by decide)⟩
  · have hal : ∀ e ∈ [(Sample.avx2, SeekOp.seek (64 * (2 ^ 32 - 8)))], Sample.chacha20.Allowed 16 e.2 := by
      intro e he; rw [List.mem_singleton.1 he]
      exact Or.inl (by decide)
    obtain ⟨w, hw⟩ := Sample.chacha20.reach_exists 16 _ hal
    refine ⟨w, _, hw, (C11_remaining 16 _ hw).trans ?_⟩
    rw [SeekCipher.booked, trackAll_run]
    rfl

/-- **C11** (unobservable).  The same calls, with buffers that fit both widths, show the caller the same on targets with `usize` of any
widths `u₁`, `u₂` - although `remaining_blocks` differs. -/
theorem C11_width (u₁ u₂ : Nat) (c : SeekCipher) (h₁ h₂ : List (ChaCha.Env × SeekOp)) (he : h₁.map (·.2) = h₂.map (·.2))
    (hal : ∀ e ∈ h₁, c.Allowed (min u₁ u₂) e.2) :
    ∃ os w₁ w₂, c.Reach u₁ h₁ os w₁ ∧ c.Reach u₂ h₂ os w₂ := by
  have mono : ∀ (u : Nat) (op : SeekOp), min u₁ u₂ ≤ u → c.Allowed (min u₁ u₂) op → c.Allowed u op := by
    intro u op hu ha
    have hp : 2 ^ min u₁ u₂ ≤ 2 ^ u := Nat.pow_le_pow_right (by decide) hu
    cases op with
    | io op => cases op <;> exact Nat.lt_of_lt_of_le ha hp
    | seek q => exact ha
    | pos m => trivial
  obtain ⟨w₁, hr₁⟩ := c.reach_exists u₁ h₁ fun e hm => mono u₁ _ (Nat.min_le_left ..) (hal e hm)
  obtain ⟨w₂, hr₂⟩ := c.reach_exists u₂ h₂ (by
    intro e hm
    have : e.2 ∈ h₂.map (·.2) := List.mem_map_of_mem hm
    rw [← he] at this
    obtain ⟨e', hm', he'⟩ := List.mem_map.1 this
    exact mono u₂ _ (Nat.min_le_right ..) (he' ▸ hal e' hm'))
  rw [← he] at hr₂
  exact ⟨_, w₁, w₂, hr₁, hr₂⟩

/-- The sample history on a 16-bit and on a 64-bit target. -/
example : ∃ os w₁ w₂, Sample.chacha20.Reach 16 Sample.history os w₁ ∧ Sample.chacha20.Reach 64 Sample.history os w₂ := by
  refine C11_width 16 64 Sample.chacha20 Sample.history Sample.history rfl ?_
  intro e he
  simp only [Sample.history, List.mem_cons, List.not_mem_nil, or_false] at he
  rcases he with rfl | rfl
  · show (List.replicate 70 (0 : U8)).length < 2 ^ 16
    decide
  · exact Or.inl (by decide)

end Verif
