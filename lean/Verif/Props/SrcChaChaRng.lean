import Verif.Proof.SrcChaChaRng
import Verif.Props.SrcChaCha
/-!
# C83: the text of the generators of `chacha20` is a cursor over the ChaCha word stream
-/
namespace Verif
open Spec Rust ChaCha ChaCha.Rng
open Verif.Spec.Rng (St RngOp RngObs)

/-- What `generate` of a build has to do, from any sixteen words and into any buffer: four blocks of ChaCha with consecutive 64-bit counters. -/
def FourBlocks (B : Rust.ChaCha.Build) (tgt : Target) : Prop :=
  ∀ (R : Type) [Rust.ChaCha.Rounds R] (s : Vector U32 16) (buffer : List U32), buffer.length = 64 →
    ∃ ws : Vector U32 64, (∀ k (hk : k < 64), ws[k] =
        (Spec.ChaCha.core (Rust.ChaCha.Rounds.count R) (rows (withCounter s (counterOf s + k / 16))))[k / 4 % 4][k % 4]) ∧
      B.generate R Rust.ChaCha.Legacy tgt ⟨s.toList, ()⟩ buffer = .ok ((), ⟨(withCounter s (counterOf s + 4)).toList, ()⟩, ws.toList)

theorem FourBlocks.refills {B : Rust.ChaCha.Build} {tgt : Target} (h : FourBlocks B tgt) : Rust.ChaCha.Refills B tgt := by
  intro R _ s buffer hb
  obtain ⟨ws, h1, h2⟩ := h R s buffer hb
  obtain ⟨ws', h3, h4, _⟩ := C27_refill (Rust.ChaCha.Rounds.count R) s
  have hw : ws = ws' := Vector.ext fun k hk => (h1 k hk).trans (h3 k hk).symm
  refine h2.trans ?_
  rw [h4, hw]
  rfl

/-- A history of calls on a fresh generator of the text, what it showed the caller, and the generator after it. -/
def Drawn [Rust.ChaCha.Build] (tgt : Target) (R : Type) [Rust.ChaCha.Rounds R] (seed : Vector U8 32) (h : List RngOp) (os : List RngObs) (r : Rust.ChaCha.Rng R) : Prop :=
  ∃ r₀, Rust.ChaCha.Rng.from_seed tgt seed.toList = .ok r₀ ∧ Rust.ChaCha.Rng.run tgt h r₀ = .ok (os, r)

section
variable [B : Rust.ChaCha.Build] {tgt : Target} {R : Type} [Rust.ChaCha.Rounds R]

theorem rng_run_eq (hB : FourBlocks B tgt) (ht : 16 ≤ tgt.bits) (e : Env) (h : List RngOp) (r : ChaCha.Rng) :
    Rust.ChaCha.Rng.run tgt h (Rust.ChaCha.reprR R r) =
      (run tgt.mode (Rust.ChaCha.Rounds.count R) (h.map fun op => (e, op)) r).map fun x => (x.1, Rust.ChaCha.reprR R x.2) := by
  have := Rust.ChaCha.run_eq (R := R) hB.refills ht (h.map fun op => (e, op)) r
  rw [List.map_map, show (Prod.snd ∘ fun op : RngOp => (e, op)) = id from rfl, List.map_id] at this
  exact this

/-- A generator of the text is one of the model. -/
theorem Drawn.reach (hB : FourBlocks B tgt) (ht : 16 ≤ tgt.bits) (e : Env) {seed : Vector U8 32} {h : List RngOp} {os : List RngObs} {r : Rust.ChaCha.Rng R}
    (hd : Drawn tgt R seed h os r) : ∃ r', r = Rust.ChaCha.reprR R r' ∧
      Reach tgt.mode (Rust.ChaCha.Rounds.count R) seed (h.map fun op => (e, op)) os r' := by
  obtain ⟨r₀, h0, h1⟩ := hd
  rw [Rust.ChaCha.from_seed_eq] at h0
  cases hf : fromSeed seed with
  | error p => rw [hf] at h0; exact nomatch h0
  | ok s =>
    rw [hf] at h0
    obtain rfl : Rust.ChaCha.reprR R s = r₀ := Except.ok.inj h0
    rw [rng_run_eq hB ht e] at h1
    cases hm : run tgt.mode (Rust.ChaCha.Rounds.count R) (h.map fun op => (e, op)) s with
    | error p => rw [hm] at h1; exact nomatch h1
    | ok x =>
      rw [hm] at h1
      have h2 := Except.ok.inj h1
      have h3 : x.1 = os := congrArg Prod.fst h2
      have h4 : Rust.ChaCha.reprR R x.2 = r := congrArg Prod.snd h2
      exact ⟨x.2, h4.symm, s, hf, hm.trans (by rw [← h3])⟩

omit B in
theorem map_snd (e : Env) (h : List RngOp) : (h.map fun op => (e, op)).map Prod.snd = h := by
  rw [List.map_map, show (Prod.snd ∘ fun op : RngOp => (e, op)) = id from rfl, List.map_id]

/-- **C83**.  In a build whose refill is four blocks of ChaCha, every history of calls on a fresh generator, as the text of `rng.rs` makes them, shows the
caller what the abstract cursor over the published word stream shows, if it does not panic; and it does not panic, except that `get_block_pos` may when overflow
checks are on. -/
theorem C83_cursor (hB : FourBlocks B tgt) (ht : 16 ≤ tgt.bits) (seed : Vector U8 32) (h : List RngOp) :
    (∀ os r, Drawn tgt R seed h os r → os = (Spec.Rng.run (Rust.ChaCha.Rounds.count R) h (Spec.Rng.init seed)).1) ∧
    ((tgt.mode = .debug → .getBlockPos ∉ h) → ∃ os r, Drawn tgt R seed h os r) := by
  obtain ⟨h1, h2⟩ := C18_cursor tgt.mode (Rust.ChaCha.Rounds.count R) seed (h.map fun op => (Sample.soft, op))
  rw [map_snd] at h1
  constructor
  · intro os r hd
    obtain ⟨r', _, hr⟩ := hd.reach hB ht Sample.soft
    exact h1 os r' hr
  · intro hq
    obtain ⟨os, r', r₀, h3, h4⟩ := h2 (by
      intro hm x hx
      obtain ⟨op, hop, rfl⟩ := List.mem_map.mp hx
      exact fun hc => hq hm (hc ▸ hop))
    refine ⟨os, Rust.ChaCha.reprR R r', Rust.ChaCha.reprR R r₀, ?_, ?_⟩
    · rw [Rust.ChaCha.from_seed_eq, h3]; rfl
    · rw [rng_run_eq hB ht Sample.soft, h4]; rfl

/-- Where the abstract cursor stands after a history. -/
def cursorOf (dr : Nat) (seed : Vector U8 32) (h : List RngOp) : Spec.Rng.St := (Spec.Rng.run dr h (Spec.Rng.init seed)).2

omit B in
theorem cursorOf_eq (dr : Nat) (e : Env) (seed : Vector U8 32) (h : List RngOp) : cursor dr seed (h.map fun op => (e, op)) = cursorOf dr seed h := by
  rw [cursor, map_snd]; rfl

/-- **C83**, `fill_bytes` into any destination: whatever it held before, the next words of the stream, little-endian, the last one cut off. -/
theorem C83_fill (hB : FourBlocks B tgt) (ht : 16 ≤ tgt.bits) {seed : Vector U8 32} {h : List RngOp} {os : List RngObs} {r : Rust.ChaCha.Rng R}
    (hd : Drawn tgt R seed h os r) (dest : List U8) :
    ∃ r', r.try_fill_bytes tgt dest = .ok (.ok (), r', (List.range dest.length).map fun i =>
      leByte ((cursorOf (Rust.ChaCha.Rounds.count R) seed h).word (Rust.ChaCha.Rounds.count R) (i / 4)).toNat (i % 4)) := by
  obtain ⟨m, rfl, hr⟩ := hd.reach hB ht Sample.soft
  obtain ⟨h1, _⟩ := fillBytes_rel hr.rel Sample.soft dest.length
  rw [cursorOf_eq] at h1
  refine ⟨Rust.ChaCha.reprR R (fillBytes (Rust.ChaCha.Rounds.count R) Sample.soft dest.length m).2, ?_⟩
  show (BlockRng.fill_bytes tgt (Rust.ChaCha.reprB R m) dest >>= _) = _
  rw [Rust.ChaCha.fill_eq hB.refills Sample.soft, h1]
  rfl

/-- **C83**, equality: two generators compare equal exactly if their cursors are equal - same seed, stream and position -, whatever their histories; the
comparison never panics. -/
theorem C83_eq (hB : FourBlocks B tgt) (ht : 16 ≤ tgt.bits) {seed seed' : Vector U8 32} {h h' : List RngOp} {os os' : List RngObs} {r r' : Rust.ChaCha.Rng R}
    (hd : Drawn tgt R seed h os r) (hd' : Drawn tgt R seed' h' os' r') :
    ∃ b, r.eq tgt r' = .ok b ∧ (b = true ↔ cursorOf (Rust.ChaCha.Rounds.count R) seed h = cursorOf (Rust.ChaCha.Rounds.count R) seed' h') := by
  obtain ⟨m, rfl, hr⟩ := hd.reach hB ht Sample.soft
  obtain ⟨m', rfl, hr'⟩ := hd'.reach hB ht Sample.soft
  refine ⟨_, Rust.ChaCha.eq_eq m m', ?_⟩
  rw [← cursorOf_eq _ Sample.soft, ← cursorOf_eq _ Sample.soft]
  exact (C23_equality hr hr').1

/-- **C83**, the position in blocks: the text of `get_block_pos` returns the position in words divided by 16, except that with overflow checks it panics if the
counter is one of the first four and the buffer is in use - and that happens in every generator after a jump to one of the last four blocks and one word. -/
theorem C83_block_pos (hB : FourBlocks B tgt) (ht : 16 ≤ tgt.bits) {seed : Vector U8 32} {h : List RngOp} {os : List RngObs} {r : Rust.ChaCha.Rng R}
    (hd : Drawn tgt R seed h os r) (b : U64) (hb : 2 ^ 64 - 4 ≤ b.toNat) :
    ((r.get_block_pos tgt = .ok (BitVec.ofNat 64 ((cursorOf (Rust.ChaCha.Rounds.count R) seed h).pos / 16))) ∨
      (tgt.mode = .debug ∧ r.core.index < 64 ∧ r.get_block_pos tgt = .error .overflow)) ∧
    (tgt.mode = .debug → Rust.ChaCha.Rng.run tgt [.setBlockPos b, .nextU32, .getBlockPos] r = .error .overflow) := by
  obtain ⟨m, rfl, hr⟩ := hd.reach hB ht Sample.soft
  constructor
  · obtain ⟨h1, h2⟩ := getBlockPos_rel hr.rel tgt.mode
    rw [cursorOf_eq] at h2
    rw [Rust.ChaCha.get_block_pos_eq]
    by_cases hw : tgt.mode = .debug ∧ Wrapped m
    · exact .inr ⟨hw.1, hw.2.2, h1 hw⟩
    · exact .inl (h2 hw)
  · intro hm
    obtain ⟨r₁, h1, h2⟩ := C20_panic hr Sample.soft Sample.soft b hb
    have h3 : run .debug (Rust.ChaCha.Rounds.count R) ([.setBlockPos b, .nextU32, .getBlockPos].map fun op => (Sample.soft, op)) m = .error .overflow := by
      simp only [List.map_cons, List.map_nil, Verif.ChaCha.Rng.run, Verif.ChaCha.Rng.step, h1, h2, ok_bind, pure_eq]
      rfl
    rw [rng_run_eq hB ht Sample.soft, hm, h3]
    rfl

end

/-- **C83**, `from_seed` of the block function: the seed is the key, nonce and counter are zero; with the 32-bit counter of RFC 8439 it is a failed assertion for
every seed.  Dropping a generator overwrites its buffer. -/
theorem C83_core (tgt : Target) (R V : Type) [Rust.ChaCha.Rounds R] [Rust.ChaCha.Variant V] (seed : Vector U8 32) (c : Rust.ChaCha.ChaChaCore R V) (buffer : List U32) :
    (Rust.ChaCha.ChaChaCore.from_seed tgt seed.toList : Except Panic (Rust.ChaCha.ChaChaCore R Rust.ChaCha.Ietf)) = .error .assertion ∧
    (∃ s, rows s = Spec.ChaCha.djbInput seed (Vector.replicate 8 0) 0 ∧
      Rust.ChaCha.ChaChaCore.from_seed tgt seed.toList = .ok (⟨s.toList, ()⟩ : Rust.ChaCha.ChaChaCore R Rust.ChaCha.Legacy)) ∧
    Rust.ChaCha.ChaChaCore.Generator.drop tgt c buffer = .ok ((), c, List.replicate buffer.length 0) := by
  refine ⟨(C82_new tgt R seed _).1 (show 8 ≠ 12 by decide), ?_, ?_⟩
  · obtain ⟨s, h1, h2⟩ := (C82_new tgt R seed []).2.2.2 (Vector.replicate 8 0)
    exact ⟨s, h1, h2⟩
  · rw [Rust.ChaCha.ChaChaCore.Generator.drop]
    show Except.ok ((), c, buffer.map fun _ => (0 : U32)) = _
    rw [List.map_const']

/-- **C83**, the portable build: its refill is four blocks of ChaCha. -/
theorem C83_soft (tgt : Target) (ht : 16 ≤ tgt.bits) : FourBlocks Rust.ChaCha.Build.soft tgt := by
  intro R _ s buffer hb
  obtain ⟨ws, h1, h2, _⟩ := C27_refill (Rust.ChaCha.Rounds.count R) s
  refine ⟨ws, h1, (Rust.ChaCha.refills_soft ht R s buffer hb).trans ?_⟩
  rw [h2]
  rfl

/-- The history of C18 on the text of `ChaCha12Rng`, on a 16-bit target with overflow checks: it can be run, and it ends at word 1 of stream 5. -/
example : letI := Rust.ChaCha.Build.soft
    (∃ os r, Drawn ⟨.debug, 16⟩ Rust.ChaCha.R12 (Sample.bytes 32 0) (Sample.rngHistory.map Prod.snd) os r) ∧
    cursorOf 6 (Sample.bytes 32 0) (Sample.rngHistory.map Prod.snd) = ⟨Sample.bytes 32 0, 5, 1⟩ := by
  letI := Rust.ChaCha.Build.soft
  refine ⟨(C83_cursor (C83_soft ⟨.debug, 16⟩ (by decide)) (by decide) _ _).2 ?_, Sample.rngHistory_cursor 6 _⟩
  intro _ hx
  simp only [Sample.rngHistory, List.map_cons, List.map_nil, List.mem_cons, List.not_mem_nil, or_false] at hx
  rcases hx with hx | hx | hx | hx <;> exact nomatch hx

/-- The first word of `ChaCha20Rng` with the zero seed is that of the published test vector. -/
example : letI := Rust.ChaCha.Build.soft
    ∃ r, Drawn ⟨.debug, 64⟩ Rust.ChaCha.R20 (Vector.replicate 32 0) [.nextU32] [.u32 0xade0b876] r := by
  letI := Rust.ChaCha.Build.soft
  have hc := C83_cursor (R := Rust.ChaCha.R20) (C83_soft ⟨.debug, 64⟩ (by decide)) (by decide) (Vector.replicate 32 0) [.nextU32]
  obtain ⟨os, r, h⟩ := hc.2 (fun _ hx => nomatch List.mem_singleton.mp hx)
  have ho : os = [.u32 0xade0b876] := (hc.1 os r h).trans (by decide +kernel)
  exact ⟨r, ho ▸ h⟩

/-- Two histories with the same cursor: eight words drawn, and a jump to word 8. -/
example : letI := Rust.ChaCha.Build.soft
    ∃ os r os' r', Drawn ⟨.release, 32⟩ Rust.ChaCha.R8 (Sample.bytes 32 0) [.fill 29] os r ∧
      Drawn ⟨.release, 32⟩ Rust.ChaCha.R8 (Sample.bytes 32 0) [.setWordPos 8] os' r' ∧ r.eq ⟨.release, 32⟩ r' = .ok true := by
  letI := Rust.ChaCha.Build.soft
  obtain ⟨os, r, h⟩ := (C83_cursor (R := Rust.ChaCha.R8) (C83_soft ⟨.release, 32⟩ (by decide)) (by decide) (Sample.bytes 32 0) [.fill 29]).2 (fun hc => nomatch hc)
  obtain ⟨os', r', h'⟩ := (C83_cursor (R := Rust.ChaCha.R8) (C83_soft ⟨.release, 32⟩ (by decide)) (by decide) (Sample.bytes 32 0) [.setWordPos 8]).2 (fun hc => nomatch hc)
  obtain ⟨b, hb, hi⟩ := C83_eq (C83_soft ⟨.release, 32⟩ (by decide)) (by decide) h h'
  exact ⟨os, r, os', r', h, h', hb.trans (congrArg _ (hi.mpr rfl))⟩

/-- The panic of `get_block_pos`. -/
example : letI := Rust.ChaCha.Build.soft
    ∃ r : Rust.ChaCha.Rng Rust.ChaCha.R8, Rust.ChaCha.Rng.run ⟨.debug, 64⟩ [.setBlockPos 0xFFFFFFFFFFFFFFFE, .nextU32, .getBlockPos] r = .error .overflow := by
  letI := Rust.ChaCha.Build.soft
  obtain ⟨os, r, h⟩ := (C83_cursor (R := Rust.ChaCha.R8) (C83_soft ⟨.debug, 64⟩ (by decide)) (by decide) (Sample.bytes 32 0) []).2 (fun _ hx => nomatch hx)
  exact ⟨r, (C83_block_pos (C83_soft ⟨.debug, 64⟩ (by decide)) (by decide) h 0xFFFFFFFFFFFFFFFE (by decide)).2 rfl⟩

/-- Seven bytes into a destination that is not empty. -/
example : letI := Rust.ChaCha.Build.soft
    ∃ (r r' : Rust.ChaCha.Rng Rust.ChaCha.R20), r.try_fill_bytes ⟨.debug, 64⟩ (List.replicate 5 0xFF) = .ok (.ok (), r', [0x76, 0xb8, 0xe0, 0xad, 0xa0]) := by
  letI := Rust.ChaCha.Build.soft
  obtain ⟨os, r, h⟩ := (C83_cursor (R := Rust.ChaCha.R20) (C83_soft ⟨.debug, 64⟩ (by decide)) (by decide) (Vector.replicate 32 0) []).2 (fun _ hx => nomatch hx)
  obtain ⟨r', h'⟩ := C83_fill (C83_soft ⟨.debug, 64⟩ (by decide)) (by decide) h (List.replicate 5 0xFF)
  exact ⟨r, r', h'.trans (congrArg (fun x => Except.ok (Except.ok (), r', x)) (by decide +kernel))⟩

/-- The drop code on a buffer. -/
example : ∀ c : Rust.ChaCha.ChaChaCore Rust.ChaCha.R20 Rust.ChaCha.Legacy,
    Rust.ChaCha.ChaChaCore.Generator.drop ⟨.debug, 64⟩ c [1, 2, 3] = .ok ((), c, [0, 0, 0]) :=
  fun c => (C83_core ⟨.debug, 64⟩ Rust.ChaCha.R20 Rust.ChaCha.Legacy (Sample.bytes 32 0) c [1, 2, 3]).2.2

end Verif
