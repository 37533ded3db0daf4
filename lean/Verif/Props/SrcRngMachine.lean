import Verif.Props.SrcCiphers
import Verif.Props.SrcChaChaRng
import Verif.Props.Rng
/-!
# C93: the text of the generators and the model are the same machine, in all circumstances
-/
namespace Verif.Rust.ChaCha
open Verif.Spec.Rng (RngOp RngObs)

variable (tgt : Target) {R : Type} [Rounds R]

/-- One call of a generator, as it is compiled and run there - chacha20/src/rng.rs:150-166, 193-338. -/
def Rng.stepIn (x : Circumstances) (r : Rng R) (op : RngOp) : Except Panic (RngObs × Rng R) :=
  letI := Build.dispatch x.build x.detected
  r.step tgt op

/-- Calls, each in its own circumstances - chacha20/src/rng.rs:150-166, 193-338. -/
def Rng.runIn : List (Circumstances × RngOp) → Rng R → Except Panic (List RngObs × Rng R)
  | [], r => .ok ([], r)
  | (x, op) :: h, r => do
    let (o, r) ← r.stepIn tgt x op
    let (os, r) ← Rng.runIn h r
    return (o :: os, r)

/-- `from_seed` and then calls; `from_seed` does not refill - chacha20/src/rng.rs:142-147. -/
def Rng.startIn (x : Circumstances) (seed : Vector U8 32) : Except Panic (Rng R) :=
  letI := Build.dispatch x.build x.detected
  Rng.from_seed tgt seed.toList

/-- `serialize_state`, in some circumstances - chacha20/src/rng.rs:297-313. -/
def Rng.serializeIn (x : Circumstances) (r : Rng R) : Except Panic (List U8) :=
  letI := Build.dispatch x.build x.detected
  r.serialize_state tgt

/-- `deserialize_state`, in some circumstances - chacha20/src/rng.rs:317-337. -/
def Rng.deserializeIn (x : Circumstances) (state : List U8) : Except Panic (Rng R) :=
  letI := Build.dispatch x.build x.detected
  Rng.deserialize_state tgt state

/-- `==`, in some circumstances - chacha20/src/rng.rs:177-181. -/
def Rng.eqIn (x : Circumstances) (r r' : Rng R) : Except Panic Bool :=
  letI := Build.dispatch x.build x.detected
  r.eq tgt r'

variable {tgt}

theorem stepIn_eq (ht : 16 ≤ tgt.bits) (x : Circumstances) (e : Verif.ChaCha.Env) (r : Verif.ChaCha.Rng) (op : RngOp) :
    Rng.stepIn tgt x (reprR R r) op = (Verif.ChaCha.Rng.step tgt.mode (Rounds.count R) e r op).map fun x => (x.1, reprR R x.2) :=
  letI := Build.dispatch x.build x.detected
  step_eq (C88_refill x.build x.detected tgt ht).refills e ht r op

theorem runIn_eq (ht : 16 ≤ tgt.bits) : ∀ (h : List (Circumstances × RngOp)) (h' : List (Verif.ChaCha.Env × RngOp)), h.map Prod.snd = h'.map Prod.snd →
    ∀ r : Verif.ChaCha.Rng,
    Rng.runIn tgt h (reprR R r) = (Verif.ChaCha.Rng.run tgt.mode (Rounds.count R) h' r).map fun x => (x.1, reprR R x.2)
  | [], [], _, r => rfl
  | [], _ :: _, hm, _ => nomatch hm
  | _ :: _, [], hm, _ => nomatch hm
  | (x, op) :: h, (e, op') :: h', hm, r => by
    obtain ⟨h1, h2⟩ := List.cons.inj hm
    obtain rfl : op = op' := h1
    rw [Rng.runIn, stepIn_eq ht x e, Verif.ChaCha.Rng.run]
    cases Verif.ChaCha.Rng.step tgt.mode (Rounds.count R) e r op with
    | error _ => rfl
    | ok y =>
      show (Rng.runIn tgt h (reprR R y.2) >>= _) = Except.map _ (Verif.ChaCha.Rng.run _ _ h' y.2 >>= _)
      rw [runIn_eq ht h h' h2 y.2]
      cases Verif.ChaCha.Rng.run tgt.mode (Rounds.count R) h' y.2 <;> rfl

theorem startIn_eq (x : Circumstances) (seed : Vector U8 32) : Rng.startIn (R := R) tgt x seed = (Verif.ChaCha.Rng.fromSeed seed).map (reprR R) :=
  letI := Build.dispatch x.build x.detected
  from_seed_eq seed

end Verif.Rust.ChaCha

namespace Verif
open Spec Rust
open Verif.Spec.Rng (RngOp RngObs)

section
variable {tgt : Target} {R : Type} [Rust.ChaCha.Rounds R]

/-- A history of calls on a fresh generator of the text, each call compiled and run in its own way; what it showed, and the generator after it. -/
def DrawnIn (tgt : Target) (R : Type) [Rust.ChaCha.Rounds R] (x : Circumstances) (seed : Vector U8 32) (h : List (Circumstances × RngOp)) (os : List RngObs)
    (r : Rust.ChaCha.Rng R) : Prop :=
  ∃ r₀, Rust.ChaCha.Rng.startIn tgt x seed = .ok r₀ ∧ Rust.ChaCha.Rng.runIn tgt h r₀ = .ok (os, r)

/-- The same calls in the model. -/
def envs (h : List (Circumstances × RngOp)) : List (ChaCha.Env × RngOp) := h.map fun c => (c.1.env, c.2)

theorem envs_snd (h : List (Circumstances × RngOp)) : h.map Prod.snd = (envs h).map Prod.snd := by
  rw [envs, List.map_map]
  rfl

theorem DrawnIn.reach (ht : 16 ≤ tgt.bits) {x : Circumstances} {seed : Vector U8 32} {h : List (Circumstances × RngOp)} {os : List RngObs}
    {r : Rust.ChaCha.Rng R} (hd : DrawnIn tgt R x seed h os r) :
    ∃ r', r = Rust.ChaCha.reprR R r' ∧ ChaCha.Rng.Reach tgt.mode (Rust.ChaCha.Rounds.count R) seed (envs h) os r' := by
  obtain ⟨r₀, h0, h1⟩ := hd
  rw [Rust.ChaCha.startIn_eq] at h0
  cases hf : ChaCha.Rng.fromSeed seed with
  | error p => rw [hf] at h0; exact nomatch h0
  | ok s =>
    rw [hf] at h0
    obtain rfl : Rust.ChaCha.reprR R s = r₀ := Except.ok.inj h0
    rw [Rust.ChaCha.runIn_eq ht h (envs h) (envs_snd h)] at h1
    cases hm : ChaCha.Rng.run tgt.mode (Rust.ChaCha.Rounds.count R) (envs h) s with
    | error p => rw [hm] at h1; exact nomatch h1
    | ok y =>
      rw [hm] at h1
      have h2 := Except.ok.inj h1
      have h3 : y.1 = os := congrArg Prod.fst h2
      have h4 : Rust.ChaCha.reprR R y.2 = r := congrArg Prod.snd h2
      exact ⟨y.2, h4.symm, s, hf, hm.trans (by rw [← h3])⟩

/-- **C93**.  The text of the generators and the model are the same machine: under every history of calls, each of them compiled and run in its own way, they show
the same, panic at the same call in the same way, and are left in the same state. -/
theorem C93_machine (tgt : Target) (ht : 16 ≤ tgt.bits) (R : Type) [Rust.ChaCha.Rounds R] (x : Circumstances) (seed : Vector U8 32) (h : List (Circumstances × RngOp)) :
    (Rust.ChaCha.Rng.startIn (R := R) tgt x seed >>= Rust.ChaCha.Rng.runIn tgt h) =
      (ChaCha.Rng.fromSeed seed >>= ChaCha.Rng.run tgt.mode (Rust.ChaCha.Rounds.count R) (envs h)).map fun y => (y.1, Rust.ChaCha.reprR R y.2) := by
  rw [Rust.ChaCha.startIn_eq]
  cases ChaCha.Rng.fromSeed seed with
  | error p => rfl
  | ok s => exact Rust.ChaCha.runIn_eq ht h (envs h) (envs_snd h) s

/-- **C93**, builds and processors: how the calls were compiled and on which processors they ran has no influence - on what is shown, on where it panics, on the
object. -/
theorem C93_builds (tgt : Target) (ht : 16 ≤ tgt.bits) (R : Type) [Rust.ChaCha.Rounds R] (x x' : Circumstances) (seed : Vector U8 32)
    (h h' : List (Circumstances × RngOp)) (hh : h.map Prod.snd = h'.map Prod.snd) :
    (Rust.ChaCha.Rng.startIn (R := R) tgt x seed >>= Rust.ChaCha.Rng.runIn tgt h) = Rust.ChaCha.Rng.startIn (R := R) tgt x' seed >>= Rust.ChaCha.Rng.runIn tgt h' := by
  rw [Rust.ChaCha.startIn_eq, Rust.ChaCha.startIn_eq]
  cases ChaCha.Rng.fromSeed seed with
  | error p => rfl
  | ok s => exact (Rust.ChaCha.runIn_eq ht h (envs h') (hh.trans (envs_snd h')) s).trans (Rust.ChaCha.runIn_eq ht h' (envs h') (envs_snd h') s).symm

/-- **C93**, the cursor: the histories of C83, with builds that change. -/
theorem C93_cursor (tgt : Target) (ht : 16 ≤ tgt.bits) (R : Type) [Rust.ChaCha.Rounds R] (x : Circumstances) (seed : Vector U8 32) (h : List (Circumstances × RngOp)) :
    (∀ os r, DrawnIn tgt R x seed h os r → os = (Spec.Rng.run (Rust.ChaCha.Rounds.count R) (h.map Prod.snd) (Spec.Rng.init seed)).1) ∧
    ((tgt.mode = .debug → ∀ c ∈ h, c.2 ≠ .getBlockPos) → ∃ os r, DrawnIn tgt R x seed h os r) := by
  obtain ⟨h1, h2⟩ := C18_cursor tgt.mode (Rust.ChaCha.Rounds.count R) seed (envs h)
  rw [← envs_snd] at h1
  constructor
  · intro os r hd
    obtain ⟨r', _, hr⟩ := hd.reach ht
    exact h1 os r' hr
  · intro hq
    obtain ⟨os, r', r₀, h3, h4⟩ := h2 (by
      intro hm y hy
      obtain ⟨c, hc, rfl⟩ := List.mem_map.mp hy
      exact hq hm c hc)
    refine ⟨os, Rust.ChaCha.reprR R r', Rust.ChaCha.reprR R r₀, ?_, ?_⟩
    · rw [Rust.ChaCha.startIn_eq, h3]; rfl
    · rw [Rust.ChaCha.runIn_eq ht h (envs h) (envs_snd h), h4]; rfl

/-- **C93**, saved and restored: the text of `serialize_state` on one machine gives 49 bytes, of which the text of `deserialize_state` on another machine, with or without
overflow checks, makes a generator that compares equal, and that no calls without `get_block_pos` tell apart from the first. -/
theorem C93_reload (ht : 16 ≤ tgt.bits) {x : Circumstances} {seed : Vector U8 32} {h : List (Circumstances × RngOp)} {os : List RngObs} {r : Rust.ChaCha.Rng R}
    (hd : DrawnIn tgt R x seed h os r) (y z : Circumstances) (tgt' : Target) (ht' : 16 ≤ tgt'.bits) :
    ∃ v r', v.length = 49 ∧ r.serializeIn tgt y = .ok v ∧ Rust.ChaCha.Rng.deserializeIn tgt' z v = .ok r' ∧ r'.eqIn tgt' z r = .ok true ∧
      ∀ k k' : List (Circumstances × RngOp), k.map Prod.snd = k'.map Prod.snd → (tgt.mode = .debug ∨ tgt'.mode = .debug → ∀ c ∈ k, c.2 ≠ .getBlockPos) →
        ∃ os w w', Rust.ChaCha.Rng.runIn tgt k r = .ok (os, w) ∧ Rust.ChaCha.Rng.runIn tgt' k' r' = .ok (os, w') := by
  obtain ⟨m, rfl, hr⟩ := hd.reach ht
  obtain ⟨v, m', h1, h2, h3, h4⟩ := C21_round_trip hr tgt.mode z.env
  have hs : (Rust.ChaCha.reprR R m).serializeIn tgt y = .ok v.toList := by
    let _ := Rust.ChaCha.Build.dispatch y.build y.detected
    exact (Rust.ChaCha.serialize_eq m).trans (by rw [h1]; rfl)
  have hz : Rust.ChaCha.Rng.deserializeIn tgt' z v.toList = .ok (Rust.ChaCha.reprR R m') := by
    let _ := Rust.ChaCha.Build.dispatch z.build z.detected
    exact (Rust.ChaCha.deserialize_eq (C88_refill z.build z.detected tgt' ht').refills z.env ht' v).trans (by rw [h2]; rfl)
  refine ⟨v.toList, Rust.ChaCha.reprR R m', Vector.length_toList, hs, hz, ?_, ?_⟩
  · let _ := Rust.ChaCha.Build.dispatch z.build z.detected
    exact (Rust.ChaCha.eq_eq m' m).trans (congrArg _ h3)
  · intro k k' hk hq
    have hmem : ∀ k : List (Circumstances × RngOp), (∀ op ∈ k.map Prod.snd, op ≠ .getBlockPos) → ∀ e ∈ envs k, e.2 ≠ .getBlockPos := by
      intro k hk e he
      obtain ⟨c, hc, rfl⟩ := List.mem_map.mp he
      exact hk c.2 (List.mem_map_of_mem hc)
    have hq' (h : tgt.mode = .debug ∨ tgt'.mode = .debug) : ∀ op ∈ k.map Prod.snd, op ≠ .getBlockPos := by
      intro op hop
      obtain ⟨c, hc, rfl⟩ := List.mem_map.mp hop
      exact hq h c hc
    obtain ⟨w, h5, _⟩ := ChaCha.Rng.run_rel tgt.mode (envs k) (fun hm => hmem k (hq' (.inl hm))) hr.rel
    obtain ⟨os', u, w', h6, h7⟩ := h4 tgt'.mode (envs k) (envs k') (by rw [← envs_snd, ← envs_snd, hk]) (fun hm => hmem k (hq' (.inr hm)))
    rw [← (ChaCha.Rng.run_ok tgt'.mode (envs k) hr.rel h6).1] at h5
    refine ⟨os', Rust.ChaCha.reprR R w, Rust.ChaCha.reprR R w', ?_, ?_⟩
    · rw [Rust.ChaCha.runIn_eq ht k (envs k) (envs_snd k), h5]; rfl
    · rw [Rust.ChaCha.runIn_eq ht' k' (envs k') (envs_snd k'), h7]; rfl

/-- **C93**, any 49 bytes: the text of `deserialize_state` accepts them, and the generator it makes writes the same bytes again, but for the upper half of the last one. -/
theorem C93_any_state (tgt tgt' : Target) (ht : 16 ≤ tgt.bits) (R : Type) [Rust.ChaCha.Rounds R] (x y : Circumstances) (b : Vector U8 49) :
    ∃ r : Rust.ChaCha.Rng R, Rust.ChaCha.Rng.deserializeIn tgt x b.toList = .ok r ∧ r.serializeIn tgt' y = .ok (b.set 48 (b[48] &&& 0x0F#8)).toList := by
  obtain ⟨m, h1, h2, _⟩ := C22_any_string (Rust.ChaCha.Rounds.count R) x.env x.env tgt'.mode b
  refine ⟨Rust.ChaCha.reprR R m, ?_, ?_⟩
  · let _ := Rust.ChaCha.Build.dispatch x.build x.detected
    exact (Rust.ChaCha.deserialize_eq (C88_refill x.build x.detected tgt ht).refills x.env ht b).trans (by rw [h1]; rfl)
  · let _ := Rust.ChaCha.Build.dispatch y.build y.detected
    exact (Rust.ChaCha.serialize_eq m).trans (by rw [h2]; rfl)

end

/-- A portable build. -/
def Sample.portable : Circumstances := ⟨Sample.soft.build, Sample.soft.detected⟩

/-- Two words drawn, a jump, three bytes, and the position asked, some calls on the portable build and some on any other: it can be run, and ends at word 36. -/
example (c : Circumstances) : ∃ os r, DrawnIn ⟨.debug, 64⟩ Rust.ChaCha.R20 Sample.portable (Sample.bytes 32 0)
    [(c, .nextU64), (Sample.portable, .setWordPos 35), (c, .fill 3), (Sample.portable, .getWordPos)] os r ∧ os.getLast? = some (.u128 36) := by
  have h := C93_cursor ⟨.debug, 64⟩ (by decide) Rust.ChaCha.R20 Sample.portable (Sample.bytes 32 0)
    [(c, .nextU64), (Sample.portable, .setWordPos 35), (c, .fill 3), (Sample.portable, .getWordPos)]
  obtain ⟨os, r, hd⟩ := h.2 (by intro _ y hy; simp only [List.mem_cons, List.not_mem_nil, or_false] at hy; rcases hy with rfl | rfl | rfl | rfl <;> nofun)
  have he : ((Spec.Rng.run 10 [.nextU64, .setWordPos 35, .fill 3, .getWordPos] (Spec.Rng.init (Sample.bytes 32 0))).1).getLast? = some (.u128 36) := by decide +kernel
  exact ⟨os, r, hd, (congrArg List.getLast? (h.1 os r hd)).trans he⟩

/-- The last byte of a saved state is cut to its lower half. -/
example : ∃ r : Rust.ChaCha.Rng Rust.ChaCha.R8, Rust.ChaCha.Rng.deserializeIn ⟨.debug, 16⟩ Sample.portable (List.replicate 49 0xFF) = .ok r ∧
    r.serializeIn ⟨.release, 64⟩ Sample.portable = .ok (List.replicate 48 0xFF ++ [0x0F]) :=
  C93_any_state ⟨.debug, 16⟩ ⟨.release, 64⟩ (by decide) Rust.ChaCha.R8 Sample.portable Sample.portable (Vector.replicate 49 0xFF)

/-- The panic of `get_block_pos` comes in every build. -/
example (c : Circumstances) : (Rust.ChaCha.Rng.startIn (R := Rust.ChaCha.R8) ⟨.debug, 64⟩ c (Sample.bytes 32 0) >>=
      Rust.ChaCha.Rng.runIn ⟨.debug, 64⟩ [(c, .setBlockPos 0xFFFFFFFFFFFFFFFE), (c, .nextU32), (c, .getBlockPos)]).isOk = false := by
  rw [C93_builds ⟨.debug, 64⟩ (by decide) Rust.ChaCha.R8 c Sample.portable (Sample.bytes 32 0) [(c, .setBlockPos 0xFFFFFFFFFFFFFFFE), (c, .nextU32), (c, .getBlockPos)]
    ([.setBlockPos 0xFFFFFFFFFFFFFFFE, .nextU32, .getBlockPos].map fun op => (Sample.portable, op)) rfl, C93_machine _ (by decide)]
  decide +kernel

end Verif
