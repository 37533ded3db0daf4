import Verif.Rust.Src.ChaChaDispatch
import Verif.Proof.Oblivious
/-!
# The text of the dispatchers that records what it does
-/
namespace Verif.Rust

/-- A computation after these things have been seen. -/
def Tr.after {α : Type} (p : List Event) (m : Tr α) : Tr α := (m.1, p ++ m.2)

theorem Tr.after_nil {α : Type} (m : Tr α) : Tr.after [] m = m := rfl

theorem Tr.after_after {α : Type} (p q : List Event) (m : Tr α) : Tr.after p (Tr.after q m) = Tr.after (p ++ q) m :=
  congrArg (Prod.mk _) (List.append_assoc ..).symm

theorem Tr.branch_then {β : Type} (b : Bool) (k : Bool → Tr β) : (Tr.branch b >>= k : Tr β) = Tr.after [.branch b] (k b) := rfl

namespace ChaCha
open Verif.ChaCha (Config.Build Config.Detected Config.Impl Config.select Config.selectRng)

variable {tgt : Target} {R V : Type} [Rounds R] [Variant V]

/-- The call of a module and what is done with its result. -/
def armTr {F : Type} [StreamCipherClosure F] (m : Config.Impl) (c : ChaChaCore R V) (f : F) : Tr (Unit × ChaChaCore R V × F) :=
  match m with
  | .soft => do let r ← StreamCipherClosure.call_tr tgt f (⟨c⟩ : Backend R V); pure ((), r.2.2.f0, r.2.1)
  | .sse2 => do let r ← sse2.inner_tr (R := R) (V := V) tgt c.state f; pure ((), ⟨r.2.1, c.tokens⟩, r.2.2)
  | .avx2 => do let r ← avx2.inner_tr (R := R) (V := V) tgt c.state f; pure ((), ⟨r.2.1, c.tokens⟩, r.2.2)
  | .avx512 => do let r ← avx512.inner_tr (R := R) (V := V) tgt c.state f; pure ((), ⟨r.2.1, c.tokens⟩, r.2.2)
  | .neon => do let r ← neon.inner_tr (R := R) (V := V) tgt c.state f; pure ((), ⟨r.2.1, c.tokens⟩, r.2.2)

@[inherit_doc armTr] def genArmTr (m : Config.Impl) (c : ChaChaCore R V) (buffer : List U32) : Tr (Unit × ChaChaCore R V × List U32) :=
  match m with
  | .sse2 => do let r ← sse2.rng_inner_tr tgt c buffer; pure ((), r.2.1, r.2.2)
  | .avx2 => do let r ← avx2.rng_inner_tr tgt c buffer; pure ((), r.2.1, r.2.2)
  | .neon => do let r ← neon.rng_inner_tr tgt c buffer; pure ((), r.2.1, r.2.2)
  | _ => do let r ← Backend.gen_ks_blocks_tr tgt ⟨c⟩ buffer; pure ((), r.2.1.f0, r.2.2)

/-- The text of `process_with_backend` in a build, on a processor, recording - chacha20/src/lib.rs:239-298. -/
def processTr {F : Type} [StreamCipherClosure F] (b : Config.Build) (d : Config.Detected) (tgt : Target) (c : ChaChaCore R V) (f : F) :
    Tr (Unit × ChaChaCore R V × F) :=
  letI : Cpu := ⟨d⟩; dispatch.ChaChaCore.process_with_backend_tr b tgt c f

/-- The text of `generate` in a build, on a processor, recording - chacha20/src/rng.rs:49-92. -/
def generateTr (b : Config.Build) (d : Config.Detected) (tgt : Target) (c : ChaChaCore R V) (buffer : List U32) : Tr (Unit × ChaChaCore R V × List U32) :=
  letI : Cpu := ⟨d⟩; dispatch.ChaChaCore.generate_tr b tgt c buffer

theorem avx512_then [i : Cpu] {β : Type} (t : avx512_cpuid.InitToken) (k : Bool → Tr β) :
    (avx512_cpuid.InitToken.get_tr tgt t >>= k : Tr β) = k i.detected.avx512 := rfl

theorem avx2_then [i : Cpu] {β : Type} (t : avx2_cpuid.InitToken) (k : Bool → Tr β) : (avx2_cpuid.InitToken.get_tr tgt t >>= k : Tr β) = k i.detected.avx2 := rfl

theorem sse2_then [i : Cpu] {β : Type} (t : sse2_cpuid.InitToken) (k : Bool → Tr β) : (sse2_cpuid.InitToken.get_tr tgt t >>= k : Tr β) = k i.detected.sse2 := rfl

/-- The conditions of `process_with_backend` on what was detected. -/
def asked (b : Config.Build) (d : Config.Detected) : List Event :=
  if b.isX86 && (b.backend = none || b.backend = some .avx512 && !b.avx512Cfg) then
    let rest := if d.avx2 then [.branch true] else [.branch false, .branch d.sse2]
    if b.avx512Cfg then if d.avx512 then [.branch true] else .branch false :: rest else rest
  else []

/-- The conditions of `generate` on what was detected. -/
def askedRng (b : Config.Build) (d : Config.Detected) : List Event :=
  if b.isX86 && b.backend = none then if d.avx2 then [.branch true] else [.branch false, .branch d.sse2] else []

/-- Conditions and nothing else. -/
def Conditions (p : List Event) : Prop := ∀ e ∈ p, ∃ x, e = .branch x

theorem asked_conditions (b : Config.Build) (d : Config.Detected) : Conditions (asked b d) ∧ Conditions (askedRng b d) := by
  simp only [asked, askedRng]
  constructor <;> (repeat' split) <;> simp [Conditions]

/-- Of a dispatcher, the conditions on what was detected are seen, then the module that the model says. -/
theorem processTr_eq (b : Config.Build) (d : Config.Detected) (tgt : Target) {R V : Type} [Rounds R] [Variant V] {F : Type} [StreamCipherClosure F]
    (c : ChaChaCore R V) (f : F) : processTr b d tgt c f = Tr.after (asked b d) (armTr (tgt := tgt) (Config.select b d) c f) := by
  obtain ⟨backend, cfg512, arch, ⟨f1, f2, f3, f4, f5, f6, neon⟩, rng⟩ := b
  obtain ⟨d1, d2, d3⟩ := d
  rcases backend with _ | (_ | _ | _ | _) <;> cases cfg512 <;> cases arch <;> cases neon <;> cases d1 <;> cases d2 <;> cases d3 <;>
    simp [processTr, dispatch.ChaChaCore.process_with_backend_tr, Tr.branch_then, avx512_then, avx2_then, sse2_then, Tr.after_after, Tr.after_nil,
      asked, Config.select, Config.Build.isX86, Config.Build.isNeon, Config.Build.forced512, armTr]

@[inherit_doc processTr_eq] theorem generateTr_eq (b : Config.Build) (d : Config.Detected) (tgt : Target) {R V : Type} [Rounds R] [Variant V] (c : ChaChaCore R V)
    (buffer : List U32) : generateTr b d tgt c buffer = Tr.after (askedRng b d) (genArmTr (tgt := tgt) (Config.selectRng b d) c buffer) := by
  obtain ⟨backend, cfg512, arch, ⟨f1, f2, f3, f4, f5, f6, neon⟩, rng⟩ := b
  obtain ⟨d1, d2, d3⟩ := d
  rcases backend with _ | (_ | _ | _ | _) <;> cases cfg512 <;> cases arch <;> cases neon <;> cases d2 <;> cases d3 <;>
    simp [generateTr, dispatch.ChaChaCore.generate_tr, Tr.branch_then, avx2_then, sse2_then, Tr.after_after, Tr.after_nil,
      askedRng, Config.selectRng, Config.Build.isX86, Config.Build.isNeon, genArmTr]

end ChaCha

end Verif.Rust
