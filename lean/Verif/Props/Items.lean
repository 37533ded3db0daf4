import Verif.Model.Items
import Verif.Props.Features
import Verif.Props.Config
/-!
# Every set of features names only what it compiles (C77)
-/
namespace Verif.ChaCha.Items
open Config

/-- The features `on` of `chacha20` respect the feature table of its Cargo.toml. -/
def Lawful (on : Feat → Bool) : Prop := ∀ f g, (Pkg.chacha20, g) ∈ activates .chacha20 f → on f = true → on g = true

theorem mem_all (i : Item) : i ∈ Item.all := by cases i <;> decide

/-- All names resolve. -/
def ok (s : Site) : Bool := Item.all.all fun i => !i.present s || (i.uses s).all (·.present s)

theorem ok_iff (s : Site) : ok s = true ↔ ∀ i j : Item, i.present s = true → j ∈ i.uses s → j.present s = true := by
  unfold ok
  rw [List.all_eq_true]
  constructor
  · intro h i j hi hj
    have := h i (mem_all i)
    rw [hi, Bool.not_true, Bool.false_or, List.all_eq_true] at this
    exact this j hj
  · intro h i _
    cases hi : i.present s with
    | false => rfl
    | true =>
      rw [Bool.not_true, Bool.false_or, List.all_eq_true]
      exact fun j hj => h i j hi hj

theorem ok_all (legacy rng xchacha zeroize avx512Cfg x86 neon cipher : Bool) (flag : Option Flag)
    (h : (legacy || xchacha) = true → cipher = true) : ok ⟨cipher, legacy, rng, xchacha, zeroize, flag, avx512Cfg, x86, neon⟩ = true := by
  revert h
  rcases flag with _ | _ | _ | _ | _ <;>
    revert legacy rng xchacha zeroize avx512Cfg x86 neon cipher <;> decide +kernel

/-- **C77**.  For every set of features that respects the feature table, every backend flag and every target: whatever is compiled names only things
that are compiled. -/
theorem C77_resolves (on : Feat → Bool) (h : Lawful on) (b : Build) (i j : Item) (hi : i.present (Site.of on b) = true)
    (hj : j ∈ i.uses (Site.of on b)) : j.present (Site.of on b) = true := by
  refine (ok_iff _).mp (ok_all _ _ _ _ _ _ _ _ _ ?_) i j hi hj
  intro hx
  rw [Bool.or_eq_true] at hx
  rcases hx with hx | hx
  · exact h .legacy .cipher (by decide) hx
  · exact h .xchacha .cipher (by decide) hx

/-- All features of `chacha20`, the AVX-512 backend forced on x86-64: the generator names `avx2::rng_inner`, which is compiled for it. -/
example : let s := Site.of (fun _ => true) ⟨some .avx512, true, .x86_64, ⟨true, true, true, true, true, true, false⟩, true⟩
    Item.generator.present s = true ∧ Item.avx2RngInner ∈ Item.generator.uses s ∧ Item.avx2RngInner.present s = true ∧
    Item.sse2RngInner.present s = false := by decide

/-- **C77**.  Cargo's resolution always yields a set that respects the feature table, whatever a program uses and asks for. -/
theorem C77_cargo (used : Pkg → Prop) (req : Pkg → Feat → Prop) (on : Pkg → Feat → Bool) (h : Resolves used req on) : Lawful (on .chacha20) :=
  fun _ _ hm hf => (h _ _).mpr (.activated ((h _ _).mp hf) hm)

/-- A program that asks for the feature `legacy` without the default features gets `cipher`. -/
example : ∃ on, Resolves (fun p => p = .chacha20) (fun p f => p = .chacha20 ∧ f = .legacy) on ∧ on .chacha20 .cipher = true := by
  obtain ⟨on, h⟩ := resolves_exists (fun p => p = .chacha20) (fun p f => p = .chacha20 ∧ f = .legacy)
  exact ⟨on, h, C77_cargo _ _ on h .legacy .cipher (by decide) (h.own ⟨rfl, rfl⟩)⟩

/-- **C77**.  Both entries of the table are needed: in every build with `legacy` or `xchacha` but without `cipher`, something is named that does not
exist. -/
theorem C77_needed (on : Feat → Bool) (b : Build) (hc : on .cipher = false) (h : on .legacy = true ∨ on .xchacha = true) :
    ∃ i j : Item, i.present (Site.of on b) = true ∧ j ∈ i.uses (Site.of on b) ∧ j.present (Site.of on b) = false := by
  rcases h with h | h
  · exact ⟨.legacyNonce, .extCipher, h, by simp [Item.uses], hc⟩
  · exact ⟨.xNonce, .extCipher, h, by simp [Item.uses], hc⟩

example : ¬Lawful fun f => f = .legacy := fun h => absurd (h .legacy .cipher (by decide) (by decide)) (by decide)

/-- More features never compile fewer backend modules. -/
theorem modules_mono (s t : Site) (hf : s.flag = t.flag) (ha : s.avx512Cfg = t.avx512Cfg) (hx : s.x86 = t.x86) (hn : s.neon = t.neon)
    (hc : s.cipher = true → t.cipher = true) (hr : s.rng = true → t.rng = true) (m : Impl) (h : s.modules.contains m = true) :
    t.modules.contains m = true := by
  obtain ⟨c, l, r, x, z, f, a, x86, n⟩ := s
  obtain ⟨c', l', r', x', z', f', a', x86', n'⟩ := t
  dsimp only at hf ha hx hn hc hr
  subst hf ha hx hn
  have e : ∀ c l r x z f a x86 n, Site.modules ⟨c, l, r, x, z, f, a, x86, n⟩ = Site.modules ⟨c, false, r, false, false, f, a, x86, n⟩ :=
    fun _ _ _ _ _ _ _ _ _ => rfl
  rw [e] at h ⊢
  clear e
  revert hc hr h
  rcases f with _ | _ | _ | _ | _ <;> cases m <;> revert c r c' r' a x86 n <;> decide +kernel

/-- **C77**.  Features are additive: switching features on never removes an item - with one exception, the declaration of `Variant::Counter` for
crates without `cipher`, which is replaced by the other declaration of it. -/
theorem C77_additive (on on' : Feat → Bool) (h : ∀ f, on f = true → on' f = true) (b : Build) (i : Item)
    (hi : i.present (Site.of on b) = true) : i.present (Site.of on' b) = true ∨ (i = .counterCopy ∧ on' .cipher = true) := by
  have hm : ∀ m, (Site.of on b).modules.contains m = true → (Site.of on' b).modules.contains m = true :=
    fun m => modules_mono (Site.of on b) (Site.of on' b) rfl rfl rfl rfl (h .cipher) (h .rng) m
  have hany : (Site.of on b).any = true → (Site.of on' b).any = true := by
    intro e
    have e : (on .cipher || on .rng) = true := e
    show (on' .cipher || on' .rng) = true
    rw [Bool.or_eq_true] at e ⊢
    exact e.imp (h _) (h _)
  have hand : ∀ m f, ((Site.of on b).modules.contains m && on f) = true → ((Site.of on' b).modules.contains m && on' f) = true := by
    intro m f e
    rw [Bool.and_eq_true] at e ⊢
    exact ⟨hm m e.1, h f e.2⟩
  have hand2 : ∀ f g, (on f && on g) = true → (on' f && on' g) = true := by
    intro f g e
    rw [Bool.and_eq_true] at e ⊢
    exact ⟨h f e.1, h g e.2⟩
  cases i
  case counterCopy =>
    cases e : on' .cipher with
    | true => exact .inr ⟨rfl, rfl⟩
    | false => exact .inl (by show (!on' .cipher) = true; rw [e]; rfl)
  all_goals left
  all_goals first
    | exact hi
    | exact h _ hi
    | exact hany hi
    | exact hm _ hi
    | exact hand _ _ hi
    | exact hand2 _ _ hi
    | skip
  case legacyVariant =>
    have e : (on .legacy || on .rng) = true := hi
    show (on' .legacy || on' .rng) = true
    rw [Bool.or_eq_true] at e ⊢
    exact e.imp (h _) (h _)

example : Item.counterCopy.present (Site.of (fun f => f = .rng) Sample.plain) = true ∧
    Item.counterCopy.present (Site.of (fun f => f = .rng ∨ f = .cipher) Sample.plain) = false := by decide

/-- **C77**.  `Variant::Counter` is declared exactly once, whatever the features. -/
theorem C77_counter (s : Site) : Item.counterCopy.present s = !Item.counterCipher.present s := rfl

/-- The backend an item of `process_with_backend` belongs to. -/
def streamImplOf : Item → Option Impl
  | .softCipher => some .soft
  | .sse2Inner => some .sse2
  | .avx2Inner => some .avx2
  | .avx512Inner => some .avx512
  | .neonInner => some .neon
  | _ => none

/-- The backend an item of `generate` belongs to. -/
def rngImplOf : Item → Option Impl
  | .softRng => some .soft
  | .sse2RngInner => some .sse2
  | .avx2RngInner => some .avx2
  | .neonRngInner => some .neon
  | _ => none

/-- **C77**.  This description and the one of C42 and C43 agree on the modules compiled and on the backends named by the dispatchers; and what the
dispatchers can select is always named and, with the feature concerned, compiled. -/
theorem C77_dispatch (on : Feat → Bool) (b : Build) (hb : b.rng = on .rng) :
    (Site.of on b).modules = (if on .cipher || on .rng then compiled b else []) ∧
    (streamCalls (Site.of on b)).filterMap streamImplOf = referenced b ∧
    (rngCalls (Site.of on b)).filterMap rngImplOf = referencedRng b := by
  obtain ⟨flag, a, arch, ⟨f1, f2, f3, f4, f5, f6, neon⟩, r⟩ := b
  have e : r = on .rng := hb
  clear hb
  unfold Site.of
  rw [← e]
  generalize on .cipher = c
  refine ⟨?_, ?_, ?_⟩
  · rcases flag with _ | _ | _ | _ | _ <;> cases arch <;> cases a <;> cases neon <;> cases c <;> cases r <;> rfl
  · rcases flag with _ | _ | _ | _ | _ <;> cases arch <;> cases a <;> cases neon <;> rfl
  · rcases flag with _ | _ | _ | _ | _ <;> cases arch <;> cases neon <;> rfl

example : (Site.of (fun _ => true) Sample.plain).modules = [.soft, .avx2, .sse2] := by decide

/-- **C77**.  The function `avx2::inner` stands under `cfg_attr(chacha20_backend = "avx512", expect(unused))`.  Whenever it is compiled, that is right:
with that flag (and the opt-in without which the crate does not compile, C42) nothing names it; with any other flag something does. -/
theorem C77_unused (on : Feat → Bool) (b : Build) (hf : ¬Config.Forgotten b) (hp : Item.avx2Inner.present (Site.of on b) = true) :
    b.backend ≠ some .avx512 ↔ ∃ i : Item, i.present (Site.of on b) = true ∧ Item.avx2Inner ∈ i.uses (Site.of on b) := by
  have key : (∃ i : Item, i.present (Site.of on b) = true ∧ Item.avx2Inner ∈ i.uses (Site.of on b)) ↔
      Item.all.any (fun i => i.present (Site.of on b) && (i.uses (Site.of on b)).contains .avx2Inner) = true := by
    rw [List.any_eq_true]
    constructor
    · rintro ⟨i, h1, h2⟩
      refine ⟨i, mem_all i, ?_⟩
      rw [h1, Bool.true_and]
      exact List.contains_iff_mem.mpr h2
    · rintro ⟨i, _, h⟩
      rw [Bool.and_eq_true] at h
      exact ⟨i, h.1, List.contains_iff_mem.mp h.2⟩
  rw [key]
  obtain ⟨flag, a, arch, ⟨f1, f2, f3, f4, f5, f6, neon⟩, q⟩ := b
  replace hf : ¬((arch = .x86 ∨ arch = .x86_64) ∧ flag = some .avx512 ∧ a = false) := hf
  have hx : flag = some .avx512 → Build.isX86 ⟨flag, a, arch, ⟨f1, f2, f3, f4, f5, f6, neon⟩, q⟩ = true → a = true := by
    intro e hx
    cases a with
    | true => rfl
    | false => exact absurd ⟨of_decide_eq_true hx, e, rfl⟩ hf
  revert hp
  unfold Site.of
  dsimp only
  generalize Build.isX86 _ = x86 at hx ⊢
  generalize Build.isNeon _ = n
  generalize on .cipher = c
  generalize on .legacy = l
  generalize on .rng = r
  generalize on .xchacha = x
  generalize on .zeroize = z
  clear hf key
  revert hx
  rcases flag with _ | _ | _ | _ | _ <;> revert n a c l r x z x86 <;> decide +kernel

example : Item.avx2Inner.present (Site.of (fun _ => true) ⟨some .avx512, true, .x86_64, ⟨true, true, true, true, true, true, false⟩, true⟩) = true := by
  decide

end Verif.ChaCha.Items
