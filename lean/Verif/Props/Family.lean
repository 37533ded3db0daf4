import Verif.Proof.Family
import Verif.Props.Rng
/-!
# Generators seeded from each other (C65)
-/
namespace Verif
open Spec ChaCha
open Verif.Spec.Rng (St RngOp RngObs)

/-- **C65**.  After any history `from_rng` succeeds: the new generator (of any of the three types) is the one that `from_seed` makes of the next 32 bytes
of the old one, and the old one stands eight words further, indistinguishable from one on which `fill_bytes` was called. -/
theorem C65_from_rng {m : Mode} {dr : Nat} {seed : Vector U8 32} {h : List (Env × RngOp)} {os : List RngObs} {r : ChaCha.Rng}
    (hr : Rng.Reach m dr seed h os r) (e e' : Env) :
    ∃ child r' s, Rng.fromRng dr e r = .ok (child, r') ∧ s.toList = (Rng.fillBytes dr e' 32 r).1 ∧ Rng.fromSeed s = .ok child ∧
      Rng.Same m dr r' (Rng.fillBytes dr e' 32 r).2 ∧ r'.getWordPos.toNat = (r.getWordPos.toNat + 8) % 2 ^ 68 ∧
      (∀ dr', Rng.Reach m dr' s [] [] child) := by
  have hrel := hr.rel
  obtain ⟨c, r', h1, h2, h3, -⟩ := Rng.fromRng_rel hrel e dr
  refine ⟨c, r', Spec.Family.childSeed dr (Rng.cursor dr seed h), h1, ?_, h3, h2.same (Rng.fillBytes_rel hrel e' 32).2 m, ?_, ?_⟩
  · rw [(Rng.fillBytes_rel hrel e' 32).1, Spec.Family.childSeed, Rng.bytes]
    apply List.ext_getElem
    · simp
    · intro i h1 h2
      simp only [Vector.getElem_toList, Vector.getElem_ofFn, List.getElem_map, List.getElem_range]
  · rw [h2.wordPos, hrel.wordPos]
    rfl
  · exact fun dr' => ⟨c, h3, rfl⟩

/-- A child of a generator that has been used. -/
example : ∃ os r child r', ChaCha.Rng.Reach .debug 10 (Sample.bytes 32 0) Sample.rngHistory os r ∧
    ChaCha.Rng.fromRng 10 Sample.avx2 r = .ok (child, r') ∧ r'.getWordPos.toNat = 9 := by
  obtain ⟨os, r, hr⟩ := Sample.rng_exists .debug 10 (Sample.bytes 32 0)
  obtain ⟨child, r', s, h1, _, _, _, h2, _⟩ := C65_from_rng hr Sample.avx2 Sample.soft
  have h3 := ChaCha.Rng.Rel.wordPos hr.rel
  rw [Sample.rngHistory_cursor] at h3
  exact ⟨os, r, child, r', hr, h1, h2.trans (by rw [h3]; decide)⟩

/-- **C65**.  A family that starts from one fresh generator and grows by `from_rng` shows what the family of cursors shows, whichever backend serves which
refill; it does not panic, except that `get_block_pos` may when overflow checks are on. -/
theorem C65_family (m : Mode) (dr : Nat) (seed : Vector U8 32) (h : List (Env × Spec.Family.Op)) :
    ∃ r₀, Rng.fromSeed seed = .ok r₀ ∧
      (∀ os f, Rng.famRun m h [(dr, r₀)] = .ok (os, f) → os = (Spec.Family.run (h.map (·.2)) [(dr, Spec.Rng.init seed)]).1) ∧
      ((m = .debug → ∀ x ∈ h, ∀ i, x.2 ≠ .call i .getBlockPos) → ∃ os f, Rng.famRun m h [(dr, r₀)] = .ok (os, f)) := by
  obtain ⟨r₀, h0, h1⟩ := Rng.fromSeed_rel dr seed
  have hf : Rng.FamRel [(dr, Spec.Rng.init seed)] [(dr, r₀)] :=
    Rng.FamRel.push (f := []) (g := []) ⟨rfl, fun _ _ _ hn => nomatch hn⟩ h1
  refine ⟨r₀, h0, fun os f hr => (Rng.famRun_ok m h hf hr).1, fun hq => ?_⟩
  obtain ⟨g, h2, _⟩ := Rng.famRun_rel m h hq hf
  exact ⟨_, g, h2⟩

/-- Test vector, chacha20/tests/rng.rs:183-193. -/
example : (Spec.Family.run [.call 0 .nextU32, .fork 0 10, .call 1 .nextU32]
    [(10, Spec.Rng.init #v[0,0,0,0,0,0,0,0,1,0,0,0,0,0,0,0,2,0,0,0,0,0,0,0,3,0,0,0,0,0,0,0])]).1 =
      [.u32 137206642, .none, .u32 1325750369] := by decide +kernel

/-- **C65**.  Members do not influence each other: in any family (whatever the states of its members), what becomes of a member depends on the calls addressed to
it alone, seeding another generator counting as a `fill_bytes` of 32 bytes. -/
theorem C65_isolated {m : Mode} {h : List (Env × Spec.Family.Op)} {f f' : List (Nat × ChaCha.Rng)} {os : List RngObs} {i dr : Nat} {r : ChaCha.Rng}
    (hrun : Rng.famRun m h f = .ok (os, f')) (hi : f[i]? = some (dr, r)) :
    ∃ os' r', Rng.run m dr (Rng.callsOf i h) r = .ok (os', r') ∧ f'[i]? = some (dr, r') :=
  Rng.famRun_member m h hrun hi

/-- A family of a ChaCha8 generator with a ChaCha20 child and a ChaCha12 grandchild, on changing backends. -/
example (r : ChaCha.Rng) (hr : Rng.fromSeed (Vector.replicate 32 7) = .ok r) : ∃ os f,
    Rng.famRun .debug [(Sample.avx2, .fork 0 10), (Sample.soft, .call 0 (.fill 5)), (Sample.avx2, .fork 1 6), (Sample.soft, .call 2 .nextU64)] [(4, r)] = .ok (os, f) ∧
      f.map (·.1) = [4, 10, 6] := by
  obtain ⟨r₀, h0, h1⟩ := Rng.fromSeed_rel 4 (Vector.replicate 32 7)
  rw [hr] at h0
  simp only [Except.ok.injEq] at h0
  rw [← h0] at h1
  obtain ⟨g, h2, h3⟩ := Rng.famRun_rel .debug [(Sample.avx2, .fork 0 10), (Sample.soft, .call 0 (.fill 5)), (Sample.avx2, .fork 1 6), (Sample.soft, .call 2 .nextU64)]
    (by
      intro _ x hx i
      simp only [List.mem_cons, List.not_mem_nil, or_false] at hx
      rcases hx with rfl | rfl | rfl | rfl <;> exact nofun)
    (Rng.FamRel.push (f := []) (g := []) ⟨rfl, fun _ _ _ hn => nomatch hn⟩ h1)
  refine ⟨_, g, h2, ?_⟩
  have key : ∀ (f : List (Nat × St)) (g : List (Nat × ChaCha.Rng)), Rng.FamRel f g → g.map (·.1) = f.map (·.1) := by
    intro f g hfg
    apply List.ext_getElem
    · rw [List.length_map, List.length_map, hfg.1]
    · intro i h1 h2
      rw [List.length_map] at h2
      obtain ⟨r, h3, _⟩ := hfg.2 i f[i].1 f[i].2 (List.getElem?_eq_getElem h2)
      rw [List.getElem_map, List.getElem_map]
      rw [List.getElem?_eq_some_iff] at h3
      rw [h3.2]
  rw [key _ _ h3]
  rfl

end Verif
