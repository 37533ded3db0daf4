import Verif.Model.Config
import Verif.Proof.CoreRef
import Verif.Proof.ChaChaSimd
import Verif.Proof.ChaChaAvx512
/-!
# The dispatcher, and ChaCha as a seekable core
-/
namespace Verif.ChaCha
open Spec

/-- `ParBlocksSize` of each backend. -/
def Config.Impl.par : Config.Impl → Nat
  | .soft => 1
  | .sse2 => 4
  | .avx2 => 4
  | .avx512 => 16
  | .neon => 8

/-- Whatever backend is selected, a client sees portable blocks. -/
theorem process_eq {α : Type} (dr : Nat) (V : Variant) (e : Env) (f : Closure 64 α) (s : State) :
    process dr V e f s =
      (Backend.ofBlock (Config.select e.build e.detected).par (softGenBlock dr V)).call f s := by
  unfold process
  cases Config.select e.build e.detected
  · rfl
  · exact Sse2.inner_eq dr V f s
  · exact Avx2.inner_eq dr V f s
  · exact Avx512.inner_eq dr V e.old e.old_length f s
  · exact Neon.inner_eq dr V f s

/-- State standing for block `n` of the stream of `s0`. -/
def at' (V : Variant) (s0 : State) (n : Nat) : State := setBlockPos V s0 (BitVec.ofNat _ n)

/-- Keystream blocks of the stream of `s0`. -/
def ksOf (dr : Nat) (V : Variant) (s0 : State) (n : Nat) : Block := leBytes (runRounds dr (at' V s0 n))

/-- `s` stands for block `n`. -/
def Rel (V : Variant) (s0 : State) (s : State) (n : Nat) : Prop := s = at' V s0 n

theorem advance_at' (V : Variant) (s0 : State) (n k : Nat) : advance V k (at' V s0 n) = at' V s0 (n + k) := by
  simp only [advance, at', getBlockPos_setBlockPos, setBlockPos_setBlockPos, BitVec.ofNat_add]

theorem softGenBlock_at' (dr : Nat) (V : Variant) (s0 : State) (n : Nat) :
    softGenBlock dr V (at' V s0 n) = .ok (ksOf dr V s0 n, at' V s0 (n + 1)) := by
  rw [softGenBlock_eq, advance_at']; rfl

theorem Config.Impl.par_pos (i : Config.Impl) : 1 ≤ i.par := by cases i <;> decide

theorem seekLaw (u dr : Nat) (V : Variant) (s0 : State) :
    SeekLaw (core u dr V) u (ksOf dr V s0) (Rel V s0) (2 ^ (8 * V.ctrBytes) - 1) where
  process := by
    intro e s n hr
    refine ⟨(Config.select e.build e.detected).par, Config.Impl.par_pos _, ?_⟩
    intro α f a n' h hw
    obtain ⟨s', h1, h2⟩ := run_ofBlock_ref (Config.select e.build e.detected).par (softGenBlock dr V) (ksOf dr V s0) (Rel V s0)
      (some (2 ^ (8 * V.ctrBytes) - 1)) (by
        intro s n hr _
        refine ⟨_, ?_, rfl⟩
        rw [hr]; exact softGenBlock_at' dr V s0 n) _ s n a n' hr h hw
    exact ⟨s', (process_eq dr V e f s).trans h1, h2⟩
  remaining := by
    intro s n hr hw
    have hn : n ≤ 2 ^ (8 * V.ctrBytes) - 1 := hw _ rfl
    have h2 : (0 : Nat) < 2 ^ (8 * V.ctrBytes) := Nat.two_pow_pos _
    rw [hr]
    simp only [core, remainingBlocks, at', getBlockPos_setBlockPos]
    have : (BitVec.allOnes (8 * V.ctrBytes) - BitVec.ofNat (8 * V.ctrBytes) n).toNat =
        2 ^ (8 * V.ctrBytes) - 1 - n := by
      rw [BitVec.toNat_sub_of_le, BitVec.toNat_allOnes, BitVec.toNat_ofNat, Nat.mod_eq_of_lt (by omega)]
      rw [BitVec.le_def, BitVec.toNat_allOnes, BitVec.toNat_ofNat, Nat.mod_eq_of_lt (by omega)]
      exact hn
    rw [this]
  getPos := by
    intro s n hr hn
    have h2 : (0 : Nat) < 2 ^ (8 * V.ctrBytes) := Nat.two_pow_pos _
    rw [hr]
    simp only [core, at', getBlockPos_setBlockPos, BitVec.toNat_ofNat]
    exact Nat.mod_eq_of_lt (by omega)
  setPos := by
    intro s n m hr _
    rw [hr]
    simp only [core, Rel, at', setBlockPos_setBlockPos]
  ctrMax := by
    have h2 : (0 : Nat) < 2 ^ (8 * V.ctrBytes) := Nat.two_pow_pos _
    simp only [core]
    omega

end Verif.ChaCha
