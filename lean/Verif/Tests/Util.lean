import Verif.Props.Sample
/-!
# Helpers of the tests

Everything under `Verif/Tests` is a test: the `#guard` commands run the executable model (and, where it can be run, the
specification) on the test vectors of the repository.  Nothing is proved here and no theorem depends on these files.
-/
namespace Verif.Tests

def nibble (c : Char) : Nat :=
  if c.isDigit then c.toNat - '0'.toNat else if 'a' ≤ c ∧ c ≤ 'f' then c.toNat - 'a'.toNat + 10 else c.toNat - 'A'.toNat + 10

/-- Bytes of a hexadecimal string. -/
def hex (s : String) : List U8 :=
  let rec go : List Char → List U8
    | a :: b :: l => BitVec.ofNat 8 (16 * nibble a + nibble b) :: go l
    | _ => []
  go s.toList

def hexV (n : Nat) (s : String) : Vector U8 n :=
  let a := (hex s).toArray
  Vector.ofFn fun i => a.getD i.val 0

def zeros (n : Nat) : List U8 := List.replicate n 0

/-- Environments in which each of the five backends is selected. -/
def env (arch : ChaCha.Config.Arch) (flag : Option ChaCha.Config.Flag) (avx512 neon : Bool) (d : ChaCha.Config.Detected) : ChaCha.Env where
  build := { backend := flag, avx512Cfg := avx512, arch := arch, target := { sse2 := true, avx := false, avx2 := false, avx512f := false, avx512vl := false, neon := neon, sse41 := false }, rng := true }
  detected := d
  old n := List.replicate n (Vector.replicate 64 0xA5)
  old_length _ := List.length_replicate

def envs : List ChaCha.Env :=
  [env .x86_64 (some .soft) false false ⟨false, false, true⟩,
   env .x86_64 none false false ⟨false, false, true⟩,
   env .x86_64 none false false ⟨false, true, true⟩,
   env .x86_64 none true false ⟨true, true, true⟩,
   env .aarch64 none false true ⟨false, false, false⟩]

#guard envs.map (fun e => ChaCha.Config.select e.build e.detected) = [.soft, .sse2, .avx2, .avx512, .neon]

/-- Cut into pieces of `n` bytes (`chunks_mut(n)`). -/
def chunks (n : Nat) (l : List U8) : List (List U8) :=
  if h : n = 0 ∨ l = [] then [] else l.take n :: chunks n (l.drop n)
termination_by l.length
decreasing_by
  rw [List.length_drop]
  have : l.length ≠ 0 := fun h0 => h (Or.inr (List.eq_nil_of_length_eq_zero h0))
  omega

/-- Outputs of a run that succeeded throughout, numbers included. -/
def collect : List Obs → Option (List U8 × List Nat)
  | [] => some ([], [])
  | .data (.ok ()) out :: os => (collect os).map fun (b, n) => (out ++ b, n)
  | .done (.ok ()) :: os => collect os
  | .num (.ok p) :: os => (collect os).map fun (b, n) => (b, p :: n)
  | _ => none

def runSeek (c : SeekCipher) (e : ChaCha.Env) (ops : List SeekOp) : Option (List U8 × List Nat) :=
  match (do runHistory (c.step 64) (ops.map fun o => (e, o)) (← c.create 64) : Except Panic _) with
  | .ok (os, _) => collect os
  | .error _ => none

def runPlain (c : PlainCipher) (ops : List Op) : Option (List U8) :=
  match (do runHistory (c.step 64) (ops.map fun o => ((), o)) (← c.create 64) : Except Panic _) with
  | .ok (os, _) => (collect os).map (·.1)
  | .error _ => none

/-- Apply the keystream to `data` in pieces of `n`, starting at `pos`. -/
def applyAt (c : SeekCipher) (e : ChaCha.Env) (pos n : Nat) (data : List U8) : Option (List U8) :=
  (runSeek c e (.seek pos :: (chunks n data).map fun d => .io (.apply d))).map (·.1)

/-- The model in all environments, and the published stream, encrypt `pt` at `pos` to `ct`. -/
def good (c : SeekCipher) (pos : Nat) (pt ct : List U8) (sizes : List Nat) : Bool :=
  envs.all (fun e => sizes.all fun n => applyAt c e pos n pt == some ct)
    && List.zipWith (· ^^^ ·) pt (Spec.window c.stream pos pt.length) == ct

end Verif.Tests
