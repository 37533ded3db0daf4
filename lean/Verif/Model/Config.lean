import Verif.Model.Wrapper
import Verif.Model.ChaChaSse2
import Verif.Model.ChaChaAvx2
import Verif.Model.ChaChaAvx512
import Verif.Model.ChaChaNeon
/-!
# Model of the configuration logic of `chacha20`

Conditional compilation (`cfg_if!`), runtime CPU detection (`cpufeatures` tokens) and the dispatchers built on
them: `/repo/chacha20/src/lib.rs:82-116, 165-184, 239-298`, `/repo/chacha20/src/backends.rs`, `/repo/chacha20/src/rng.rs:49-92`.
-/
namespace Verif.ChaCha.Config

/-- Values of `--cfg chacha20_backend="…"` - chacha20/Cargo.toml, `check-cfg`. -/
inductive Flag where
  | soft | avx512 | avx2 | sse2
  deriving DecidableEq, Repr

/-- `target_arch` - chacha20/src/lib.rs:85, 289. -/
inductive Arch where
  | x86 | x86_64 | aarch64 | other
  deriving DecidableEq, Repr

/-- CPU features the code refers to, at compile time (`target_feature`) or at run time - chacha20/src/lib.rs:88, 93, 98, 104-106, 289. -/
structure Features where
  sse2 : Bool
  sse41 : Bool
  avx : Bool
  avx2 : Bool
  avx512f : Bool
  avx512vl : Bool
  neon : Bool
  deriving DecidableEq, Repr

/-- A compiler configuration - chacha20/src/lib.rs:82-116. -/
structure Build where
  /-- `--cfg chacha20_backend="…"` -/
  backend : Option Flag
  /-- `--cfg chacha20_avx512` -/
  avx512Cfg : Bool
  /-- `target_arch` -/
  arch : Arch
  /-- `target_feature` -/
  target : Features
  /-- Cargo feature `rng` -/
  rng : Bool
  deriving DecidableEq, Repr

/-- The backend modules - chacha20/src/backends.rs:5-32. -/
inductive Impl where
  | soft | sse2 | avx2 | avx512 | neon
  deriving DecidableEq, Repr

/-- `cfg(any(target_arch = "x86", target_arch = "x86_64"))` - chacha20/src/lib.rs:85. -/
def Build.isX86 (b : Build) : Bool := b.arch = .x86 ∨ b.arch = .x86_64

/-- `cfg(all(target_arch = "aarch64", target_feature = "neon"))` - chacha20/src/lib.rs:289. -/
def Build.isNeon (b : Build) : Bool := b.arch = .aarch64 ∧ b.target.neon

/-- `cfg(all(chacha20_avx512, chacha20_backend = "avx512"))` - chacha20/src/lib.rs:87. -/
def Build.forced512 (b : Build) : Bool := b.avx512Cfg ∧ b.backend = some .avx512

/-- Results of the runtime detection: `cpufeatures::new!(avx512_cpuid, "avx512f", "avx512vl")`,
`new!(avx2_cpuid, "avx2")`, `new!(sse2_cpuid, "sse2")` - chacha20/src/lib.rs:103-106. -/
structure Detected where
  avx512 : Bool
  avx2 : Bool
  sse2 : Bool
  deriving DecidableEq, Repr

/-- Detection on a given CPU - chacha20/src/lib.rs:103-106, 175-179. -/
def detect (cpu : Features) : Detected := ⟨cpu.avx512f && cpu.avx512vl, cpu.avx2, cpu.sse2⟩

/-- Dispatch of `process_with_backend` - chacha20/src/lib.rs:239-298. -/
def select (b : Build) (d : Detected) : Impl :=
  if b.backend = some .soft then .soft
  else if b.isX86 then
    if b.forced512 then .avx512
    else if b.backend = some .avx2 then .avx2
    else if b.backend = some .sse2 then .sse2
    else if b.avx512Cfg && d.avx512 then .avx512
    else if d.avx2 then .avx2
    else if d.sse2 then .sse2
    else .soft
  else if b.isNeon then .neon
  else .soft

/-- Dispatch of `Generator::generate` - chacha20/src/rng.rs:49-92. -/
def selectRng (b : Build) (d : Detected) : Impl :=
  if b.backend = some .soft then .soft
  else if b.isX86 then
    if b.backend = some .avx2 ∨ b.backend = some .avx512 then .avx2
    else if b.backend = some .sse2 then .sse2
    else if d.avx2 then .avx2
    else if d.sse2 then .sse2
    else .soft
  else if b.isNeon then .neon
  else .soft

/-- Which backend modules are compiled - chacha20/src/backends.rs:5-32. -/
def compiled (b : Build) : List Impl :=
  if b.backend = some .soft then [.soft]
  else if b.isX86 then
    if b.forced512 then .avx512 :: (if b.rng then [.avx2] else [])
    else if b.backend = some .avx2 then [.avx2]
    else if b.backend = some .sse2 then [.sse2]
    else [.soft] ++ (if b.avx512Cfg then [.avx512] else []) ++ [.avx2, .sse2]
  else if b.isNeon then [.neon]
  else [.soft]

/-- Backend modules named in the body of `process_with_backend` - chacha20/src/lib.rs:239-298. -/
def referenced (b : Build) : List Impl :=
  if b.backend = some .soft then [.soft]
  else if b.isX86 then
    if b.forced512 then [.avx512]
    else if b.backend = some .avx2 then [.avx2]
    else if b.backend = some .sse2 then [.sse2]
    else (if b.avx512Cfg then [.avx512] else []) ++ [.avx2, .sse2, .soft]
  else if b.isNeon then [.neon]
  else [.soft]

/-- Backend modules named in the body of `generate` - chacha20/src/rng.rs:49-92. -/
def referencedRng (b : Build) : List Impl :=
  if b.backend = some .soft then [.soft]
  else if b.isX86 then
    if b.backend = some .avx2 ∨ b.backend = some .avx512 then [.avx2]
    else if b.backend = some .sse2 then [.sse2]
    else [.avx2, .sse2, .soft]
  else if b.isNeon then [.neon]
  else [.soft]

/-- Shape of the `tokens` value or type: `()`, a pair, a triple - chacha20/src/lib.rs:84, 108, 110. -/
inductive TokenShape where
  | unit | pair | triple
  deriving DecidableEq, Repr

/-- `type Tokens` - chacha20/src/lib.rs:82-116. -/
def tokensType (b : Build) : TokenShape :=
  if b.backend = some .soft then .unit
  else if b.isX86 then
    if b.forced512 then .unit
    else if b.backend = some .avx2 then .unit
    else if b.backend = some .sse2 then .unit
    else if b.avx512Cfg then .triple else .pair
  else .unit

/-- The initialiser `let tokens = …` - chacha20/src/lib.rs:165-184. -/
def tokensInit (b : Build) : TokenShape :=
  if b.backend = some .soft then .unit
  else if b.isX86 then
    if b.backend = some .avx512 then .unit
    else if b.backend = some .avx2 then .unit
    else if b.backend = some .sse2 then .unit
    else if b.avx512Cfg then .triple else .pair
  else .unit

/-- The pattern that destructures `self.tokens` in `process_with_backend` - chacha20/src/lib.rs:261-264
(`none`: the tokens are not looked at). -/
def tokensUse (b : Build) : Option TokenShape :=
  if b.backend = some .soft then none
  else if b.isX86 then
    if b.forced512 then none
    else if b.backend = some .avx2 then none
    else if b.backend = some .sse2 then none
    else some (if b.avx512Cfg then .triple else .pair)
  else none

/-- The pattern that destructures `self.tokens` in `generate` - chacha20/src/rng.rs:65-68. -/
def tokensUseRng (b : Build) : Option TokenShape :=
  if b.backend = some .soft then none
  else if b.isX86 then
    if b.backend = some .avx2 ∨ b.backend = some .avx512 then none
    else if b.backend = some .sse2 then none
    else some (if b.avx512Cfg then .triple else .pair)
  else none

/-- Does one of the `compile_error!`s fire? - chacha20/src/lib.rs:88-101. -/
def compileError (b : Build) : Bool :=
  if b.backend = some .soft then false
  else if b.isX86 then
    if b.forced512 then !(b.target.avx512f && b.target.avx512vl)
    else if b.backend = some .avx2 then !b.target.avx2
    else if b.backend = some .sse2 then !b.target.sse2
    else false
  else false

end Verif.ChaCha.Config

namespace Verif.ChaCha

/-- Circumstances of one call: how the crate was built, what CPU detection said, and (irrelevant, as is proved) what was in the output buffers
before: the AVX-512 code stores 16-byte pieces into them - chacha20/src/lib.rs:239-298. -/
structure Env where
  build : Config.Build
  detected : Config.Detected
  old : Nat → List Block
  old_length : ∀ n, (old n).length = n

/-- `process_with_backend` - chacha20/src/lib.rs:239-298. -/
def process {α : Type} (dr : Nat) (V : Variant) (e : Env) (f : Closure 64 α) (s : State) :
    Except Panic (α × State) :=
  match Config.select e.build e.detected with
  | .soft => (soft dr V).call f s
  | .sse2 => Sse2.inner dr V f s
  | .avx2 => Avx2.inner dr V f s
  | .avx512 => Avx512.inner dr V e.old f s
  | .neon => Neon.inner dr V f s

/-- `ChaChaCore<R, V>` as a `StreamCipherSeekCore` - chacha20/src/lib.rs:217-304; `XChaChaCore<R>` delegates to it, chacha20/src/xchacha.rs:41, 69-93.
`usizeBits` is the width of `usize`. -/
def core (usizeBits dr : Nat) (V : Variant) : SeekCore 64 Env where
  σ := State
  process := process dr V
  remaining := remainingBlocks usizeBits V
  ctrBits := 8 * V.ctrBytes
  getPos s := (getBlockPos V s).toNat
  setPos s n := setBlockPos V s (BitVec.ofNat _ n)

/-- `ChaCha8/12/20::new(key, nonce)`: `KeyIvInit` of `StreamCipherCoreWrapper` - chacha20/src/chacha.rs:16-38. -/
def cipherIetf (key : Vector U8 32) (iv : Vector U8 12) : Except Panic (Wrapper 64 State) := do
  return Wrapper.fromCore (← newIetf key iv)

/-- `ChaCha20Legacy::new(key, nonce)` - chacha20/src/legacy.rs:27-32. -/
def cipherLegacy (key : Vector U8 32) (iv : Vector U8 8) : Except Panic (Wrapper 64 State) := do
  return Wrapper.fromCore (← newLegacy key iv)

/-- `XChaCha8/12/20::new(key, nonce)` - chacha20/src/xchacha.rs:57-66. -/
def cipherX (dr : Nat) (key : Vector U8 32) (iv : Vector U8 24) : Except Panic (Wrapper 64 State) := do
  return Wrapper.fromCore (← newX dr key iv)

end Verif.ChaCha
