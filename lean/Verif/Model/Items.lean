import Verif.Model.Features
/-!
# The items of `chacha20` and the conditions on them

Every item of the crate (functions and `impl` blocks that stand under one condition are one item), when it is compiled, and which items it names.
-/
namespace Verif.ChaCha.Items
open Config

/-- Everything a `cfg` condition of the crate may look at: features, flags and target - chacha20/src/lib.rs:12-46, 82-116, backends.rs. -/
structure Site where
  cipher : Bool
  legacy : Bool
  rng : Bool
  xchacha : Bool
  zeroize : Bool
  flag : Option Flag
  avx512Cfg : Bool
  x86 : Bool
  neon : Bool
  deriving DecidableEq, Repr

/-- The conditions of a build with the features `on` - chacha20/src/lib.rs:12-46, 82-116. -/
def Site.of (on : Feat → Bool) (b : Build) : Site where
  cipher := on .cipher
  legacy := on .legacy
  rng := on .rng
  xchacha := on .xchacha
  zeroize := on .zeroize
  flag := b.backend
  avx512Cfg := b.avx512Cfg
  x86 := b.isX86
  neon := b.isNeon

/-- `cfg(any(feature = "cipher", feature = "rng"))` - chacha20/src/lib.rs:46, 138, backends.rs:1. -/
def Site.any (s : Site) : Bool := s.cipher || s.rng

/-- Which backend modules are compiled - chacha20/src/backends.rs:1-32. -/
def Site.modules (s : Site) : List Impl :=
  if !s.any then [] else
  if s.flag = some .soft then [.soft]
  else if s.x86 then
    if s.avx512Cfg && s.flag = some .avx512 then .avx512 :: (if s.rng then [.avx2] else [])
    else if s.flag = some .avx2 then [.avx2]
    else if s.flag = some .sse2 then [.sse2]
    else [.soft] ++ (if s.avx512Cfg then [.avx512] else []) ++ [.avx2, .sse2]
  else if s.neon then [.neon]
  else [.soft]

/-- Is runtime detection compiled in? - chacha20/src/lib.rs:102-111. -/
def Site.detects (s : Site) : Bool :=
  s.x86 && s.flag ≠ some .soft && !(s.avx512Cfg && s.flag = some .avx512) && s.flag ≠ some .avx2 && s.flag ≠ some .sse2

/-- The items - chacha20/src/lib.rs, variants.rs, chacha.rs, legacy.rs, rng.rs, xchacha.rs, backends/*.rs; the first eight are external crates and
modules. -/
inductive Item where
  | extCipher | extZeroize | extRandCore | extCpufeatures | extCfgIf | extArchX86 | extArchArm | extCore
  -- lib.rs
  | pubChaCha | pubCipher | pubLegacy | pubRandCore | pubRng | pubXChaCha
  | constants | stateWords | rounds | roundCounts | avx512Cpuid | avx2Cpuid | sse2Cpuid | tokens | core | newInternal | blockPos | debug
  | seekImpl | streamImpl | blockSize | dropImpl | zeroizeImpl | quarterRound
  -- variants.rs
  | variant | counterCopy | counterCipher | ietf | legacyVariant
  -- chacha.rs
  | key | nonce | ciphers | block | init
  -- legacy.rs
  | legacyNonce | legacyCiphers | legacyInit
  -- rng.rs
  | seed | rngState | blockWords | seedable | generator | generatorDrop | rngs | rngsZeroize
  -- xchacha.rs
  | xNonce | xCiphers | xCore | xInit | xStream | xZeroize | hchacha
  -- backends/soft.rs
  | softBackend | softCipher | softRng | softRounds
  -- backends/sse2.rs
  | sse2Inner | sse2Backend | sse2Cipher | sse2RngInner | sse2Rng | sse2Rounds
  -- backends/avx2.rs
  | avx2Inner | avx2Backend | avx2Cipher | avx2RngInner | avx2Rng | avx2Rounds
  -- backends/avx512.rs
  | avx512Inner | avx512Backend | avx512Blocks | avx512Cipher | avx512Rounds
  -- backends/neon.rs
  | neonInner | neonBackend | neonCipher | neonRngInner | neonRng | neonRounds
  deriving DecidableEq, Repr

/-- When an item is compiled.  Lines of chacha20/src/lib.rs unless another file is named. -/
def Item.present (s : Site) : Item → Bool
  | .extCipher => s.cipher  -- Cargo.toml:23
  | .extZeroize => s.zeroize  -- Cargo.toml:27
  | .extRandCore => s.rng  -- Cargo.toml:24, 39
  | .extCpufeatures => s.x86  -- Cargo.toml:29-30
  | .extCfgIf => true  -- Cargo.toml:22
  | .extArchX86 => s.x86
  | .extArchArm => s.neon
  | .extCore => true
  | .pubChaCha => s.cipher  -- 21-22
  | .pubCipher => s.cipher  -- 23-26
  | .pubLegacy => s.legacy  -- 27-28
  | .pubRandCore => s.rng  -- 29-30
  | .pubRng => s.rng  -- 31-32
  | .pubXChaCha => s.xchacha  -- 33-34
  | .constants => s.any  -- 46-47
  | .stateWords => true  -- 50
  | .rounds => true  -- 53-56
  | .roundCounts => true  -- 58-80
  | .avx512Cpuid => s.detects && s.avx512Cfg  -- 103-104
  | .avx2Cpuid => s.detects  -- 105
  | .sse2Cpuid => s.detects  -- 106
  | .tokens => true  -- 82-116
  | .core => true  -- 119-127
  | .newInternal => s.any  -- 138-189
  | .blockPos => true  -- 191-203
  | .debug => true  -- 206-215
  | .seekImpl => s.cipher  -- 217-230
  | .streamImpl => s.cipher  -- 232-299
  | .blockSize => s.cipher  -- 301-304
  | .dropImpl => s.zeroize  -- 306-311
  | .zeroizeImpl => s.zeroize  -- 313-314
  | .quarterRound => true  -- 320-343
  | .variant => true  -- variants.rs:9-28
  | .counterCopy => !s.cipher  -- variants.rs:10-12
  | .counterCipher => s.cipher  -- variants.rs:14-16
  | .ietf => true  -- variants.rs:30-54
  | .legacyVariant => s.legacy || s.rng  -- variants.rs:56-83
  | .key => s.cipher  -- 12-13, chacha.rs:10
  | .nonce => s.cipher  -- chacha.rs:13
  | .ciphers => s.cipher  -- chacha.rs:16-22
  | .block => s.cipher  -- chacha.rs:24
  | .init => s.cipher  -- chacha.rs:26-38
  | .legacyNonce => s.legacy  -- 14-15, legacy.rs:11
  | .legacyCiphers => s.legacy  -- legacy.rs:14-17
  | .legacyInit => s.legacy  -- legacy.rs:19-32
  | .seed => s.rng  -- 16-17, rng.rs:22
  | .rngState => s.rng  -- rng.rs:25
  | .blockWords => s.rng  -- rng.rs:28-33
  | .seedable => s.rng  -- rng.rs:35-42
  | .generator => s.rng  -- rng.rs:44-92
  | .generatorDrop => s.rng && s.zeroize  -- rng.rs:96-99
  | .rngs => s.rng  -- rng.rs:102-344
  | .rngsZeroize => s.rng && s.zeroize  -- rng.rs:170-171
  | .xNonce => s.xchacha  -- 18-19, xchacha.rs:17
  | .xCiphers => s.xchacha  -- xchacha.rs:34-38
  | .xCore => s.xchacha  -- xchacha.rs:41-42
  | .xInit => s.xchacha  -- xchacha.rs:44-67
  | .xStream => s.xchacha  -- xchacha.rs:69-93
  | .xZeroize => s.xchacha && s.zeroize  -- xchacha.rs:95-96
  | .hchacha => s.xchacha  -- xchacha.rs:111-153
  | .softBackend => s.modules.contains .soft  -- backends/soft.rs:18
  | .softCipher => s.modules.contains .soft && s.cipher  -- backends/soft.rs:20-46
  | .softRng => s.modules.contains .soft && s.rng  -- backends/soft.rs:48-63
  | .softRounds => s.modules.contains .soft  -- backends/soft.rs:65-87
  | .sse2Inner => s.modules.contains .sse2 && s.cipher  -- backends/sse2.rs:30-56
  | .sse2Backend => s.modules.contains .sse2  -- backends/sse2.rs:58-61
  | .sse2Cipher => s.modules.contains .sse2 && s.cipher  -- backends/sse2.rs:63-109
  | .sse2RngInner => s.modules.contains .sse2 && s.rng  -- backends/sse2.rs:111-134
  | .sse2Rng => s.modules.contains .sse2 && s.rng  -- backends/sse2.rs:136-153
  | .sse2Rounds => s.modules.contains .sse2  -- backends/sse2.rs:155-293
  | .avx2Inner => s.modules.contains .avx2 && s.cipher  -- backends/avx2.rs:34-79
  | .avx2Backend => s.modules.contains .avx2  -- backends/avx2.rs:114-118
  | .avx2Cipher => s.modules.contains .avx2 && s.cipher  -- backends/avx2.rs:120-180
  | .avx2RngInner => s.modules.contains .avx2 && s.rng  -- backends/avx2.rs:81-112
  | .avx2Rng => s.modules.contains .avx2 && s.rng  -- backends/avx2.rs:182-206
  | .avx2Rounds => s.modules.contains .avx2  -- backends/avx2.rs:207-354
  | .avx512Inner => s.modules.contains .avx512 && s.cipher  -- backends/avx512.rs:29-57
  | .avx512Backend => s.modules.contains .avx512  -- backends/avx512.rs:59-63
  | .avx512Blocks => s.modules.contains .avx512 && s.cipher  -- backends/avx512.rs:65-277
  | .avx512Cipher => s.modules.contains .avx512 && s.cipher  -- backends/avx512.rs:279-340
  | .avx512Rounds => s.modules.contains .avx512  -- backends/avx512.rs:341-625
  | .neonInner => s.modules.contains .neon && s.cipher  -- backends/neon.rs:70-91
  | .neonBackend => s.modules.contains .neon  -- backends/neon.rs:24-68
  | .neonCipher => s.modules.contains .neon && s.cipher  -- backends/neon.rs:112-217
  | .neonRngInner => s.modules.contains .neon && s.rng  -- backends/neon.rs:93-110
  | .neonRng => s.modules.contains .neon && s.rng  -- backends/neon.rs:254-307
  | .neonRounds => s.modules.contains .neon  -- backends/neon.rs:310-364

/-- The backend items named in `process_with_backend` - chacha20/src/lib.rs:243-297. -/
def streamCalls (s : Site) : List Item :=
  if s.flag = some .soft then [.softBackend, .softCipher]
  else if s.x86 then
    if s.avx512Cfg && s.flag = some .avx512 then [.avx512Inner]
    else if s.flag = some .avx2 then [.avx2Inner]
    else if s.flag = some .sse2 then [.sse2Inner]
    else (if s.avx512Cfg then [.avx512Inner] else []) ++ [.avx2Inner, .sse2Inner, .softBackend, .softCipher]
  else if s.neon then [.neonInner]
  else [.softBackend, .softCipher]

/-- The backend items named in `generate` - chacha20/src/rng.rs:50-91. -/
def rngCalls (s : Site) : List Item :=
  if s.flag = some .soft then [.softBackend, .softRng]
  else if s.x86 then
    if s.flag = some .avx2 ∨ s.flag = some .avx512 then [.avx2RngInner]
    else if s.flag = some .sse2 then [.sse2RngInner]
    else [.avx2RngInner, .sse2RngInner, .softBackend, .softRng]
  else if s.neon then [.neonRngInner]
  else [.softBackend, .softRng]

/-- The modules of runtime detection named in `new_internal` - chacha20/src/lib.rs:164-184. -/
def detectCalls (s : Site) : List Item :=
  if s.flag = some .soft then []
  else if s.x86 then
    if s.flag = some .avx512 ∨ s.flag = some .avx2 ∨ s.flag = some .sse2 then []
    else if s.avx512Cfg then [.avx512Cpuid, .avx2Cpuid, .sse2Cpuid] else [.avx2Cpuid, .sse2Cpuid]
  else []

/-- The modules of runtime detection named in `type Tokens` - chacha20/src/lib.rs:82-116. -/
def tokenTypes (s : Site) : List Item :=
  if s.flag = some .soft then []
  else if s.x86 then
    if s.avx512Cfg && s.flag = some .avx512 then []
    else if s.flag = some .avx2 ∨ s.flag = some .sse2 then []
    else if s.avx512Cfg then [.avx512Cpuid, .avx2Cpuid, .sse2Cpuid] else [.avx2Cpuid, .sse2Cpuid]
  else []

/-- The items an item names.  Lines of chacha20/src/lib.rs unless another file is named. -/
def Item.uses (s : Site) : Item → List Item
  | .extCipher | .extZeroize | .extRandCore | .extCpufeatures | .extCfgIf | .extArchX86 | .extArchArm | .extCore => []
  | .pubChaCha => [.key, .nonce, .ciphers]  -- 22
  | .pubCipher => [.extCipher]  -- 24-26
  | .pubLegacy => [.legacyNonce, .legacyCiphers]  -- 28
  | .pubRandCore => [.extRandCore]  -- 30
  | .pubRng => [.seed, .rngState, .rngs]  -- 32
  | .pubXChaCha => [.xNonce, .xCiphers, .hchacha]  -- 34
  | .constants => []
  | .stateWords => []
  | .rounds => []
  | .roundCounts => [.rounds]  -- 58-80
  | .avx512Cpuid => [.extCpufeatures]  -- 104
  | .avx2Cpuid => [.extCpufeatures]  -- 105
  | .sse2Cpuid => [.extCpufeatures]  -- 106
  | .tokens => .extCfgIf :: tokenTypes s  -- 82-116
  | .core => [.extCore, .rounds, .variant, .stateWords, .tokens]  -- 119-127
  | .newInternal => [.core, .stateWords, .constants, .variant, .extCfgIf] ++ detectCalls s  -- 139-189
  | .blockPos => [.core, .variant]  -- 194-202
  | .debug => [.core, .extCore, .rounds, .variant]  -- 206-215
  | .seekImpl => [.core, .extCipher, .blockPos, .counterCipher]  -- 218-230
  | .streamImpl => [.core, .extCipher, .blockSize, .tokens, .extCfgIf] ++ streamCalls s  -- 233-298
  | .blockSize => [.core, .extCipher]  -- 302-304
  | .dropImpl => [.core, .extZeroize]  -- 307-311
  | .zeroizeImpl => [.core, .extZeroize]  -- 314
  | .quarterRound => [.stateWords]  -- 320-343
  | .variant => []
  | .counterCopy => []
  | .counterCipher => [.extCipher]  -- variants.rs:16
  | .ietf => [.variant]  -- variants.rs:36
  | .legacyVariant => [.variant]  -- variants.rs:65
  | .key => [.extCipher]  -- chacha.rs:1-5, 10
  | .nonce => [.extCipher]  -- chacha.rs:13
  | .ciphers => [.extCipher, .core, .roundCounts, .ietf, .streamImpl, .seekImpl, .blockSize, .init]  -- chacha.rs:16-22
  | .block => [.extCipher]  -- chacha.rs:24
  | .init => [.extCipher, .core, .rounds, .ietf, .key, .nonce, .newInternal]  -- chacha.rs:26-38
  | .legacyNonce => [.extCipher]  -- legacy.rs:11
  | .legacyCiphers => [.extCipher, .core, .roundCounts, .legacyVariant, .streamImpl, .seekImpl, .blockSize, .legacyInit]  -- legacy.rs:14-17
  | .legacyInit => [.extCipher, .core, .pubChaCha, .roundCounts, .legacyVariant, .legacyNonce, .newInternal]  -- legacy.rs:3, 19-32
  | .seed => []
  | .rngState => []
  | .blockWords => []
  | .seedable => [.extRandCore, .core, .rounds, .variant, .seed, .newInternal]  -- rng.rs:35-42
  | .generator => [.extRandCore, .core, .rounds, .variant, .blockWords, .tokens, .extCfgIf] ++ rngCalls s ++
      (if s.zeroize then [.generatorDrop] else [])  -- rng.rs:44-100
  | .generatorDrop => [.extZeroize]  -- rng.rs:97-99
  | .rngs => [.extRandCore, .core, .roundCounts, .legacyVariant, .seed, .rngState, .blockWords, .newInternal, .generator, .extCore]  -- rng.rs:102-344
  | .rngsZeroize => [.extZeroize, .rngs]  -- rng.rs:171
  | .xNonce => [.extCipher]  -- xchacha.rs:17
  | .xCiphers => [.extCipher, .xCore, .roundCounts, .xStream, .xInit]  -- xchacha.rs:34-38
  | .xCore => [.core, .rounds, .ietf, .debug]  -- xchacha.rs:41-42
  | .xInit => [.extCipher, .xCore, .pubChaCha, .xNonce, .hchacha, .newInternal, .ietf]  -- xchacha.rs:44-67
  | .xStream => [.extCipher, .xCore, .streamImpl, .blockPos]  -- xchacha.rs:52-54, 69-93
  | .xZeroize => [.extZeroize, .xCore]  -- xchacha.rs:96
  | .hchacha => [.extCipher, .pubChaCha, .stateWords, .constants, .rounds, .quarterRound]  -- xchacha.rs:111-153
  | .softBackend => [.core, .rounds, .variant]  -- backends/soft.rs:5, 18
  | .softCipher => [.extCipher, .softBackend, .block, .softRounds]  -- backends/soft.rs:20-46
  | .softRng => [.softBackend, .softRounds, .blockWords]  -- backends/soft.rs:15-16, 48-63
  | .softRounds => [.rounds, .stateWords, .quarterRound]  -- backends/soft.rs:65-87
  | .sse2Inner => [.extCipher, .stateWords, .extArchX86, .sse2Backend, .sse2Cipher, .rounds, .variant]  -- backends/sse2.rs:33-56
  | .sse2Backend => [.extArchX86, .rounds, .variant]  -- backends/sse2.rs:58-61
  | .sse2Cipher => [.extCipher, .block, .sse2Backend, .sse2Rounds, .extArchX86]  -- backends/sse2.rs:63-109
  | .sse2RngInner => [.core, .sse2Backend, .sse2Rng, .extArchX86]  -- backends/sse2.rs:114-134
  | .sse2Rng => [.sse2Backend, .sse2Rounds, .extArchX86]  -- backends/sse2.rs:137-153
  | .sse2Rounds => [.rounds, .variant, .extArchX86]  -- backends/sse2.rs:155-293
  | .avx2Inner => [.extCipher, .stateWords, .extArchX86, .avx2Backend, .avx2Cipher, .rounds, .variant]  -- backends/avx2.rs:38-79
  | .avx2Backend => [.extArchX86, .rounds, .variant]  -- backends/avx2.rs:114-118
  | .avx2Cipher => [.extCipher, .block, .avx2Backend, .avx2Rounds, .extArchX86]  -- backends/avx2.rs:120-180
  | .avx2RngInner => [.core, .avx2Backend, .avx2Rng, .extArchX86]  -- backends/avx2.rs:84-112
  | .avx2Rng => [.avx2Backend, .avx2Rounds, .extArchX86]  -- backends/avx2.rs:183-206
  | .avx2Rounds => [.rounds, .extArchX86]  -- backends/avx2.rs:207-354
  | .avx512Inner => [.extCipher, .stateWords, .extArchX86, .avx512Backend, .avx512Cipher, .rounds, .variant]  -- backends/avx512.rs:32-57
  | .avx512Backend => [.extArchX86, .rounds, .variant]  -- backends/avx512.rs:59-63
  | .avx512Blocks => [.avx512Backend, .block, .avx512Rounds, .extArchX86]  -- backends/avx512.rs:66-277
  | .avx512Cipher => [.extCipher, .block, .avx512Backend, .avx512Blocks, .avx512Rounds, .extArchX86]  -- backends/avx512.rs:279-340
  | .avx512Rounds => [.rounds, .extArchX86]  -- backends/avx512.rs:341-625
  | .neonInner => [.extCipher, .stateWords, .extArchArm, .neonBackend, .neonCipher, .rounds, .variant]  -- backends/neon.rs:73-91
  | .neonBackend => [.extArchArm, .rounds, .variant, .stateWords]  -- backends/neon.rs:24-68
  | .neonCipher => [.extCipher, .block, .neonBackend, .neonRounds, .extArchArm]  -- backends/neon.rs:112-217
  | .neonRngInner => [.core, .neonBackend, .neonRng, .extArchArm]  -- backends/neon.rs:97-110
  | .neonRng => [.neonBackend, .neonRounds, .extArchArm]  -- backends/neon.rs:255-307
  | .neonRounds => [.extArchArm]  -- backends/neon.rs:310-364

/-- All items - chacha20/src. -/
def Item.all : List Item :=
  [.extCipher, .extZeroize, .extRandCore, .extCpufeatures, .extCfgIf, .extArchX86, .extArchArm, .extCore, .pubChaCha, .pubCipher, .pubLegacy,
   .pubRandCore, .pubRng, .pubXChaCha, .constants, .stateWords, .rounds, .roundCounts, .avx512Cpuid, .avx2Cpuid, .sse2Cpuid, .tokens, .core,
   .newInternal, .blockPos, .debug, .seekImpl, .streamImpl, .blockSize, .dropImpl, .zeroizeImpl, .quarterRound, .variant, .counterCopy,
   .counterCipher, .ietf, .legacyVariant, .key, .nonce, .ciphers, .block, .init, .legacyNonce, .legacyCiphers, .legacyInit, .seed, .rngState,
   .blockWords, .seedable, .generator, .generatorDrop, .rngs, .rngsZeroize, .xNonce, .xCiphers, .xCore, .xInit, .xStream, .xZeroize, .hchacha,
   .softBackend, .softCipher, .softRng, .softRounds, .sse2Inner, .sse2Backend, .sse2Cipher, .sse2RngInner, .sse2Rng, .sse2Rounds, .avx2Inner,
   .avx2Backend, .avx2Cipher, .avx2RngInner, .avx2Rng, .avx2Rounds, .avx512Inner, .avx512Backend, .avx512Blocks, .avx512Cipher, .avx512Rounds,
   .neonInner, .neonBackend, .neonCipher, .neonRngInner, .neonRng, .neonRounds]

end Verif.ChaCha.Items
