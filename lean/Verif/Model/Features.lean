import Verif.Model.Hygiene
import Verif.Model.Packed
import Verif.Model.Config
import Verif.Model.Salsa
import Verif.Model.Rabbit
import Verif.Model.Hc256
/-!
# Cargo features and what they switch on

The feature tables of the five crates, resolution of features, the destructor of a whole cipher object (core and key-stream buffer), and the items of
`chacha20` with the conditions under which they are compiled and the items they name.
-/
namespace Verif

/-- The crates of the repository and the crate `cipher` they all use - chacha20/Cargo.toml:2, salsa20/Cargo.toml:2, hc-256/Cargo.toml:2,
rabbit/Cargo.toml:2, rc4/Cargo.toml:2. -/
inductive Pkg where
  | chacha20 | salsa20 | hc256 | rabbit | rc4 | cipher
  deriving DecidableEq, Repr

/-- Names of features.  `cipher` and `zeroize` of `chacha20` are the features that come with the optional dependencies of those names -
chacha20/Cargo.toml:23-27, 36-40. -/
inductive Feat where
  | default | cipher | legacy | rng | xchacha | zeroize | streamWrapper
  deriving DecidableEq, Repr

/-- What a feature switches on - chacha20/Cargo.toml:23-27, 36-40, salsa20/Cargo.toml:23-24, hc-256/Cargo.toml:22-23, rabbit/Cargo.toml:22-23,
rc4/Cargo.toml:22-23.  (The dependencies `rand_core` and `zeroize` that `rng` and `zeroize` of `chacha20` bring in have no features here.) -/
def activates : Pkg → Feat → List (Pkg × Feat)
  | .chacha20, .default => [(.chacha20, .cipher)]
  | .chacha20, .legacy => [(.chacha20, .cipher)]
  | .chacha20, .xchacha => [(.chacha20, .cipher)]
  | .chacha20, .cipher => [(.cipher, .streamWrapper)]
  | .salsa20, .zeroize => [(.cipher, .zeroize)]
  | .hc256, .zeroize => [(.cipher, .zeroize)]
  | .rabbit, .zeroize => [(.cipher, .zeroize)]
  | .rc4, .zeroize => [(.cipher, .zeroize)]
  | _, _ => []

/-- Features that a crate demands of its dependencies whenever it is used - salsa20/Cargo.toml:17, hc-256/Cargo.toml:16, rabbit/Cargo.toml:16,
rc4/Cargo.toml:16. -/
def demands : Pkg → List (Pkg × Feat)
  | .salsa20 | .hc256 | .rabbit | .rc4 => [(.cipher, .streamWrapper)]
  | .chacha20 | .cipher => []

/-- Features that are on when a program uses the crates `used` and asks for the features `req` - Cargo's resolution, on the tables of
chacha20/Cargo.toml:36-40 and the other crates. -/
inductive On (used : Pkg → Prop) (req : Pkg → Feat → Prop) : Pkg → Feat → Prop
  | asked {p f} : req p f → On used req p f
  | demanded {p q g} : used p → (q, g) ∈ demands p → On used req q g
  | activated {p f q g} : On used req p f → (q, g) ∈ activates p f → On used req q g

/-- `Drop` of a `StreamCipherCoreWrapper`: the destructor of the core, and that of `ReadBuffer`, which clears the buffer iff the feature `zeroize` of
`cipher` is on - crates `cipher`, `block-buffer`; for the types of chacha20/src/chacha.rs:16-22, legacy.rs:14, xchacha.rs:34-38,
salsa20/src/lib.rs:30-38, xsalsa.rs:21-25, hc-256/src/lib.rs:38, rabbit/src/lib.rs:45-47. -/
def Packed.drop {bs : Nat} {σ : Type} (wipeBuffer : Bool) (dropCore : σ → σ) (p : Packed bs σ) : Packed bs σ :=
  ⟨dropCore p.core, if wipeBuffer then zeroizeArray p.buf else p.buf⟩

/-- `Drop for ChaChaCore`, the words - chacha20/src/lib.rs:306-311. -/
def ChaCha.dropState (zeroize : Bool) (s : ChaCha.State) : ChaCha.State := if zeroize then zeroizeArray s else s

/-- `ChaCha8/12/20`, `ChaCha20Legacy`, `XChaCha8/12/20` dropped, with the features `on` - chacha20/src/chacha.rs:16-22, legacy.rs:14, xchacha.rs:34-42,
lib.rs:306-311. -/
def ChaCha.dropCipher (on : Pkg → Feat → Bool) : Packed 64 ChaCha.State → Packed 64 ChaCha.State :=
  Packed.drop (on .cipher .zeroize) (ChaCha.dropState (on .chacha20 .zeroize))

/-- `Salsa8/12/20`, `XSalsa8/12/20` dropped - salsa20/src/lib.rs:30-38, 146-151, xsalsa.rs:21-29. -/
def Salsa.dropCipher (on : Pkg → Feat → Bool) : Packed 64 Salsa.State → Packed 64 Salsa.State :=
  Packed.drop (on .cipher .zeroize) (Salsa.drop (on .salsa20 .zeroize))

/-- `Hc256` dropped - hc-256/src/lib.rs:38, 191-198. -/
def Hc256.dropCipher (on : Pkg → Feat → Bool) : Packed 4 Hc256.State → Packed 4 Hc256.State :=
  Packed.drop (on .cipher .zeroize) (Hc256.drop (on .hc256 .zeroize))

/-- `Rabbit` and `RabbitKeyOnly` dropped - rabbit/src/lib.rs:45-47, 205-212. -/
def Rabbit.dropCipher (on : Pkg → Feat → Bool) : Packed 16 Rabbit.State → Packed 16 Rabbit.State :=
  Packed.drop (on .cipher .zeroize) (Rabbit.drop (on .rabbit .zeroize))

end Verif
