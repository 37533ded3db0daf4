import Verif.Basic
/-!
# The backend interface of the `cipher` crate

`cipher::StreamCipherBackend` and `cipher::StreamCipherClosure` (external crate, version 0.5; see the
trusted base in DESIGN.md).  `StreamCipherCore::process_with_backend` hands a *closure* - arbitrary
client code, generic in the backend type - a mutable reference to a backend.  The closure can ask for one block, for
`ParBlocksSize` blocks at once, or for a tail of fewer than `ParBlocksSize` blocks, and can
look at the answers before going on.  `Prog` is the type of all such (terminating) interactions.
-/
namespace Verif

/-- A terminating client of a backend with block size `bs`, returning an `α` - what `f.call` does with the backend, chacha20/src/lib.rs:245,
salsa20/src/lib.rs:127, hc-256/src/lib.rs:118, rabbit/src/lib.rs:245. -/
inductive Prog (bs : Nat) (α : Type) : Type where
  /-- stop and return -/
  | done (a : α)
  /-- `backend.gen_ks_block(&mut block)` -/
  | block (k : Vector U8 bs → Prog bs α)
  /-- `backend.gen_par_ks_blocks(&mut blocks)`, `blocks.len() = ParBlocksSize` -/
  | par (k : List (Vector U8 bs) → Prog bs α)
  /-- `backend.gen_tail_blocks(&mut blocks)`, `blocks.len() = n` -/
  | tail (n : Nat) (k : List (Vector U8 bs) → Prog bs α)

/-- A `StreamCipherBackend` with block size `bs` and internal state `σ` - crate `cipher`; implemented at chacha20/src/backends/soft.rs:31-46 and
by the other backends. -/
structure Backend (bs : Nat) (σ : Type) where
  /-- `ParBlocksSize` -/
  parSize : Nat
  /-- `gen_ks_block` -/
  genBlock : σ → Except Panic (Vector U8 bs × σ)
  /-- `gen_par_ks_blocks` -/
  genPar : σ → Except Panic (List (Vector U8 bs) × σ)
  /-- `gen_tail_blocks` -/
  genTail : Nat → σ → Except Panic (List (Vector U8 bs) × σ)

/-- Call `gen_ks_block` `n` times, collecting the blocks - crate `cipher`; implemented at chacha20/src/backends/soft.rs:31-46 and by the other
backends. -/
def genMany {bs : Nat} {σ : Type} (gen : σ → Except Panic (Vector U8 bs × σ)) :
    Nat → σ → Except Panic (List (Vector U8 bs) × σ)
  | 0, s => .ok ([], s)
  | n + 1, s => do
    let (b, s) ← gen s
    let (bs, s) ← genMany gen n s
    return (b :: bs, s)

/-- The provided methods of the trait: `gen_par_ks_blocks` loops over `gen_ks_block`, and `gen_tail_blocks` does the same after asserting that
the tail is shorter than `ParBlocksSize` - crate `cipher`; used by chacha20/src/backends/soft.rs:31-46, salsa20/src/backends/soft.rs:20-31,
hc-256/src/lib.rs:213-218, rabbit/src/lib.rs:301-306. -/
def Backend.ofBlock {bs : Nat} {σ : Type} (parSize : Nat)
    (gen : σ → Except Panic (Vector U8 bs × σ)) : Backend bs σ where
  parSize := parSize
  genBlock := gen
  genPar := genMany gen parSize
  genTail n s := if n < parSize then genMany gen n s else .error .assertion

/-- Run a client against a backend: `closure.call(&mut backend)` - chacha20/src/lib.rs:245, chacha20/src/backends/sse2.rs:50. -/
def Prog.run {bs : Nat} {σ α : Type} (B : Backend bs σ) : Prog bs α → σ → Except Panic (α × σ)
  | .done a, s => .ok (a, s)
  | .block k, s => do
    let (b, s) ← B.genBlock s
    (k b).run B s
  | .par k, s => do
    let (l, s) ← B.genPar s
    (k l).run B s
  | .tail n k, s => do
    let (l, s) ← B.genTail n s
    (k l).run B s

/-- A `StreamCipherClosure` is generic in the backend, hence it may depend on `ParBlocksSize` - crate `cipher`; argument of
`process_with_backend`, chacha20/src/lib.rs:239-242. -/
abbrev Closure (bs : Nat) (α : Type) := Nat → Prog bs α

/-- `closure.call(&mut backend)` - chacha20/src/lib.rs:245, chacha20/src/backends/sse2.rs:50. -/
def Backend.call {bs : Nat} {σ α : Type} (B : Backend bs σ) (f : Closure bs α) (s : σ) :
    Except Panic (α × σ) := (f B.parSize).run B s

end Verif
