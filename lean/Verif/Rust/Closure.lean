import Verif.Rust.Core
import Verif.Rust.Trace
/-!
# Backends and closures of the crate `cipher`

`StreamCipherBackend` with block size 64 as a class whose methods are translated text, with (`_tr`) and without a record of what is seen, and
`StreamCipherClosure`.  A closure is arbitrary
client code (`Verif.Closure`); calling it uses it up and leaves what it returns.
-/
namespace Verif.Rust

/-- `StreamCipherBackend<BlockSize = U64>` with its supertraits `BlockSizeUser` and `ParBlocksSizeUser` - crate `cipher`; implemented at
chacha20/src/backends/sse2.rs:63-109. -/
class StreamCipherBackend (σ : Type) where
  parSize : Nat
  gen_ks_block : Target → σ → List U8 → Except Panic (Unit × σ × List U8)
  gen_par_ks_blocks : Target → σ → List (List U8) → Except Panic (Unit × σ × List (List U8))
  gen_tail_blocks : Target → σ → List (List U8) → Except Panic (Unit × σ × List (List U8))
  gen_ks_block_tr : Target → σ → List U8 → Tr (Unit × σ × List U8)
  gen_par_ks_blocks_tr : Target → σ → List (List U8) → Tr (Unit × σ × List (List U8))
  gen_tail_blocks_tr : Target → σ → List (List U8) → Tr (Unit × σ × List (List U8))

/-- `ParBlocksSizeUser` - crate `cipher`; implemented at chacha20/src/backends/neon.rs:117-120. -/
class ParBlocksSizeUser (σ : Type) where
  parBlocks : Nat

/-- `ParBlocks::<σ>::default()`, with blocks of 64 bytes. -/
def ParBlocks.default (σ : Type) [ParBlocksSizeUser σ] : List (List U8) := List.replicate (ParBlocksSizeUser.parBlocks σ) (List.replicate 64 0)

/-- `for block in blocks { self.gen_ks_block(block) }`. -/
def genEach {σ : Type} (gen : σ → List U8 → Except Panic (Unit × σ × List U8)) : σ → List (List U8) → Except Panic (Unit × σ × List (List U8))
  | s, [] => .ok ((), s, [])
  | s, b :: l => do
    let (_, s, b) ← gen s b
    let (_, s, l) ← genEach gen s l
    return ((), s, b :: l)

/-- The provided method `gen_tail_blocks` - crate `cipher`. -/
def providedTail {σ : Type} (parSize : Nat) (gen : σ → List U8 → Except Panic (Unit × σ × List U8)) (s : σ) (blocks : List (List U8)) :
    Except Panic (Unit × σ × List (List U8)) :=
  if blocks.length < parSize then genEach gen s blocks else .error .assertion

/-- `genEach` that records what is seen. -/
def genEach_tr {σ : Type} (gen : σ → List U8 → Tr (Unit × σ × List U8)) : σ → List (List U8) → Tr (Unit × σ × List (List U8))
  | s, [] => pure ((), s, [])
  | s, b :: l => do
    let (_, s, b) ← gen s b
    let (_, s, l) ← genEach_tr gen s l
    return ((), s, b :: l)

/-- `providedTail` that records what is seen. -/
def providedTail_tr {σ : Type} (parSize : Nat) (gen : σ → List U8 → Tr (Unit × σ × List U8)) (s : σ) (blocks : List (List U8)) :
    Tr (Unit × σ × List (List U8)) := do
  Tr.loop blocks.length
  if blocks.length < parSize then genEach_tr gen s blocks else liftM (Except.error Panic.assertion)

/-- A list of arrays of `bs` bytes. -/
def arrays (bs : Nat) : List (List U8) → Except Panic (List (Vector U8 bs))
  | [] => .ok []
  | b :: l => do
    let l ← arrays bs l
    if h : b.length = bs then return ⟨b.toArray, by rw [List.size_toArray, h]⟩ :: l else .error .assertion

/-- One call that fills `n` blocks, first zero. -/
def blocksOf (bs n : Nat) {σ : Type} (gen : σ → List (List U8) → Except Panic (Unit × σ × List (List U8))) (s : σ) :
    Except Panic (List (Vector U8 bs) × σ) := do
  let (_, s, blocks) ← gen s (List.replicate n (List.replicate bs 0))
  return (← arrays bs blocks, s)

/-- A backend as client code sees it. -/
def asBackend (tgt : Target) (σ : Type) [StreamCipherBackend σ] : Verif.Backend 64 σ where
  parSize := StreamCipherBackend.parSize σ
  genBlock := blockOf 64 (StreamCipherBackend.gen_ks_block tgt)
  genPar := blocksOf 64 (StreamCipherBackend.parSize σ) (StreamCipherBackend.gen_par_ks_blocks tgt)
  genTail n := blocksOf 64 n (StreamCipherBackend.gen_tail_blocks tgt)

/-- An array of `bs` bytes. -/
def array (bs : Nat) (b : List U8) : Except Panic (Vector U8 bs) :=
  if h : b.length = bs then .ok ⟨b.toArray, by rw [List.size_toArray, h]⟩ else .error .assertion

/-- Client code run against a backend that records what is seen. -/
def runTr {α σ : Type} [StreamCipherBackend σ] (tgt : Target) : Prog 64 α → σ → Tr (α × σ)
  | .done a, s => pure (a, s)
  | .block k, s => do
    let (_, s, b) ← StreamCipherBackend.gen_ks_block_tr tgt s (List.replicate 64 0)
    runTr tgt (k (← array 64 b)) s
  | .par k, s => do
    let (_, s, l) ← StreamCipherBackend.gen_par_ks_blocks_tr tgt s (List.replicate (StreamCipherBackend.parSize σ) (List.replicate 64 0))
    runTr tgt (k (← arrays 64 l)) s
  | .tail n k, s => do
    let (_, s, l) ← StreamCipherBackend.gen_tail_blocks_tr tgt s (List.replicate n (List.replicate 64 0))
    runTr tgt (k (← arrays 64 l)) s

/-- `StreamCipherClosure<BlockSize = U64>`: the method `call` for every backend - crate `cipher`; chacha20/src/backends/sse2.rs:50. -/
class StreamCipherClosure (F : Type) where
  call : {σ : Type} → [StreamCipherBackend σ] → Target → F → σ → Except Panic (Unit × F × σ)
  call_tr : {σ : Type} → [StreamCipherBackend σ] → Target → F → σ → Tr (Unit × F × σ)

/-- Client code before its call, and what it left. -/
inductive Callee (α : Type) where
  | ready (c : Closure 64 α)
  | done (a : α)

/-- `call(self, …)` takes the closure by value: there is no second call. -/
instance (α : Type) : StreamCipherClosure (Callee α) where
  call tgt f s := match f with
    | .ready c => do
      let (a, s) ← (asBackend tgt _).call c s
      return ((), .done a, s)
    | .done _ => .error .assertion
  call_tr {σ} _ tgt f s := match f with
    | .ready c => do
      let (a, s) ← runTr tgt (c (StreamCipherBackend.parSize σ)) s
      return ((), .done a, s)
    | .done _ => liftM (Except.error Panic.assertion)

/-- `StreamCipherBackend<BlockSize = Un>` with `ParBlocksSize = U1` and the provided methods - crate `cipher`; implemented at hc-256/src/lib.rs:205-218,
rabbit/src/lib.rs:293-306. -/
class BlockBackend (n : Nat) (σ : Type) where
  gen_ks_block : Target → σ → List U8 → Except Panic (Unit × σ × List U8)
  gen_ks_block_tr : Target → σ → List U8 → Tr (Unit × σ × List U8)

/-- Client code run against such a backend, recording what is seen. -/
def runBlockTr {α σ : Type} (n : Nat) [BlockBackend n σ] (tgt : Target) : Prog n α → σ → Tr (α × σ)
  | .done a, s => pure (a, s)
  | .block k, s => do
    let (_, s, b) ← BlockBackend.gen_ks_block_tr n tgt s (List.replicate n 0)
    runBlockTr n tgt (k (← array n b)) s
  | .par k, s => do
    Tr.loop 1
    let (_, s, l) ← genEach_tr (BlockBackend.gen_ks_block_tr n tgt) s [List.replicate n 0]
    runBlockTr n tgt (k (← arrays n l)) s
  | .tail m k, s => do
    let (_, s, l) ← providedTail_tr 1 (BlockBackend.gen_ks_block_tr n tgt) s (List.replicate m (List.replicate n 0))
    runBlockTr n tgt (k (← arrays n l)) s

/-- `StreamCipherClosure<BlockSize = Un>` - crate `cipher`; hc-256/src/lib.rs:117, rabbit/src/lib.rs:244, 286. -/
class BlockClosure (n : Nat) (F : Type) where
  call : {σ : Type} → [BlockBackend n σ] → Target → F → σ → Except Panic (Unit × F × σ)
  call_tr : {σ : Type} → [BlockBackend n σ] → Target → F → σ → Tr (Unit × F × σ)

/-- Client code before its call, and what it left. -/
inductive BlockCallee (n : Nat) (α : Type) where
  | ready (c : Closure n α)
  | done (a : α)

/-- There is no second call. -/
instance (n : Nat) (α : Type) : BlockClosure n (BlockCallee n α) where
  call tgt f s := match f with
    | .ready c => do
      let (a, s) ← (Verif.Backend.ofBlock 1 (blockOf n (BlockBackend.gen_ks_block n tgt))).call c s
      return ((), .done a, s)
    | .done _ => .error .assertion
  call_tr tgt f s := match f with
    | .ready c => do
      let (a, s) ← runBlockTr n tgt (c 1) s
      return ((), .done a, s)
    | .done _ => liftM (Except.error Panic.assertion)

end Verif.Rust
