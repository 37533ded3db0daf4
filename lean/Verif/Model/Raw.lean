import Verif.Model.Config
/-!
# The unsafe code of the SIMD backends on raw memory

The other modules model the SIMD backends by their value effect.  Here the parts that use raw pointers - the loads of the state, the
stores of the blocks, the store of the counter - are modelled on memory: an object is its list of bytes, a pointer carries the bounds
of the object (or array element) it was derived from, and pointer arithmetic or an access outside these bounds is a `Fault`
(undefined behaviour in Rust).  All intrinsics used are the unaligned ones, so alignment plays no role.
-/
namespace Verif.Raw

/-- How the execution of the unsafe code can go wrong - chacha20/src/backends/sse2.rs:33-108, avx2.rs:38-205, avx512.rs:32-340, neon.rs:73-260.
-/
inductive Fault where
  | panic (p : Panic)
  /-- pointer arithmetic or memory access outside the object -/
  | outOfBounds
  deriving DecidableEq, Repr

/-- A computation without memory faults - chacha20/src/backends/sse2.rs:78-83. -/
def lift {α : Type} (x : Except Panic α) : Except Fault α :=
  match x with
  | .ok a => .ok a
  | .error p => .error (.panic p)

/-- The contents of a memory object - `block`, `blocks`, `buffer`: chacha20/src/backends/sse2.rs:76, 92, 114. -/
abbrev Bytes := List U8

/-- A raw pointer: byte offset, size of the pointee type, bounds of the object it was derived from - chacha20/src/backends/sse2.rs:39-45, 85-88,
101-106. -/
structure Ptr where
  off : Nat
  elem : Nat
  lo : Nat
  hi : Nat

/-- `slice.as_ptr()`, `slice.as_mut_ptr()` of the whole object - chacha20/src/backends/sse2.rs:39, 85, 101. -/
def Ptr.ofSlice (elem : Nat) (m : Bytes) : Ptr := ⟨0, elem, 0, m.length⟩

/-- `&raw mut blocks[i]`, `blocks[i].as_mut_ptr()` for 64-byte blocks: a bounds-checked index - chacha20/src/backends/avx512.rs:206, 268,
neon.rs:214. -/
def Ptr.ofBlock (i : Nat) (m : Bytes) : Except Fault Ptr :=
  if i < m.length / 64 then .ok ⟨64 * i, 1, 64 * i, 64 * i + 64⟩ else .error (.panic .bounds)

/-- `ptr.cast::<T>()` with `size_of::<T>() = elem` - chacha20/src/backends/sse2.rs:39, 85, 101. -/
def Ptr.cast (p : Ptr) (elem : Nat) : Ptr := { p with elem := elem }

/-- `ptr.add(n)`, `ptr.offset(n)`: the result must stay inside the object or one past its end - chacha20/src/backends/sse2.rs:42-45, 87, 104. -/
def Ptr.add (p : Ptr) (n : Nat) : Except Fault Ptr :=
  if p.off + n * p.elem ≤ p.hi then .ok { p with off := p.off + n * p.elem } else .error .outOfBounds

/-- Load `n` bytes - chacha20/src/backends/sse2.rs:42-45. -/
def load (n : Nat) (p : Ptr) (m : Bytes) : Except Fault Bytes :=
  if p.lo ≤ p.off ∧ p.off + n ≤ p.hi ∧ p.hi ≤ m.length then .ok ((m.drop p.off).take n) else .error .outOfBounds

/-- Overwrite the bytes from `off` on - chacha20/src/backends/sse2.rs:87, 104. -/
def patch (m : Bytes) (off : Nat) (x : Bytes) : Bytes := m.take off ++ x ++ m.drop (off + x.length)

/-- Store some bytes - chacha20/src/backends/sse2.rs:87, 104. -/
def store (p : Ptr) (x : Bytes) (m : Bytes) : Except Fault Bytes :=
  if p.lo ≤ p.off ∧ p.off + x.length ≤ p.hi ∧ p.hi ≤ m.length then .ok (patch m p.off x) else .error .outOfBounds

/-- The sixteen bytes of a register in memory - chacha20/src/backends/sse2.rs:87, 104. -/
def bytes128 (x : M128) : Bytes := (toLe32 x.x0).toList ++ (toLe32 x.x1).toList ++ (toLe32 x.x2).toList ++ (toLe32 x.x3).toList

@[inherit_doc bytes128] def bytes256 (x : M256) : Bytes := bytes128 x.lo ++ bytes128 x.hi
@[inherit_doc bytes128] def bytes512 (x : M512) : Bytes := bytes128 x.l0 ++ bytes128 x.l1 ++ bytes128 x.l2 ++ bytes128 x.l3

/-- The register with these sixteen bytes - chacha20/src/backends/sse2.rs:42-45. -/
def reg128 (l : Bytes) : M128 := .ofBytes fun i => l.getD i 0

/-- `_mm_storeu_si128(ptr.add(n), x)`, `vst1q_u8(ptr.add(n), x)`, `_mm_storeu_epi32(ptr.add(n), x)` - chacha20/src/backends/sse2.rs:87, 104. -/
def store128 (p : Ptr) (n : Nat) (x : M128) (m : Bytes) : Except Fault Bytes := do store (← p.add n) (bytes128 x) m

/-- `_mm_loadu_si128(ptr.add(n))`, `_mm_loadu_epi32(ptr.add(n))`, `vld1q_u32(ptr.offset(n))` - chacha20/src/backends/sse2.rs:42-45. -/
def load128 (p : Ptr) (n : Nat) (m : Bytes) : Except Fault M128 := do return reg128 (← load 16 (← p.add n) m)

/-- Element `i` of `[T; 4]` - chacha20/src/backends/sse2.rs:87, 104. -/
def row {α : Type} (r : Rows α) (i : Fin 4) : α :=
  match i with
  | 0 => r.a
  | 1 => r.b
  | 2 => r.c
  | 3 => r.d

/-- Bytes of a slice of blocks - chacha20/src/backends/sse2.rs:92, 101. -/
def flat (l : List ChaCha.Block) : Bytes := l.flatMap (·.toList)

/-- The block in the first 64 bytes - chacha20/src/backends/sse2.rs:76, 85. -/
def toBlock (m : Bytes) : ChaCha.Block := Vector.ofFn fun i => m.getD i.val 0

/-- The blocks in an object - chacha20/src/backends/sse2.rs:92, 101. -/
def toBlocks (m : Bytes) : List ChaCha.Block := (List.range (m.length / 64)).map fun i => toBlock (m.drop (64 * i))

/-- A backend working on memory: destination object and registers to destination object and registers - chacha20/src/backends/sse2.rs:74-109. -/
structure RawBackend (σ : Type) where
  parSize : Nat
  genBlock : Bytes → σ → Except Fault (Bytes × σ)
  genPar : Bytes → σ → Except Fault (Bytes × σ)
  genTail : Bytes → σ → Except Fault (Bytes × σ)

/-- The provided `gen_tail_blocks`: `for block in blocks { self.gen_ks_block(block) }` - crate `cipher`; for
chacha20/src/backends/sse2.rs:74-109, avx2.rs:131-180, neon.rs:130-222. -/
def tailLoop {σ : Type} (gen : Bytes → σ → Except Fault (Bytes × σ)) : Nat → Bytes → σ → Except Fault (Bytes × σ)
  | 0, m, s => .ok (m, s)
  | n + 1, m, s => do
    let (b, s) ← gen (m.take 64) s
    let (bs, s) ← tailLoop gen n (m.drop 64) s
    return (b ++ bs, s)

/-- The provided `gen_tail_blocks` with its assertion - crate `cipher`; for chacha20/src/backends/sse2.rs:74-109, avx2.rs:131-180,
neon.rs:130-222. -/
def providedTail {σ : Type} (parSize : Nat) (gen : Bytes → σ → Except Fault (Bytes × σ)) (m : Bytes) (s : σ) : Except Fault (Bytes × σ) :=
  if m.length / 64 < parSize then tailLoop gen (m.length / 64) m s else .error (.panic .assertion)

/-- A client running against a backend; `old n` are the previous contents of a buffer of `n` blocks handed to the backend -
chacha20/src/backends/sse2.rs:50, avx2.rs:71, avx512.rs:50, neon.rs:81. -/
def run {σ α : Type} (B : RawBackend σ) (old : Nat → List ChaCha.Block) : Prog 64 α → σ → Except Fault (α × σ)
  | .done a, s => .ok (a, s)
  | .block k, s => do
    let (m, s) ← B.genBlock (flat (old 1)) s
    run B old (k (toBlock m)) s
  | .par k, s => do
    let (m, s) ← B.genPar (flat (old B.parSize)) s
    run B old (k (toBlocks m)) s
  | .tail n k, s => do
    let (m, s) ← B.genTail (flat (old n)) s
    run B old (k (toBlocks m)) s

/-- The sixteen words of the state as an object in (little-endian) memory, and back - chacha20/src/backends/sse2.rs:39. -/
def stateBytes (s : ChaCha.State) : Bytes := (leBytes (k := 16) s).toList

/-- Read word `i` of an array of words in memory - chacha20/src/backends/neon.rs:46-51. -/
def wordOf (m : Bytes) (i : Nat) : U32 := le32 (m.getD (4 * i) 0) (m.getD (4 * i + 1) 0) (m.getD (4 * i + 2) 0) (m.getD (4 * i + 3) 0)

@[inherit_doc stateBytes] def stateOf (m : Bytes) : ChaCha.State := Vector.ofFn fun i => wordOf m i.val

/-- `state_ptr.cast::<__m128i>()` and four loads - sse2.rs:39-46, avx2.rs:44-50. -/
def loadRows (m : Bytes) : Except Fault (Rows M128) := do
  let p := (Ptr.ofSlice 4 m).cast 16
  return ⟨← load128 p 0 m, ← load128 p 1 m, ← load128 p 2 m, ← load128 p 3 m⟩

/-- Four loads at word offsets 0, 4, 8, 12 - avx512.rs:38-48, neon.rs:46-51. -/
def loadRowsWords (m : Bytes) : Except Fault (Rows M128) := do
  let p := Ptr.ofSlice 4 m
  return ⟨← load128 p 0 m, ← load128 p 4 m, ← load128 p 8 m, ← load128 p 12 m⟩

namespace Sse2
open ChaCha

/-- `gen_ks_block` - sse2.rs:76-90. -/
def genBlock (dr : Nat) (V : Variant) (block : Bytes) (v : Rows M128) : Except Fault (Bytes × Rows M128) := do
  let res := ChaCha.Sse2.rounds dr V v
  let v := { v with d := ChaCha.Sse2.ctrAdd V v.d 1 }
  let ptr := (Ptr.ofSlice 1 block).cast 16
  let block ← (List.finRange 4).foldlM (fun m i => store128 ptr i.val (row res[0] i) m) block
  return (block, v)

/-- The stores of four blocks - sse2.rs:101-106, 145-150. -/
def storeAll (res : Vector (Rows M128) 4) (ptr : Ptr) (m : Bytes) : Except Fault Bytes :=
  (List.finRange 4).foldlM (fun m b =>
    (List.finRange 4).foldlM (fun m i => store128 ptr (i.val + b.val * 4) (row res[b] i) m) m) m

/-- `gen_par_ks_blocks` - sse2.rs:92-108. -/
def genPar (dr : Nat) (V : Variant) (blocks : Bytes) (v : Rows M128) : Except Fault (Bytes × Rows M128) := do
  let res := ChaCha.Sse2.rounds dr V v
  let v := { v with d := ChaCha.Sse2.ctrAdd V v.d 4 }
  return (← storeAll res ((Ptr.ofSlice 64 blocks).cast 16) blocks, v)

/-- The three methods - chacha20/src/backends/sse2.rs:74-109. -/
def backend (dr : Nat) (V : Variant) : RawBackend (Rows M128) where
  parSize := 4
  genBlock := genBlock dr V
  genPar := genPar dr V
  genTail := providedTail 4 (genBlock dr V)

/-- `inner` - sse2.rs:33-56. -/
def inner {α : Type} (dr : Nat) (V : Variant) (old : Nat → List Block) (f : Closure 64 α) (s : State) : Except Fault (α × State) := do
  let v ← loadRows (stateBytes s)
  let (a, v) ← run (backend dr V) old (f 4) v
  let s := s.set 12 v.d.x0
  let s := if V.ctrBytes = 8 then s.set 13 v.d.x1 else s
  return (a, s)

/-- `rng_inner` with `gen_ks_blocks` - sse2.rs:114-134, 139-152; `buffer` is the memory of the `[u32; 64]`. -/
def rngInner (dr : Nat) (V : Variant) (buffer : Bytes) (s : State) : Except Fault (Bytes × State) := do
  let v ← loadRows (stateBytes s)
  let res := ChaCha.Sse2.rounds dr V v
  let d := v.d.addEpi64 (.setEpi64x 0 4)
  let buffer ← storeAll res ((Ptr.ofSlice 4 buffer).cast 16) buffer
  return (buffer, (s.set 12 d.x0).set 13 d.x1)

end Sse2

namespace Avx2
open ChaCha

/-- `transmute::<[__m256i; 4], [__m128i; 8]>` - avx2.rs:144, 171. -/
def halves (r : Rows M256) : Vector M128 8 := #v[r.a.lo, r.a.hi, r.b.lo, r.b.hi, r.c.lo, r.c.hi, r.d.lo, r.d.hi]

/-- `gen_ks_block` - avx2.rs:133-151. -/
def genBlock (dr : Nat) (V : Variant) (block : Bytes) (g : ChaCha.Avx2.Regs) : Except Fault (Bytes × ChaCha.Avx2.Regs) := do
  let res := ChaCha.Avx2.rounds dr g
  let g := { g with ctr := g.ctr.map fun c => ChaCha.Avx2.ctrAdd V c 1 1 }
  let res0 := halves res[0]
  let ptr := (Ptr.ofSlice 1 block).cast 16
  let block ← (List.finRange 4).foldlM (fun m i => store128 ptr i.val res0[2 * i.val] m) block
  return (block, g)

/-- Body of the loop over `vs`: eight stores, then the pointer moves on - avx2.rs:170-177, 196-202. -/
def storeTwo (r : Rows M256) (pm : Ptr × Bytes) : Except Fault (Ptr × Bytes) := do
  let (ptr, m) := pm
  let t := halves r
  let m ← (List.finRange 4).foldlM (fun m i => do
    let m ← store128 ptr i.val t[2 * i.val] m
    store128 ptr (4 + i.val) t[2 * i.val + 1] m) m
  return (← ptr.add 8, m)

/-- The stores of four blocks - avx2.rs:169-178, 195-203. -/
def storeAll (vs : Vector (Rows M256) 2) (ptr : Ptr) (m : Bytes) : Except Fault Bytes := do
  let (ptr, m) ← storeTwo vs[0] (ptr, m)
  let (_, m) ← storeTwo vs[1] (ptr, m)
  return m

/-- `gen_par_ks_blocks` - avx2.rs:154-179. -/
def genPar (dr : Nat) (V : Variant) (blocks : Bytes) (g : ChaCha.Avx2.Regs) : Except Fault (Bytes × ChaCha.Avx2.Regs) := do
  let vs := ChaCha.Avx2.rounds dr g
  let g := { g with ctr := g.ctr.map fun c => ChaCha.Avx2.ctrAdd V c 4 4 }
  return (← storeAll vs ((Ptr.ofSlice 64 blocks).cast 16) blocks, g)

/-- The three methods - chacha20/src/backends/avx2.rs:131-180. -/
def backend (dr : Nat) (V : Variant) : RawBackend ChaCha.Avx2.Regs where
  parSize := 4
  genBlock := genBlock dr V
  genPar := genPar dr V
  genTail := providedTail 4 (genBlock dr V)

/-- Register set-up - avx2.rs:44-69, 89-106. -/
def load (V : Variant) (m : Bytes) : Except Fault ChaCha.Avx2.Regs := do
  let r ← loadRows m
  let c := M256.broadcast r.d
  let c := ChaCha.Avx2.ctrAdd V c 1 0
  let ctr0 := c
  let c := ChaCha.Avx2.ctrAdd V c 2 2
  let ctr1 := c
  return ⟨#v[.broadcast r.a, .broadcast r.b, .broadcast r.c], #v[ctr0, ctr1]⟩

/-- `inner` - avx2.rs:38-79. -/
def inner {α : Type} (dr : Nat) (V : Variant) (old : Nat → List Block) (f : Closure 64 α) (s : State) : Except Fault (α × State) := do
  let g ← load V (stateBytes s)
  let (a, g) ← run (backend dr V) old (f 4) g
  let s := s.set 12 g.ctr[0].lo.x0
  let s := if V.ctrBytes = 4 then s else s.set 13 g.ctr[0].lo.x1
  return (a, s)

/-- `rng_inner` with `rng_gen_par_ks_blocks` - avx2.rs:84-112, 185-204. -/
def rngInner (dr : Nat) (buffer : Bytes) (s : State) : Except Fault (Bytes × State) := do
  let g ← load .legacy (stateBytes s)
  let vs := ChaCha.Avx2.rounds dr g
  let ctr := g.ctr.map fun c => c.addEpi64 (.setEpi64x 0 4 0 4)
  let buffer ← storeAll vs ((Ptr.ofSlice 4 buffer).cast 16) buffer
  return (buffer, (s.set 12 ctr[0].lo.x0).set 13 ctr[0].lo.x1)

end Avx2

namespace Avx512
open ChaCha

/-- The stores of `gen_blocks_fullwidth` - avx512.rs:139-140, 203-208. -/
def storeFull {N : Nat} (result : Vector (Rows M512) N) (m : Bytes) : Except Fault Bytes :=
  (List.finRange N).foldlM (fun m i =>
    let t := ChaCha.Avx512.transpose result[i]
    (List.finRange 4).foldlM (fun m j => do
      let dst := i.val * 4 + j.val
      if dst < m.length / 64 then store (← Ptr.ofBlock dst m) (bytes512 t[j]) m else return m) m) m

/-- `gen_blocks_fullwidth::<N>` - avx512.rs:86-210. -/
def genFull (N : Nat) (dr : Nat) (V : Variant) (blocks : Bytes) (g : ChaCha.Avx512.Regs) :
    Except Fault (Bytes × ChaCha.Avx512.Regs) := do
  if ¬ blocks.length / 64 ≤ N * 4 then .error (.panic .assertion) else
  let c := ChaCha.Avx512.ctrs N V g.ctr
  let g := ChaCha.Avx512.incrementCtr V g (blocks.length / 64)
  let result := ChaCha.Avx512.rounds dr (g.state.map .broadcast) c
  return (← storeFull result blocks, g)

/-- The stores of `gen_blocks_halfwidth`: two halves, the second at `size_of::<Block>() / 2 / size_of::<i32>()` words -
avx512.rs:263-275. -/
def storeHalf (parts : Vector (M256 × M256) 2) (m : Bytes) : Except Fault Bytes :=
  (List.finRange 2).foldlM (fun m i => do
    if i.val < m.length / 64 then
      let dst := (← Ptr.ofBlock i.val m).cast 4
      let m ← store dst (bytes256 parts[i].1) m
      store (← dst.add (64 / 2 / 4)) (bytes256 parts[i].2) m
    else return m) m

/-- `gen_blocks_halfwidth` - avx512.rs:215-276. -/
def genHalf (dr : Nat) (V : Variant) (blocks : Bytes) (g : ChaCha.Avx512.Regs) : Except Fault (Bytes × ChaCha.Avx512.Regs) := do
  if ¬ blocks.length / 64 ≤ 2 then .error (.panic .assertion) else
  let ctr := M256.broadcast g.ctr
  let ctr := if V.ctrBytes = 4 then ctr.addEpi32 (.setEpi32 0 0 0 1 0 0 0 0) else ctr.addEpi64 (.setEpi64x 0 1 0 0)
  let g := ChaCha.Avx512.incrementCtr V g (blocks.length / 64)
  let r := ChaCha.Avx512.roundsHalf dr ⟨.broadcast g.state[0], .broadcast g.state[1], .broadcast g.state[2], ctr⟩
  return (← storeHalf (ChaCha.Avx512.halfParts r) blocks, g)

/-- `gen_ks_block` - avx512.rs:297-313. -/
def genBlock (dr : Nat) (V : Variant) (block : Bytes) (g : ChaCha.Avx512.Regs) : Except Fault (Bytes × ChaCha.Avx512.Regs) := do
  let v : Rows M128 := ⟨g.state[0], g.state[1], g.state[2], g.ctr⟩
  let g := ChaCha.Avx512.incrementCtr V g 1
  let result := ChaCha.Avx512.roundsQuarter dr v
  let block ← (List.finRange 4).foldlM (fun m i => store128 ((Ptr.ofSlice 1 m).cast 4) (i.val * 4) (row result i) m) block
  return (block, g)

/-- `gen_tail_blocks` - avx512.rs:316-338. -/
def genTail (dr : Nat) (V : Variant) (blocks : Bytes) (g : ChaCha.Avx512.Regs) : Except Fault (Bytes × ChaCha.Avx512.Regs) := do
  if ¬ blocks.length / 64 < 16 then .error (.panic .assertion)
  else if blocks.length / 64 = 0 then return (blocks, g)
  else if blocks.length / 64 = 1 then
    let (b, g) ← genBlock dr V (blocks.take 64) g
    return (b ++ blocks.drop 64, g)
  else if blocks.length / 64 = 2 then genHalf dr V blocks g
  else if blocks.length / 64 ≤ 4 then genFull 1 dr V blocks g
  else if blocks.length / 64 ≤ 8 then genFull 2 dr V blocks g
  else genFull 4 dr V blocks g

/-- The three methods - chacha20/src/backends/avx512.rs:290-339. -/
def backend (dr : Nat) (V : Variant) : RawBackend ChaCha.Avx512.Regs where
  parSize := 16
  genBlock := genBlock dr V
  genPar := genFull 4 dr V
  genTail := genTail dr V

/-- `inner` - avx512.rs:32-57. -/
def inner {α : Type} (dr : Nat) (V : Variant) (old : Nat → List Block) (f : Closure 64 α) (s : State) : Except Fault (α × State) := do
  let r ← loadRowsWords (stateBytes s)
  let (a, g) ← run (backend dr V) old (f 16) ⟨#v[r.a, r.b, r.c], r.d⟩
  let s := s.set 12 g.ctr.x0
  let s := if V.ctrBytes = 8 then s.set 13 g.ctr.x1 else s
  return (a, s)

end Avx512

namespace Neon
open ChaCha

/-- `Backend::new` - neon.rs:45-67; the loads of the constants `[i, 0, 0, 0]` read sixteen bytes of sixteen-byte arrays. -/
def new (m : Bytes) : Except Fault ChaCha.Neon.Regs := do
  let r ← loadRowsWords m
  let c (i : U32) : Except Fault M128 :=
    let a : Bytes := (toLe32 i).toList ++ (toLe32 0).toList ++ (toLe32 0).toList ++ (toLe32 0).toList
    load128 (Ptr.ofSlice 4 a) 0 a
  return ⟨r, #v[← c 1, ← c 2, ← c 3, ← c 4, ← c 5, ← c 6, ← c 7, ← c 8]⟩

/-- `gen_par_ks_blocks` - neon.rs:145-221: the stores go through `dest[block].as_mut_ptr()`. -/
def genPar (dr : Nat) (V : Variant) (dest : Bytes) (g : ChaCha.Neon.Regs) : Except Fault (Bytes × ChaCha.Neon.Regs) := do
  let bl := ChaCha.Neon.blocks 8 (by decide) dr V g
  let dest ← (List.finRange 8).foldlM (fun m b =>
    (List.finRange 4).foldlM (fun m i => do store128 (← Ptr.ofBlock b.val m) (i.val <<< 4) (row bl[b] i) m) m) dest
  return (dest, { g with state := { g.state with d := ChaCha.Neon.addCounter V g.state.d g.ctrs[7] } })

/-- `gen_ks_block` - neon.rs:132-142: through a zeroed buffer of eight blocks. -/
def genBlock (dr : Nat) (V : Variant) (_block : Bytes) (g : ChaCha.Neon.Regs) : Except Fault (Bytes × ChaCha.Neon.Regs) := do
  let state3 := g.state.d
  let (par, g) ← genPar dr V (List.replicate 512 0) g
  let one : Bytes := (toLe32 1).toList ++ (toLe32 0).toList ++ (toLe32 0).toList ++ (toLe32 0).toList
  let c ← load128 (Ptr.ofSlice 4 one) 0 one
  return (par.take 64, { g with state := { g.state with d := ChaCha.Neon.addCounter V state3 c } })

/-- The three methods - chacha20/src/backends/neon.rs:130-222. -/
def backend (dr : Nat) (V : Variant) : RawBackend ChaCha.Neon.Regs where
  parSize := 8
  genBlock := genBlock dr V
  genPar := genPar dr V
  genTail := providedTail 8 (genBlock dr V)

/-- `vst1q_u64(state.as_mut_ptr().offset(12).cast::<u64>(), d)` - neon.rs:85-88, 106-109. -/
def storeCtr (s : State) (d : M128) : Except Fault State := do
  let m := stateBytes s
  let p ← (Ptr.ofSlice 4 m).add 12
  return stateOf (← store (p.cast 8) (bytes128 d) m)

/-- `inner` - neon.rs:73-91. -/
def inner {α : Type} (dr : Nat) (V : Variant) (old : Nat → List Block) (f : Closure 64 α) (s : State) : Except Fault (α × State) := do
  let g ← new (stateBytes s)
  let (a, g) ← run (backend dr V) old (f 8) g
  let s ← if V.ctrBytes = 4 then .ok (s.set 12 g.state.d.x0) else storeCtr s g.state.d
  return (a, s)

/-- `write_par_ks_blocks`: the stores of one block, then `dest_ptr` moves on by 64 - neon.rs:282-303. -/
def storeOne (bl : Vector (Rows M128) 4) (pm : Ptr × Bytes) (b : Fin 4) : Except Fault (Ptr × Bytes) := do
  let m ← (List.finRange 4).foldlM (fun m i => store128 pm.1 (i.val <<< 4) (row bl[b] i) m) pm.2
  return (← pm.1.add 64, m)

/-- `write_par_ks_blocks`: all stores - neon.rs:282-303. -/
def storeMoving (bl : Vector (Rows M128) 4) (m : Bytes) : Except Fault Bytes := do
  let pm ← (List.finRange 4).foldlM (storeOne bl) ((Ptr.ofSlice 4 m).cast 1, m)
  return pm.2

/-- `rng_inner` with `write_par_ks_blocks` - neon.rs:97-110, 255-307. -/
def rngInner (dr : Nat) (V : Variant) (buffer : Bytes) (s : State) : Except Fault (Bytes × State) := do
  let g ← new (stateBytes s)
  let bl := ChaCha.Neon.blocks 4 (by decide) dr V g
  let buffer ← storeMoving bl buffer
  return (buffer, ← storeCtr s (ChaCha.Neon.addCounter V g.state.d g.ctrs[3]))

end Neon

/-- `process_with_backend` with the unsafe code on memory - chacha20/src/lib.rs:239-298. -/
def process {α : Type} (dr : Nat) (V : ChaCha.Variant) (e : ChaCha.Env) (f : Closure 64 α) (s : ChaCha.State) :
    Except Fault (α × ChaCha.State) :=
  match ChaCha.Config.select e.build e.detected with
  | .soft => lift ((ChaCha.soft dr V).call f s)
  | .sse2 => Sse2.inner dr V e.old f s
  | .avx2 => Avx2.inner dr V e.old f s
  | .avx512 => Avx512.inner dr V e.old f s
  | .neon => Neon.inner dr V e.old f s

/-- `Generator::generate` with the unsafe code on memory - chacha20/src/rng.rs:49-92; `buffer` is the memory of the `[u32; 64]`. -/
def generate (dr : Nat) (V : ChaCha.Variant) (e : ChaCha.Env) (buffer : Bytes) (s : ChaCha.State) : Except Fault (Bytes × ChaCha.State) :=
  match ChaCha.Config.selectRng e.build e.detected with
  | .soft => let r := ChaCha.softGenKsBlocks dr s; .ok ((leBytes (k := 64) r.1).toList, r.2)
  | .sse2 => Sse2.rngInner dr V buffer s
  | .avx2 => Avx2.rngInner dr buffer s
  | .avx512 => Avx2.rngInner dr buffer s
  | .neon => Neon.rngInner dr V buffer s

end Verif.Raw
