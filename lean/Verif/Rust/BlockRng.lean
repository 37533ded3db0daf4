import Verif.Rust.Trace
/-!
# `rand_core::block::BlockRng`

The crate `rand_core` 0.10 is not part of /repo; this is its published source in the terms of `Verif.Rust.Lang`, and part of the trusted base.
(The crate keeps the index in the slot of word 0, which has always been read when it is overwritten.)
-/
namespace Verif.Rust

/-- The trait `Generator` for generators of 32-bit words: the number of words of `Output`, and `generate(&mut self, &mut Output)` - implemented at
chacha20/src/rng.rs:44-100. -/
class Generator (G : Type) where
  size : Nat
  generate : Target → G → List U32 → Except Panic (Unit × G × List U32)
  generate_tr : Target → G → List U32 → Tr (Unit × G × List U32)

/-- A buffer and the index of the next unread word - used at chacha20/src/rng.rs:135. -/
structure BlockRng (G : Type) where
  core : G
  results : List U32
  index : Nat

namespace BlockRng

variable {G : Type} [Generator G] (tgt : Target)

/-- `BlockRng::new` - called at chacha20/src/rng.rs:145, 332. -/
def new (_ : Target) (core : G) : Except Panic (BlockRng G) := .ok ⟨core, List.replicate (Generator.size G) 0, Generator.size G⟩

/-- `self.core.generate(&mut self.results)`, then the index is `i` - runs chacha20/src/rng.rs:49-92. -/
def refill (self : BlockRng G) (i : Nat) : Except Panic (BlockRng G) := do
  let (_, core, results) ← Generator.generate tgt self.core self.results
  return ⟨core, results, i⟩

/-- `reset_and_skip` - called at chacha20/src/rng.rs:230, 243. -/
def reset_and_skip (self : BlockRng G) (n : Usize tgt) : Except Panic (Unit × BlockRng G) := do
  assert (decide (n.val < Generator.size G))
  if n.val = 0 then return ((), { self with index := Generator.size G })
  return ((), ← self.refill tgt n.val)

/-- `word_offset` - called at chacha20/src/rng.rs:205, 209, 253. -/
def word_offset (self : BlockRng G) : Except Panic (Usize tgt) := .ok (if self.index ≥ Generator.size G then ⟨0⟩ else ⟨self.index⟩)

/-- `next_word` - called at chacha20/src/rng.rs:155. -/
def next_word (self : BlockRng G) : Except Panic (U32 × BlockRng G) := do
  let self ← if self.index < Generator.size G then pure self else self.refill tgt 0
  return (← nth self.results self.index, { self with index := self.index + 1 })

/-- `next_u64_from_u32` - called at chacha20/src/rng.rs:159. -/
def next_u64_from_u32 (self : BlockRng G) : Except Panic (U64 × BlockRng G) := do
  let (lo, self) ← self.next_word tgt
  let (hi, self) ← self.next_word tgt
  return ((hi.setWidth 64 <<< 32) ||| lo.setWidth 64, self)

/-- The loop of `fill_bytes` with `n` bytes still to be written; each round consumes words, the last one perhaps in part - called at
chacha20/src/rng.rs:163. -/
def fillLoop : Nat → Nat → BlockRng G → Except Panic (List U8 × BlockRng G)
  | 0, _, _ => .error .assertion
  | fuel + 1, n, self => do
    if n = 0 then return ([], self)
    let self ← if self.index < Generator.size G then pure self else self.refill tgt 0
    let bytes := ((self.results.drop self.index).flatMap toLeBytes).take n
    let (rest, self) ← fillLoop fuel (n - bytes.length) { self with index := self.index + (bytes.length + 3) / 4 }
    return (bytes ++ rest, self)

/-- `fill_bytes` - called at chacha20/src/rng.rs:163. -/
def fill_bytes (self : BlockRng G) (dest : List U8) : Except Panic (Unit × BlockRng G × List U8) := do
  let (bytes, self) ← fillLoop tgt (dest.length + 1) dest.length self
  return ((), self, bytes)

/-! The same, recording what can be seen. -/

/-- `BlockRng::new` - called at chacha20/src/rng.rs:145, 332. -/
def new_tr (_ : Target) (core : G) : Tr (BlockRng G) := pure ⟨core, List.replicate (Generator.size G) 0, Generator.size G⟩

/-- `self.core.generate(&mut self.results)`, then the index is `i` - runs chacha20/src/rng.rs:49-92. -/
def refill_tr (self : BlockRng G) (i : Nat) : Tr (BlockRng G) := do
  let (_, core, results) ← Generator.generate_tr tgt self.core self.results
  return ⟨core, results, i⟩

/-- `reset_and_skip` - called at chacha20/src/rng.rs:230, 243. -/
def reset_and_skip_tr (self : BlockRng G) (n : Usize tgt) : Tr (Unit × BlockRng G) := do
  if ← Tr.branch (decide (n.val < Generator.size G)) then
    if ← Tr.branch (decide (n.val = 0)) then return ((), { self with index := Generator.size G })
    else return ((), ← self.refill_tr tgt n.val)
  else liftM (Except.error Panic.assertion)

/-- `word_offset` - called at chacha20/src/rng.rs:205, 209, 253. -/
def word_offset_tr (self : BlockRng G) : Tr (Usize tgt) := do
  if ← Tr.branch (decide (self.index ≥ Generator.size G)) then return ⟨0⟩ else return ⟨self.index⟩

/-- A new buffer if this one is used up - part of `next_word` and `fill_bytes`. -/
def ensure_tr (self : BlockRng G) : Tr (BlockRng G) := do
  if ← Tr.branch (decide (self.index < Generator.size G)) then return self else self.refill_tr tgt 0

/-- `next_word` - called at chacha20/src/rng.rs:155. -/
def next_word_tr (self : BlockRng G) : Tr (U32 × BlockRng G) := do
  let self ← self.ensure_tr tgt
  return (← Tr.see (.index self.index) (nth self.results self.index), { self with index := self.index + 1 })

/-- `next_u64_from_u32` - called at chacha20/src/rng.rs:159. -/
def next_u64_from_u32_tr (self : BlockRng G) : Tr (U64 × BlockRng G) := do
  let (lo, self) ← self.next_word_tr tgt
  let (hi, self) ← self.next_word_tr tgt
  return ((hi.setWidth 64 <<< 32) ||| lo.setWidth 64, self)

/-- The loop of `fill_bytes` with `n` bytes still to be written - called at chacha20/src/rng.rs:163. -/
def fillLoop_tr : Nat → Nat → BlockRng G → Tr (List U8 × BlockRng G)
  | 0, _, _ => liftM (Except.error Panic.assertion)
  | fuel + 1, n, self => do
    if ← Tr.branch (decide (n = 0)) then return ([], self)
    else
      let self ← self.ensure_tr tgt
      let bytes := ((self.results.drop self.index).flatMap toLeBytes).take n
      Tr.see (.slice self.index (self.index + (bytes.length + 3) / 4)) (.ok ())
      let (rest, self) ← fillLoop_tr fuel (n - bytes.length) { self with index := self.index + (bytes.length + 3) / 4 }
      return (bytes ++ rest, self)

/-- `fill_bytes` - called at chacha20/src/rng.rs:163. -/
def fill_bytes_tr (self : BlockRng G) (dest : List U8) : Tr (Unit × BlockRng G × List U8) := do
  let (bytes, self) ← fillLoop_tr tgt (dest.length + 1) dest.length self
  return ((), self, bytes)

end BlockRng

end Verif.Rust
