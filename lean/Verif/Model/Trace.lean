import Verif.Model.ChaCha
import Verif.Model.Salsa
import Verif.Model.Rabbit
import Verif.Model.Rc4
import Verif.Model.Hc256
/-!
# Memory accesses of the portable block functions

The same functions as in the models, written once more in a language that records every array access: which array, which index, read or
write.  `Proof/Trace` shows that each computes what the model's function computes.
-/
namespace Verif.Trace

/-- The arrays the code accesses - chacha20/src/lib.rs:121, soft.rs:67, xchacha.rs:113-114, rabbit/src/lib.rs:32-34, 52-54,
hc-256/src/lib.rs:42-43, rc4/src/lib.rs:21. -/
inductive Arr where
  /-- `self.state` (ChaCha, Salsa, RC4), `state` in `hchacha`, `hsalsa` -/
  | state
  /-- `res` in `run_rounds` -/
  | res
  /-- `block`, `output` -/
  | out
  /-- the argument `key` -/
  | key
  /-- the argument `input` -/
  | input
  /-- `self.x`, `self.c`, `g`, the constant table `A`, `tmp` of Rabbit -/
  | x | c | g | consts | tmp
  /-- `self.ptable`, `self.qtable` -/
  | p | q
  deriving DecidableEq, Repr

/-- One access - e.g. chacha20/src/lib.rs:328-342. -/
inductive Acc where
  | rd (a : Arr) (i : Nat)
  | wr (a : Arr) (i : Nat)
  deriving DecidableEq, Repr

/-- A computation on memory `σ` that may panic; it yields the list of accesses made, up to the panic if there is one - language in which the
functions of chacha20/src/backends/soft.rs:33-87 and the other portable block functions are written again. -/
def T (σ α : Type) := σ → List Acc × Except Panic (α × σ)

namespace T

/-- The accesses - of a function such as chacha20/src/backends/soft.rs:33-45. -/
def trace {σ α : Type} (m : T σ α) (s : σ) : List Acc := (m s).1

/-- The result - of a function such as chacha20/src/backends/soft.rs:33-45. -/
def result {σ α : Type} (m : T σ α) (s : σ) : Except Panic (α × σ) := (m s).2

/-- No access - no code of its own in /repo; plumbing for chacha20/src/backends/soft.rs:33-45 and the others. -/
def pure {σ α : Type} (a : α) : T σ α := fun s => ([], .ok (a, s))

/-- One computation after the other - sequencing of statements, e.g. chacha20/src/lib.rs:328-342. -/
def bind {σ α β : Type} (m : T σ α) (f : α → T σ β) : T σ β := fun s =>
  match (m s).2 with
  | .error e => ((m s).1, .error e)
  | .ok (a, s') => ((m s).1 ++ (f a s').1, (f a s').2)

instance {σ : Type} : Monad (T σ) where
  pure := pure
  bind := bind

/-- A computation that makes no access (registers only) but may panic - e.g. rabbit/src/lib.rs:127. -/
def lift {σ α : Type} (e : Except Panic α) : T σ α := fun s => ([], e.map (·, s))

end T

/-- An array inside the memory - e.g. `state`, chacha20/src/lib.rs:121. -/
structure Place (σ β : Type) (n : Nat) where
  arr : Arr
  get : σ → Vector β n
  set : σ → Vector β n → σ

/-- Read `place[i]` - e.g. chacha20/src/lib.rs:328. -/
def rd {σ β : Type} {n : Nat} (L : Place σ β n) (i : Fin n) : T σ β := fun s => ([.rd L.arr i.val], .ok ((L.get s)[i], s))

/-- `place[i] = x` - e.g. chacha20/src/lib.rs:328. -/
def wr {σ β : Type} {n : Nat} (L : Place σ β n) (i : Fin n) (x : β) : T σ Unit :=
  fun s => ([.wr L.arr i.val], .ok ((), L.set s ((L.get s).set i x)))

/-- `for _ in 0..n { m }` - chacha20/src/backends/soft.rs:69, salsa20/src/backends/soft.rs:52. -/
def rep {σ : Type} : Nat → T σ Unit → T σ Unit
  | 0, _ => pure ()
  | n + 1, m => do m; rep n m

/-- `for i in [..] { m i }` - chacha20/src/backends/soft.rs:42, 83. -/
def each {σ ι : Type} (m : ι → T σ Unit) : List ι → T σ Unit
  | [] => pure ()
  | i :: is => do m i; each m is

/-- `x.to_le_bytes()` stored at `4 * i` (`copy_from_slice` into the `i`-th chunk of four) - chacha20/src/backends/soft.rs:43, xchacha.rs:145,
149, salsa20/src/backends/soft.rs:28. -/
def storeLe {σ : Type} {k : Nat} (L : Place σ U8 (4 * k)) (i : Fin k) (x : U32) : T σ Unit := do
  wr L ⟨4 * i.val, by omega⟩ (toLe32 x)[0]
  wr L ⟨4 * i.val + 1, by omega⟩ (toLe32 x)[1]
  wr L ⟨4 * i.val + 2, by omega⟩ (toLe32 x)[2]
  wr L ⟨4 * i.val + 3, by omega⟩ (toLe32 x)[3]

/-- `u32::from_le_bytes` of the `i`-th chunk of four - chacha20/src/xchacha.rs:120, 124, salsa20/src/xsalsa.rs:95. -/
def loadLe {σ : Type} {k : Nat} (L : Place σ U8 (4 * k)) (i : Fin k) : T σ U32 := do
  let b0 ← rd L ⟨4 * i.val, by omega⟩
  let b1 ← rd L ⟨4 * i.val + 1, by omega⟩
  let b2 ← rd L ⟨4 * i.val + 2, by omega⟩
  let b3 ← rd L ⟨4 * i.val + 3, by omega⟩
  return le32 b0 b1 b2 b3

/-! ## ChaCha and Salsa block functions -/

/-- Memory of `gen_ks_block`: `self.0.state`, `res` and `block` - chacha20/src/backends/soft.rs:33-34, 67, salsa20/src/backends/soft.rs:22-23,
50. -/
structure BlockMem where
  state : Vector U32 16
  res : Vector U32 16
  out : Vector U8 (4 * 16)

/-- `state` - chacha20/src/backends/soft.rs:33-34, 67, salsa20/src/backends/soft.rs:22-23, 50. -/
def BlockMem.stateP : Place BlockMem U32 16 := ⟨.state, (·.state), fun s v => { s with state := v }⟩
/-- `res` - chacha20/src/backends/soft.rs:33-34, 67, salsa20/src/backends/soft.rs:22-23, 50. -/
def BlockMem.resP : Place BlockMem U32 16 := ⟨.res, (·.res), fun s v => { s with res := v }⟩
/-- `block` - chacha20/src/backends/soft.rs:33-34, 67, salsa20/src/backends/soft.rs:22-23, 50. -/
def BlockMem.outP : Place BlockMem U8 (4 * 16) := ⟨.out, (·.out), fun s v => { s with out := v }⟩

/-- `let mut res = *state;` - chacha20/src/backends/soft.rs:67, salsa20/src/backends/soft.rs:50. -/
def copyState : T BlockMem Unit := each (fun i => do wr BlockMem.resP i (← rd BlockMem.stateP i)) (List.finRange 16)

/-- `*s1 = s1.wrapping_add(*s0)` for all words - chacha20/src/backends/soft.rs:83-85, salsa20/src/backends/soft.rs:66-68. -/
def addState : T BlockMem Unit :=
  each (fun i => do
    let s1 ← rd BlockMem.resP i
    let s0 ← rd BlockMem.stateP i
    wr BlockMem.resP i (s1 + s0)) (List.finRange 16)

/-- The loop storing `res` into `block` - chacha20/src/backends/soft.rs:42-44, salsa20/src/backends/soft.rs:27-29. -/
def storeRes : T BlockMem Unit := each (fun i => do storeLe BlockMem.outP i (← rd BlockMem.resP i)) (List.finRange 16)

/-- Memory of `hchacha` and `hsalsa` - chacha20/src/xchacha.rs:113-114, 142, salsa20/src/xsalsa.rs:92, 98, 131. -/
structure HashMem where
  key : Vector U8 (4 * 8)
  input : Vector U8 (4 * 4)
  state : Vector U32 16
  out : Vector U8 (4 * 8)

/-- `key` - chacha20/src/xchacha.rs:113-114, 142, salsa20/src/xsalsa.rs:92, 98, 131. -/
def HashMem.keyP : Place HashMem U8 (4 * 8) := ⟨.key, (·.key), fun s v => { s with key := v }⟩
/-- `input` - chacha20/src/xchacha.rs:113-114, 142, salsa20/src/xsalsa.rs:92, 98, 131. -/
def HashMem.inputP : Place HashMem U8 (4 * 4) := ⟨.input, (·.input), fun s v => { s with input := v }⟩
/-- `state` - chacha20/src/xchacha.rs:113-114, 142, salsa20/src/xsalsa.rs:92, 98, 131. -/
def HashMem.stateP : Place HashMem U32 16 := ⟨.state, (·.state), fun s v => { s with state := v }⟩
/-- `output` - chacha20/src/xchacha.rs:113-114, 142, salsa20/src/xsalsa.rs:92, 98, 131. -/
def HashMem.outP : Place HashMem U8 (4 * 8) := ⟨.out, (·.out), fun s v => { s with out := v }⟩

/-- Store the words with the given indices to consecutive chunks of the output - chacha20/src/xchacha.rs:144-150,
salsa20/src/xsalsa.rs:132-136. -/
def emit (idx : Vector (Fin 16) 8) : T HashMem Unit :=
  each (fun i => do storeLe HashMem.outP i (← rd HashMem.stateP idx[i])) (List.finRange 8)

namespace ChaCha

/-- `quarter_round` - chacha20/src/lib.rs:321-343. -/
def quarterRound {σ : Type} (L : Place σ U32 16) (a b c d : Fin 16) : T σ Unit := do
  wr L a ((← rd L a) + (← rd L b))
  wr L d ((← rd L d) ^^^ (← rd L a))
  wr L d ((← rd L d).rotateLeft 16)
  wr L c ((← rd L c) + (← rd L d))
  wr L b ((← rd L b) ^^^ (← rd L c))
  wr L b ((← rd L b).rotateLeft 12)
  wr L a ((← rd L a) + (← rd L b))
  wr L d ((← rd L d) ^^^ (← rd L a))
  wr L d ((← rd L d).rotateLeft 8)
  wr L c ((← rd L c) + (← rd L d))
  wr L b ((← rd L b) ^^^ (← rd L c))
  wr L b ((← rd L b).rotateLeft 7)

/-- The loop body - chacha20/src/backends/soft.rs:71-80, chacha20/src/xchacha.rs:130-139. -/
def doubleRound {σ : Type} (L : Place σ U32 16) : T σ Unit := do
  quarterRound L 0 4 8 12
  quarterRound L 1 5 9 13
  quarterRound L 2 6 10 14
  quarterRound L 3 7 11 15
  quarterRound L 0 5 10 15
  quarterRound L 1 6 11 12
  quarterRound L 2 7 8 13
  quarterRound L 3 4 9 14

/-- The counter update in `gen_ks_block` - chacha20/src/backends/soft.rs:35-40. -/
def advance (V : Verif.ChaCha.Variant) : T BlockMem Unit := do
  let hi ← rd BlockMem.stateP 13
  let lo ← rd BlockMem.stateP 12
  let ctr : U64 := (hi.setWidth 64 <<< 32) ||| lo.setWidth 64
  let ctr := ctr + 1
  wr BlockMem.stateP 12 (ctr.setWidth 32)
  if V.ctrBytes = 8 then wr BlockMem.stateP 13 ((ctr >>> 32).setWidth 32) else pure ()

/-- `gen_ks_block` - chacha20/src/backends/soft.rs:33-45, 66-87. -/
def genBlock (dr : Nat) (V : Verif.ChaCha.Variant) : T BlockMem Unit := do
  copyState
  rep dr (doubleRound BlockMem.resP)
  addState
  advance V
  storeRes

/-- State set-up of `hchacha` - chacha20/src/xchacha.rs:114-126. -/
def hashSetup : T HashMem Unit := do
  each (fun i => wr HashMem.stateP ⟨i.val, by omega⟩ Verif.ChaCha.constants[i]) (List.finRange 4)
  each (fun i => do wr HashMem.stateP ⟨4 + i.val, by omega⟩ (← loadLe HashMem.keyP i)) (List.finRange 8)
  each (fun i => do wr HashMem.stateP ⟨12 + i.val, by omega⟩ (← loadLe HashMem.inputP i)) (List.finRange 4)

/-- `hchacha` - chacha20/src/xchacha.rs:113-153. -/
def hchacha (dr : Nat) : T HashMem Unit := do
  hashSetup
  rep dr (doubleRound HashMem.stateP)
  emit #v[0, 1, 2, 3, 12, 13, 14, 15]

end ChaCha

namespace Salsa

/-- `quarter_round` - salsa20/src/backends/soft.rs:35-46. -/
def quarterRound {σ : Type} (L : Place σ U32 16) (a b c d : Fin 16) : T σ Unit := do
  wr L b ((← rd L b) ^^^ ((← rd L a) + (← rd L d)).rotateLeft 7)
  wr L c ((← rd L c) ^^^ ((← rd L b) + (← rd L a)).rotateLeft 9)
  wr L d ((← rd L d) ^^^ ((← rd L c) + (← rd L b)).rotateLeft 13)
  wr L a ((← rd L a) ^^^ ((← rd L d) + (← rd L c)).rotateLeft 18)

/-- The loop body - salsa20/src/backends/soft.rs:54-63, salsa20/src/xsalsa.rs:119-128. -/
def doubleRound {σ : Type} (L : Place σ U32 16) : T σ Unit := do
  quarterRound L 0 4 8 12
  quarterRound L 5 9 13 1
  quarterRound L 10 14 2 6
  quarterRound L 15 3 7 11
  quarterRound L 0 1 2 3
  quarterRound L 5 6 7 4
  quarterRound L 10 11 8 9
  quarterRound L 15 12 13 14

/-- The counter update in `gen_ks_block` - salsa20/src/backends/soft.rs:25, with `get_block_pos`, `set_block_pos` of
salsa20/src/lib.rs:134-143. -/
def advance (m : Mode) : T BlockMem Unit := do
  let lo ← rd BlockMem.stateP 8
  let hi ← rd BlockMem.stateP 9
  let pos ← T.lift (Verif.Salsa.incr m (lo.setWidth 64 + (hi.setWidth 64 <<< 32)))
  wr BlockMem.stateP 8 ((pos &&& 0xFFFFFFFF#64).setWidth 32)
  wr BlockMem.stateP 9 (((pos >>> 32) &&& 0xFFFFFFFF#64).setWidth 32)

/-- `gen_ks_block` - salsa20/src/backends/soft.rs:22-30, 49-70. -/
def genBlock (m : Mode) (dr : Nat) : T BlockMem Unit := do
  copyState
  rep dr (doubleRound BlockMem.resP)
  addState
  advance m
  storeRes

/-- State set-up of `hsalsa` - salsa20/src/xsalsa.rs:98-114. -/
def hashSetup : T HashMem Unit := do
  wr HashMem.stateP 0 Verif.Salsa.constants[0]
  each (fun i : Fin 4 => do wr HashMem.stateP ⟨1 + i.val, by omega⟩ (← loadLe HashMem.keyP ⟨i.val, by omega⟩)) (List.finRange 4)
  wr HashMem.stateP 5 Verif.Salsa.constants[1]
  each (fun i : Fin 4 => do wr HashMem.stateP ⟨6 + i.val, by omega⟩ (← loadLe HashMem.inputP i)) (List.finRange 4)
  wr HashMem.stateP 10 Verif.Salsa.constants[2]
  each (fun i : Fin 4 => do wr HashMem.stateP ⟨11 + i.val, by omega⟩ (← loadLe HashMem.keyP ⟨4 + i.val, by omega⟩)) (List.finRange 4)
  wr HashMem.stateP 15 Verif.Salsa.constants[3]

/-- `hsalsa` - salsa20/src/xsalsa.rs:92-139. -/
def hsalsa (dr : Nat) : T HashMem Unit := do
  hashSetup
  rep dr (doubleRound HashMem.stateP)
  emit #v[0, 5, 10, 15, 6, 7, 8, 9]

end Salsa

namespace Rabbit
open Verif.Rabbit (add64 mul64 wordsize A)

/-- Memory of `next_state` and `extract`: `self.x`, `self.c`, `self.carry_bit` (a scalar), `g`, `tmp`, `s` - rabbit/src/lib.rs:50-56, 135,
166-168. -/
structure Mem where
  x : Vector U32 8
  c : Vector U32 8
  carry : U8
  g : Vector U32 8
  tmp : Vector U16 8
  out : Vector U8 16

/-- `self.x` - rabbit/src/lib.rs:52. -/
def xP : Place Mem U32 8 := ⟨.x, (·.x), fun s v => { s with x := v }⟩
/-- `self.c` - rabbit/src/lib.rs:54. -/
def cP : Place Mem U32 8 := ⟨.c, (·.c), fun s v => { s with c := v }⟩
/-- `g` - rabbit/src/lib.rs:135. -/
def gP : Place Mem U32 8 := ⟨.g, (·.g), fun s v => { s with g := v }⟩
/-- `tmp` - rabbit/src/lib.rs:168. -/
def tmpP : Place Mem U16 8 := ⟨.tmp, (·.tmp), fun s v => { s with tmp := v }⟩
/-- `s` - rabbit/src/lib.rs:166. -/
def outP : Place Mem U8 16 := ⟨.out, (·.out), fun s v => { s with out := v }⟩

/-- The constant table `A` - rabbit/src/lib.rs:32-34, 127. -/
def rdA (j : Fin 8) : T Mem U32 := fun s => ([.rd .consts j.val], .ok (A[j], s))

/-- `self.carry_bit` - rabbit/src/lib.rs:127. -/
def getCarry : T Mem U8 := fun s => ([], .ok (s.carry, s))

/-- `self.carry_bit = …` - rabbit/src/lib.rs:128. -/
def setCarry (b : U8) : T Mem Unit := fun s => ([], .ok ((), { s with carry := b }))

/-- Body of the loop in `counter_update` - rabbit/src/lib.rs:127-129. -/
def counterStep (m : Mode) (j : Fin 8) : T Mem Unit := do
  let t ← T.lift (add64 m ((← rd cP j).setWidth 64) ((← rdA j).setWidth 64))
  let t ← T.lift (add64 m t ((← getCarry).setWidth 64))
  setCarry ((t / wordsize).setWidth 8 &&& 1)
  wr cP j ((t % wordsize).setWidth 32)

/-- `counter_update` - rabbit/src/lib.rs:124-131. -/
def counterUpdate (m : Mode) : T Mem Unit := each (counterStep m) [0, 1, 2, 3, 4, 5, 6, 7]

/-- Body of the first loop of `next_state` - rabbit/src/lib.rs:141-143. -/
def gStep (m : Mode) (j : Fin 8) : T Mem Unit := do
  let uPlusV ← T.lift (add64 m ((← rd xP j).setWidth 64) ((← rd cP j).setWidth 64))
  let squareUv ← T.lift (mul64 m (uPlusV % wordsize) (uPlusV % wordsize))
  wr gP j ((squareUv ^^^ (squareUv >>> 32)).setWidth 32)

/-- First loop of `next_state` - rabbit/src/lib.rs:140-144. -/
def gLoop (m : Mode) : T Mem Unit := each (gStep m) [0, 1, 2, 3, 4, 5, 6, 7]

/-- The assignments to `self.x` in `next_state` - rabbit/src/lib.rs:146-161. -/
def mix : T Mem Unit := do
  wr xP 0 ((← rd gP 0) + (← rd gP 7).rotateLeft 16 + (← rd gP 6).rotateLeft 16)
  wr xP 1 ((← rd gP 1) + (← rd gP 0).rotateLeft 8 + (← rd gP 7))
  wr xP 2 ((← rd gP 2) + (← rd gP 1).rotateLeft 16 + (← rd gP 0).rotateLeft 16)
  wr xP 3 ((← rd gP 3) + (← rd gP 2).rotateLeft 8 + (← rd gP 1))
  wr xP 4 ((← rd gP 4) + (← rd gP 3).rotateLeft 16 + (← rd gP 2).rotateLeft 16)
  wr xP 5 ((← rd gP 5) + (← rd gP 4).rotateLeft 8 + (← rd gP 3))
  wr xP 6 ((← rd gP 6) + (← rd gP 5).rotateLeft 16 + (← rd gP 4).rotateLeft 16)
  wr xP 7 ((← rd gP 7) + (← rd gP 6).rotateLeft 8 + (← rd gP 5))

/-- `next_state` - rabbit/src/lib.rs:134-162. -/
def nextState (m : Mode) : T Mem Unit := do
  counterUpdate m
  gLoop m
  mix

/-- The assignments to `tmp` in `extract` - rabbit/src/lib.rs:170-177. -/
def fillTmp : T Mem Unit := do
  wr tmpP 0 ((← rd xP 0) ^^^ ((← rd xP 5) >>> 16) |>.setWidth 16)
  wr tmpP 1 (((← rd xP 0) >>> 16) ^^^ (← rd xP 3) |>.setWidth 16)
  wr tmpP 2 ((← rd xP 2) ^^^ ((← rd xP 7) >>> 16) |>.setWidth 16)
  wr tmpP 3 (((← rd xP 2) >>> 16) ^^^ (← rd xP 5) |>.setWidth 16)
  wr tmpP 4 ((← rd xP 4) ^^^ ((← rd xP 1) >>> 16) |>.setWidth 16)
  wr tmpP 5 (((← rd xP 4) >>> 16) ^^^ (← rd xP 7) |>.setWidth 16)
  wr tmpP 6 ((← rd xP 6) ^^^ ((← rd xP 3) >>> 16) |>.setWidth 16)
  wr tmpP 7 (((← rd xP 6) >>> 16) ^^^ (← rd xP 1) |>.setWidth 16)

/-- The assignments to `s` in `extract` - rabbit/src/lib.rs:179-194. -/
def fillOut : T Mem Unit :=
  each (fun i : Fin 8 => do
    wr outP ⟨2 * i.val, by omega⟩ ((← rd tmpP i).setWidth 8)
    wr outP ⟨2 * i.val + 1, by omega⟩ (((← rd tmpP i) >>> 8).setWidth 8)) [0, 1, 2, 3, 4, 5, 6, 7]

/-- `extract` - rabbit/src/lib.rs:165-197. -/
def extract : T Mem Unit := do
  fillTmp
  fillOut

/-- `next_block` - rabbit/src/lib.rs:199-202. -/
def nextBlock (m : Mode) : T Mem Unit := do
  nextState m
  extract

end Rabbit

namespace Rc4
open Verif.Rc4 (State)

/-- `self.state`; the scalars `i`, `j` are not arrays - rc4/src/lib.rs:21. -/
def stateP : Place State U8 256 := ⟨.state, (·.state), fun s v => { s with state := v }⟩

/-- A byte as index - rc4/src/lib.rs:28, 32, 43. -/
def idx (b : U8) : Fin 256 := b.toFin

/-- `state.swap(a, b)` - rc4/src/lib.rs:39. -/
def swap (a b : U8) : T State Unit := do
  let x ← rd stateP (idx a)
  let y ← rd stateP (idx b)
  wr stateP (idx a) y
  wr stateP (idx b) x

/-- `self.i = self.i.wrapping_add(1)` (a scalar field) - rc4/src/lib.rs:36. -/
def bumpI : T State U8 := fun s => ([], .ok (s.i + 1, { s with i := s.i + 1 }))

/-- `self.j = self.j.wrapping_add(x)` (a scalar field) - rc4/src/lib.rs:37. -/
def bumpJ (x : U8) : T State U8 := fun s => ([], .ok (s.j + x, { s with j := s.j + x }))

/-- `prga` - rc4/src/lib.rs:35-44. -/
def prga : T State U8 := do
  let i ← bumpI
  let j ← bumpJ (← rd stateP (idx i))
  swap i j
  let si ← rd stateP (idx i)
  let sj ← rd stateP (idx j)
  rd stateP (idx (si + sj))

end Rc4

namespace Hc256
open Verif.Hc256 (State toUsize back add32)

/-- `self.ptable` - hc-256/src/lib.rs:42. -/
def pP : Place State U32 1024 := ⟨.p, (·.ptable), fun s v => { s with ptable := v }⟩
/-- `self.qtable` - hc-256/src/lib.rs:43. -/
def qP : Place State U32 1024 := ⟨.q, (·.qtable), fun s v => { s with qtable := v }⟩

/-- A checked read - hc-256/src/lib.rs:138, 144, 149-160, 170-186. -/
def get {σ β : Type} {n : Nat} (L : Place σ β n) (i : Nat) : T σ β :=
  if h : i < n then rd L ⟨i, h⟩ else T.lift (.error .bounds)

/-- A checked write - hc-256/src/lib.rs:170, 179. -/
def put {σ β : Type} {n : Nat} (L : Place σ β n) (i : Nat) (x : β) : T σ Unit :=
  if h : i < n then wr L ⟨i, h⟩ x else T.lift (.error .bounds)

/-- `g1`, `g2` - hc-256/src/lib.rs:136-145. -/
def g (u : Nat) (O : Place State U32 1024) (x y : U32) : T State U32 := do
  return (x.rotateRight 10 ^^^ y.rotateRight 23) + (← get O (toUsize u (x ^^^ y) &&& 1023))

/-- `h1`, `h2` - hc-256/src/lib.rs:148-161. -/
def h (m : Mode) (u : Nat) (O : Place State U32 1024) (x : U32) : T State U32 := do
  let a ← get O (toUsize u (x &&& 0xff#32))
  let b ← get O (toUsize u (← T.lift (add32 m 256#32 ((x >>> 8) &&& 0xff#32))))
  let c ← get O (toUsize u (← T.lift (add32 m 512#32 ((x >>> 16) &&& 0xff#32))))
  let d ← get O (toUsize u (← T.lift (add32 m 768#32 ((x >>> 24) &&& 0xff#32))))
  return a + b + c + d

/-- One half of `gen_word` - hc-256/src/lib.rs:170-177, 179-186. -/
def half (m : Mode) (u : Nat) (L O : Place State U32 1024) (j : Nat) : T State U32 := do
  let v := (← get L j) + (← get L (back u j 10))
  let gv ← g u O (← get L (back u j 3)) (← get L (back u j 1023))
  put L j (v + gv)
  let hv ← h m u O (← get L (back u j 12))
  return hv ^^^ (← get L j)

/-- `self.idx` (a scalar field) - hc-256/src/lib.rs:164-165. -/
def getIdx : T State U32 := fun s => ([], .ok (s.idx, s))

/-- `self.idx = x` - hc-256/src/lib.rs:167. -/
def setIdx (x : U32) : T State Unit := fun s => ([], .ok ((), { s with idx := x }))

/-- `gen_word` - hc-256/src/lib.rs:163-188. -/
def genWord (m : Mode) (u : Nat) : T State U32 := do
  let idx ← getIdx
  let i := toUsize u idx
  let j := toUsize u idx &&& 1023
  let next ← T.lift (add32 m idx 1#32)
  setIdx (next &&& 2047#32)
  if i < 1024 then half m u pP qP j else half m u qP pP j

end Hc256

end Verif.Trace
