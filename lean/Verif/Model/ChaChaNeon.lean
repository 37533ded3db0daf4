import Verif.Model.Simd
import Verif.Model.ChaCha
/-!
# Model of the NEON backend

Rust source: `/repo/chacha20/src/backends/neon.rs`.  Little-endian AArch64 is assumed.
-/
namespace Verif.ChaCha.Neon

/-- `struct Backend` - neon.rs:24-28. -/
structure Regs where
  state : Rows M128
  ctrs : Vector M128 8

/-- `add_counter!` - neon.rs:30-41. -/
def addCounter (V : Variant) (a b : M128) : M128 :=
  if V.ctrBytes = 4 then a.addEpi32 b else a.addEpi64 b

/-- `Backend::new` - neon.rs:45-67. -/
def new (s : State) : Regs :=
  ⟨Rows.load s, #v[⟨1, 0, 0, 0⟩, ⟨2, 0, 0, 0⟩, ⟨3, 0, 0, 0⟩, ⟨4, 0, 0, 0⟩, ⟨5, 0, 0, 0⟩, ⟨6, 0, 0, 0⟩,
    ⟨7, 0, 0, 0⟩, ⟨8, 0, 0, 0⟩]⟩

/-- `maskb` - neon.rs:226. -/
def maskb : M128 :=
  .ofBytes fun i =>
    (#v[3, 0, 1, 2, 7, 4, 5, 6, 11, 8, 9, 10, 15, 12, 13, 14] : Vector U8 16)[i % 16]'(Nat.mod_lt _ (by decide))

/-- `rotate_left!($v, 8)` - neon.rs:225-230. -/
def rotateLeft8 (v : M128) : M128 := v.vqtbl1q maskb

/-- `rotate_left!($v, 16)` - neon.rs:231-233. -/
def rotateLeft16 (v : M128) : M128 := v.vrev32q16

/-- `rotate_left!($v, $r)` - neon.rs:234-236. -/
def rotateLeftN (v : M128) (r : Nat) : M128 := (v.slliEpi32 r).or (v.srliEpi32 (32 - r))

/-- Body of `add_xor_rot` - neon.rs:326-345. -/
def addXorRot1 (r : Rows M128) : Rows M128 :=
  let ⟨b0, b1, b2, b3⟩ := r
  let b0 := b0.addEpi32 b1
  let b3 := b3.xor b0
  let b3 := rotateLeft16 b3
  let b2 := b2.addEpi32 b3
  let b1 := b1.xor b2
  let b1 := rotateLeftN b1 12
  let b0 := b0.addEpi32 b1
  let b3 := b3.xor b0
  let b3 := rotateLeft8 b3
  let b2 := b2.addEpi32 b3
  let b1 := b1.xor b2
  let b1 := rotateLeftN b1 7
  ⟨b0, b1, b2, b3⟩

/-- Body of `rows_to_cols` - neon.rs:350-354. -/
def rowsToCols1 (r : Rows M128) : Rows M128 :=
  { r with b := r.b.vextq r.b 1, c := r.c.vextq r.c 2, d := r.d.vextq r.d 3 }

/-- Body of `cols_to_rows` - neon.rs:359-363. -/
def colsToRows1 (r : Rows M128) : Rows M128 :=
  { r with b := r.b.vextq r.b 3, c := r.c.vextq r.c 2, d := r.d.vextq r.d 1 }

/-- `double_quarter_round::<N>` - neon.rs:311-316. -/
def doubleQuarterRound {N : Nat} (v : Vector (Rows M128) N) : Vector (Rows M128) N :=
  let v := v.map addXorRot1
  let v := v.map rowsToCols1
  let v := v.map addXorRot1
  v.map colsToRows1

/-- The counter row of block `i`: `self.state[3]` for block 0, otherwise with `self.ctrs[i - 1]` added -
neon.rs:148-192 and 203-210, 256-276 and 288-295. -/
def ctrRow (V : Variant) (g : Regs) (i : Nat) (h : i ≤ 8) : M128 :=
  if h0 : i = 0 then g.state.d else addCounter V g.state.d g.ctrs[i - 1]

/-- The common part of `gen_par_ks_blocks` (`N = 8`, neon.rs:148-218) and `write_par_ks_blocks` (`N = 4`,
neon.rs:256-305). -/
def blocks (N : Nat) (hN : N ≤ 8) (dr : Nat) (V : Variant) (g : Regs) : Vector (Rows M128) N :=
  let st := g.state
  let blocks : Vector (Rows M128) N :=
    Vector.ofFn fun i => ⟨st.a, st.b, st.c, ctrRow V g i.val (by omega)⟩
  let blocks := iter dr doubleQuarterRound blocks
  Vector.ofFn fun i =>
    let r := blocks[i]
    ⟨r.a.addEpi32 st.a, r.b.addEpi32 st.b, r.c.addEpi32 st.c, r.d.addEpi32 (ctrRow V g i.val (by omega))⟩

/-- `gen_par_ks_blocks` - neon.rs:145-221. -/
def genPar (dr : Nat) (V : Variant) (g : Regs) : Except Panic (List Block × Regs) :=
  let bl := blocks 8 (by decide) dr V g
  let g := { g with state := { g.state with d := addCounter V g.state.d g.ctrs[7] } }
  .ok (bl.toList.map Rows.store, g)

/-- `gen_ks_block` - neon.rs:132-142: generate eight blocks, keep the first, reset the counter. -/
def genBlock (dr : Nat) (V : Variant) (g : Regs) : Except Panic (Block × Regs) := do
  let state3 := g.state.d
  let (par, g) ← genPar dr V g
  match par with
  | [] => .error .bounds
  | b :: _ =>
    let g := { g with state := { g.state with d := addCounter V state3 ⟨1, 0, 0, 0⟩ } }
    return (b, g)

/-- The backend: `ParBlocksSize = U8`, provided `gen_tail_blocks` - neon.rs:117-222. -/
def backend (dr : Nat) (V : Variant) : Backend 64 Regs :=
  { Backend.ofBlock 8 (genBlock dr V) with genPar := genPar dr V }

/-- `inner` - neon.rs:73-91: a 64-bit counter is stored together with words 14 and 15. -/
def inner {α : Type} (dr : Nat) (V : Variant) (f : Closure 64 α) (s : State) : Except Panic (α × State) := do
  let (a, g) ← (backend dr V).call f (new s)
  let d := g.state.d
  let s := if V.ctrBytes = 4 then s.set 12 d.x0
    else (((s.set 12 d.x0).set 13 d.x1).set 14 d.x2).set 15 d.x3
  return (a, s)

/-- `rng_inner` with `write_par_ks_blocks` - neon.rs:97-110, 255-307. -/
def rngInner (dr : Nat) (V : Variant) (s : State) : Vector U32 64 × State :=
  let g := new s
  let bl := blocks 4 (by decide) dr V g
  let d := addCounter V g.state.d g.ctrs[3]
  let buf : Vector U32 (16 + 16 + 16 + 16) := bl[0].words ++ bl[1].words ++ bl[2].words ++ bl[3].words
  (buf, (((s.set 12 d.x0).set 13 d.x1).set 14 d.x2).set 15 d.x3)

end Verif.ChaCha.Neon
