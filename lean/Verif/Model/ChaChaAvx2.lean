import Verif.Model.Simd
import Verif.Model.ChaCha
/-!
# Model of the AVX2 backend

Rust source: `/repo/chacha20/src/backends/avx2.rs`.
-/
namespace Verif.ChaCha.Avx2

/-- `struct Backend` - avx2.rs:114-118: rows `a b c` (each twice), and two counter registers. -/
structure Regs where
  v : Vector M256 3
  ctr : Vector M256 2

/-- Add `hi` and `lo` to the counters in the high and low 128-bit lane: `_mm256_add_epi32(c, _mm256_set_epi32(0,0,0,hi,0,0,0,lo))` or
`_mm256_add_epi64(c, _mm256_set_epi64x(0,hi,0,lo))` - avx2.rs:51-55, 59-63, 137-141, 160-166. -/
def ctrAdd (V : Variant) (c : M256) (hi lo : Nat) : M256 :=
  if V.ctrBytes = 4 then
    c.addEpi32 (.setEpi32 0 0 0 (BitVec.ofNat 32 hi) 0 0 0 (BitVec.ofNat 32 lo))
  else c.addEpi64 (.setEpi64x 0 (BitVec.ofNat 64 hi) 0 (BitVec.ofNat 64 lo))

/-- Register set-up - avx2.rs:44-69 (and, with a 64-bit counter, avx2.rs:89-106). -/
def load (V : Variant) (s : State) : Regs :=
  let r := Rows.load s
  let c := M256.broadcast r.d
  let c := ctrAdd V c 1 0
  let ctr0 := c
  let c := ctrAdd V c 2 2
  let ctr1 := c
  ⟨#v[.broadcast r.a, .broadcast r.b, .broadcast r.c], #v[ctr0, ctr1]⟩

/-- `rol16_mask` - avx2.rs:314-319. -/
def rol16Mask : M256 :=
  .setEpi64x 0x0d0c0f0e09080b0a#64 0x0504070601000302#64 0x0d0c0f0e09080b0a#64 0x0504070601000302#64

/-- `rol8_mask` - avx2.rs:320-325. -/
def rol8Mask : M256 :=
  .setEpi64x 0x0e0d0c0f0a09080b#64 0x0605040702010003#64 0x0e0d0c0f0a09080b#64 0x0605040702010003#64

/-- First and third loop body of `add_xor_rot` - avx2.rs:328-332, 342-346. -/
def stepAD (mask : M256) (r : Rows M256) : Rows M256 :=
  let a := r.a.addEpi32 r.b
  let d := r.d.xor a
  let d := d.shuffleEpi8 mask
  { r with a := a, d := d }

/-- Second and fourth loop body of `add_xor_rot` - avx2.rs:335-339, 349-353. -/
def stepCB (n m : Nat) (r : Rows M256) : Rows M256 :=
  let c := r.c.addEpi32 r.d
  let b := r.b.xor c
  let b := (b.slliEpi32 n).xor (b.srliEpi32 m)
  { r with c := c, b := b }

/-- `add_xor_rot` - avx2.rs:313-354. -/
def addXorRot (vs : Vector (Rows M256) 2) : Vector (Rows M256) 2 :=
  let vs := vs.map (stepAD rol16Mask)
  let vs := vs.map (stepCB 12 20)
  let vs := vs.map (stepAD rol8Mask)
  vs.map (stepCB 7 25)

/-- Body of `rows_to_cols` - avx2.rs:276-280. -/
def rowsToCols1 (r : Rows M256) : Rows M256 :=
  { r with
    c := r.c.shuffleEpi32 0b00111001
    d := r.d.shuffleEpi32 0b01001110
    a := r.a.shuffleEpi32 0b10010011 }

/-- Body of `cols_to_rows` - avx2.rs:304-308. -/
def colsToRows1 (r : Rows M256) : Rows M256 :=
  { r with
    c := r.c.shuffleEpi32 0b10010011
    d := r.d.shuffleEpi32 0b01001110
    a := r.a.shuffleEpi32 0b00111001 }

/-- `double_quarter_round` - avx2.rs:230-235. -/
def doubleQuarterRound (vs : Vector (Rows M256) 2) : Vector (Rows M256) 2 :=
  let vs := addXorRot vs
  let vs := vs.map rowsToCols1
  let vs := addXorRot vs
  vs.map colsToRows1

/-- `rounds` - avx2.rs:209-226. -/
def rounds (dr : Nat) (g : Regs) : Vector (Rows M256) 2 :=
  let vs : Vector (Rows M256) 2 := Vector.ofFn fun i => ⟨g.v[0], g.v[1], g.v[2], g.ctr[i]⟩
  let vs := iter dr doubleQuarterRound vs
  Vector.ofFn fun i =>
    let r := vs[i]
    ⟨r.a.addEpi32 g.v[0], r.b.addEpi32 g.v[1], r.c.addEpi32 g.v[2], r.d.addEpi32 g.ctr[i]⟩

/-- The low and high 128-bit lanes of four row registers: `transmute` to `[__m128i; 8]` and the
even / odd entries - avx2.rs:144-149, 171-175. -/
def lowRows (r : Rows M256) : Rows M128 := ⟨r.a.lo, r.b.lo, r.c.lo, r.d.lo⟩
@[inherit_doc lowRows] def highRows (r : Rows M256) : Rows M128 := ⟨r.a.hi, r.b.hi, r.c.hi, r.d.hi⟩

/-- `gen_ks_block` - avx2.rs:133-151. -/
def genBlock (dr : Nat) (V : Variant) (g : Regs) : Except Panic (Block × Regs) :=
  let res := rounds dr g
  let g := { g with ctr := g.ctr.map fun c => ctrAdd V c 1 1 }
  .ok ((lowRows res[0]).store, g)

/-- `gen_par_ks_blocks` - avx2.rs:154-179. -/
def genPar (dr : Nat) (V : Variant) (g : Regs) : Except Panic (List Block × Regs) :=
  let vs := rounds dr g
  let g := { g with ctr := g.ctr.map fun c => ctrAdd V c 4 4 }
  .ok ([(lowRows vs[0]).store, (highRows vs[0]).store, (lowRows vs[1]).store, (highRows vs[1]).store], g)

/-- The backend: `ParBlocksSize = U4`, provided `gen_tail_blocks` - avx2.rs:126-180. -/
def backend (dr : Nat) (V : Variant) : Backend 64 Regs :=
  { Backend.ofBlock 4 (genBlock dr V) with genPar := genPar dr V }

/-- `inner` - avx2.rs:38-79. -/
def inner {α : Type} (dr : Nat) (V : Variant) (f : Closure 64 α) (s : State) : Except Panic (α × State) := do
  let (a, g) ← (backend dr V).call f (load V s)
  let s := s.set 12 g.ctr[0].lo.x0
  let s := if V.ctrBytes = 4 then s else s.set 13 g.ctr[0].lo.x1
  return (a, s)

/-- `rng_inner` with `rng_gen_par_ks_blocks` - avx2.rs:84-112, 185-204: 64-bit counters whatever `V` is. -/
def rngInner (dr : Nat) (s : State) : Vector U32 64 × State :=
  let g := load .legacy s
  let vs := rounds dr g
  let ctr := g.ctr.map fun c => c.addEpi64 (.setEpi64x 0 4 0 4)
  let buf : Vector U32 (16 + 16 + 16 + 16) :=
    (lowRows vs[0]).words ++ (highRows vs[0]).words ++ (lowRows vs[1]).words ++ (highRows vs[1]).words
  let s := s.set 12 ctr[0].lo.x0
  let s := s.set 13 ctr[0].lo.x1
  (buf, s)

end Verif.ChaCha.Avx2
