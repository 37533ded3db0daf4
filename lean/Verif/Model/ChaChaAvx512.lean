import Verif.Model.Simd
import Verif.Model.ChaCha
/-!
# Model of the AVX-512 backend

Rust source: `/repo/chacha20/src/backends/avx512.rs`.
-/
namespace Verif.ChaCha.Avx512

/-- `struct Backend` - avx512.rs:59-63. -/
structure Regs where
  state : Vector M128 3
  ctr : M128

/-- `increment_ctr` - avx512.rs:69-79. -/
def incrementCtr (V : Variant) (g : Regs) (amount : Nat) : Regs :=
  if V.ctrBytes = 4 then { g with ctr := g.ctr.addEpi32 (.setEpi32 0 0 0 (BitVec.ofNat 32 amount)) }
  else { g with ctr := g.ctr.addEpi64 (.setEpi64x 0 (BitVec.ofNat 64 amount)) }

/-- First loop body of `add_xor_rot` - avx512.rs:452-456 (`n = 16`), 466-470 (`n = 8`). -/
def stepAD (n : Nat) (r : Rows M512) : Rows M512 :=
  let a := r.a.addEpi32 r.b
  let d := r.d.xor a
  let d := d.rolEpi32 n
  { r with a := a, d := d }

/-- Second loop body of `add_xor_rot` - avx512.rs:459-463 (`n = 12`), 473-477 (`n = 7`). -/
def stepCB (n : Nat) (r : Rows M512) : Rows M512 :=
  let c := r.c.addEpi32 r.d
  let b := r.b.xor c
  let b := b.rolEpi32 n
  { r with c := c, b := b }

/-- `add_xor_rot::<N>` - avx512.rs:450-478. -/
def addXorRot {N : Nat} (vs : Vector (Rows M512) N) : Vector (Rows M512) N :=
  let vs := vs.map (stepAD 16)
  let vs := vs.map (stepCB 12)
  let vs := vs.map (stepAD 8)
  vs.map (stepCB 7)

/-- Body of `rows_to_cols` - avx512.rs:413-417. -/
def rowsToCols1 (r : Rows M512) : Rows M512 :=
  { r with
    c := r.c.shuffleEpi32 0b00111001
    d := r.d.shuffleEpi32 0b01001110
    a := r.a.shuffleEpi32 0b10010011 }

/-- Body of `cols_to_rows` - avx512.rs:441-445. -/
def colsToRows1 (r : Rows M512) : Rows M512 :=
  { r with
    c := r.c.shuffleEpi32 0b10010011
    d := r.d.shuffleEpi32 0b01001110
    a := r.a.shuffleEpi32 0b00111001 }

/-- `double_quarter_round::<N>` - avx512.rs:367-372. -/
def doubleQuarterRound {N : Nat} (vs : Vector (Rows M512) N) : Vector (Rows M512) N :=
  let vs := addXorRot vs
  let vs := vs.map rowsToCols1
  let vs := addXorRot vs
  vs.map colsToRows1

/-- `rounds::<N, R>` - avx512.rs:343-363. -/
def rounds {N : Nat} (dr : Nat) (v : Vector M512 3) (c : Vector M512 N) : Vector (Rows M512) N :=
  let vs : Vector (Rows M512) N := Vector.ofFn fun i => ⟨v[0], v[1], v[2], c[i]⟩
  let vs := iter dr doubleQuarterRound vs
  Vector.ofFn fun i =>
    let r := vs[i]
    ⟨r.a.addEpi32 v[0], r.b.addEpi32 v[1], r.c.addEpi32 v[2], r.d.addEpi32 c[i]⟩

/-- Body of the loop over the counter registers - avx512.rs:92-132. -/
def ctrReg (V : Variant) (c : M512) (i : Nat) : M512 :=
  if V.ctrBytes = 4 then
    c.addEpi32 (.setCtr32 (BitVec.ofNat 32 (i * 4 + 3)) (BitVec.ofNat 32 (i * 4 + 2))
      (BitVec.ofNat 32 (i * 4 + 1)) (BitVec.ofNat 32 (i * 4)))
  else
    c.addEpi64 (.setCtr64 (BitVec.ofNat 64 (i * 4 + 3)) (BitVec.ofNat 64 (i * 4 + 2))
      (BitVec.ofNat 64 (i * 4 + 1)) (BitVec.ofNat 64 (i * 4)))

/-- The counter registers - avx512.rs:90-133. -/
def ctrs (N : Nat) (V : Variant) (ctr : M128) : Vector M512 N :=
  let ctrs : Vector M512 N := Vector.replicate N (.broadcast ctr)
  Vector.ofFn fun i : Fin N => ctrReg V ctrs[i] i.val

/-- The transposition into `[block0, block1, block2, block3]` - avx512.rs:172-203. -/
def transpose (r : Rows M512) : Vector M512 4 :=
  let abab01 := M512.permutex2var64 r.a #v[0, 1, 8, 9, 2, 3, 10, 11] r.b
  let abab23 := M512.permutex2var64 r.a #v[4, 5, 12, 13, 6, 7, 14, 15] r.b
  let cdcd01 := M512.permutex2var64 r.c #v[0, 1, 8, 9, 2, 3, 10, 11] r.d
  let cdcd23 := M512.permutex2var64 r.c #v[4, 5, 12, 13, 6, 7, 14, 15] r.d
  let block0 := M512.shuffleI32x4 abab01 cdcd01 0b01000100
  let block1 := M512.shuffleI32x4 abab01 cdcd01 0b11101110
  let block2 := M512.shuffleI32x4 abab23 cdcd23 0b01000100
  let block3 := M512.shuffleI32x4 abab23 cdcd23 0b11101110
  #v[block0, block1, block2, block3]

/-- `_mm512_storeu_si512` of one register into a 64-byte block - chacha20/src/backends/avx512.rs:206. -/
def store (x : M512) : Block := (Rows.mk x.l0 x.l1 x.l2 x.l3).store

/-- The loops writing the blocks - avx512.rs:139-140, 203-208. -/
def writeBlocks {N : Nat} (result : Vector (Rows M512) N) (blocks : List Block) : List Block :=
  (List.finRange N).foldl (fun blocks i =>
    let t := transpose result[i]
    (List.finRange 4).foldl (fun blocks j =>
      let dst := i.val * 4 + j.val
      if dst < blocks.length then blocks.set dst (store t[j]) else blocks) blocks) blocks

/-- `gen_blocks_fullwidth::<N>` on a slice of `blocks.len()` blocks - avx512.rs:86-210. -/
def genFull (N : Nat) (dr : Nat) (V : Variant) (blocks : List Block) (g : Regs) :
    Except Panic (List Block × Regs) :=
  if ¬ blocks.length ≤ N * 4 then .error .assertion else
  let c := ctrs N V g.ctr
  let g := incrementCtr V g blocks.length
  let result := rounds dr (g.state.map .broadcast) c
  .ok (writeBlocks result blocks, g)

/-- `add_xor_rot_halfwide` - avx512.rs:534-556. -/
def addXorRotHalf (r : Rows M256) : Rows M256 :=
  let ⟨a, b, c, d⟩ := r
  let a := a.addEpi32 b
  let d := d.xor a
  let d := d.rolEpi32 16
  let c := c.addEpi32 d
  let b := b.xor c
  let b := b.rolEpi32 12
  let a := a.addEpi32 b
  let d := d.xor a
  let d := d.rolEpi32 8
  let c := c.addEpi32 d
  let b := b.xor c
  let b := b.rolEpi32 7
  ⟨a, b, c, d⟩

/-- `rows_to_cols_halfwide` - avx512.rs:514-520. -/
def rowsToColsHalf (r : Rows M256) : Rows M256 :=
  { r with
    c := r.c.shuffleEpi32 0b00111001
    d := r.d.shuffleEpi32 0b01001110
    a := r.a.shuffleEpi32 0b10010011 }

/-- `cols_to_rows_halfwide` - avx512.rs:524-530. -/
def colsToRowsHalf (r : Rows M256) : Rows M256 :=
  { r with
    c := r.c.shuffleEpi32 0b10010011
    d := r.d.shuffleEpi32 0b01001110
    a := r.a.shuffleEpi32 0b00111001 }

/-- `double_quarter_round_halfwide` - avx512.rs:505-510. -/
def doubleQuarterRoundHalf (r : Rows M256) : Rows M256 :=
  let r := addXorRotHalf r
  let r := rowsToColsHalf r
  let r := addXorRotHalf r
  colsToRowsHalf r

/-- `rounds_halfwide` - avx512.rs:489-501. -/
def roundsHalf (dr : Nat) (v : Rows M256) : Rows M256 :=
  let r := iter dr doubleQuarterRoundHalf v
  ⟨r.a.addEpi32 v.a, r.b.addEpi32 v.b, r.c.addEpi32 v.c, r.d.addEpi32 v.d⟩

/-- The two halves of the two blocks - avx512.rs:242-263. -/
def halfParts (r : Rows M256) : Vector (M256 × M256) 2 :=
  let ab0 := M256.permutex2var64 r.a #v[0, 1, 4, 5] r.b
  let cd0 := M256.permutex2var64 r.c #v[0, 1, 4, 5] r.d
  let ab1 := M256.permutex2var64 r.a #v[2, 3, 6, 7] r.b
  let cd1 := M256.permutex2var64 r.c #v[2, 3, 6, 7] r.d
  #v[(ab0, cd0), (ab1, cd1)]

/-- The loop writing the blocks, as two halves of 32 bytes - avx512.rs:263-275. -/
def writeHalf (parts : Vector (M256 × M256) 2) (blocks : List Block) : List Block :=
  (List.finRange 2).foldl (fun blocks i =>
    if i.val < blocks.length then
      blocks.set i.val (Rows.mk parts[i].1.lo parts[i].1.hi parts[i].2.lo parts[i].2.hi).store
    else blocks) blocks

/-- `gen_blocks_halfwidth` - avx512.rs:215-276. -/
def genHalf (dr : Nat) (V : Variant) (blocks : List Block) (g : Regs) : Except Panic (List Block × Regs) :=
  if ¬ blocks.length ≤ 2 then .error .assertion else
  let ctr := M256.broadcast g.ctr
  let ctr := if V.ctrBytes = 4 then ctr.addEpi32 (.setEpi32 0 0 0 1 0 0 0 0) else ctr.addEpi64 (.setEpi64x 0 1 0 0)
  let g := incrementCtr V g blocks.length
  let r := roundsHalf dr ⟨.broadcast g.state[0], .broadcast g.state[1], .broadcast g.state[2], ctr⟩
  .ok (writeHalf (halfParts r) blocks, g)

/-- `add_xor_rot_quarterwide` - avx512.rs:603-625. -/
def addXorRotQuarter (r : Rows M128) : Rows M128 :=
  let ⟨a, b, c, d⟩ := r
  let a := a.addEpi32 b
  let d := d.xor a
  let d := d.rolEpi32 16
  let c := c.addEpi32 d
  let b := b.xor c
  let b := b.rolEpi32 12
  let a := a.addEpi32 b
  let d := d.xor a
  let d := d.rolEpi32 8
  let c := c.addEpi32 d
  let b := b.xor c
  let b := b.rolEpi32 7
  ⟨a, b, c, d⟩

/-- `rows_to_cols_quarterwide` - avx512.rs:585-591. -/
def rowsToColsQuarter (r : Rows M128) : Rows M128 :=
  { r with
    c := r.c.shuffleEpi32 0b00111001
    d := r.d.shuffleEpi32 0b01001110
    a := r.a.shuffleEpi32 0b10010011 }

/-- `cols_to_rows_quarterwide` - avx512.rs:594-600. -/
def colsToRowsQuarter (r : Rows M128) : Rows M128 :=
  { r with
    c := r.c.shuffleEpi32 0b10010011
    d := r.d.shuffleEpi32 0b01001110
    a := r.a.shuffleEpi32 0b00111001 }

/-- `double_quarter_round_quarterwide` - avx512.rs:577-582. -/
def doubleQuarterRoundQuarter (r : Rows M128) : Rows M128 :=
  let r := addXorRotQuarter r
  let r := rowsToColsQuarter r
  let r := addXorRotQuarter r
  colsToRowsQuarter r

/-- `rounds_quarterwide` - avx512.rs:562-574. -/
def roundsQuarter (dr : Nat) (v : Rows M128) : Rows M128 :=
  let r := iter dr doubleQuarterRoundQuarter v
  ⟨r.a.addEpi32 v.a, r.b.addEpi32 v.b, r.c.addEpi32 v.c, r.d.addEpi32 v.d⟩

/-- `gen_ks_block` - avx512.rs:297-313. -/
def genBlock (dr : Nat) (V : Variant) (g : Regs) : Except Panic (Block × Regs) :=
  let v : Rows M128 := ⟨g.state[0], g.state[1], g.state[2], g.ctr⟩
  let g := incrementCtr V g 1
  .ok ((roundsQuarter dr v).store, g)

/-- `gen_tail_blocks` - avx512.rs:316-338, on the slice `blocks`. -/
def genTailInto (dr : Nat) (V : Variant) (blocks : List Block) (g : Regs) : Except Panic (List Block × Regs) :=
  if ¬ blocks.length < 16 then .error .assertion else
  match blocks with
  | [] => .ok ([], g)
  | b :: bs =>
    if (b :: bs).length = 1 then do
      let (b, g) ← genBlock dr V g
      return (b :: bs, g)
    else if (b :: bs).length = 2 then genHalf dr V (b :: bs) g
    else if (b :: bs).length ≤ 4 then genFull 1 dr V (b :: bs) g
    else if (b :: bs).length ≤ 8 then genFull 2 dr V (b :: bs) g
    else genFull 4 dr V (b :: bs) g

/-- The backend; `old` is the previous contents of the slices handed to the backend - avx512.rs:285-339. -/
def backend (dr : Nat) (V : Variant) (old : Nat → List Block) : Backend 64 Regs where
  parSize := 16
  genBlock := genBlock dr V
  genPar := genFull 4 dr V (old 16)
  genTail n := genTailInto dr V (old n)

/-- `inner` - avx512.rs:32-57. -/
def inner {α : Type} (dr : Nat) (V : Variant) (old : Nat → List Block) (f : Closure 64 α) (s : State) :
    Except Panic (α × State) := do
  let r := Rows.load s
  let (a, g) ← (backend dr V old).call f ⟨#v[r.a, r.b, r.c], r.d⟩
  let s := s.set 12 g.ctr.x0
  let s := if V.ctrBytes = 8 then s.set 13 g.ctr.x1 else s
  return (a, s)

end Verif.ChaCha.Avx512
