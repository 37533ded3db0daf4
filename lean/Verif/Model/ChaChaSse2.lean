import Verif.Model.Simd
import Verif.Model.ChaCha
/-!
# Model of the SSE2 backend

Rust source: `/repo/chacha20/src/backends/sse2.rs`.
-/
namespace Verif.ChaCha.Sse2

/-- `match size_of::<V::Counter>() { 4 => add_epi32(v, set_epi32(0,0,0,k)), 8 => add_epi64(v, set_epi64x(0,k)) }`
- sse2.rs:79-83, 95-99, 160-164, 175-179. -/
def ctrAdd (V : Variant) (v : M128) (k : Nat) : M128 :=
  if V.ctrBytes = 4 then v.addEpi32 (.setEpi32 0 0 0 (BitVec.ofNat 32 k))
  else v.addEpi64 (.setEpi64x 0 (BitVec.ofNat 64 k))

/-- Body of the loop of `add_xor_rot` - sse2.rs:272-292. -/
def addXorRot1 (r : Rows M128) : Rows M128 :=
  let ⟨a, b, c, d⟩ := r
  let a := a.addEpi32 b
  let d := d.xor a
  let d := (d.slliEpi32 16).xor (d.srliEpi32 16)
  let c := c.addEpi32 d
  let b := b.xor c
  let b := (b.slliEpi32 12).xor (b.srliEpi32 20)
  let a := a.addEpi32 b
  let d := d.xor a
  let d := (d.slliEpi32 8).xor (d.srliEpi32 24)
  let c := c.addEpi32 d
  let b := b.xor c
  let b := (b.slliEpi32 7).xor (b.srliEpi32 25)
  ⟨a, b, c, d⟩

/-- Body of `rows_to_cols` - sse2.rs:233-238. -/
def rowsToCols1 (r : Rows M128) : Rows M128 :=
  { r with
    c := r.c.shuffleEpi32 0b00111001
    d := r.d.shuffleEpi32 0b01001110
    a := r.a.shuffleEpi32 0b10010011 }

/-- Body of `cols_to_rows` - sse2.rs:261-266. -/
def colsToRows1 (r : Rows M128) : Rows M128 :=
  { r with
    c := r.c.shuffleEpi32 0b10010011
    d := r.d.shuffleEpi32 0b01001110
    a := r.a.shuffleEpi32 0b00111001 }

/-- `double_quarter_round` - sse2.rs:188-193. -/
def doubleQuarterRound (v : Vector (Rows M128) 4) : Vector (Rows M128) 4 :=
  let v := v.map addXorRot1
  let v := v.map rowsToCols1
  let v := v.map addXorRot1
  v.map colsToRows1

/-- `rounds` - sse2.rs:157-184. -/
def rounds (dr : Nat) (V : Variant) (v : Rows M128) : Vector (Rows M128) 4 :=
  let res : Vector (Rows M128) 4 := Vector.replicate 4 v
  -- for block in 1..PAR_BLOCKS
  let res := Vector.ofFn fun i : Fin 4 =>
    if i.val = 0 then res[i] else { res[i] with d := ctrAdd V res[i].d i.val }
  let res := iter dr doubleQuarterRound res
  Vector.ofFn fun i : Fin 4 =>
    let r := res[i]
    let ctr := ctrAdd V v.d i.val
    ⟨r.a.addEpi32 v.a, r.b.addEpi32 v.b, r.c.addEpi32 v.c, r.d.addEpi32 ctr⟩

/-- `gen_ks_block` - sse2.rs:76-90. -/
def genBlock (dr : Nat) (V : Variant) (v : Rows M128) : Except Panic (Block × Rows M128) :=
  let res := rounds dr V v
  let v := { v with d := ctrAdd V v.d 1 }
  .ok (res[0].store, v)

/-- `gen_par_ks_blocks` - sse2.rs:92-108. -/
def genPar (dr : Nat) (V : Variant) (v : Rows M128) : Except Panic (List Block × Rows M128) :=
  let res := rounds dr V v
  let v := { v with d := ctrAdd V v.d 4 }
  .ok (res.toList.map Rows.store, v)

/-- The backend: `ParBlocksSize = U4`, `gen_tail_blocks` is the provided method - sse2.rs:69-109. -/
def backend (dr : Nat) (V : Variant) : Backend 64 (Rows M128) :=
  { Backend.ofBlock 4 (genBlock dr V) with genPar := genPar dr V }

/-- `inner` - sse2.rs:33-56. -/
def inner {α : Type} (dr : Nat) (V : Variant) (f : Closure 64 α) (s : State) : Except Panic (α × State) := do
  let (a, v) ← (backend dr V).call f (Rows.load s)
  let s := s.set 12 v.d.x0
  let s := if V.ctrBytes = 8 then s.set 13 v.d.x1 else s
  return (a, s)

/-- `rng_inner` with `gen_ks_blocks` - sse2.rs:114-134, 139-152.  The counter is always advanced as a 64-bit number, but `rounds`
uses the width of `V`. -/
def rngInner (dr : Nat) (V : Variant) (s : State) : Vector U32 64 × State :=
  let v := Rows.load s
  let res := rounds dr V v
  let d := v.d.addEpi64 (.setEpi64x 0 4)
  let buf : Vector U32 (16 + 16 + 16 + 16) := res[0].words ++ res[1].words ++ res[2].words ++ res[3].words
  let s := s.set 12 d.x0
  let s := s.set 13 d.x1
  (buf, s)

end Verif.ChaCha.Sse2
