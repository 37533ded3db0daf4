import Verif.Model.Rng
/-!
# The NEON backend on either byte order

`cfg(all(target_arch = "aarch64", target_feature = "neon"))` holds on little-endian and on big-endian AArch64.  The other NEON modules assume the
little-endian target; here the byte order of memory is a parameter.  The intrinsics follow the Arm C Language Extensions: lanes are
numbered from the least significant end of the register, `vreinterpretq` leaves the register alone, `vld1q_u32`, `vst1q_u8` and `vst1q_u64` transfer
whole elements in the order of their lanes, each with the byte order of the target.  So the loads and the byte stores do not depend on the byte
order; what does is the store of the counter row as two `u64` into an array of `u32`, and the reading of the RNG buffer - stored byte by byte -
as an array of `u32`.
-/
namespace Verif.ChaCha

/-- `target_endian`; not mentioned in the selection, chacha20/src/backends.rs:27-28, lib.rs:289-292, rng.rs:83-86. -/
inductive Endian where
  | little
  | big
  deriving DecidableEq, Repr

namespace Endian

/-- The memory bytes of a `u64` - stored at chacha20/src/backends/neon.rs:85-88, 106-109. -/
def bytes64 (e : Endian) (w : U64) : Vector U8 8 :=
  match e with
  | .little => toLe64 w
  | .big => let b := toLe64 w; #v[b[7], b[6], b[5], b[4], b[3], b[2], b[1], b[0]]

/-- The `u32` with the given memory bytes - `state` read at chacha20/src/variants.rs:69-71, neon.rs:46-51; `buffer` read by `BlockRng`. -/
def word32 (e : Endian) (b0 b1 b2 b3 : U8) : U32 :=
  match e with
  | .little => le32 b0 b1 b2 b3
  | .big => le32 b3 b2 b1 b0

end Endian

namespace Neon

/-- The memory after `vst1q_u64(ptr, d)` - neon.rs:85-88, 106-109. -/
def vst1qU64 (e : Endian) (d : M128) : Vector U8 (8 + 8) := e.bytes64 d.q0 ++ e.bytes64 d.q1

/-- The state after the store of the counter row at word 12 - neon.rs:85-88, 106-109. -/
def storeRow (e : Endian) (s : State) (d : M128) : State :=
  let b := vst1qU64 e d
  (((s.set 12 (e.word32 b[0] b[1] b[2] b[3])).set 13 (e.word32 b[4] b[5] b[6] b[7])).set 14
    (e.word32 b[8] b[9] b[10] b[11])).set 15 (e.word32 b[12] b[13] b[14] b[15])

/-- `inner` - neon.rs:73-91. -/
def innerOn {α : Type} (e : Endian) (dr : Nat) (V : Variant) (f : Closure 64 α) (s : State) : Except Panic (α × State) := do
  let (a, g) ← (backend dr V).call f (new s)
  return (a, if V.ctrBytes = 4 then s.set 12 g.state.d.x0 else storeRow e s g.state.d)

/-- The buffer as words, after the blocks have been stored byte by byte - neon.rs:282-303. -/
def bufWords (e : Endian) (b : Vector U8 256) : Vector U32 64 :=
  Vector.ofFn fun i => e.word32 b[4 * i.val] b[4 * i.val + 1] b[4 * i.val + 2] b[4 * i.val + 3]

/-- `rng_inner` with `write_par_ks_blocks` - neon.rs:97-110, 255-307. -/
def rngInnerOn (e : Endian) (dr : Nat) (V : Variant) (s : State) : Vector U32 64 × State :=
  let g := new s
  let bl := blocks 4 (by decide) dr V g
  let b : Vector U8 (64 + 64 + 64 + 64) := bl[0].store ++ bl[1].store ++ bl[2].store ++ bl[3].store
  (bufWords e b, storeRow e s (addCounter V g.state.d g.ctrs[3]))

end Neon

/-- `process_with_backend` - chacha20/src/lib.rs:239-298; of the backends only NEON exists on a big-endian target besides the portable one. -/
def processOn {α : Type} (e : Endian) (dr : Nat) (V : Variant) (x : Env) (f : Closure 64 α) (s : State) : Except Panic (α × State) :=
  match Config.select x.build x.detected with
  | .neon => Neon.innerOn e dr V f s
  | _ => process dr V x f s

/-- `Generator::generate` - chacha20/src/rng.rs:49-92. -/
def generateOn (e : Endian) (dr : Nat) (V : Variant) (x : Env) (s : State) : Vector U32 64 × State :=
  match Config.selectRng x.build x.detected with
  | .neon => Neon.rngInnerOn e dr V s
  | _ => generate dr V x s

/-- `ChaChaCore<R, V>` as a `StreamCipherSeekCore` - chacha20/src/lib.rs:217-304. -/
def coreOn (e : Endian) (usizeBits dr : Nat) (V : Variant) : SeekCore 64 Env :=
  { core usizeBits dr V with process := processOn e dr V }

end Verif.ChaCha
