import Verif.Tests.Util
import Verif.Model.Rng
/-!
# Tests: the RNGs

The tests of chacha20/tests/rng.rs, run on the model with each of the backends (in the debug mode of the tests) and on the specification.
-/
namespace Verif.Tests
open Spec.Rng ChaCha

/-- One run of the model. -/
def runRng (dr : Nat) (seed : String) (e : Env) (ops : List RngOp) : Option (List RngObs) :=
  match (do Rng.run .debug dr (ops.map fun o => (e, o)) (← Rng.fromSeed (hexV 32 seed)) : Except Panic _) with
  | .ok (os, _) => some os
  | .error _ => none

/-- Observations of the calls that show something: model (all backends) and specification agree on them. -/
def shown (dr : Nat) (seed : String) (ops : List RngOp) : Option (List RngObs) :=
  let want := (Spec.Rng.run dr ops (Spec.Rng.init (hexV 32 seed))).1
  if envs.all fun e => runRng dr seed e ops == some want then some (want.filter (· != .none)) else none

def u32s (n : Nat) : List RngOp := List.replicate n .nextU32
def u64s (n : Nat) : List RngOp := List.replicate n .nextU64
def w (l : List Nat) : List RngObs := l.map fun x => .u32 (BitVec.ofNat 32 x)

def zero := "0000000000000000000000000000000000000000000000000000000000000000"
def key := "0102030405060708090A0B0C0D0E0F101112131415161718191A1B1C1D1E1F20"

-- test_rng_output
#guard shown 10 key [.fill 13, .fill 13] = some [.bytes (hex "B1697E9FC6461E1983D131CF69"), .bytes (hex "A7A3FC134F149880E8BB2B5D23")]
-- test_chacha_true_values_a
#guard shown 10 zero (u32s 32) = some (w [0xade0b876, 0x903df1a0, 0xe56a5d40, 0x28bd8653, 0xb819d2bd, 0x1aed8da0, 0xccef36a8,         0xc70d778b, 0x7c5941da, 0x8d485751, 0x3fe02477, 0x374ad8b8, 0xf4b8436a, 0x1ca11815,         0x69b687c3, 0x8665eeb2] ++ w [0xbee7079f, 0x7a385155, 0x7c97ba98, 0x0d082d73, 0xa0290fcb, 0x6965e348, 0x3e53c612,         0xed7aee32, 0x7621b729, 0x434ee69c, 0xb03371d5, 0xd539d874, 0x281fed31, 0x45fb0a51,         0x1f0ae1ac, 0x6f4d794b])
-- test_chacha_true_values_b
#guard (shown 10 "0000000000000000000000000000000000000000000000000000000000000001" (u32s 32)).map (·.drop 16) = some (w [0x2452eb3a, 0x9249f8ec, 0x8d829d9b, 0xddd4ceb1, 0xe8252083, 0x60818b01, 0xf38422b8,         0x5aaa49c9, 0xbb00ca8e, 0xda3ba7b4, 0xc4b592d1, 0xfdf2732f, 0x4436274e, 0x2561b3c8,         0xebdd4aa6, 0xa0136c00])
-- test_chacha_true_values_c
def seedC := "00FF000000000000000000000000000000000000000000000000000000000000"
def expectedC := [0xfb4dd572, 0x4bc42ef1, 0xdf922636, 0x327f1394, 0xa78dea8f, 0x5e269039, 0xa1bebbc1,         0xcaf09aae, 0xa25ab213, 0x48a6b46c, 0x1b9d9bcb, 0x092c5be6, 0x546ca624, 0x1bec45d5,         0x87f47473, 0x96f0992e]
#guard (shown 10 seedC (u32s 48 ++ [.getWordPos])).map (·.drop 32) = some (w expectedC ++ [.u128 48])
#guard shown 10 seedC (.setWordPos 32 :: u32s 16 ++ [.getWordPos]) = some (w expectedC ++ [.u128 48])
#guard shown 10 seedC (.setBlockPos 2 :: u32s 16 ++ [.getWordPos]) = some (w expectedC ++ [.u128 48])
#guard (shown 10 seedC (.setBlockPos 2 :: List.replicate 8 (.fill 8) ++ [.getWordPos])).map (fun l => (l.filterMap fun | .bytes b => some b | _ => none).flatten)
  = some (expectedC.flatMap fun x => (List.range 4).map fun i => BitVec.ofNat 8 (x / 256 ^ i))
#guard (shown 10 seedC (.setWordPos 32 :: u32s 16 ++ [.fill 32, .getWordPos, .fill 25, .getWordPos, .nextU64, .getWordPos, .nextU32, .nextU64, .getWordPos, .fill 1, .getWordPos])).map
  (·.filterMap fun | .u128 x => some x.toNat | _ => none) = some [56, 63, 65, 68, 69]
-- test_chacha_multiple_blocks
#guard (shown 10 "0000000001000000020000000300000004000000050000000600000007000000" (u32s 272)).map (fun l => (List.range 16).filterMap fun i => l[17 * i]?)
  = some (w [0xf225c81a, 0x6ab1be57, 0x04d42951, 0x70858036, 0x49884684, 0x64efec72, 0x4be2d186,         0x3615b384, 0x11cfa18e, 0xd3c50049, 0x75c775f6, 0x434c6530, 0x2c5bad8f, 0x898881dc,         0x5f1c86d9, 0xc1f8e7f4])
-- test_chacha_true_bytes
#guard shown 10 zero [.fill 32] = some [.bytes (hex "76B8E0ADA0F13D90405D6AE55386BD28BDD219B8A08DED1AA836EFCC8B770DC7")]
-- test_chacha_construction
def seedD := "0000000000000000010000000000000002000000000000000300000000000000"
#guard shown 10 seedD [.nextU32, .getSeed] = some [.u32 137206642, .bytes (hex seedD)]
#guard (match shown 10 seedD [.nextU32, .getSeed, .fill 32] with
  | some [_, _, .bytes b] => envs.all fun e =>
      (match (do Rng.run .debug 10 [(e, .nextU32)] (← Rng.fromSeed (Vector.ofFn fun i => b.getD i.val 0)) : Except Panic _) with
        | .ok (os, _) => os == [.u32 1325750369]
        | .error _ => false)
  | _ => false)
-- test_chacha_nonce
#guard (shown 10 "000102030405060708090a0b0c0d0e0f101112131415161718191a1b1c1d1e1f"
  ([.setStream 0x000000004a000000, .setBlockPos 0x0900000000000000, .fill 64] ++ u32s 16)).map (·.drop 1) = some (w [0xe4e7f110, 0x15593bd1, 0x1fdd0f50, 0xc47120a3, 0xc7f4d1c7, 0x0368c033, 0x9aaa2204,         0x4e6cd4c3, 0x466482d2, 0x09aa9f07, 0x05d7c214, 0xa2028bd9, 0xd19c12b5, 0xb94e16de,         0xe883d0cb, 0x4e3c50a2])
-- test_chacha_nonce_2
#guard shown 10 zero (.setStream (2#64 <<< 56) :: u32s 16) = some (w [0x374dc6c2, 0x3736d58c, 0xb904e24a, 0xcd3f93ef, 0x88228b1a, 0x96a4dfb3, 0x5b76ab72,         0xc727ee54, 0x0e0e978a, 0xf3145c95, 0x1b748ea8, 0xf786c297, 0x99c28f5f, 0x628314e8,         0x398a19fa, 0x6ded1b53])
-- counter_wrap_1
#guard shown 10 zero [.setBlockPos 18446744073709551615, .fill 192] = some [.bytes (hex "d7918cd8620cf832532652c04c01a553092cfb32e7b3f2f5467ae9674a2e9eec17368ec8027a357c0c51e6ea747121fec45284be0f099d2b3328845607b1768976b8e0ada0f13d90405d6ae55386bd28bdd219b8a08ded1aa836efcc8b770dc7da41597c5157488d7724e03fb8d84a376a43b8f41518a11cc387b669b2ee65869f07e7be5551387a98ba977c732d080dcb0f29a048e3656912c6533e32ee7aed29b721769ce64e43d57133b074d839d531ed1f28510afb45ace10a1f4b794d6f")]
-- counter_overflow_and_diagnostics
#guard shown 10 zero [.setBlockPos 4294967295, .fill 192, .setBlockPos 4294967294, .fill 192, .fill 64] =
  (let o0 := "ace4cd09e294d1912d4ad205d06f95d9c2f2bfcf453e8753f128765b62215f4d92c74f2f626c6a640c0b1284d839ec81f1696281dafc3e684593937023b58b1d"
   let o1 := "3db41d3aa0d329285de6f225e6e24bd59c9a17006943d5c9b680e3873bdc683a5819469899989690c281cd17c96159af0682b5b903468a61f50228cf09622b5a"
   let o2 := "46f0f6efee15c8f1b198cb49d92b990867905159440cc723916dc0012826981039ce1766aa2542b05db3bd809ab142489d5dbfe1273e7399637b4b3213768aaa"
   match shown 10 zero [.setBlockPos 4294967294, .fill 64] with
   | some [.bytes b] => some [.bytes (hex (o0 ++ o1 ++ o2)), .bytes (b ++ hex (o0 ++ o1)), .bytes (hex o2)]
   | _ => none)
-- test_wrapping_add
#guard (match shown 10 key [.setWordPos (BitVec.ofNat 128 (2 ^ 68 - 65)), .fill 1280, .getWordPos] with
  | some [.bytes b, .u128 p] => b != zeros 1280 && p.toNat < 2000 && p != 0
  | _ => false)
-- test_chacha_clone_streams
#guard (match shown 10 "0000000001000000020000000300000004000000050000000600000007000000" (u64s 16 ++ [.setStream 51, .getStream, .fill 7] ++ u64s 16 ++ [.setStream 51] ++ u64s 16),
      shown 10 "0000000001000000020000000300000004000000050000000600000007000000" (u64s 16 ++ [.getStream, .fill 7] ++ u64s 7 ++ [.setStream 51] ++ u64s 9 ++ [.setStream 51] ++ u64s 16) with
  | some a, some b => a.take 16 == b.take 16 && a[16]? == some (.u64 51) && b[16]? == some (.u64 0) &&
      ((List.range 17).all fun i => a[17 + i]? != b[17 + i]?) && a.drop 34 == b.drop 34
  | _, _ => false)
-- test_chacha_word_pos_wrap_exact, test_chacha_word_pos_wrap_excess, test_chacha_word_pos_zero
#guard shown 10 zero [.setWordPos (BitVec.ofNat 128 (2 ^ 68 - 64)), .getWordPos] = some [.u128 (BitVec.ofNat 128 (2 ^ 68 - 64))]
#guard shown 10 zero [.setWordPos (BitVec.ofNat 128 (2 ^ 68 - 16)), .getWordPos] = some [.u128 (BitVec.ofNat 128 (2 ^ 68 - 16))]
#guard shown 10 zero [.getWordPos, .setWordPos 0, .getWordPos] = some [.u128 0, .u128 0]
-- counter_wrapping_64_bit_counter
#guard (match shown 10 zero [.fill 256, .getWordPos, .getBlockPos, .setBlockPos (BitVec.allOnes 64), .fill 320, .getWordPos, .getBlockPos] with
  | some [.bytes a, p, q, .bytes b, p', q'] => p == p' && q == q' && a == b.drop 64
  | _ => false)
-- counter_not_wrapping_at_32_bits
#guard (match shown 10 zero [.fill 256, .getWordPos, .setBlockPos 0xFFFFFFFF, .fill 320, .getWordPos] with
  | some [.bytes a, .u128 p, .bytes b, .u128 p'] => p'.toNat == p.toNat + 2 ^ 32 * 16 && a != b.drop 64
  | _ => false)
-- test_chacha{8,12,20}rng_serde_roundtrip (a sample of the skips)
#guard [4, 6, 10].all fun dr => [0, 1, 15, 16, 50, 63, 64, 65, 99].all fun k =>
  (shown dr key ([.setStream 0xF0F1F2F3F4F5F6F7] ++ u32s k ++ u32s 100)).isSome &&
  shown dr key ([.setStream 0xF0F1F2F3F4F5F6F7] ++ u32s k ++ [.reload] ++ u32s 100) == shown dr key ([.setStream 0xF0F1F2F3F4F5F6F7] ++ u32s k ++ u32s 100)
-- test_rng_serialized_state_stability
#guard [4, 6, 10].all fun dr => ((shown dr key ([.setStream 0xF0F1F2F3F4F5F6F7] ++ u32s 100 ++ [.serialize])).map (·.drop 100)) ==
  some [.bytes (hex "0102030405060708090A0B0C0D0E0F101112131415161718191A1B1C1D1E1F20F7F6F5F4F3F2F1F0640000000000000000")]

end Verif.Tests
