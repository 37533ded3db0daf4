import Verif.Tests.Util
/-!
# Tests: ChaCha

Vectors of chacha20/tests/kats.rs and chacha20/tests/data/*.blb, run on all five backends and on the specification.
-/
namespace Verif.Tests

def chachaBlb : List (String × String × String × String) := [
  ("0000000000000000000000000000000000000000000000000000000000000000", "000000000000000000000000", "00000000000000000000000000000000000000000000000000000000000000000000000000000000000000000000000000000000000000000000000000000000", "76b8e0ada0f13d90405d6ae55386bd28bdd219b8a08ded1aa836efcc8b770dc7da41597c5157488d7724e03fb8d84a376a43b8f41518a11cc387b669b2ee6586"),
  ("0000000000000000000000000000000000000000000000000000000000000000", "000000000000000000000002", "00000000000000000000000000000000000000000000000000000000000000000000000000000000000000000000000000000000000000000000000000000000000000000000000000000000000000000000000000000000000000000000000000000000000000000000000000000000000000000000000000000000000000000000000000000000000000000000000000000000000000000000000000000000000000000000000000000000000000000000000000000000000000000000000000000000000000000000000000000000000000000000000000000000000000000000000000000000000000000000000000000000000000000000000000000000", "c2c64d378cd536374ae204b9ef933fcd1a8b2288b3dfa49672ab765b54ee27c78a970e0e955c14f3a88e741b97c286f75f8fc299e8148362fa198a39531bed6d1a91288c874ec254f322c2a197340c55bb3e9b3998f7de2309486a0bb494abd20c9c5ef99c1370d61e77f408ac5514f49202bcc6828d45409d2d1416f8ae106b06ebd2541256264fa415bd54cb12e1d4449ed85299a1b7a249b75ff6c89b2e3f2e0a13881b024b80658fc2b69eaf2da024815374d867b1051af9b108a712cafdd18cdc6cfc921d76e5700e33f09af911ce8c6ca89c4d6cfc83ac1eb02ac16da387bb5348b20e7ddbb05f7dff3bbbc69630357f7697da8e76c2eabdf5502f66dc"),
  ("0000000000000000000000000000000000000000000000000000000000000001", "000000000000000000000000", "00000000000000000000000000000000000000000000000000000000000000000000000000000000000000000000000000000000000000000000000000000000", "4540f05a9f1fb296d7736e7b208e3c96eb4fe1834688d2604f450952ed432d41bbe2a0b6ea7566d2a5d1e7e20d42af2c53d792b1c43fea817e9ad275ae546963")]

#guard chachaBlb.all fun (k, n, p, c) => good (.chacha 10 (hexV 32 k) (hexV 12 n)) 0 (hex p) (hex c) [1, 7, 64, 1000]

def legacyBlb : List (String × String × String × String) := [
  ("0000000000000000000000000000000000000000000000000000000000000000", "0000000000000000", "00000000000000000000000000000000000000000000000000000000000000000000000000000000000000000000000000000000000000000000000000000000", "76b8e0ada0f13d90405d6ae55386bd28bdd219b8a08ded1aa836efcc8b770dc7da41597c5157488d7724e03fb8d84a376a43b8f41518a11cc387b669b2ee6586"),
  ("0000000000000000000000000000000000000000000000000000000000000000", "0100000000000000", "00000000000000000000000000000000000000000000000000000000000000000000000000000000000000000000000000000000000000000000000000000000", "ef3fdfd6c61578fbf5cf35bd3dd33b8009631634d21e42ac33960bd138e50d32111e4caf237ee53ca8ad6426194a88545ddc497a0b466e7d6bbdb0041b2f586b"),
  ("0000000000000000000000000000000000000000000000000000000000000000", "0000000000000001", "000000000000000000000000000000000000000000000000000000000000000000000000000000000000000000000000000000000000000000000000", "de9cba7bf3d69ef5e786dc63973f653a0b49e015adbff7134fcb7df137821031e85a050278a7084527214f73efc7fa5b5277062eb7a0433e445f41e3"),
  ("0000000000000000000000000000000000000000000000000000000000000001", "0000000000000000", "00000000000000000000000000000000000000000000000000000000000000000000000000000000000000000000000000000000000000000000000000000000", "4540f05a9f1fb296d7736e7b208e3c96eb4fe1834688d2604f450952ed432d41bbe2a0b6ea7566d2a5d1e7e20d42af2c53d792b1c43fea817e9ad275ae546963"),
  ("0102030405060708090a0b0c0d0e0f101112131415161718191a1b1c1d1e1f20", "0301040105090206", "00000000000000000000000000000000000000000000000000000000000000000000000000000000000000000000000000000000000000000000000000000000000000000000000000000000000000000000000000000000000000000000000000000000000000000000000000000000000000000000000000000000000000000000000000000000000000000000000000000000000000000000000000000000000000000000000000000000000000000000000000000000000000000000000000000000000000000000000000000000000000000000000000000000000000000000000000000000000000000000000000000000000000000000000000000000", "deeb6b9d06dff3e091bf3ad4f4d492b6dd98246f69691802e466e03bad2357870f1c6c010b6c2e650c4bf58d2d35c72ab639437069a384e03100078cc1d735a0db4e8f474ee6291460fd9197c77ed87b4c64e0d9ac685bd1c56cce021f3819cd13f49c9a3053603602582a060e59c2fbee90ab0bf7bb102d819ced03969d3bae71034fe598246583336aa744d8168e5dfff5c6d10270f125a4130e719717e783c0858b6f7964437173ea1d7556c158bc7a99e74a34d93da6bf72ac9736a215acaefd4ec031f3f13f099e3d811d83a2cf1d544a68d2752409cc6be852b0511a2e32f69aa0be91b30981584a1c56ce7546cca24d8cfdfca525d6b15eea83b6b686")]

#guard legacyBlb.all fun (k, n, p, c) => good (.chachaLegacy 10 (hexV 32 k) (hexV 8 n)) 0 (hex p) (hex c) [1, 7, 64, 1000]

/-- chacha20/tests/kats.rs -/
def rfc8439Key := "000102030405060708090a0b0c0d0e0f101112131415161718191a1b1c1d1e1f"
def rfc8439Iv := "000000000000004a00000000"
def rfc8439Pt := "4c616469657320616e642047656e746c656d656e206f662074686520636c617373206f66202739393a204966204920636f756c64206f6666657220796f75206f6e6c79206f6e652074697020666f7220746865206675747572652c2073756e73637265656e20776f756c642062652069742e"
def rfc8439Ks := "224f51f3401bd9e12fde276fb8631ded8c131f823d2c06e27e4fcaec9ef3cf788a3b0aa372600a92b57974cded2b9334794cba40c63e34cdea212c4cf07d41b769a6749f3f630f4122cafe28ec4dc47e26d4346d70b98c73f3e9c53ac40c5945398b6eda1a832c89c167eacd901d7e2bf363"
def rfc8439Ct := "6e2e359a2568f98041ba0728dd0d6981e97e7aec1d4360c20a27afccfd9fae0bf91b65c5524733ab8f593dabcd62b3571639d624e65152ab8f530c359f0861d807ca0dbf500d6a6156a38e088a22b65e52bc514d16ccf806818ce91ab77937365af90bbf74a35be6b40b8eedf2785e42874d"

#guard good (.chacha 10 (hexV 32 rfc8439Key) (hexV 12 rfc8439Iv)) 64 (hex rfc8439Pt) (hex rfc8439Ct) [1, 5, 64, 100, 1000]
#guard good (.chacha 10 (hexV 32 rfc8439Key) (hexV 12 rfc8439Iv)) 64 (zeros (hex rfc8439Ks).length) (hex rfc8439Ks) [3, 63, 65, 1000]

/-- chacha20/tests/kats.rs -/
def xchachaKey := "808182838485868788898a8b8c8d8e8f909192939495969798999a9b9c9d9e9f"
def xchachaIv := "404142434445464748494a4b4c4d4e4f5051525354555658"
def xchachaPt := "5468652064686f6c65202870726f6e6f756e6365642022646f6c65222920697320616c736f206b6e6f776e2061732074686520417369617469632077696c6420646f672c2072656420646f672c20616e642077686973746c696e6720646f672e2049742069732061626f7574207468652073697a65206f662061204765726d616e20736865706865726420627574206c6f6f6b73206d6f7265206c696b652061206c6f6e672d6c656767656420666f782e205468697320686967686c7920656c757369766520616e6420736b696c6c6564206a756d70657220697320636c6173736966696564207769746820776f6c7665732c20636f796f7465732c206a61636b616c732c20616e6420666f78657320696e20746865207461786f6e6f6d69632066616d696c792043616e696461652e"
def xchachaKs := "29624b4b1b140ace53740e405b2168540fd7d630c1f536fecd722fc3cddba7f4cca98cf9e47e5e64d115450f9b125b54449ff76141ca620a1f9cfcab2a1a8a255e766a5266b878846120ea64ad99aa479471e63befcbd37cd1c22a221fe462215cf32c74895bf505863ccddd48f62916dc6521f1ec50a5ae08903aa259d9bf607cd8026fba548604f1b6072d91bc91243a5b845f7fd171b02edc5a0a84cf28dd241146bc376e3f48df5e7fee1d11048c190a3d3deb0feb64b42d9c6fdeee290fa0e6ae2c26c0249ea8c181f7e2ffd100cbe5fd3c4f8271d62b15330cb8fdcf00b3df507ca8c924f7017b7e712d15a2eb5c50484451e54e1b4b995bd8fdd94597bb94d7af0b2c04df10ba0890899ed9293a0f55b8bafa999264035f1d4fbe7fe0aafa109a62372027e50e10cdfecca127"
def xchachaCt := "7d0a2e6b7f7c65a236542630294e063b7ab9b555a5d5149aa21e4ae1e4fbce87ecc8e08a8b5e350abe622b2ffa617b202cfad72032a3037e76ffdcdc4376ee053a190d7e46ca1de04144850381b9cb29f051915386b8a710b8ac4d027b8b050f7cba5854e028d564e453b8a968824173fc16488b8970cac828f11ae53cabd20112f87107df24ee6183d2274fe4c8b1485534ef2c5fbc1ec24bfc3663efaa08bc047d29d25043532db8391a8a3d776bf4372a6955827ccb0cdd4af403a7ce4c63d595c75a43e045f0cce1f29c8b93bd65afc5974922f214a40b7c402cdb91ae73c0b63615cdad0480680f16515a7ace9d39236464328a37743ffc28f4ddb324f4d0f5bbdc270c65b1749a6efff1fbaa09536175ccd29fb9e6057b307320d316838a9c71f70b5b5907a66f7ea49aadc409"

#guard good (.xchacha 10 (hexV 32 xchachaKey) (hexV 24 xchachaIv)) 64 (hex xchachaPt) (hex xchachaCt) [1, 5, 64, 100, 1000]
#guard good (.xchacha 10 (hexV 32 xchachaKey) (hexV 24 xchachaIv)) 64 (zeros (hex xchachaKs).length) (hex xchachaKs) [3, 63, 65, 1000]

def longKey := "0102030405060708090a0b0c0d0e0f101112131415161718191a1b1c1d1e1f20"
def longIv := "0301040105090206"
def long := "deeb6b9d06dff3e091bf3ad4f4d492b6dd98246f69691802e466e03bad2357870f1c6c010b6c2e650c4bf58d2d35c72ab639437069a384e03100078cc1d735a0db4e8f474ee6291460fd9197c77ed87b4c64e0d9ac685bd1c56cce021f3819cd13f49c9a3053603602582a060e59c2fbee90ab0bf7bb102d819ced03969d3bae71034fe598246583336aa744d8168e5dfff5c6d10270f125a4130e719717e783c0858b6f7964437173ea1d7556c158bc7a99e74a34d93da6bf72ac9736a215acaefd4ec031f3f13f099e3d811d83a2cf1d544a68d2752409cc6be852b0511a2e32f69aa0be91b30981584a1c56ce7546cca24d8cfdfca525d6b15eea83b6b686"

/-- `chacha20_offsets`, on a sample of the offsets. -/
def offsets (c : SeekCipher) (expected : String) (ks : List (Nat × Nat × Nat)) : Bool :=
  let ex := hex expected
  envs.all fun e => ks.all fun (i, m, l) =>
    (runSeek c e [.seek i, .io (.apply (zeros (m - i))), .io (.apply (zeros (l - m)))]).map (·.1) == some ((ex.drop i).take (l - i))

def triples : List (Nat × Nat × Nat) :=
  (List.range 10).flatMap fun a => (List.range 10).flatMap fun b => (List.range 10).filterMap fun c =>
    let (a, b, c) := (28 * a, 28 * b, 28 * c + 1)
    if a ≤ b ∧ b ≤ c ∧ c ≤ 256 then some (a, b, c) else none

#guard offsets (.chachaLegacy 10 (hexV 32 longKey) (hexV 8 longIv)) long triples

/-- chacha20/src/xchacha.rs:155-179 -/
def hchachaKey := "000102030405060708090a0b0c0d0e0f101112131415161718191a1b1c1d1e1f"
def hchachaInput := "000000090000004a0000000031415927"
def hchachaOut := "82413b4227b27bfed30e42508a877d73a0f9e4d58a74a853c12ec41326d3ecdc"

#guard (ChaCha.hchacha 10 (hexV 32 hchachaKey) (hexV 16 hchachaInput)).toList = hex hchachaOut
#guard (Spec.ChaCha.hchacha 10 (hexV 32 hchachaKey) (hexV 16 hchachaInput)).toList = hex hchachaOut

end Verif.Tests
