import Verif.Tests.Util
/-!
# Tests: Salsa20

Vectors of salsa20/tests/mod.rs and salsa20/tests/data/ecrypt.blb (all 412), run on the model and on the specification.
-/
namespace Verif.Tests

/-- key, nonce, position, keystream -/
def ecrypt : List (String × String × Nat × String) := [
  ("8000000000000000000000000000000000000000000000000000000000000000", "0000000000000000", 0, "e3be8fdd8beca2e3ea8ef9475b29a6e7003951e1097a5c38d23b7a5fad9f6844b22c97559e2723c7cbbd3fe4fc8d9a0744652a83e72a9c461876af4d7ef1a117"),
  ("8000000000000000000000000000000000000000000000000000000000000000", "0000000000000000", 192, "57be81f47b17d9ae7c4ff15429a73e10acf250ed3a90a93c711308a74c6216a9ed84cd126da7f28e8abf8bb63517e1ca98e712f4fb2e1a6aed9fdc73291faa17"),
  ("8000000000000000000000000000000000000000000000000000000000000000", "0000000000000000", 256, "958211c4ba2ebd5838c635edb81f513a91a294e194f1c039aeec657dce40aa7e7c0af57cacefa40c9f14b71a4b3456a63e162ec7d8d10b8ffb1810d71001b618"),
  ("8000000000000000000000000000000000000000000000000000000000000000", "0000000000000000", 448, "696afcfd0cddcc83c7e77f11a649d79acdc3354e9635ff137e929933a0bd6f5377efa105a3a4266b7c0d089d08f1e855cc32b15b93784a36e56a76cc64bc8477"),
  ("0040000000000000000000000000000000000000000000000000000000000000", "0000000000000000", 0, "01f191c3a1f2cc6ebed78095a05e062e1228154af6bae80a0e1a61df2ae15fbcc37286440f66780761413f23b0c2c9e4678c628c5e7fb48c6ec1d82d47117d9f"),
  ("0040000000000000000000000000000000000000000000000000000000000000", "0000000000000000", 192, "86d6f824d58012a14a19858cfe137d768e77597b96a4285d6b65d88a7f1a87784bf1a3e44fc9d3525ddc784f5d99ba222712420181cabab00c4b91aaedff521c"),
  ("0040000000000000000000000000000000000000000000000000000000000000", "0000000000000000", 256, "287a9db3c4eedcc96055251b73ed361ba727c2f326ef6944f9449fb7a3ddc396a88d9d0d853fade365f82789d57f9b4010f963bc498f176a93fd51723fcd4d55"),
  ("0040000000000000000000000000000000000000000000000000000000000000", "0000000000000000", 448, "e0d62e2e3b37fdd906c934faa35d5e8a89a517dd0f24cf33de8495c5ff24f4b1476b3e826a1c90d74507c3991cef4067e316a04b97aeffa5e9d1f33cb0609b9e"),
  ("0000200000000000000000000000000000000000000000000000000000000000", "0000000000000000", 0, "c29ba0da9ebebfacdebbdd1d16e5f5987e1cb12e9083d437eaaaa4ba0cdc909e53d052ac387d86acda8d956ba9e6f6543065f6912a7df710b4b57f27809bafe3"),
  ("0000200000000000000000000000000000000000000000000000000000000000", "0000000000000000", 192, "77de29c19136852cc5df78b5903cac7b8c91345350cf97529d90f18055ecb75ac86a922b2bd3bd1de3e2fb6df915316609bdbab298b37ea0c5ecd917788e2216"),
  ("0000200000000000000000000000000000000000000000000000000000000000", "0000000000000000", 256, "1985a31aa8484383b885418c78210d0e84cbc7070a2ed22dcaac6a739ead58818e5f7755be3bf0723a27dc69612f18dc8bf9709077d22b78a365ce6131744651"),
  ("0000200000000000000000000000000000000000000000000000000000000000", "0000000000000000", 448, "9618fca736a8eca00bd1194fc9855085526ecd47a8de1f8db298ad49fce935ea63b548597092abad6338f41af87586a70505f2537902b81f55e53599daba84cc"),
  ("0000001000000000000000000000000000000000000000000000000000000000", "0000000000000000", 0, "ff852567eb72687dc56c122d61b2fb2a4fb9e8e8da62313b618d10f8e0da521b176e879cd78e641043f0fa4a22211566429b7c68ec645ff5e44b2505d61a2d71"),
  ("0000001000000000000000000000000000000000000000000000000000000000", "0000000000000000", 192, "e5b040b199c3dfc8db1f41c74c798ae262105477aeb1ce761d6fff1cab15aa1a7b7ce26b9cce6dc33fd4522bf8f73e70b843d67fc06fa2258f9709db14fbd54c"),
  ("0000001000000000000000000000000000000000000000000000000000000000", "0000000000000000", 256, "55706075e5fed81e2205994609868efc383b3e4cc295c4214356ba41fc72bfe54e6936fe6684eaf93c5973ddcd8e8f23767b82d783953f89af4e808c90beeabd"),
  ("0000001000000000000000000000000000000000000000000000000000000000", "0000000000000000", 448, "7ece71883742ee852c94f01ad85ea1a676cc7cbc6edfcf1bae751455a923faac806bb72e6a982ec7a38f112445e25eb6bc5b49c5e6c22dc8748dee0942f6e8b2"),
  ("0000000008000000000000000000000000000000000000000000000000000000", "0000000000000000", 0, "af6e2ee1d5021675a92f02c764afd94af3097f53532fc965eb861d6d12a3a012aba683a5281238ce76e3af3944736752ad86a5fd16e7dafaf241ecfb0adbbdfe"),
  ("0000000008000000000000000000000000000000000000000000000000000000", "0000000000000000", 192, "19444e6d7c3d8bec0957c3e785e1eefd56b857f21cf8d325a4285f8def5078ff7b7efb5e3b20f6e0906265b6f7580a049cec5df1872dccb54081054c0fc15514"),
  ("0000000008000000000000000000000000000000000000000000000000000000", "0000000000000000", 256, "7eb544adbf57d042e3a6753b13c658430399764cf90d007e48dafe3da1fe3f908ef4bfa6af96dcd54197da0d3a10fa356a374da08b9a84044e70ec70ed050d46"),
  ("0000000008000000000000000000000000000000000000000000000000000000", "0000000000000000", 448, "57224da912c62801db393d5e3f4edff7d61ba895f88c7391fe5c943b88cc46420d11c3f1884b628f03c04a3c10f03ffbcfc652d066bfd8dbf52da2a72b9b9ac5"),
  ("0000000000040000000000000000000000000000000000000000000000000000", "0000000000000000", 0, "d203cc523351942c94e215f6d5cc1425c5ffb2ea9a916c0d4f7b343333a58d941de20b5f543e3ee63c29d981469ace4886ed9def839d4fbd20cdf9d001f1b89b"),
  ("0000000000040000000000000000000000000000000000000000000000000000", "0000000000000000", 192, "9e37d2be6473f4fa87ed294765816bb08cca625418155f6704cb48082a860581a9cf69d9145d0dcb2621e1515013dd3e18819bec5c186628ed545bff7e4ac1c2"),
  ("0000000000040000000000000000000000000000000000000000000000000000", "0000000000000000", 256, "b8648b92b5a7b3b991722f0053909a3f052e8f7dabe7fe0e34498c1c550de9d53ce0818ddba82f0616b3f79ad72b0bf9b5fa2f2b8032b1860fab0804934fbd00"),
  ("0000000000040000000000000000000000000000000000000000000000000000", "0000000000000000", 448, "0cd554d10a975bea79aeac663f5ff98415883eb558925c5ecfa53d77fab4b884fe4d705b1e1b34a938c1c2d8528e1fab4c9a7512f12707b78f2b6bfee8d76e57"),
  ("0000000000000200000000000000000000000000000000000000000000000000", "0000000000000000", 0, "c45e28a2c9a80ac07a760580dcd9634026651b25ba2332fdafc9aa16998317b9751a446302cde95525c709e79cb559514e4a54fd73adaaf0ab3a3f1addabbada"),
  ("0000000000000200000000000000000000000000000000000000000000000000", "0000000000000000", 192, "17937670127cbf691afdad6d36994f0a40b3f369c21691b887cfe20b0f63d1258896c88cab669ed6fabe464a700da937c43aabb45e60f14e6eba69fbc9f2fcf3"),
  ("0000000000000200000000000000000000000000000000000000000000000000", "0000000000000000", 256, "2690ab8f4616302c49d79cfe3ae29aa79c4d1036e0cbb1d24c4682bca0e1c1a580904001185286ac3c63bfbf909f4a36525d2a732d7d166a52e087444de24469"),
  ("0000000000000200000000000000000000000000000000000000000000000000", "0000000000000000", 448, "9e5e91d8be1e46b0bad46ed9accd440a01882556b51c2b7ccc987a6c554201fc6ce8da0b1cd42c011a085eb8fba0f8f2623b6b9627eaeb91c05cfa3090a28040"),
  ("0000000000000001000000000000000000000000000000000000000000000000", "0000000000000000", 0, "5f7b6b86b0c197b960d8250b5106cfebf6f4de0d94d3958945fa979534afe19cd5305c55a1404c59302f05acc819d3a3b0bdb9d154a45c0dee52f25012daa445"),
  ("0000000000000001000000000000000000000000000000000000000000000000", "0000000000000000", 192, "20f99149aa74f631d22bea8d85ec84a657c2e8703b45ed36458f0ed47408c3c7e6624a184e7ced17c93cbc9960914a61e71083308cb7a55d7723c2b9e6a2f087"),
  ("0000000000000001000000000000000000000000000000000000000000000000", "0000000000000000", 256, "ebb0f7194ea7ae5d28b916d361b19394a163a6eb124d37a372a798135e4f2fdf2ef422997f5aa1f9dfa3b1826431aa6299e0aeb44d844e297604d27974eaad6b"),
  ("0000000000000001000000000000000000000000000000000000000000000000", "0000000000000000", 448, "65ca9cae36b65f58085d561a91cfdbe1ea0400cdeb4aa1b987fac06702590d8b39b6228e6f4b81bb91852971de2d3436c8c24fa193bc10bfc5534bf5915a245b"),
  ("0000000000000000008000000000000000000000000000000000000000000000", "0000000000000000", 0, "b96fcf5a182789ad14e53fb2e981e496b47c6b44be7ef95692f19ae24e1932196e180778ac04a0eb2497497680587febf412bb3a67e9538ca5b2a373e16e60f3"),
  ("0000000000000000008000000000000000000000000000000000000000000000", "0000000000000000", 192, "953544577886b26f2f8d7bd237d7ae8e5d425523f6180c9591206e10e166c7e306537355efd9c32ff1c8808537ba12d5b0e303dbcec7db3da6e3a16dacb1e7fb"),
  ("0000000000000000008000000000000000000000000000000000000000000000", "0000000000000000", 256, "9b416aa89bdc5589a1c9046d2d308b8aca852008c6503b373250c2639c693d9e164fc0e94fcfbb35d67d45de1a3d838f302915e78470eb47654b87540aadf90a"),
  ("0000000000000000008000000000000000000000000000000000000000000000", "0000000000000000", 448, "3911737593809a1a9fd14f57950aefca66e1e45475d39335dc01ffa72e431a8501e146994faa64ba37af255f1951b33fcb28aac76bb08aa0917b53b9ed64cdad"),
  ("0000000000000000000040000000000000000000000000000000000000000000", "0000000000000000", 0, "2b08d82e92ac352247211d5f0791dac9d585abf67dadfbd7b5ac60eb2eef4c72f6f71ca110dee4cb2f19fabe4f442b2f5f9fb1c94fbd553c21cd5b0cef139880"),
  ("0000000000000000000040000000000000000000000000000000000000000000", "0000000000000000", 192, "aad0055bf85562f06118cb260cb0bd5f374cd798021593f03a67134ea8a73b22f00f09bab770d1287fff17ccf5f1cf3286833b57f4397b16a9f8351922042810"),
  ("0000000000000000000040000000000000000000000000000000000000000000", "0000000000000000", 256, "724d557f9d7da4afcb5dc6d1040dd8bfa14a0cc61f7206606bc99385d15bfed89c4d69efe5711a9e256c908aff2734d6501c9d1aeb7ccd1029413bf7fa40848c"),
  ("0000000000000000000040000000000000000000000000000000000000000000", "0000000000000000", 448, "8960f4d83e21984b3a6d5d1b667944ed12814cd390b107a502a4bba620e3ce9f6daf2d4629c828c59e86f09f1f435b4d40a1595c3d5b6e0744ffa546b22ef865"),
  ("0000000000000000000000200000000000000000000000000000000000000000", "0000000000000000", 0, "c9969a75572abfaa28fbe769a287a6763b534af50b697c31b7f4cd8f50ddf2f217b3c5532e95f73af11b0693d5a33a34dafbb64635a195ec9477fdfd69ae7540"),
  ("0000000000000000000000200000000000000000000000000000000000000000", "0000000000000000", 192, "6b358b53a60b9542f582fde14b2711f26cd1b7421b4d872b95e347cdd7d763c873c2a8730a802aeca326fd63c8c4205cfc1a6e2f4df7a6acf1e22a2bca5379a9"),
  ("0000000000000000000000200000000000000000000000000000000000000000", "0000000000000000", 256, "af64a04db6b9ca63429e0d81ce975fd02a5e3bb8c1a0c3d35636ae22f37332012df59549bac23e992a1e4dd481f9195640c4d6ee0e083702db18328d42d93bf7"),
  ("0000000000000000000000200000000000000000000000000000000000000000", "0000000000000000", 448, "3f3fd5559c9c0ce3b5b484bd15e75cabb252cc44961c1aca86b1722fcf205408ef9841f947224170ecac6503f7a8feae7281ed1d9a18c4c00d12c8e40f21876f"),
  ("0000000000000000000000001000000000000000000000000000000000000000", "0000000000000000", 0, "698bfc90b147715fb9f0ca1ddc94ee103082316701cdd1df2eae752ba485f5859e131d0d9233b16890bd5946cbcf116db50e8e2dcae104162c7b76cb3d11445c"),
  ("0000000000000000000000001000000000000000000000000000000000000000", "0000000000000000", 192, "07d49ab7ba8451a2a68df473c6d1e91d407038568fada2db948abfbbe408401fdf5960241325f2981dc17eaf1c333cdc91e27ec064734234656aed7a944ad78a"),
  ("0000000000000000000000001000000000000000000000000000000000000000", "0000000000000000", 256, "c152fcf951daecbd48ec1d0122a4ea009fb8fd03e35e283109daa4e033783990dade92932bc6410ce1b6ade414aaf7828da024fb2c3f4135df6c42a347bd3e25"),
  ("0000000000000000000000001000000000000000000000000000000000000000", "0000000000000000", 448, "bd0cd02750fe445a0c03d2ea30d7368407df4b13cbe8e3ce2de2780f9a90983b9eb919def1ec22ebee10f584b6fe8f991374666d378c7c20cb5ad1771fa7c799"),
  ("0000000000000000000000000008000000000000000000000000000000000000", "0000000000000000", 0, "07ae6801d7a94836ed52ccd69d9e97f634b136a234b978bae4302f475b0a6b0ea7905cee090f648962bb969cb4d6522803e1acd1dcbefc2e7482c0d426e4bd95"),
  ("0000000000000000000000000008000000000000000000000000000000000000", "0000000000000000", 192, "145df9d539c59467f55e67d959fc8c8b2cb0397f64d6f122c3f2f1a19e0d67b69696eaddc6dda6e80d5a0c0ac1f555a921c054e0e75ebb246c8e20a854a38e93"),
  ("0000000000000000000000000008000000000000000000000000000000000000", "0000000000000000", 256, "2bf710e9709b5178e5e50b421baaf59eb1f267f41c60e9e91695d658bad32497b56868b8738baa6a15bde89d69900ed2742f26285504c3d4748f77eecc0d4a67"),
  ("0000000000000000000000000008000000000000000000000000000000000000", "0000000000000000", 448, "e93a249ce755f099c81fa40b5da6256ee185fa1efc475eb404bb68c13a921fa578785537dd65964b9bf77f68dbae49269f5061b19af08b82c372ac69eb64d762"),
  ("0000000000000000000000000000040000000000000000000000000000000000", "0000000000000000", 0, "a374c1f86586b0d5a121e1f734ee70cc7072284b322bf61f88336ebe84b53219f4d1fee2c5eecc4a421ba8aea9d108e721a7a82dd979f2559bb0e45cc88c8780"),
  ("0000000000000000000000000000040000000000000000000000000000000000", "0000000000000000", 192, "b0ca15c769d66b26ca4a6d4772ae3521aea4696890998954f33aca8638fa50e29981c2f84596d9371644d18e3eb267e8fccc98d95a2fb38639d32468a3013b5f"),
  ("0000000000000000000000000000040000000000000000000000000000000000", "0000000000000000", 256, "1cc3ae9293ee9ca19c12d9abd7000f99047b86a868e82a839dd95418eecb23cb4b4a08e3ef69cc639dbadf3f5f33fad50762c2603dfc48882ee8d2346fdb426b"),
  ("0000000000000000000000000000040000000000000000000000000000000000", "0000000000000000", 448, "0d6ec570bb04230ac35b49a1271336ca721e0395f63d306554158154ca12fb62e8d45cf5e21a311554de9df5d90ca99e9b7fafefad3597b50a17feedd9966884"),
  ("0000000000000000000000000000000200000000000000000000000000000000", "0000000000000000", 0, "19f23d5cb3c7303d56aff18413835ef3df7405c30be5f19c72fe8746ba04610dd5d261fb3a0e8c11d2478f4a4d6cf8209730187bb1386c03229f4eb02c5b4422"),
  ("0000000000000000000000000000000200000000000000000000000000000000", "0000000000000000", 192, "7b814d9db8dc9c8397c23550de194be274694399a8b2bef6b8095704c2a29e00deed66c8191f67ba9c048ca41da4db05fdeaecbbd0727ad9664563991a22ea46"),
  ("0000000000000000000000000000000200000000000000000000000000000000", "0000000000000000", 256, "7b4dc904ba9fc0cbb054fb57dae11c58c9505a98e319b43fbb9c30da2ca7e6b87a42f1e40774a6657eb3eb2c33b5d365bb92a8ca0ccd5b71c17f7022dd840e14"),
  ("0000000000000000000000000000000200000000000000000000000000000000", "0000000000000000", 448, "5b2db8e73db53c289e8479f524953bafd881e8a366899440175cb2b93f8ebf253911652b3c7ea35b41b409b4bbd0bd9395ae5a2ae2368b7a43a0f9844239e3c2"),
  ("0000000000000000000000000000000001000000000000000000000000000000", "0000000000000000", 0, "b18cfba23f81884fbfea037648b1715cefaef1d8cd5c98957353e82b838fe332672b3d7c2905979698f6f6d98eaae8f98da16ef393cb150228fe6438440c5759"),
  ("0000000000000000000000000000000001000000000000000000000000000000", "0000000000000000", 192, "bf285ceeee6d66ed9a401af86b4f1b0e69b5abf625d0c35220f9e6198ff5c225a728eebf67edc8690adfb6a2e43ed7bd2956a4915a8ff4bc584c803c87b03956"),
  ("0000000000000000000000000000000001000000000000000000000000000000", "0000000000000000", 256, "0fbe7818d981b60177dd1c7ed21fc23ff088eeb3a36a3db18e37baa312642be6481f6fbd4c6a3dcf6990d3f5e0f02813f66f42b4384f3821e9f2a5cc7ac37029"),
  ("0000000000000000000000000000000001000000000000000000000000000000", "0000000000000000", 448, "a72f53b68bf3e6972515790869b97667e353e1cc089afa194b8acfcc4c0335674b2e9e0290501d24d87b80af12c636b93902f09252f77812802151798fdb831d"),
  ("0000000000000000000000000000000000008000000000000000000000000000", "0000000000000000", 0, "0eef3e17b6b9388fb55c2c0aef9716cb106786eeb0e606e124c41ab552ef33897902aa2ae93d9e4628e785b356c53ac970bdee2a7ddbab427371903ef3ec9fa5"),
  ("0000000000000000000000000000000000008000000000000000000000000000", "0000000000000000", 192, "ba437be85a1152b673ab7f39345534c26b53227fc8e99b6eebcbbdc00b436dbde6aef836ec78ac581f251d0c61f56404d275b1df39294b26cf24f4ac0792d176"),
  ("0000000000000000000000000000000000008000000000000000000000000000", "0000000000000000", 256, "381c3c583cfb20763cdbe072668fd1a2557a35901cdc8595393181af1610300ed751154c050d8ce0354efd30d05251a97f215a48f8924b4a68fd475c793a0543"),
  ("0000000000000000000000000000000000008000000000000000000000000000", "0000000000000000", 448, "15e30d96d2a42c99db1030b5280a63132aa665b57deb3ac6aac8ddc1450c899bd0dae783a224134232687459917cc5256d76929a153950dbff7d12ca21ee77c9"),
  ("0000000000000000000000000000000000000040000000000000000000000000", "0000000000000000", 0, "ae5572d5e61a992162aeee513815339c93a994db12576d087ea4a9a98ea5946cf58794b43515a4b55c5e9b28a882dade7d3bfe82b32ec3b604d2c1e1b37b1b99"),
  ("0000000000000000000000000000000000000040000000000000000000000000", "0000000000000000", 192, "247616ffd99152bbfa71d2225ab667dd1999ed6e2ac64f60f43b3dd1ea5e574a47c52b82e3fba3443996eb1e842d11ef78572638ca556157674b0a38adf26f8c"),
  ("0000000000000000000000000000000000000040000000000000000000000000", "0000000000000000", 256, "1be7bbe4fa4078886183f1dc9e29691196106d005f5d653aae744b250640172330f38da7c5ca81f38a879d79faed5b2337045434875074b65d7e126daf8b728f"),
  ("0000000000000000000000000000000000000040000000000000000000000000", "0000000000000000", 448, "89048cf63bc3ac13b4637487735b99762707c4161ebd6788289f2bae38d3b68d14c9a49e26573e3604d8d9907d151c756728f3d9a2a6bc118e62390bc0dbaca9"),
  ("0000000000000000000000000000000000000000200000000000000000000000", "0000000000000000", 0, "ba66e5ba75ad8c4030ae54b554e07a9729685fdf033ccc35a153334e9fc93a903c79f281907badf6f37123819aca25e1f03ba0ac69d9b2d5e447f59f31a7a402"),
  ("0000000000000000000000000000000000000000200000000000000000000000", "0000000000000000", 192, "6b0fc33710282b08a33917d23186b1ce0964104b5b8fc229cfd79baeff04ff9707ad12904b3673b15b72428bb3fdc0fddecff9af8606456774b1b3b53ae74c5f"),
  ("0000000000000000000000000000000000000000200000000000000000000000", "0000000000000000", 256, "ffd0d5ece17f9c1890199a4f201333f3d55a0ae07b1dbc50a704fe66493b71acf802534fcd7baf86b140cf87c582bc0259efe52cb2d1a64524f948a86f756e21"),
  ("0000000000000000000000000000000000000000200000000000000000000000", "0000000000000000", 448, "81ef72b6dd7f8043a078486bf0dfa6347cf53ff6432432b45cc740533243d6e8e936a5e6c1cb688388d6d97bfe48c4300325a4b5de69825e6cb5409fe9518708"),
  ("0000000000000000000000000000000000000000001000000000000000000000", "0000000000000000", 0, "59dbee08fb86ebcbebffbf087f9dd8812afffd75414b5162b5e7ae540bfa87775bec4982e1f4b6985dc8b2b25f06194761bd6bc5efd66b2a1eb12833733e5490"),
  ("0000000000000000000000000000000000000000001000000000000000000000", "0000000000000000", 192, "c54cdd55bbbc09038a772d1fee876ef188110319fd6d7b306e9f5acbf3c478249e4cd2c8c11900dbaa39f8f7d57724e370606016afc49def5248964a416e0dc8"),
  ("0000000000000000000000000000000000000000001000000000000000000000", "0000000000000000", 256, "ee1c6e2f9da5404012821c3dbe703d471ff717042c20ddb4743246448f431de153badf69a059d161189d20b8f22f1f7cc491b5b2f5cdfe7a779a0f9db0c60586"),
  ("0000000000000000000000000000000000000000001000000000000000000000", "0000000000000000", 448, "85e92e3ea90e7eb79a9d3894d0b21153da80fcc6da7631a1c38eb38c78a1bef2321265349cb5fcfa22e5fd02648bb37e74d3152011f7640a0fd42dcc9457b2ac"),
  ("0000000000000000000000000000000000000000000008000000000000000000", "0000000000000000", 0, "fd1d039ae6d953654a63334a92cec647a671cab6374db63b89da1a12b99c231dc7b9418d44210cb0c88f114eaa54ae4a096fefccbf51062e8efd169715677f28"),
  ("0000000000000000000000000000000000000000000008000000000000000000", "0000000000000000", 192, "119152e46b97338c5e50a28db78757e6b21c9c03aa9d96b5fdac9d352aadf2f9fa0fca07649582e7288297e9cc7658462d929aced1f14e3aee634cd2086d1762"),
  ("0000000000000000000000000000000000000000000008000000000000000000", "0000000000000000", 256, "f9c91ca01a70253bc6d88a8dfa00537ce635634769e8867b279c1a052a921f148810fc8854bdf58f99e36fedbc6e6e6f78bc8f82dcd18d408b3b4f8bfef12f12"),
  ("0000000000000000000000000000000000000000000008000000000000000000", "0000000000000000", 448, "c22a3d49e727785ea32e83e79e349d62c2647ac6d531ba2d466ccd7cf29d04d1015d41a79c9be4b0ae1844dbdbcd7fe6765eb95a0d5e121f48840937ab399c6e"),
  ("0000000000000000000000000000000000000000000000040000000000000000", "0000000000000000", 0, "72491ec81a704e3694c83fccc47cf5e87b66f7b7979f78d8150a606acdcb4492f64a9d7d9dad5042f8738db462f4728c2475f5fdee985cd3601fa31f576712c3"),
  ("0000000000000000000000000000000000000000000000040000000000000000", "0000000000000000", 192, "17566efac19afd1addec66f42695006cedfba525e8f41db02be50d2ac4cb497ea10c6da38acf39bb608f40ad854f69c44a0fc6696f6fa8361cf26d5411b1c7c9"),
  ("0000000000000000000000000000000000000000000000040000000000000000", "0000000000000000", 256, "e3ce396f970bc54c9e46b6129b48616df7fbd0293b1efeb772d99ca90bce12a4af729da0b94223a3d2f0b9605dc04bf9ae82e065c1b963039802be6354d3eb2c"),
  ("0000000000000000000000000000000000000000000000040000000000000000", "0000000000000000", 448, "c0b2081ff9b7f2ddd59ee6808f6181f04cd19d4b0d3f032d5fc0ea2b81d49276bd6e540648576ceae720411523889d3cf14bf05da43d8d6155b7d98b021f269e"),
  ("0000000000000000000000000000000000000000000000000200000000000000", "0000000000000000", 0, "e3d058fc000427b4f0802300e5d7fe9f8e3f68e9e8339e9f4c5de62252e1485771371de4d2e1c97dc4172aa378924ab42cadf887136b88d6feb6514538eba847"),
  ("0000000000000000000000000000000000000000000000000200000000000000", "0000000000000000", 192, "80ce800dc11805a7522e3b423699d68b51bcce201eca4f8e465c5a58a558a71f019a22593cbc148a76647a527e635a234096eb22f081f39b5a9dc7649277726b"),
  ("0000000000000000000000000000000000000000000000000200000000000000", "0000000000000000", 256, "30a91e7d2cdb7d1b080750b433a14f7b6ee602eb53d67ac65b7e4219b533aa6ccbc1fcac070270d595cf9e90fd3c2d02a707f7c1f97059db3644f50d236933b0"),
  ("0000000000000000000000000000000000000000000000000200000000000000", "0000000000000000", 448, "79fa6d08b8df687efe868e67643cb5a9fc5feceec258e67d831d20ad3c8cbecb51f1712a0bae64202fbf66a1fae767c168a9b0c4be89fcf2f6d2dbc5ca96a4bb"),
  ("0000000000000000000000000000000000000000000000000001000000000000", "0000000000000000", 0, "ff0d93064cdbd91a8d6bd0b9267a4f93df7d3c76baa5d0d14798812203c55a343bd50e6931394dab88f514f44e2a1fb58ef3a915f3b60dab35e36174ad92b3b1"),
  ("0000000000000000000000000000000000000000000000000001000000000000", "0000000000000000", 192, "074a711f8bb92ea6953d21f9fd7aaea91c12d18a2b18e8d325db04029b5e8eba43c408d3d4ebe049440cfb716bc3eca91929e009ed7ea0ea7273e32c13f44346"),
  ("0000000000000000000000000000000000000000000000000001000000000000", "0000000000000000", 256, "6bd5de42827a81941c72012219eed591be1afe19df91c8b7284df2af4050d7eb674dbe78680ef4f8963d59acb05b43d6a52b7cebebded9d3268d0500699a036f"),
  ("0000000000000000000000000000000000000000000000000001000000000000", "0000000000000000", 448, "9748c1ba603fe3dd4435a25f2abf18b49f25ecebc3514785406425e03acd369aec91463fdd5f3611f06870d513b10db7730f3328c22312de7329df8cb43da5c2"),
  ("0000000000000000000000000000000000000000000000000000008000000000", "0000000000000000", 0, "dcc597dc08e1ad1451e69d857af803bbdbf7cd6d510d5c59c9d6c66eb153cc79f9a6228adee570983e959788628f174e5833b5cfa350c0c2d8a18f7fe46bb4e1"),
  ("0000000000000000000000000000000000000000000000000000008000000000", "0000000000000000", 192, "8ccb839cb382db591b5c80f6dd7eae7eaecb3c8bf29c9c6074058a5ea04e2e58675b4537b8fd061ba7e4195ad2a3ec29fd260fd19f0aab3dcb7bd483ed8fb860"),
  ("0000000000000000000000000000000000000000000000000000008000000000", "0000000000000000", 256, "73e92e3449c863e55e9a41b0db35805f344fb07e4c3ceff25b261819140c849be90639644c542880946582842ce5b1d9fa2df07b5589c8c68bed84e15ded4af2"),
  ("0000000000000000000000000000000000000000000000000000008000000000", "0000000000000000", 448, "693c7f397d23c831431264e9bf4ee963b8a43c6ed939b324fcb8af1032bac678c71f1de8ba3a8090948872fa9c747ab767f7d162fd8b6f484b81aa54151612a6"),
  ("0000000000000000000000000000000000000000000000000000000040000000", "0000000000000000", 0, "c94a72c1b17f8b9f26420bf06b3a544520c658d5f77ed7d62cc65af824bd567898ee4928af0e2bedea64d5a7c22749c3c16369d274efd2a6df2cfccb130a1144"),
  ("0000000000000000000000000000000000000000000000000000000040000000", "0000000000000000", 192, "2130a7225d4c78bbbb8c5122c18851a932a78e360e62e56058027c624da49eec34dce5ed9f66d78b44334ce0e3317aff5bc78261fa4c96a642e846cdcea4c242"),
  ("0000000000000000000000000000000000000000000000000000000040000000", "0000000000000000", 256, "575eab318220a54e5b2b0a8ec7f544290719fe422c646e1114d807201416f37eb5cecdb278afc7cde84e6db5ca1648402bf9654d1c4e96a3e7bf5c19c84cda71"),
  ("0000000000000000000000000000000000000000000000000000000040000000", "0000000000000000", 448, "eafc6c17bf190180ffd817644d7933c2f86989adf705a72b04cdf8227a1645967bade4a0e706039bd84702395b9a44dc7368e198b01335577a28028fe2f6056d"),
  ("0000000000000000000000000000000000000000000000000000000000200000", "0000000000000000", 0, "832a824c044e27605ad9a3201ef106c1a19b6fc6ea5b328dc1d1fc59086c498d47e7568cfa9616d7d5e63d9c087cc426b4276752e0ff14d7f1e258f9a28a54ba"),
  ("0000000000000000000000000000000000000000000000000000000000200000", "0000000000000000", 192, "cfc021e1edacd733768d3412c0da71777af74d147d075bd5497bad89b84d0a66f7f4d0e46b77510ae3fb57c0db9f9922111337bdff89a9169db16b38f305bec8"),
  ("0000000000000000000000000000000000000000000000000000000000200000", "0000000000000000", 256, "ce311109342e1a41ada17363b0ab030d1be9c62f15c2a5d8fee2bc9819f2e0646880d350e547824bddfd5be89c43f23dffa366be34629f6ee929e2701efa6829"),
  ("0000000000000000000000000000000000000000000000000000000000200000", "0000000000000000", 448, "dce864e5e336a7b51a7ffe9e4c8c1fbef5f4755a0877ee91d61d1f20f29485faa879323f2566590917417c4ac0076cb981ee78c58741506f725bc58743957cac"),
  ("0000000000000000000000000000000000000000000000000000000000001000", "0000000000000000", 0, "28dd9e566f018fda0251e1e648057e85211831e215ae21525e04c932736245c2288ad4a197e4eca04003b85c3b80d02a9b82c28e7662a34467946a34257d8d0b"),
  ("0000000000000000000000000000000000000000000000000000000000001000", "0000000000000000", 192, "ddc4a6a1aaf92ab32d2958de67bba593338d7ee4e3a412c2374a5d63e6cd7f5651f518251ceefe1e63636db2f432f40788d4c0163738446515a62637695d782e"),
  ("0000000000000000000000000000000000000000000000000000000000001000", "0000000000000000", 256, "107aaeedd6c459411921177468e3d01350c40aeb41ee50ae196754bbce5559b97276957dc73141981dc087209378f87f89c8423ace0eae8c5efeedebcbb20618"),
  ("0000000000000000000000000000000000000000000000000000000000001000", "0000000000000000", 448, "a3fe61185b31aa80ea384b36cec7f41f19f2e55614be22852e796963326b9f4972e8a316d4a6653cce3fe06014c0f5bb6e4e64b439109608fec6a44c15384c13"),
  ("0000000000000000000000000000000000000000000000000000000000000008", "0000000000000000", 0, "e48c2f264bf9e8374b78fb652baff1e33ecb4b1c635d76a64ecfc4bde00ee5c877e1094d6480ca382815cccd5cc3677046e801c29a860eb032420dcaeebc36f4"),
  ("0000000000000000000000000000000000000000000000000000000000000008", "0000000000000000", 192, "d2eee83d63f96b0b7e6d8e0c72b6581d50af4081017cd62a73789c8c2dc5483fcb4067c71fdbfd6ea8882ffbac63bc9c5e4f438a2ecbc71627646539a5bfe1dd"),
  ("0000000000000000000000000000000000000000000000000000000000000008", "0000000000000000", 256, "bdda0b90b24a4ff5d535e12d075dce846d6741f809d105dc03552a3f13ac88b2f98411a1c19cb32fa3f595cdd8f876083c057e42bdd903a055f13182ca080f4d"),
  ("0000000000000000000000000000000000000000000000000000000000000008", "0000000000000000", 448, "44e931ef73a9afa565eb9a8e6ab1aa3b9f14fc198b41909cb31b532f9eb776fab51ffd895e7f266d1d275463282bd7f662fbbbb5629890a4c68b6f6cf8200623"),
  ("0000000000000000000000000000000000000000000000000000000000000000", "0000000000000000", 0, "9a97f65b9b4c721b960a672145fca8d4e32e67f9111ea979ce9c4826806aeee63de9c0da2bd7f91ebcb2639bf989c6251b29bf38d39a9bdce7c55f4b2ac12a39"),
  ("0000000000000000000000000000000000000000000000000000000000000000", "0000000000000000", 192, "2f3c3e10649160b44321b7f830d7d222699fae0e834c76c3997985b5404808ab7e6e99aa1fec2730749213e7f37a291aa6b5afd2e524c2d608f34d4959930436"),
  ("0000000000000000000000000000000000000000000000000000000000000000", "0000000000000000", 256, "8598d1fa94516b474b69da83e3c1312c49a05b8283b880b31872cd1ea7d8f1b2d60a86cba8184f949ea7ae8502a582db392e85c4d70d3d17b2e57d817a98ed6e"),
  ("0000000000000000000000000000000000000000000000000000000000000000", "0000000000000000", 448, "f86c7489712fb77896706fc892d9a1c84bb53d081f6eb4ae1c68b1190cbb0b41484e9e2b6fea0a31bf124415921e5cf37c26493a5bc08f7620a8c80503c4c76f"),
  ("0909090909090909090909090909090909090909090909090909090909090909", "0000000000000000", 0, "7041e747ceb22ed7812985465f50333124f971da1c5d6efe5ca201b886f31046e757e5c3ec914f60ed1f6bce2819b6810953f12b8ba1199bf82d746a8b8a88f1"),
  ("0909090909090909090909090909090909090909090909090909090909090909", "0000000000000000", 192, "4ee90afb713ae7e01295c74381180a3816d7020d5a396c0d97aaa783eaabb6ec44d5111157f2212d1b1b8fca7893e8b520cd482418c272ab119b569a2b9598eb"),
  ("0909090909090909090909090909090909090909090909090909090909090909", "0000000000000000", 256, "355624d12e79adab81153b58cd22eaf1b2a32395dedc4a1c66f4d274070b9800ea95766f0245a8295f8aadb36ddbbdfa936417c8dbc6235d19494036964d3e70"),
  ("0909090909090909090909090909090909090909090909090909090909090909", "0000000000000000", 448, "5cf38c1232023e6a6ef66c315bcb2a4328642faabb7ca1e889e039e7c444b34bb3443f596ac730f3df3dfcdb343c307c80f76e43e8898c5e8f43dc3bb280add0"),
  ("1212121212121212121212121212121212121212121212121212121212121212", "0000000000000000", 0, "7bcd4c5528f4beae0fc9f164cebec73ed89ce32da46eb68ca3cedaa7c7a580fb1c50d291f31c38db2811864f6654098e141a2213828593a98b7d0020bf0d6d93"),
  ("1212121212121212121212121212121212121212121212121212121212121212", "0000000000000000", 192, "87dcab67c8d5a90d17af198d3a22d432bc82c06872f0e61b3a3d1a1fc14527d1e8c3c9ca50e5bf529621c2860ed304f27e6e427a9bc64d0fc6e2e16bd40c434c"),
  ("1212121212121212121212121212121212121212121212121212121212121212", "0000000000000000", 256, "121f38d31a0ed8a6d72f4c6a4678a7b0d3054a6268d02c9c676606942772260636cd6d79f81c64412a93f10db68d1b86962dfc41434b1c65af4770f7d185514a"),
  ("1212121212121212121212121212121212121212121212121212121212121212", "0000000000000000", 448, "beddfb9b60b204e0332726d7d7e90640ff29318a164a9551d9fa477d7e437273a0e08ec35046cae10bdaeb959f44e9c2a09fffbaa7a89b7b9f1af34948fffe9d"),
  ("1b1b1b1b1b1b1b1b1b1b1b1b1b1b1b1b1b1b1b1b1b1b1b1b1b1b1b1b1b1b1b1b", "0000000000000000", 0, "944b67eab62df3756085cee577d0c1da4dd7cd17b85f9b9c51004107c8aa69357e413aea37bb512bd8246f2d03e2748d3bb24b60c1fbe4d1a55237ffe3d4d604"),
  ("1b1b1b1b1b1b1b1b1b1b1b1b1b1b1b1b1b1b1b1b1b1b1b1b1b1b1b1b1b1b1b1b", "0000000000000000", 192, "a9574ad5fc6a0d4a57fbe98ab5122a54e2c355524aac38580c659ae4e906f14c3fb5a096586fa808f5f266182d26c78472b116652ee1874cb5cf007df2e2bb5a"),
  ("1b1b1b1b1b1b1b1b1b1b1b1b1b1b1b1b1b1b1b1b1b1b1b1b1b1b1b1b1b1b1b1b", "0000000000000000", 256, "ee5a306a60c83e209acc5f3d60e17d90fddc0d790bbb7b1eeb635924a4c7aebf3ade18f1f2f03c1e74093847b8f9225a9588e92a826444bdd143b38cc3934fbd"),
  ("1b1b1b1b1b1b1b1b1b1b1b1b1b1b1b1b1b1b1b1b1b1b1b1b1b1b1b1b1b1b1b1b", "0000000000000000", 448, "33ddc526b91bd452296dc8abaee7c65ae7d8ca37fe66166b67570726639841c8559405236a37a104faa3f5a1a1932d57ffe36ec16d439b1c291dd11638c50730"),
  ("2424242424242424242424242424242424242424242424242424242424242424", "0000000000000000", 0, "0fdf243c21da8b291097c9f385dff2ad4fdca5eb4fa7e4c23cc61fa1a582eb235ae23454df6f19b259e498f746f9ef35491f77dc53bd596aaccb9fb7b5ee8abc"),
  ("2424242424242424242424242424242424242424242424242424242424242424", "0000000000000000", 192, "a92ce971ea8e2ed7614325f0c47ce1d7200b94eeb7fb4e31cde640696ed6449fb29a9f19eabe323b776ee9460c2448e2df83206a401074e3254c5ad6c194bd99"),
  ("2424242424242424242424242424242424242424242424242424242424242424", "0000000000000000", 256, "6f988009d4c82f523611de08fea2368002fa5a615e8ea831a76c7cabcc92e1bcc02249fd76ddea5c00febc391613857c97cd684b23c6d9b40f1c5254404f7ca4"),
  ("2424242424242424242424242424242424242424242424242424242424242424", "0000000000000000", 448, "61503589a014a6f800a5d93803517581988262122b30755a337f81ef3b32612551abce838c0a57795eed2f26173de6b7e4bb6e37ee7f98383658a7bc47976321"),
  ("2d2d2d2d2d2d2d2d2d2d2d2d2d2d2d2d2d2d2d2d2d2d2d2d2d2d2d2d2d2d2d2d", "0000000000000000", 0, "3d9ea1f4a3036c92cf9e0d6bb20824c0f57818b3c84df65ae4a1de2a058f8bee242f9bea42a78383f98ac998be4b1ea5401bea5250611cfe6505aa5f43c9a262"),
  ("2d2d2d2d2d2d2d2d2d2d2d2d2d2d2d2d2d2d2d2d2d2d2d2d2d2d2d2d2d2d2d2d", "0000000000000000", 192, "8c2f23b3e0255982db921d035b5074332eb98c31143e19f5faa40547d0819157bba1b6b5c3177ae45074cf5e711195f9281a71e62617f3a1e582d4f89fdaec4f"),
  ("2d2d2d2d2d2d2d2d2d2d2d2d2d2d2d2d2d2d2d2d2d2d2d2d2d2d2d2d2d2d2d2d", "0000000000000000", 256, "5d1ed872fd20fde0c98fd76503f538b7538f5061d3a3b12385b4bae7c8ceca20e47ebd5c96f88d78230b5d3909ca9b0a4bdda1fd1f561abec60524c51559ef45"),
  ("2d2d2d2d2d2d2d2d2d2d2d2d2d2d2d2d2d2d2d2d2d2d2d2d2d2d2d2d2d2d2d2d", "0000000000000000", 448, "ea2f040b9dd538fb258c9289f5cb76b2335c7d05f5b9b2cd591b55ac8fab882d07ec54edd33d4b24d6ad69841c219c5d26ddc827c67d0a6ac12d0a4e0dbe9a78"),
  ("3636363636363636363636363636363636363636363636363636363636363636", "0000000000000000", 0, "e0e9c87c82202453cde753d368da18429279f0b97446fb12a0436c6be1aa75143e98b740f6f9cec72a1ea38d4ef2bc65e1af3ae13c5adf6da16a2131739c0084"),
  ("3636363636363636363636363636363636363636363636363636363636363636", "0000000000000000", 192, "a43046bae6a4a2c288ca187c72a21e88047ce98c64147f2f853617a54a3057c70f48823eca4b82609924cc9453d57f1d3acf7d302592bcf9b1439f28b3ee5f34"),
  ("3636363636363636363636363636363636363636363636363636363636363636", "0000000000000000", 256, "08dff1999015561e0817c20ced5e979c6bed0512a69ccb4c6f6fa480cce4348a076f549355d22ddc52728f833447daed83d7012f3f59a8be495078b72b299753"),
  ("3636363636363636363636363636363636363636363636363636363636363636", "0000000000000000", 448, "c66109b099bad13af2f36f5aed7aa0f00320d8b109eabc7428362b7cc43c284d04ec23dfa4f2a5ed2a7be2a64cf42f9bf973c6f2afdb1ab7b7e5f9499b9de964"),
  ("3f3f3f3f3f3f3f3f3f3f3f3f3f3f3f3f3f3f3f3f3f3f3f3f3f3f3f3f3f3f3f3f", "0000000000000000", 0, "18b631e89190a2c763ad5f1dbc57b565ead588f7dc85c3dd75e7d7e74c1d4429e2fb3c6cb687a620eb7050ccd49b54d0f147302bfb7adc6d1eb235a60338d190"),
  ("3f3f3f3f3f3f3f3f3f3f3f3f3f3f3f3f3f3f3f3f3f3f3f3f3f3f3f3f3f3f3f3f", "0000000000000000", 192, "fe2017b0e26c72416b6789071d0eabe48da7531cad058597ab3742792c79167844c84243b910fca131c4eb3d39bd6341842f96f4059261438a81423586eee459"),
  ("3f3f3f3f3f3f3f3f3f3f3f3f3f3f3f3f3f3f3f3f3f3f3f3f3f3f3f3f3f3f3f3f", "0000000000000000", 256, "5fa44fad6149c7e80ba6a98a8c861993f7d39f1caead07ceb96cbb9bd9153c978b8957c82f88ec2edd1bcc207627cdb7029afc907bbeafaa14444f66cb9a20ea"),
  ("3f3f3f3f3f3f3f3f3f3f3f3f3f3f3f3f3f3f3f3f3f3f3f3f3f3f3f3f3f3f3f3f", "0000000000000000", 448, "cf4dd50e4d99b8a26a9ed0f8cee5fc10e8410c7071ccfd6939c09ae576c3a5edd2f03412e40c8bad8dc72fafd2ed76a1af3bdd674ec5428bd400e2d4ae9026ef"),
  ("4848484848484848484848484848484848484848484848484848484848484848", "0000000000000000", 0, "82492eee44e22ad4dfca2032ba401f737d4bc35ce8546eb6314edc25e69dac16c8a9ebed6eab895b7d72bfaceaa14e363f9a9773e43b077a1991eac1eea83ec5"),
  ("4848484848484848484848484848484848484848484848484848484848484848", "0000000000000000", 192, "cb11b43f7e98d75576bb1b1ab33a4e6ecd9cbceeb36718b22c14f430a8be7bcabcbcde60d775df441fcd808e79d05fafe3aa199d45dc174272ea3dd0057d9bd4"),
  ("4848484848484848484848484848484848484848484848484848484848484848", "0000000000000000", 256, "7d237ff28e20f0fdcae42a7d0d7aefec8af23cf2906e305341fdf8ff75c0b9cbc8f19696ce8d31d15e27eab0affce92aafd1bc29e9b80895b3a7cf57ed434d96"),
  ("4848484848484848484848484848484848484848484848484848484848484848", "0000000000000000", 448, "5ed806acf2490f17ab82438484fcbf616a17015069b88dfc2c4ce76a2f564e4c5786a7514ce542709e90101094debbf48954f9bf8f4773e06dee7fb9231aa457"),
  ("5151515151515151515151515151515151515151515151515151515151515151", "0000000000000000", 0, "c7fc0f8c8d2064fe05bec4a641560fcbc41a60718b1df62aa297e754756cdb6848c5bf60721b49a854a7a4d4bf2d36ee943a3b3922a638293b32f15a7e9a1357"),
  ("5151515151515151515151515151515151515151515151515151515151515151", "0000000000000000", 192, "987a15fe80e62b043b2c7c0953a27d0483b2a7ecc03ad33c2f99fab7fd2a7ee70181f7913429f89027e392fc3b73f4a75e475ba1d7dd4da0f32d776bbabf270c"),
  ("5151515151515151515151515151515151515151515151515151515151515151", "0000000000000000", 256, "cebf798ed076b963ac8ea9465f7ebb906e09f80247c1fe09c86d1bef3de4f4af94b51fecc1c58e1e8cd225c2f68cceafc36c029ddce9380ae9fbc867e145f658"),
  ("5151515151515151515151515151515151515151515151515151515151515151", "0000000000000000", 448, "fd7e885a72c796e642ea628c6ecdc5089f465f57e55d51170c039b253b14eb9d195a3712cdea2624a5382880192de3fa0da2a86ef3a61220db949596fe1c318f"),
  ("5a5a5a5a5a5a5a5a5a5a5a5a5a5a5a5a5a5a5a5a5a5a5a5a5a5a5a5a5a5a5a5a", "0000000000000000", 0, "6c3645c8621d8e7286911278bab37c5eebaa2ad321ab8eca62d13372156f8b87fb87fbe02b1efe39ab0ebe41553e5348073053048a0d4dbda1880230cd23a4f1"),
  ("5a5a5a5a5a5a5a5a5a5a5a5a5a5a5a5a5a5a5a5a5a5a5a5a5a5a5a5a5a5a5a5a", "0000000000000000", 192, "bb161e8441b29de15c9a02f447766354e7e590b42ae566935f0a6d7e864af5ebb288c0c63812b09179705472258995737c804e58f7bea1596b7343b0cbdc6aa3"),
  ("5a5a5a5a5a5a5a5a5a5a5a5a5a5a5a5a5a5a5a5a5a5a5a5a5a5a5a5a5a5a5a5a", "0000000000000000", 256, "6ec6a41251d6fe041cd87eb3996369f1390e649f012712f9da4d1f4dff96cf7491caa6836c09ba8c55abb656b4f51f7b4af829b5dc89f460287efad064c44f28"),
  ("5a5a5a5a5a5a5a5a5a5a5a5a5a5a5a5a5a5a5a5a5a5a5a5a5a5a5a5a5a5a5a5a", "0000000000000000", 448, "3d54a399d5b92252ccf9e6a0c054d4a5edbfa58a3b53981bba50ee9bb379d71ac9775a0d793afc79a64c708d0f9a7d7be061d5a5d50dbf32480aabebc128d198"),
  ("6363636363636363636363636363636363636363636363636363636363636363", "0000000000000000", 0, "d417644e8a37ff8840772a55960c4b064da371869ea07fd02d7f8efef0bdb7ce308173b8bafdca6064cebe09609377b6542ce73d44a0134c95c452d9b83a4b35"),
  ("6363636363636363636363636363636363636363636363636363636363636363", "0000000000000000", 192, "2974af76c0eb09874efaf061bfd45636e6ad9c2ba71a1b4fae493c04205b5ccaa1d361ded0f1bf8c2ff2de70f4b68e1eb1b6e63b19ee1842da4abc52c88714d8"),
  ("6363636363636363636363636363636363636363636363636363636363636363", "0000000000000000", 256, "934392340254b83fa7a9888d1ca9959ba221ff1c487b214fe6703c4bce02ef624de46a76670712b381e2ee017b67dbaa3726ce1cfb39038fd0059efcb2346385"),
  ("6363636363636363636363636363636363636363636363636363636363636363", "0000000000000000", 448, "f234ed6feff11821e19d73e31bfaf745126d80e0743623a179303c5a7827582aacfee4845e8d3fd98ab990c710020b42542dab392d6a1bfe058e200fefa00006"),
  ("6c6c6c6c6c6c6c6c6c6c6c6c6c6c6c6c6c6c6c6c6c6c6c6c6c6c6c6c6c6c6c6c", "0000000000000000", 0, "1456a98d271f43a5ff29b3d0bcc35b7850c4d9da5bba43b752a1a541a4fc88dc0fc4c89f35acf1b540f5c3207a0bf359490d482232936e5c0b818c3de6ef2012"),
  ("6c6c6c6c6c6c6c6c6c6c6c6c6c6c6c6c6c6c6c6c6c6c6c6c6c6c6c6c6c6c6c6c", "0000000000000000", 192, "e8dfc363183330bbcc8498913a28545c6905f858d314939fa148c4c6600cd23a941f88f2ff08d7567202f335f5a90a0ea92b9d73a2c710cfe22be0d180ba1a42"),
  ("6c6c6c6c6c6c6c6c6c6c6c6c6c6c6c6c6c6c6c6c6c6c6c6c6c6c6c6c6c6c6c6c", "0000000000000000", 256, "77acad59ac794ec38c13805e9638f145dee96c36c9c07a1811dcc1531a462144ac1f4b2245a570c42b25eb646d4655d6ea646776b0445c8b5670ab2b11203823"),
  ("6c6c6c6c6c6c6c6c6c6c6c6c6c6c6c6c6c6c6c6c6c6c6c6c6c6c6c6c6c6c6c6c", "0000000000000000", 448, "9a1bbe72aec868e45b28b9fe3570381da759d1484b710a2afb385db7eac5a2c65e2eff9204c5df6a684ed55c2d09fbd17e2fb6b4ff4bad3abd201dcee340305a"),
  ("7575757575757575757575757575757575757575757575757575757575757575", "0000000000000000", 0, "8f04c8f40319569cb4b04458528135e835af2c69561f0f0f5b6009b540b85ed1bc7612c9ec7a200b08aedf07db08abc39fa48e63ac81974175ae3a4ac9429985"),
  ("7575757575757575757575757575757575757575757575757575757575757575", "0000000000000000", 192, "dd98fbc3465bbd56ed0bf2f2367498b0e2854e514a27c7410aaf8e0b44117eafa5eda0c7fa2106c03db8af62e5ed136b4bca0b82cf2ea19fdade4101c57117e2"),
  ("7575757575757575757575757575757575757575757575757575757575757575", "0000000000000000", 256, "7ca321b64434a90ce08e00a99d9456cb7a0779d4f0fc12346c01a5a1310528dd2e0ea2f58a8795bd138687645a7054dc2fa74835b1b45f4b68e3ceaaa315c250"),
  ("7575757575757575757575757575757575757575757575757575757575757575", "0000000000000000", 448, "076ab5564db74d830cf96e6b90897e5f2e597619b47ff74b190c16735e902bdf111fa384ed3f8055343f4561c731f7837072fab81825304dc3d4cc02404e539d"),
  ("7e7e7e7e7e7e7e7e7e7e7e7e7e7e7e7e7e7e7e7e7e7e7e7e7e7e7e7e7e7e7e7e", "0000000000000000", 0, "dfd428440260e1b64579a6940ee539078cf48977e4b61dd0c708b52b42a607abc0a0774f49fd8599e4a4ca3b7c54fedc353d2467deecdb9ffc8350c79414cfbb"),
  ("7e7e7e7e7e7e7e7e7e7e7e7e7e7e7e7e7e7e7e7e7e7e7e7e7e7e7e7e7e7e7e7e", "0000000000000000", 192, "f4c7c343c6dfb6f7ea25dbf6dfbd31d2595c45c4cd1c057308ffa60c1af1bbca888c6c8097e97319566a7ebd80da4f0eddbd22015cc363e5ac01be42770660c8"),
  ("7e7e7e7e7e7e7e7e7e7e7e7e7e7e7e7e7e7e7e7e7e7e7e7e7e7e7e7e7e7e7e7e", "0000000000000000", 256, "f1792b445d52bd4fc99557abbecbce74257a62eea110ef9cb3cb0388922a7fbb5fcbce5bce44818f930284e4e360973d49607e1b0e1d97c618eba4d909a50375"),
  ("7e7e7e7e7e7e7e7e7e7e7e7e7e7e7e7e7e7e7e7e7e7e7e7e7e7e7e7e7e7e7e7e", "0000000000000000", 448, "7a2eb3abe2f83c4b40a15f4aaa89d5c972b911aafff5069fa3e7396162cfdbbb6a16e222c15878d9c8a00ad8201f18899f060851a3147ac2f3385fd8144bcd32"),
  ("8787878787878787878787878787878787878787878787878787878787878787", "0000000000000000", 0, "47756f1d1eeddf06790a5e39083186d316e3258b9c5b7d25e478e817308e2b90a5dc4a8c03a38ae1757b6efae73b058a7cea675cee9a01e9bbc7b15dc5424e64"),
  ("8787878787878787878787878787878787878787878787878787878787878787", "0000000000000000", 192, "fe6fb2e0bdf120b585d082602d2648d6d95d14c3e8df44f7d9bf650709578c0aa5d775baa12a3c1153cf44ae2a3bac49534210f8bb8aae7f54df049ae368678f"),
  ("8787878787878787878787878787878787878787878787878787878787878787", "0000000000000000", 256, "da0d9214302984f36b92edca76765b8d5e748ee13176cfa41345ab0efbd7cb54737dc606de60e4355233e63b1edaf48ab84df854e47d1d746b3aa5ccc0a5da62"),
  ("8787878787878787878787878787878787878787878787878787878787878787", "0000000000000000", 448, "8373efd791b51a07b840a7faca4307ce9f5fb71a0c7891cef7e7754a414b61d6593a5eeb782fbf28998f4174c63733bfa7ee172290a0a854ad6c36757aee0911"),
  ("9090909090909090909090909090909090909090909090909090909090909090", "0000000000000000", 0, "6ab7a8c769386fb6067059d0ee3dbc971efaef4ac10c74a2f17527ea5a8c6e0cdf1fa10f27a29911bb57bf3e7a6dbdce4af3e7bb730f47ac79dc917da646a8b7"),
  ("9090909090909090909090909090909090909090909090909090909090909090", "0000000000000000", 192, "1dd701a2698617855c38017b0ade1e17d22d9717e21ad8635ce6a40cecc7ee4383d5483f414b9f2285d200500cca85c3d45f4f25550e3701b675d7e1b8266c6b"),
  ("9090909090909090909090909090909090909090909090909090909090909090", "0000000000000000", 256, "5d331c1544cfd44e3588c2ea0d889f44d5742e7afe9581caf23cb668b0530c84a89d63f948969dbc0d0574911ec0307ece9cf38c5fcde75462d1c472455a78ed"),
  ("9090909090909090909090909090909090909090909090909090909090909090", "0000000000000000", 448, "a55713dfaa272076529bc5a33558a7d5206c1c070648dbaa348c78556631ad99f8f16ddda2e5779b155dd9377a8e575c257fe7e08abe9b3a378027ea06539810"),
  ("9999999999999999999999999999999999999999999999999999999999999999", "0000000000000000", 0, "e548eceaf4b4af1f8572f7113c7d8ff961837c15ecc6beaab80f38cb15022b50bcb1fa414a798c954dafb572cf22a9a4d82f7561186c31ba0199eae1678cc4cf"),
  ("9999999999999999999999999999999999999999999999999999999999999999", "0000000000000000", 192, "9e5d061279348e0d5da552a82ddd379537f928dca393ae75aed13f63bd60dee432c96d1b2365b59fee3c0e18515966d6642f2e156c30c704a77dcb5629ac6167"),
  ("9999999999999999999999999999999999999999999999999999999999999999", "0000000000000000", 256, "9cdcad9cb247ab21ba9e93c936936994c6c320841c745d6dfc85110367b36c8867cfab60f6a67a1656c645bfdbf196ac974a4165bf81fbe715cb6c3954e217fd"),
  ("9999999999999999999999999999999999999999999999999999999999999999", "0000000000000000", 448, "fe5134e8b0bc016d3ed3594b6eef2f06fafe2f4c89cb4e2627b232bacfdca8a480b1c55df4c0af1e630a617cede0a48f900a9cf815362c098a76d29360414735"),
  ("a2a2a2a2a2a2a2a2a2a2a2a2a2a2a2a2a2a2a2a2a2a2a2a2a2a2a2a2a2a2a2a2", "0000000000000000", 0, "d0854334e4619e3efbb2a53d59f89866f67220ce00a3116313fb9cb6453397660ca976a8b3477f76ff8fa485d61e37583da5f35a8fad678b7c2b9ec97321dfd0"),
  ("a2a2a2a2a2a2a2a2a2a2a2a2a2a2a2a2a2a2a2a2a2a2a2a2a2a2a2a2a2a2a2a2", "0000000000000000", 192, "92d4924c3e682eecbf9ad3a5453be7bd56d9fd73f16ba0ca09fbd0c136bcd5952fe55744b1871e4c8726611f291b282c2219c817c88086a5a7bdc513dcca473d"),
  ("a2a2a2a2a2a2a2a2a2a2a2a2a2a2a2a2a2a2a2a2a2a2a2a2a2a2a2a2a2a2a2a2", "0000000000000000", 256, "cac309e4aa3ed635d68e5afd9f4cb0badb229e8eb560b16645ca2a71b35b7c3d757c156983f7d053b0430f9634402b8e4fde6926135473ba8560c3ae1fd5bf48"),
  ("a2a2a2a2a2a2a2a2a2a2a2a2a2a2a2a2a2a2a2a2a2a2a2a2a2a2a2a2a2a2a2a2", "0000000000000000", 448, "980db26fdbf49d5d890b65eb01aaebd5cc118812bde441a71871206d67683889828622c6336dea09db6ade0772a3d091f77b1f3115e1341ef11f41f7cd0505d6"),
  ("abababababababababababababababababababababababababababababababab", "0000000000000000", 0, "6cd6b451b1c793485006b3b51470e6ab20163502c30240c4a3c6406482a2770d550ad77d0091632c719ba33769823d2d8147396466f1a2a857060a42ecce0a0e"),
  ("abababababababababababababababababababababababababababababababab", "0000000000000000", 192, "81298474e6d86a66ae4cbcee495d8740502cbe5cc91174865a615b193b55ba4fcd2337667292d3f3c428b9fef090207e2def037917a2244ffd3ae8161ceba42a"),
  ("abababababababababababababababababababababababababababababababab", "0000000000000000", 256, "367b062dffd72a6ef6ceb3ae7fe59684690f40a9f276e8021994ed475be1f08fa5c99e3a1ae1e68a92d02c5c14be0e67a1b989e7033274993d1685d4b2dae6d0"),
  ("abababababababababababababababababababababababababababababababab", "0000000000000000", 448, "43c53b82cfbb199fff9c5719ed1ef470aaad578c5778a9dd3c2d77c7baf41cc30f5f7b4c91fed81e9a661093ee20fc3bba55ff8447c899c6e12a0a0f5ece3ba3"),
  ("b4b4b4b4b4b4b4b4b4b4b4b4b4b4b4b4b4b4b4b4b4b4b4b4b4b4b4b4b4b4b4b4", "0000000000000000", 0, "ee879d01c8e20ce8cacddb464348f69c6551f70383a82933c3a765b8ac1385818d67c69841ff2b4b8bc209ecfc0fe765c44c42c9cd6eff90e0a6dab153f52d04"),
  ("b4b4b4b4b4b4b4b4b4b4b4b4b4b4b4b4b4b4b4b4b4b4b4b4b4b4b4b4b4b4b4b4", "0000000000000000", 192, "8d7d377a3072e9571f9ae00d25e875a4d9bab98a3ea348bf823f12f44dabae28317baa3a71eb3d7c4c2ec3ef87e828cb862fbfc99c7ecbc629d22db8eb82156d"),
  ("b4b4b4b4b4b4b4b4b4b4b4b4b4b4b4b4b4b4b4b4b4b4b4b4b4b4b4b4b4b4b4b4", "0000000000000000", 256, "97b547a3e920fb054416a5787eab5c7638fa6ccdec816613fc855eaafb4887c13a38094d89570bf17e55e5e1ec275ecd122142c9126de5e9411f06805071983f"),
  ("b4b4b4b4b4b4b4b4b4b4b4b4b4b4b4b4b4b4b4b4b4b4b4b4b4b4b4b4b4b4b4b4", "0000000000000000", 448, "cca815558ffe08873c9af373faa546b2fb3ea3059efd02cb778d01962e87efa85f24bc5befd4ed02c986c0229d70aba0d4e97328780fbd0ecb367a8c085414e9"),
  ("bdbdbdbdbdbdbdbdbdbdbdbdbdbdbdbdbdbdbdbdbdbdbdbdbdbdbdbdbdbdbdbd", "0000000000000000", 0, "ded8c79cc623162c2074fc7b4876f7541b959209ac6573e6d25d1f1e649cc24131a2f1b1b9e9e0fa639f8af373ccab883c659001bd120449997871e6a1d5ad8e"),
  ("bdbdbdbdbdbdbdbdbdbdbdbdbdbdbdbdbdbdbdbdbdbdbdbdbdbdbdbdbdbdbdbd", "0000000000000000", 192, "1e946cf03c4c89d19ddb9c48eacfe7faa48235899df49232ce2a586130bad63d52540151fbc02e3bfef082a63a900c420d6d7a11e289c34387a6155abb71816a"),
  ("bdbdbdbdbdbdbdbdbdbdbdbdbdbdbdbdbdbdbdbdbdbdbdbdbdbdbdbdbdbdbdbd", "0000000000000000", 256, "3ccaa2aea81296ed9171b608fd8deaea3ea5b8a87b17b10751a01713ede6a156652783c26c0247e347860c06ad633aae2c0afb239291a6e7729f8838a4d97533"),
  ("bdbdbdbdbdbdbdbdbdbdbdbdbdbdbdbdbdbdbdbdbdbdbdbdbdbdbdbdbdbdbdbd", "0000000000000000", 448, "065dcb330ddc528bd42dc6a0f85179a3531cf900dc5f7d3b5455dc49d451161f9afd79a619dd951c854019412532d33c9de6f9ae44394208653cf12d316f4a70"),
  ("c6c6c6c6c6c6c6c6c6c6c6c6c6c6c6c6c6c6c6c6c6c6c6c6c6c6c6c6c6c6c6c6", "0000000000000000", 0, "36afbafff746195d8784cb72a16d12aa604cdbf567955f15fb55dd42fae8ddc4e6cea63b6f8e2815f3094005e403fea30eedd68b5f2573efd03a4e2bc41aec32"),
  ("c6c6c6c6c6c6c6c6c6c6c6c6c6c6c6c6c6c6c6c6c6c6c6c6c6c6c6c6c6c6c6c6", "0000000000000000", 192, "4f7e1ce5e727d83989222acf56776f0afd1b00e9a5734408e1513313e0ca347cc37d8de7af4f6c5c7ef311bda97bd8f452f89b4d44411d63105becadc661d558"),
  ("c6c6c6c6c6c6c6c6c6c6c6c6c6c6c6c6c6c6c6c6c6c6c6c6c6c6c6c6c6c6c6c6", "0000000000000000", 256, "2677c65207f10008a28e0d3d2c7d43a671a96cb9a98ed1ecdeba8f5afaf4ddf3f7b078346eb1daeb1047d2e656efb331f3a71302e6fb547568d6a8a2871eb5b2"),
  ("c6c6c6c6c6c6c6c6c6c6c6c6c6c6c6c6c6c6c6c6c6c6c6c6c6c6c6c6c6c6c6c6", "0000000000000000", 448, "c39bc4103ed0d8fe8c7d5fc072c94080df9dab70f627d8bd68719a721836554f3a2cfd08616170f4e3c3b0420bb41fbe9a84c43d405b9ee32285bb5051cd5e83"),
  ("cfcfcfcfcfcfcfcfcfcfcfcfcfcfcfcfcfcfcfcfcfcfcfcfcfcfcfcfcfcfcfcf", "0000000000000000", 0, "aa68f6eb41db62a2c5e4e9aaf21d7d431c29a66303854a68ef737872cbf7c505918b87ce4db6b3d84bc039906ac0561df79f0a57cfa762b8b9c2991f1dc98032"),
  ("cfcfcfcfcfcfcfcfcfcfcfcfcfcfcfcfcfcfcfcfcfcfcfcfcfcfcfcfcfcfcfcf", "0000000000000000", 192, "7bc0564baf3c88cf14fcd2020433cedf65ee68df4afab7e040dfc396a856617f677217529b839eb9df47afd6758caacd75e734fcc653ed5ac25c8a7b1aebaa49"),
  ("cfcfcfcfcfcfcfcfcfcfcfcfcfcfcfcfcfcfcfcfcfcfcfcfcfcfcfcfcfcfcfcf", "0000000000000000", 256, "ad21bbe24ea84c0859b2ef3e090704936a6d2a97df912207d3f50d63fcd5667661a47ad0df1fa8dde08ead7201af15fa85bcba0962d7921397e35e60149bb4eb"),
  ("cfcfcfcfcfcfcfcfcfcfcfcfcfcfcfcfcfcfcfcfcfcfcfcfcfcfcfcfcfcfcfcf", "0000000000000000", 448, "8914307989cd704120a6dac52789b8457260a2939ca0e02a4c41c46ece8903059f58a2b0f3d93b45160d08a13737d51e984b97cd4a28dc2d92155fcada3f8033"),
  ("d8d8d8d8d8d8d8d8d8d8d8d8d8d8d8d8d8d8d8d8d8d8d8d8d8d8d8d8d8d8d8d8", "0000000000000000", 0, "596ea70bba1a4de2f8ed2af37a0ce6d12443354659cd0c41203eb345e160cf056f8d71314aa7221d86f868304f34d5b3ed4d51072fe7b12568b859077b6f920d"),
  ("d8d8d8d8d8d8d8d8d8d8d8d8d8d8d8d8d8d8d8d8d8d8d8d8d8d8d8d8d8d8d8d8", "0000000000000000", 192, "26716254a9c7067808edc0d31d54d28988a3f655c10931e217b3c9a8a4b557d28ad6c701612a8d848fed1589ccfbbe7b566496f4662b1d98fcfc70c1716e5347"),
  ("d8d8d8d8d8d8d8d8d8d8d8d8d8d8d8d8d8d8d8d8d8d8d8d8d8d8d8d8d8d8d8d8", "0000000000000000", 256, "b33c15e9488de8a97afe67fbfaf47ffe5c3934b05b5e2ea061a41a2bf0d81fb6054c824b492775e3e8300dad609bcea5837392668c0b54fece2f2945f18160d3"),
  ("d8d8d8d8d8d8d8d8d8d8d8d8d8d8d8d8d8d8d8d8d8d8d8d8d8d8d8d8d8d8d8d8", "0000000000000000", 448, "a1f72ecb02649f01d4396574ea80bbcb8934fcf989cf1d7cf7410b0a93e08c100a229c952da999789662e1666ca71c654dbeb2c5bbc20bb67df67cd39b51b4cb"),
  ("e1e1e1e1e1e1e1e1e1e1e1e1e1e1e1e1e1e1e1e1e1e1e1e1e1e1e1e1e1e1e1e1", "0000000000000000", 0, "6d221a5561813e4b6bf1a3821f0bc95b3d51004ed29eaecd26016e5b7f628ba06b2ba4d650d685c3ba9fb51e305eeb36a11ca08c431e0740d59d521fbddbf716"),
  ("e1e1e1e1e1e1e1e1e1e1e1e1e1e1e1e1e1e1e1e1e1e1e1e1e1e1e1e1e1e1e1e1", "0000000000000000", 192, "9c9eebca7428a88562fad4ec9800eb7de4ebe571855b40d3f1d9770236ef013170a6bf8cf9c1880a1bc3c5819377709889384d19f4f9d6e8098e8e326b9ac4b7"),
  ("e1e1e1e1e1e1e1e1e1e1e1e1e1e1e1e1e1e1e1e1e1e1e1e1e1e1e1e1e1e1e1e1", "0000000000000000", 256, "86ecbb7ca8e1526f538805a692c354b8e335bac919cb4355c15b40d721328be981105395fd27bb6f0515a427469df557dc92eb010c49c332bfeb1a98154bf0aa"),
  ("e1e1e1e1e1e1e1e1e1e1e1e1e1e1e1e1e1e1e1e1e1e1e1e1e1e1e1e1e1e1e1e1", "0000000000000000", 448, "0503daa102f9cdfbff854d6015bf484a201f69e6e789a757b8dab005d5859027849eca4e951ae28126fb6c63bb65ef6194c9661f9e40caab817cbe89595096ec"),
  ("eaeaeaeaeaeaeaeaeaeaeaeaeaeaeaeaeaeaeaeaeaeaeaeaeaeaeaeaeaeaeaea", "0000000000000000", 0, "304665a82b0838d4ea0a7737855ceab044583fbf2f8e68d7b3b191600adaeb33538942a71998f68da9a0d4bac36a5052cbeaeffcabc6b506e5f805f8105d5e79"),
  ("eaeaeaeaeaeaeaeaeaeaeaeaeaeaeaeaeaeaeaeaeaeaeaeaeaeaeaeaeaeaeaea", "0000000000000000", 192, "96b62fe40229e2cebeae44431f01a0a43fa080d685215bea4705b6b78187751be1dfa0dcc1c8d6a2040c0716f524cf4042889f743a3edc01ebdfd3a6ff3e92dd"),
  ("eaeaeaeaeaeaeaeaeaeaeaeaeaeaeaeaeaeaeaeaeaeaeaeaeaeaeaeaeaeaeaea", "0000000000000000", 256, "d1667a839d7725e602fd36a69117d039ae92ec7032432323a61afb1602f17e4fb66f0bb5a5f4c54329f7217497b3546fff9938966b05789e0ca65cbf34db1b2d"),
  ("eaeaeaeaeaeaeaeaeaeaeaeaeaeaeaeaeaeaeaeaeaeaeaeaeaeaeaeaeaeaeaea", "0000000000000000", 448, "3557fc69a9d44c66fb022ed8d4d349c1d82a41da40e3687b197dfc070000b69c2fd9b1f9f99c63bf3ed82f2ccbd2a6ed20a14aba05f6855078df5c73a4d50493"),
  ("f3f3f3f3f3f3f3f3f3f3f3f3f3f3f3f3f3f3f3f3f3f3f3f3f3f3f3f3f3f3f3f3", "0000000000000000", 0, "bf9634c2d81b6400c2adacfcc0c353ce3ac45a2eb636ae9d2d6b8db6107511c9399fb22ca2df6406307eadeed423e72b72411e11530b1814ab196a74dfd4fa61"),
  ("f3f3f3f3f3f3f3f3f3f3f3f3f3f3f3f3f3f3f3f3f3f3f3f3f3f3f3f3f3f3f3f3", "0000000000000000", 192, "50f32fc8c94befce5e51f3e774134acad60bf3de49bfe1f17ddd88395c4880ac926528971a3d74796303a4064f67733ba2ab545344b97f555525c0a5611151de"),
  ("f3f3f3f3f3f3f3f3f3f3f3f3f3f3f3f3f3f3f3f3f3f3f3f3f3f3f3f3f3f3f3f3", "0000000000000000", 256, "a6e426963373dcdce54c1827f683859df11857d7beb1eea10ff137cf6b39563553c79e92295b1fa385c59bc201612c7039341b55d49139b88a16544aedbda967"),
  ("f3f3f3f3f3f3f3f3f3f3f3f3f3f3f3f3f3f3f3f3f3f3f3f3f3f3f3f3f3f3f3f3", "0000000000000000", 448, "eb50c1afcdfbf83eda42011c141b67cd041598209605800eaff2ee6a99a6c9589621b778fa4db6d2fc4980030b86f3c8670b46bed56a511b9a18e60b1fed27d5"),
  ("fcfcfcfcfcfcfcfcfcfcfcfcfcfcfcfcfcfcfcfcfcfcfcfcfcfcfcfcfcfcfcfc", "0000000000000000", 0, "356dd71dbc2b216b7a439e07bcc1348f769f7ef482486c92e8fd8eb050224838ab1f4dfcd2fb196afd4c4ffbf51b91246bf45ae8131b8d5cafa29fc3025a3597"),
  ("fcfcfcfcfcfcfcfcfcfcfcfcfcfcfcfcfcfcfcfcfcfcfcfcfcfcfcfcfcfcfcfc", "0000000000000000", 192, "c09481306db9ff12f1798a21a3031921b237e1b54a73f724cc0378379db2fd868df08983a3d26c32379e3b132a6f1766646a963aa56c8f5d45b35f79b24d27c0"),
  ("fcfcfcfcfcfcfcfcfcfcfcfcfcfcfcfcfcfcfcfcfcfcfcfcfcfcfcfcfcfcfcfc", "0000000000000000", 256, "6c198e30bbad2e329a7a3ed5c383340f90eadd9f44ab7f339e6be9217366188c4c8d721bd6dc5d5d192a8e854013ebe266633893015afbed28ea42f928b27f60"),
  ("fcfcfcfcfcfcfcfcfcfcfcfcfcfcfcfcfcfcfcfcfcfcfcfcfcfcfcfcfcfcfcfc", "0000000000000000", 448, "ff9b8ed2074abd83b51aa93a65e5e303774cd6874d344236b1efd39a3605984edfebcfb5b41ac09aad500f71af6d77a07ce81a5e0e1e29c857609143b5be0ba6"),
  ("000102030405060708090a0b0c0d0e0f101112131415161718191a1b1c1d1e1f", "0000000000000000", 0, "b580f7671c76e5f7441af87c146d6b513910dc8b4146ef1b3211cf12af4a4b49e5c874b3ef4f85e7d7ed539ffeba73eb73e0cca74fbd306d8aa716c7783e89af"),
  ("000102030405060708090a0b0c0d0e0f101112131415161718191a1b1c1d1e1f", "0000000000000000", 192, "9b5b5406977968e7f472de2924effd0e8ea74c954d23fcc21e4ed87bba9e0f79d1477d1810368f02259f7f53966f91ceb50ecd3da10363e7f08eeab83a0ef71a"),
  ("000102030405060708090a0b0c0d0e0f101112131415161718191a1b1c1d1e1f", "0000000000000000", 256, "68e43aa40c5d5718e636d8e3b0ab3830d61698a12eb15bd9c923ff40a23e80be026b7e1349265ad9c20a6c8a60256f4acd1d7ad0dcbe1dff3058acd9e1b4c537"),
  ("000102030405060708090a0b0c0d0e0f101112131415161718191a1b1c1d1e1f", "0000000000000000", 448, "343ed5d011373af376308d0b0dab7806a4b4d3bf9b898181d546efcf83d7464cfc56ae76f03f3711174dc67ac9363e6984f5a447bd25642a00754f1133bfd953"),
  ("090a0b0c0d0e0f101112131415161718191a1b1c1d1e1f202122232425262728", "0000000000000000", 0, "0dd83b7f93629ba8e489e30fe4b6ee549bafb44cb794aaef2ef07116649fd4c44dac52560efb34ff1a2e56fc0dd86f2d56c2c5c97089fc4c35c6788f36e6f142"),
  ("090a0b0c0d0e0f101112131415161718191a1b1c1d1e1f202122232425262728", "0000000000000000", 192, "19a8c09135cbb83c6140bbeb60099bdb469178f58b6dc87ad2b33cae53a83b46a3bce1289a68528d5a32a8867587fcc7f4dfe8eea78bb2a9c40b9f6d8797bfe3"),
  ("090a0b0c0d0e0f101112131415161718191a1b1c1d1e1f202122232425262728", "0000000000000000", 256, "2e4e97baae813ad2c14848abab7c51a74bf3153c63101f4e6e4eea56b470f0a678fac3aa6cc300a51a7a345356d3fe1e3a56242086ca61a1e8e43f6703cdf6de"),
  ("090a0b0c0d0e0f101112131415161718191a1b1c1d1e1f202122232425262728", "0000000000000000", 448, "306fbefc44132b66d527f5e75d171868ee8cbc6daefd6fc5b3730541cea82cf67d41b8783d75117d266b924502d5aa5f28ff44a13aa2179dd8f0f4ad4b29024f"),
  ("12131415161718191a1b1c1d1e1f202122232425262728292a2b2c2d2e2f3031", "0000000000000000", 0, "4b094a8031fea02c5cbdc1e2a64b13a9a0976897fcbd92a15738330cd1f85448ebd8b7e61a76855c64be1be78034adebffdedfcf064ab92744760dfbf59f0a9d"),
  ("12131415161718191a1b1c1d1e1f202122232425262728292a2b2c2d2e2f3031", "0000000000000000", 192, "f807df0420c6d87dad3a1811a96b5e4d2b2f284cd9130f51d307521bd2cabe721f1bac0ef6219b7acf8923c026c7f9ad8762cc9a9f8847750511d3697e165689"),
  ("12131415161718191a1b1c1d1e1f202122232425262728292a2b2c2d2e2f3031", "0000000000000000", 256, "afb3798b54c003aa6c05c7893c5db290ac7fafe8c25d3e66ac699bba3a88033070d17c0314daeaf51dbda0c9df36b713a913bd397b41da7ff410a593568ab2be"),
  ("12131415161718191a1b1c1d1e1f202122232425262728292a2b2c2d2e2f3031", "0000000000000000", 448, "67afd443e67f5ff76a247efcf3d546490649cde396fe3aa34549c3abc8f7447ddb7a666c0402afa25adc47e95b8924b4b1c955c11a746fd4c0da15432c1b83b7"),
  ("1b1c1d1e1f202122232425262728292a2b2c2d2e2f303132333435363738393a", "0000000000000000", 0, "ae39508eac9aece7bf97bb20b9dee41f87d947f828913598db72cc232948565e837e0bf37d5d387b2d7102b43bb5d823b04adf3cecb6d93b9ba752bec5d45059"),
  ("1b1c1d1e1f202122232425262728292a2b2c2d2e2f303132333435363738393a", "0000000000000000", 192, "cf7f36734a7ad1ef4d9a4aa518a91c1464184688f31e5e775e879e01e82fb42eaee8f382aa0701d54af5db788858ccdf801ded1e18ba4195019aa3111ba111ac"),
  ("1b1c1d1e1f202122232425262728292a2b2c2d2e2f303132333435363738393a", "0000000000000000", 256, "ab84e643d214e8de9274720a1557a1e0471f00394934a83a324d4270949bd448a7bb6b5d5fa40e9831ae5b4ea7d8d34e071eb56efd84f127c8e34da9bf633b46"),
  ("1b1c1d1e1f202122232425262728292a2b2c2d2e2f303132333435363738393a", "0000000000000000", 448, "e757ca957797d6416e17f852affbf191af98eb8cf73dcbba0bce8efa29b958e39c0085f0076e0b4e31289a4f2df35855add6bbec725fc2860d4f49ab4eea6c87"),
  ("2425262728292a2b2c2d2e2f303132333435363738393a3b3c3d3e3f40414243", "0000000000000000", 0, "5dde22eee0ed12cf83f433441a3799b3a4415a2018a60bde0a0f8e08993820c820998d420f346d8b808cbed40fc7cbd0cc43949b0a16f0ef2577cecad03dcad6"),
  ("2425262728292a2b2c2d2e2f303132333435363738393a3b3c3d3e3f40414243", "0000000000000000", 192, "5c86a6ab19ad083676d609d2c094ffc2921cd8d4580815522ba72aa20fec59d564f1edf2e2ae4810c69701bcd515a939d9c156254f28de5c90c6ca2b0a385d53"),
  ("2425262728292a2b2c2d2e2f303132333435363738393a3b3c3d3e3f40414243", "0000000000000000", 256, "956a71bb6344ddf03a8b828a03fea9148585bb8d21e52134f1fa9541a57519f44c2d56c8746e9fb40eb1fcf3551a5f9538b90606924f3d082987b77c127d1db7"),
  ("2425262728292a2b2c2d2e2f303132333435363738393a3b3c3d3e3f40414243", "0000000000000000", 448, "2160db576116dd75880e4de9a750530805ebd00f48b6bfb62679f93edbd42766a51ad3052c64174b5b027f6d5dd020592f5bbc369d48708295259f4b9519b19b"),
  ("2d2e2f303132333435363738393a3b3c3d3e3f404142434445464748494a4b4c", "0000000000000000", 0, "bdf4e0bb6b36d01a31ee2e76f2379d33286abfa82f6872677955777dee0b1662a65d85ebc56a7995a6f6cf995154c444c27cef3eabc85b8985c7fa94c8ecb065"),
  ("2d2e2f303132333435363738393a3b3c3d3e3f404142434445464748494a4b4c", "0000000000000000", 192, "8835bf6d66fd567bcda956673d9da182701921b79aaab6039d65abe1c7178923bc39c8a56fdec8feaac4c29707914f68ca6cbede4dbe9feaaf84da2dfec56e96"),
  ("2d2e2f303132333435363738393a3b3c3d3e3f404142434445464748494a4b4c", "0000000000000000", 256, "a2751597632cf806c8246f7f9d9c4a72de85c8c0c36a769f32a062dfcd45635b0c7131bfb38ce253886d4918cc4b7dba780cae5fa0f22479f445c0ad1285f35d"),
  ("2d2e2f303132333435363738393a3b3c3d3e3f404142434445464748494a4b4c", "0000000000000000", 448, "1130339e16298874524d18f68266246ca0b2060607b60689d025bd30bc6de7ff5ddb90249319c9ea13195200acadb59514d56fc358d7a0d3baea374e34ea2e9d"),
  ("363738393a3b3c3d3e3f404142434445464748494a4b4c4d4e4f505152535455", "0000000000000000", 0, "51b180f1c9c31388f8b3de8734f3918ff6dec759689e6a54d0eaf8734decab2ca2aca4dfaa260ab781769b83cf94c2a0166f2643585cab42220d200f92074363"),
  ("363738393a3b3c3d3e3f404142434445464748494a4b4c4d4e4f505152535455", "0000000000000000", 192, "147ce4098c9884493cf00dd28b6439a5b794f871ccc4ffe349cabf3963c6baced799aab7f778b59473ede8cb475056a1e7f5d0be68de84c535a8fb67724e0c6d"),
  ("363738393a3b3c3d3e3f404142434445464748494a4b4c4d4e4f505152535455", "0000000000000000", 256, "7f0bca1b790cd5c8f8cfd047afe1c5bfdda8c8e0bbaf0567d4ae6b63c9e3277051d1200ed8740d60fbbadc20cac825a0819cb66398ff7cfa38f3ce5cf23bac37"),
  ("363738393a3b3c3d3e3f404142434445464748494a4b4c4d4e4f505152535455", "0000000000000000", 448, "74c2b38820e2614d4ac42477185346d75ec3bb41dc9810610c5b745a1b423a3cbf14a7e45c08c5e7c1cae65b8839f030a8e52500776b45ea65885322fc1b3a57"),
  ("3f404142434445464748494a4b4c4d4e4f505152535455565758595a5b5c5d5e", "0000000000000000", 0, "aadba970b29f5bb8522c3817e849e5d0417863554d16d6fc42405ca5a826a82a7f0add295d02df3eb565e10ca1902e7ee84cc977614f325aa0bca298f64871c4"),
  ("3f404142434445464748494a4b4c4d4e4f505152535455565758595a5b5c5d5e", "0000000000000000", 192, "23453b14e9067b2733c88a3137650d83bf2edea3bd78d336765151c9dc15a5345394c7b0e1b0dd3bef7c7bbbb84ab0b57992446f8dd102f90b0d72728686ec17"),
  ("3f404142434445464748494a4b4c4d4e4f505152535455565758595a5b5c5d5e", "0000000000000000", 256, "0291e9b6188cb3e43f98b576c9c114b4e1165a39b33e32e7260d6767058c45b093717e09868b400557e750557417e7c7f0da6a8ab0179630023eee17b0362575"),
  ("3f404142434445464748494a4b4c4d4e4f505152535455565758595a5b5c5d5e", "0000000000000000", 448, "d98e6af3b8a4be5ee6cd4f067fdde869fa2569648498460c0b2e4a3a4652fb7177d02d632bfef2c3511f1d374aaadde14542ac660114716e5caf854aa5c2cf1a"),
  ("48494a4b4c4d4e4f505152535455565758595a5b5c5d5e5f6061626364656667", "0000000000000000", 0, "53ad3698a011f779ad71030f3efbeba0a7ee3c55789681b1591ef33a7be521ed68fc36e58f53ffd6e1369b00e390e973f656acb097e0d603be59a0b8f7975b98"),
  ("48494a4b4c4d4e4f505152535455565758595a5b5c5d5e5f6061626364656667", "0000000000000000", 192, "a04698274c6ac6ec03f66ed3f94c08b79ffdbf2a1610e6f5814905e73ad6d0d28164eeb8450d8ed0bb4b644761b4351252dd5ddf00c31e3daba0bc17691ccfdc"),
  ("48494a4b4c4d4e4f505152535455565758595a5b5c5d5e5f6061626364656667", "0000000000000000", 256, "b826c7f071e796d34e3bffb3c96e76a1209388392806947c7f19b86d379fa3aedfcd19ebf49803dacc6e577e5b97b0f6d2036b6624d8196c96fcf02c865d30c1"),
  ("48494a4b4c4d4e4f505152535455565758595a5b5c5d5e5f6061626364656667", "0000000000000000", 448, "b505d41e2c207fa1c0a0e93413ddcffc9beca8030affac2466e56482da0ef428e63880b5021d3051f18679505a2b9d4f9b2c5a2d271d276de3f51dbeba934436"),
  ("5152535455565758595a5b5c5d5e5f606162636465666768696a6b6c6d6e6f70", "0000000000000000", 0, "b2995cdc9255e4e6177398eece05f338be14825e8025598c1b4b0b80013e5d4bc195802acf47326f309c58809e044ca02027cce97d80f7aeba6d0376c96bfd7a"),
  ("5152535455565758595a5b5c5d5e5f606162636465666768696a6b6c6d6e6f70", "0000000000000000", 192, "0b89114f6f4111d2c7c33b0cc3de682f932e9b060bd3d1e17801adbf7f0348192d1f77f99104be2fe62aa14caf17d0c235243b76d298c9cb51f7e5e02914027d"),
  ("5152535455565758595a5b5c5d5e5f606162636465666768696a6b6c6d6e6f70", "0000000000000000", 256, "a93bef16e18fb3d34fd342aeac4ec93f474910948f5e25f20c3c6af50fbffd148b8272df4aae7400843ae11502d0619659f3f2484d5d5659bc340039cac03b20"),
  ("5152535455565758595a5b5c5d5e5f606162636465666768696a6b6c6d6e6f70", "0000000000000000", 448, "031ab90e5d0c95ed116b7d03efdd3543acda91fe89071680c1b025f305538f7e7154bdf131351e68f0f0addd40fb51830dd7761114bb4ba9692bd72500e7b2a3"),
  ("5a5b5c5d5e5f606162636465666768696a6b6c6d6e6f70717273747576777879", "0000000000000000", 0, "447d16e09f139adbfdbc742d248ec35467f165d42937fba97b816016613de365b0c23e4145ca71a3680b382cff6d615ce7b2b02aee1b6cae692e4d09b2b47ce4"),
  ("5a5b5c5d5e5f606162636465666768696a6b6c6d6e6f70717273747576777879", "0000000000000000", 192, "49debe1a89ce85c6bc52dce9e80422d0523fa99d29132f3b292b695ec641c0e3c3c339414349f83baaf6e534e426da982bb80981b58401128a158aeb75fd48e7"),
  ("5a5b5c5d5e5f606162636465666768696a6b6c6d6e6f70717273747576777879", "0000000000000000", 256, "e661f70fc1dcb4437d4de0c4f6540efc14d319cf67906ddbf41ba8fa8fd1b17ea8452ccb67f4078a8ceb2953218f97c773850d1cb882656a6486c0d12f9324ee"),
  ("5a5b5c5d5e5f606162636465666768696a6b6c6d6e6f70717273747576777879", "0000000000000000", 448, "7916fa50772f5bcd5dbf87f6733466b7e0dc28687a5afdee5bdfca4a197e7b6d82072ac49f2c7944519999fce9438af980ec5576bef6454c43aec151a488a405"),
  ("636465666768696a6b6c6d6e6f707172737475767778797a7b7c7d7e7f808182", "0000000000000000", 0, "d356187b3a555932420b005eea1703cb6c568987d54316540561425c078a0bc16011bd3a1e88c62039608ddb65c354538e6e6be417066d824b4cc3f4842d1b7d"),
  ("636465666768696a6b6c6d6e6f707172737475767778797a7b7c7d7e7f808182", "0000000000000000", 192, "fc9db2f6f1a10bb4690291f108119b07c7d908e2a3c35bdedf1f0b79041c04b91d63ce0d20459f3a99bf37ab195d907d3ebf1c75c5b7272d29ed83c0ecae915f"),
  ("636465666768696a6b6c6d6e6f707172737475767778797a7b7c7d7e7f808182", "0000000000000000", 256, "2193be6883f2b56b74312e46f422441cc1a54ef08360c87f70af598751e24f285e7a0c2f886147dfec52b34466f3a5988ddaf657af45a452495f852233f3e312"),
  ("636465666768696a6b6c6d6e6f707172737475767778797a7b7c7d7e7f808182", "0000000000000000", 448, "42822bf1d4bfd3122c2c842ce59bd9ad4616d916aadbbadb1a7f710eed2f7211653055d94569fa2be4c2ba8b758e29562c7a3354074705a28891b5e66eb8a7d7"),
  ("6c6d6e6f707172737475767778797a7b7c7d7e7f808182838485868788898a8b", "0000000000000000", 0, "4c2eb1d4a9a84064f43082eac25c741fa49f2579fcb069a2b072b4d7eb704b38e00db35e0d9c2077e58b9403d73904b9bdaf16a1c79a0a25b0b9bc06e49d2659"),
  ("6c6d6e6f707172737475767778797a7b7c7d7e7f808182838485868788898a8b", "0000000000000000", 192, "dbb77843d3f626e1f577ed0ab0d9034866237611bc25fea9713d5d001d2fe59f51a5c201d1ee6f7844bf231c34bb489acb3ea4434226248fda91597ac400c8d2"),
  ("6c6d6e6f707172737475767778797a7b7c7d7e7f808182838485868788898a8b", "0000000000000000", 256, "3ac1c77e12c7b3cd306743b805738aaa8269b47132d1902ecead7ec403e2ce6fd3ea6dff1fe350995bac330874eb0777ea659488c3991432a1ff9cde7abb9d34"),
  ("6c6d6e6f707172737475767778797a7b7c7d7e7f808182838485868788898a8b", "0000000000000000", 448, "ffc9e408a4521efda22b2d4c30f22781d17cb1c709c4ecb2fd03abef56b4dd986379c068662a5cbc01053a0a7b3d1a0e9b9ab81eeb8f57eded3be1ee75ed340b"),
  ("75767778797a7b7c7d7e7f808182838485868788898a8b8c8d8e8f9091929394", "0000000000000000", 0, "b36d9bb49a62689a751cf5c971a15f70439e56dc516f15f958369e3da2500ec4d51ce469b050037570d03b0948d9ff82f2ad1b1d65fa5d782cae515e03ba6a60"),
  ("75767778797a7b7c7d7e7f808182838485868788898a8b8c8d8e8f9091929394", "0000000000000000", 192, "0a4de80091f11609f0ae9be3aa9be9699aa1c0bdee5c1de5c00c36c642d7ff872195871708f2a2325de93f81462e73054cecefa7c1906cdae88f874135d5b95d"),
  ("75767778797a7b7c7d7e7f808182838485868788898a8b8c8d8e8f9091929394", "0000000000000000", 256, "f69916317394bf360eb6e726751b705096c5bf1317554006e4e832123d7e43ce74a06499bf685bb0aac8e19c41c75b1c840fd9375f656ad2b1377b5a0b26289a"),
  ("75767778797a7b7c7d7e7f808182838485868788898a8b8c8d8e8f9091929394", "0000000000000000", 448, "5a49b471376394b09890ca0a5a72410ab34ed9b829b127fb5677026e1bfc75b4afe9dbf53b5c1b4d8beb5cedb678d697fe56dacba9d6dea9c57cd8243153755a"),
  ("7e7f808182838485868788898a8b8c8d8e8f909192939495969798999a9b9c9d", "0000000000000000", 0, "4e7db2320a4a7717959c27182a53072b9d18874644b42b319963b5512340aa4dc7088fe4803ee59cc25e77ac29d13e7220654487f4a3bf2d39c073c7d231db17"),
  ("7e7f808182838485868788898a8b8c8d8e8f909192939495969798999a9b9c9d", "0000000000000000", 192, "58a4b8f161be5c1ac1573fb95c216aaeadbf17205072225cd2236439a574b40a2ad76749e37aaec60b52d79f5da5459f094244fde783122face929d94e914a87"),
  ("7e7f808182838485868788898a8b8c8d8e8f909192939495969798999a9b9c9d", "0000000000000000", 256, "be41a549607da00691d0c3734d1f9cf71a0d21056e50bc89f29135989432fdb5c2340bff6d181946bacd49d4b28a510497990b241ce021280159dfaac44da45c"),
  ("7e7f808182838485868788898a8b8c8d8e8f909192939495969798999a9b9c9d", "0000000000000000", 448, "e7cefe15dadb07044c730ce7650e4124687b7781c85c472ef6d3dd6c7150b050001904552b59778f2baea8c0ca29900f0470f14cced15e2d83fb1a06a0c57c7e"),
  ("8788898a8b8c8d8e8f909192939495969798999a9b9c9d9e9fa0a1a2a3a4a5a6", "0000000000000000", 0, "ee17a6c5e4275b77e5ce6b0549b556a6c3b98b508cc370e5fa9c4ea928f7b516d8c481b89e3b6be41f964ee23f226a97e13f0b1d7f3c3fbbff2e49a9a9b2a87f"),
  ("8788898a8b8c8d8e8f909192939495969798999a9b9c9d9e9fa0a1a2a3a4a5a6", "0000000000000000", 192, "1246c91147270ca53d2ceaca1d11d00bf83bb8f1c893e6f10118807d71021972586592f9935827b03ea663b7cf032aa7ed9f1f9ee15409b18e08d12f4880e162"),
  ("8788898a8b8c8d8e8f909192939495969798999a9b9c9d9e9fa0a1a2a3a4a5a6", "0000000000000000", 256, "6b6ac56a7e4c7636d6589886d8d2746241bacaf2a1c102c5d0de1603e4c7a92b42f609bcb73bc5bfc0927ef075c726567018b47870365138ee821345c958f917"),
  ("8788898a8b8c8d8e8f909192939495969798999a9b9c9d9e9fa0a1a2a3a4a5a6", "0000000000000000", 448, "da438732ba03cbb9afff4b796a0b4482ea5880d7c3b02e2be135b81d63df351eeecefa571731184cd5cb7eea0a1d162683ba706373017ee078b8068b14953fbf"),
  ("909192939495969798999a9b9c9d9e9fa0a1a2a3a4a5a6a7a8a9aaabacadaeaf", "0000000000000000", 0, "14530f67317b09cb008ea4fd08813f804ac63d6b1d595d21e244e11aa4f153e1256df77976f713b4f7dd1df64e7016bbf9460a1a7cc7f3e9d28d8d19a69eb0b4"),
  ("909192939495969798999a9b9c9d9e9fa0a1a2a3a4a5a6a7a8a9aaabacadaeaf", "0000000000000000", 192, "6c025a7a0a9f32ae768d35c56231afff5e9a283260e54f442d1f3263a837545c234f7701d1a5b568dda76a5d596f532c4f950425a2f79cd74203ccbb27293020"),
  ("909192939495969798999a9b9c9d9e9fa0a1a2a3a4a5a6a7a8a9aaabacadaeaf", "0000000000000000", 256, "ca585389dda8d79b73ca2c64b476c7760dc029271b359eb10d09b90fef816e96432ccedfb51322f7aea6deb896e048fa2aad234f89c45fc25967df99955b1234"),
  ("909192939495969798999a9b9c9d9e9fa0a1a2a3a4a5a6a7a8a9aaabacadaeaf", "0000000000000000", 448, "7dece5c4ba2e08a2a61a37d9dd56bc892e141874a572ae4342067cbd4e0809331851640e5d6ef48f73a4a638c74471c185e731136bac231b0803a66a4cdb6a4c"),
  ("999a9b9c9d9e9fa0a1a2a3a4a5a6a7a8a9aaabacadaeafb0b1b2b3b4b5b6b7b8", "0000000000000000", 0, "9b05907b8f2ee3e831d9a0be6203dbed012c381b7e3225b52282b9d0ba5a5a6aa367f7c553177557b87ffaa73c59e123b8b2f069b6c0f6df25cc0a340cd2550d"),
  ("999a9b9c9d9e9fa0a1a2a3a4a5a6a7a8a9aaabacadaeafb0b1b2b3b4b5b6b7b8", "0000000000000000", 192, "4274d6c7996e9e605d378a52cb5aeccce6ef862fc0f40091c79fdc93de2b7cf84b484fc874687be243965f92080444d2206123c6815e9a497610283d79eb8fa9"),
  ("999a9b9c9d9e9fa0a1a2a3a4a5a6a7a8a9aaabacadaeafb0b1b2b3b4b5b6b7b8", "0000000000000000", 256, "b9ebaf94f5cd2ccdaa2f8804e586de0998a5e2e79d9c2e9f6267a16b314c374807e7dd80a3115d2f64f1a7b6af174ad68ea04962d48c7f0bca72d9cda9945fb1"),
  ("999a9b9c9d9e9fa0a1a2a3a4a5a6a7a8a9aaabacadaeafb0b1b2b3b4b5b6b7b8", "0000000000000000", 448, "a08547da215e1372ced1ac1192431af352b670ce9ff5f1f3a598cb17961d7780f1d08a6c69bf2ef73bb54dac8308d32066cb8132de497fdd9bb54739a54a57ac"),
  ("a2a3a4a5a6a7a8a9aaabacadaeafb0b1b2b3b4b5b6b7b8b9babbbcbdbebfc0c1", "0000000000000000", 0, "7d0ff0dcb7caac90e548e24beea22d101c927e0a9bd559bc32ba70b346659f418fd9e36202d3af35cb836f1bd15087de0d01fff0bd42bc24b01a65cad6f38e2c"),
  ("a2a3a4a5a6a7a8a9aaabacadaeafb0b1b2b3b4b5b6b7b8b9babbbcbdbebfc0c1", "0000000000000000", 192, "12e246ba025a6174789c631646d092a8865094571ff71bc28a38beaceb08a82272441de97c1f273a9ae185b1f05b2953ec37c940ee4c3ab5c901ff563563ccc9"),
  ("a2a3a4a5a6a7a8a9aaabacadaeafb0b1b2b3b4b5b6b7b8b9babbbcbdbebfc0c1", "0000000000000000", 256, "2b48a7b5979bd5d27e841d2a6ed203d79126471db9201444d07fcea31a66d22fdc65636f451b8d51365639ce2f5090b8d08e14fe955580cb3692f4a35410d9ba"),
  ("a2a3a4a5a6a7a8a9aaabacadaeafb0b1b2b3b4b5b6b7b8b9babbbcbdbebfc0c1", "0000000000000000", 448, "a94e650ccc1adee62d2bac9aa8969ba1911429b6b9287e2e8a553752eddf6f82132fa5620e1f4f671edf9c2ef1b76db1ce63a8a61edf905a8d5d195d8ee7a116"),
  ("abacadaeafb0b1b2b3b4b5b6b7b8b9babbbcbdbebfc0c1c2c3c4c5c6c7c8c9ca", "0000000000000000", 0, "f943b21c04a85c22ed1fc5bfbacaaf932cb889ef7cd4472089b16b6dda5c72e9a8f11b66cfc7677d72fb8908018b2a32f6b37a2ac811665d8266841199c066ae"),
  ("abacadaeafb0b1b2b3b4b5b6b7b8b9babbbcbdbebfc0c1c2c3c4c5c6c7c8c9ca", "0000000000000000", 192, "e877ca4c8570a4a0cf06fecccf0430bbc63077b80518c4bfec10ba18abb08c0b3fd72d94eed86f1a9a38385ad4395a967abb10b245d71680e50c2918cb5ae210"),
  ("abacadaeafb0b1b2b3b4b5b6b7b8b9babbbcbdbebfc0c1c2c3c4c5c6c7c8c9ca", "0000000000000000", 256, "89b67848c1661afe6d54d7b7a92eb3ffab5d4e1438b6beb9e51de6733f08a71ff16b676851add55712c5ee91b3f893810352a3c0dc7093fcc6d11810c475f472"),
  ("abacadaeafb0b1b2b3b4b5b6b7b8b9babbbcbdbebfc0c1c2c3c4c5c6c7c8c9ca", "0000000000000000", 448, "14abc36fb047eb4137390d3aa34864077400cdf9ac001025ba6f45bedd460ecd2fd4c16064f5579c50acc64361ee9470468b39f5cabcf366e0ae7dea4eb1feb1"),
  ("b4b5b6b7b8b9babbbcbdbebfc0c1c2c3c4c5c6c7c8c9cacbcccdcecfd0d1d2d3", "0000000000000000", 0, "5f76e49a712a9b36d646fdb1355fa862de02bdc06e9aa4df8dc0749102adb071d575101d0ca6e36034ee3a039cf5239b817466a88de350081d91090d79842df5"),
  ("b4b5b6b7b8b9babbbcbdbebfc0c1c2c3c4c5c6c7c8c9cacbcccdcecfd0d1d2d3", "0000000000000000", 192, "48aeecb9ba29a1b52b2a5f58597980cf2b5a31cd6db97b98a4db560500705ed70bf7d9946df6b2d26c77e2bc3152f23c2302f08ade124f97e9e45f2894832434"),
  ("b4b5b6b7b8b9babbbcbdbebfc0c1c2c3c4c5c6c7c8c9cacbcccdcecfd0d1d2d3", "0000000000000000", 256, "bd9bfa707093fd92be49e0b0fd0a9e890afd92ac6a50375173ce0c966c9d9a87e2b538445e697ea193bd33d60dc9f1071784cda56c8aad2bc67e17c9f5bdbaf8"),
  ("b4b5b6b7b8b9babbbcbdbebfc0c1c2c3c4c5c6c7c8c9cacbcccdcecfd0d1d2d3", "0000000000000000", 448, "1477e6b19ca394b91496c5c1e1efe3d468d157b035c87a4667f6559f56c84abf3ce27d85d85784c40081ea064835904dae34a9277900b6f2f0b67f44b6b41776"),
  ("bdbebfc0c1c2c3c4c5c6c7c8c9cacbcccdcecfd0d1d2d3d4d5d6d7d8d9dadbdc", "0000000000000000", 0, "1d8d3cb0b17972779fbd8339bdbc5d0c4178c943381afa6fa974ff792c78b4bb5e0d8a2d2f9988c01f0ff7ce8ad310b66fa3b8d8cb507e507c4516bc9e7603b6"),
  ("bdbebfc0c1c2c3c4c5c6c7c8c9cacbcccdcecfd0d1d2d3d4d5d6d7d8d9dadbdc", "0000000000000000", 192, "f32d0691b1832478889516518c441adb8f0fe2165b15043756bb37928ebca33f9c166a5907f7f85ccf45ce6bfb68e725748fa39528149a0e96b0b6c656854f88"),
  ("bdbebfc0c1c2c3c4c5c6c7c8c9cacbcccdcecfd0d1d2d3d4d5d6d7d8d9dadbdc", "0000000000000000", 256, "66a7226ea4cf4db203592f0c678ba8d299f26e212f2874681e29426a579469b2ca747b8620e7e48a7e77d50e5c45ff62a733d6052b2fb4aab4ac782539193a76"),
  ("bdbebfc0c1c2c3c4c5c6c7c8c9cacbcccdcecfd0d1d2d3d4d5d6d7d8d9dadbdc", "0000000000000000", 448, "25cccd9e6ff25d8d6525e621bc376f6af73c749e80213260f1418b0c191b1f24c1922dad397efa6062bbe9e3612d35d530f49c5d9d4f11e4cb2b3a4e66731fa8"),
  ("c6c7c8c9cacbcccdcecfd0d1d2d3d4d5d6d7d8d9dadbdcdddedfe0e1e2e3e4e5", "0000000000000000", 0, "9d2eb0e9a93a0ef9f8abce0916c06eebe9c8ebb52a8112cd352a8e2e4ee84dfd44b7c8251d0d1a36ea69ceb8c595d527da0ef26a2c5a5f443dc3040c6bf2da49"),
  ("c6c7c8c9cacbcccdcecfd0d1d2d3d4d5d6d7d8d9dadbdcdddedfe0e1e2e3e4e5", "0000000000000000", 192, "a86842c08da057352b70fb63ebd1516fd56e7bb389bbbb22f8ede940dc7036cfe10104ab81a51f23cfe35cccc07bf50d40a2438f3b3aeab62953406a9e7d7bf3"),
  ("c6c7c8c9cacbcccdcecfd0d1d2d3d4d5d6d7d8d9dadbdcdddedfe0e1e2e3e4e5", "0000000000000000", 256, "9ee5ee22ffedb13c11a81b0e5ec82db6303f22a62f0fd0574ce7007af1ea2fcc23d9c4196ebe897ab0d00371429f518ec150063eae314ee72efadb1aa7714ac6"),
  ("c6c7c8c9cacbcccdcecfd0d1d2d3d4d5d6d7d8d9dadbdcdddedfe0e1e2e3e4e5", "0000000000000000", 448, "125acd159548c79fcc93bfec7b832c5d387afd85a0537bb6a49a8c3f4673306bd76e17ac601629e00ab5aff62b269491ad996a624c6b1888bf13785ad63dec7c"),
  ("cfd0d1d2d3d4d5d6d7d8d9dadbdcdddedfe0e1e2e3e4e5e6e7e8e9eaebecedee", "0000000000000000", 0, "1d99bd420a9ebe17cf6144eebe46a4b5d8ce913f571dcedee6c6e3cfa27572f59983d4b2cadc292a956983af7250ca81a23a9eda42417cc150597891045ff321"),
  ("cfd0d1d2d3d4d5d6d7d8d9dadbdcdddedfe0e1e2e3e4e5e6e7e8e9eaebecedee", "0000000000000000", 192, "d53ab2e60871f42d10e6747fe358e56214d7ce3e7ba38e51354c801b72e5d515dd805f8fdba9f1bc81c5926dbe8cdbd23b006714cc8d550671036f6fd2991825"),
  ("cfd0d1d2d3d4d5d6d7d8d9dadbdcdddedfe0e1e2e3e4e5e6e7e8e9eaebecedee", "0000000000000000", 256, "fd97553220fb51132c33ebda78606a245c5e3578a69754bf4fc11d6242605160b4085dfdfc3d11505f72dc15cc16c68337798e0dabd37c67b2e8912e498ea940"),
  ("cfd0d1d2d3d4d5d6d7d8d9dadbdcdddedfe0e1e2e3e4e5e6e7e8e9eaebecedee", "0000000000000000", 448, "a2d9199683d73f01ddd77bd46cd5bcef37cd9d4ecba40b6c51446dcc68bcad189fbefefc3d82131ecf98263299dc0ca91dd349e4dd348a88b2e3d7aa2d20cc13"),
  ("d8d9dadbdcdddedfe0e1e2e3e4e5e6e7e8e9eaebecedeeeff0f1f2f3f4f5f6f7", "0000000000000000", 0, "b9751af24fcf14907948f7ad36e2649a9a07b637f84d34e961ee82b7c33a9cc37b96da6a956aff4a629546c422802767ad9f24bb2e79f09fcd43775fac965123"),
  ("d8d9dadbdcdddedfe0e1e2e3e4e5e6e7e8e9eaebecedeeeff0f1f2f3f4f5f6f7", "0000000000000000", 192, "6c4cb6ad15ddce11f1bf68fff1376e0f4ce35abce777f4ab1d6906d09184689db697d1cffaf46c5b85ad9f21cff0d7563df67cf86d4199fa055f4be18afa34c2"),
  ("d8d9dadbdcdddedfe0e1e2e3e4e5e6e7e8e9eaebecedeeeff0f1f2f3f4f5f6f7", "0000000000000000", 256, "35f4a1bbb9da8476a82367a5607c72a0c273a8d1f94dc4d62fdb2fa303858678fabcd6c6eba64849640bfb6fe4adb34028fae26f802ea0ece37d2ac2f2560ce8"),
  ("d8d9dadbdcdddedfe0e1e2e3e4e5e6e7e8e9eaebecedeeeff0f1f2f3f4f5f6f7", "0000000000000000", 448, "3d208e3cfaf58af11bcc527f948a3b75e1751a28a76cbfe94204783820ad7fee7c98b318eda2dc87111d18978cee0c0ce39f1469e7cb3eeedbd6bf30da68df34"),
  ("e1e2e3e4e5e6e7e8e9eaebecedeeeff0f1f2f3f4f5f6f7f8f9fafbfcfdfeff00", "0000000000000000", 0, "ea444200cde137a48dd3728cfc0fe82a1cd6f0f412c0343639052b6471f8321c3c9a38986a5f882a26abcfb342d3ff504e2ebf01d8cda2408ae1a9023f4d64ca"),
  ("e1e2e3e4e5e6e7e8e9eaebecedeeeff0f1f2f3f4f5f6f7f8f9fafbfcfdfeff00", "0000000000000000", 192, "5c20b3ceca032c29e7b8118bb8b946f990a9dd8895d9d7fe620727087db8c6e96973741552a24e8c3b9ec81fa2b06e5ff4283201639c83cc0c6af8aa20fbddd9"),
  ("e1e2e3e4e5e6e7e8e9eaebecedeeeff0f1f2f3f4f5f6f7f8f9fafbfcfdfeff00", "0000000000000000", 256, "4db2ff5167737bb90ad337fe16c10bd9e4d2b8d6fbd172f5448d099d24feaea9b30224ab670781c667292d04c76efec2476b2d33ada7a7132677e4b8270c68cd"),
  ("e1e2e3e4e5e6e7e8e9eaebecedeeeff0f1f2f3f4f5f6f7f8f9fafbfcfdfeff00", "0000000000000000", 448, "5ab9f03158ea17b1d845cdc688c3bb0ff1ac5ceaa2f16db3178223d1471d01910e9d5bb3c6d0c9cc652c0acf527b4f4494b0de521164493800e132b272a42a22"),
  ("eaebecedeeeff0f1f2f3f4f5f6f7f8f9fafbfcfdfeff00010203040506070809", "0000000000000000", 0, "99a8ccec6c5b2a0b6e336cb20652241c32b24d34acc0457ef679178ede7cf805805a9305c7c49909683bd1a803327817627ca46fe8b929b6df0012bd864183be"),
  ("eaebecedeeeff0f1f2f3f4f5f6f7f8f9fafbfcfdfeff00010203040506070809", "0000000000000000", 192, "2d226c11f47b3c0ccd0959b61f59d5cc30fcef6dbb8cbb3dcc1cc25204fcd4498c37426a63bea3282b1a8a0d60e13eb2fe59241a9f6af426689866edc769e1e6"),
  ("eaebecedeeeff0f1f2f3f4f5f6f7f8f9fafbfcfdfeff00010203040506070809", "0000000000000000", 256, "482fe1c128a15c1123b5655ed546df014ce0c455dbf5d3a13d9cd4f0e2d1dab9f12fb68c544261d7f88eac1c6cbf993fbbb8e0aa8510bff8e73835a1e86eadbb"),
  ("eaebecedeeeff0f1f2f3f4f5f6f7f8f9fafbfcfdfeff00010203040506070809", "0000000000000000", 448, "0597188a1c19255769be1c210399ad172eb46c52f92fd541df2ead71b1ff8ea7add380ec71a5fd7adb5181eadd1825ec02779a4509be5832708ca2836c1693a5"),
  ("f3f4f5f6f7f8f9fafbfcfdfeff000102030405060708090a0b0c0d0e0f101112", "0000000000000000", 0, "b4c0afa503be7fc29a62058166d56f8f5d27dc246f75b9ad8760c8c39dfd87492d3b76d5d9637f009eada14458a52dfb09815337e72672681dddc24633750d83"),
  ("f3f4f5f6f7f8f9fafbfcfdfeff000102030405060708090a0b0c0d0e0f101112", "0000000000000000", 192, "dbba0683df48c335a9802eef0252256354c9f763c3fde19131a6bb7b85040624b1d6cd4bf66d16f7482236c8602a6d58505eedcca0b77aed574ab583115124b9"),
  ("f3f4f5f6f7f8f9fafbfcfdfeff000102030405060708090a0b0c0d0e0f101112", "0000000000000000", 256, "f0c5f98bae05e019764ef6b65e0694a904cb9ec9c10c297b1ab1a6052365bb78e55d3c6cb9f06184ba7d425a92e7e987757fc5d9afd7082418dd64125ca6f2b6"),
  ("f3f4f5f6f7f8f9fafbfcfdfeff000102030405060708090a0b0c0d0e0f101112", "0000000000000000", 448, "5a5fb5c8f0afea471f0318a4a2792f7aa5c67b6d6e0f0ddb79961c34e3a564ba2eece78d9aff45e510feab1030b102d39dfcecb77f5798f7d2793c0ab09c7a04"),
  ("fcfdfeff000102030405060708090a0b0c0d0e0f101112131415161718191a1b", "0000000000000000", 0, "2064790538acdf1de3852c465070d962fe2993bdd20c96ded5b2e5fa332833742a6b03966d47f8874d39c501ecfe0045725c463530967ed1499097906b9775c3"),
  ("fcfdfeff000102030405060708090a0b0c0d0e0f101112131415161718191a1b", "0000000000000000", 192, "9f880124435347e31fdf6ef96981fab31a912d0b70210cbed6ddc9813521cce2b5c2b80193a59dcd933026d262e8ec74f5880028fbb06166e0a304453a3a54bb"),
  ("fcfdfeff000102030405060708090a0b0c0d0e0f101112131415161718191a1b", "0000000000000000", 256, "8a3f922fcde48ce6c2e324eaa639decce7257a25c420a2435bba98740df6c92a8fa18f1d4e67c5f75f314219bb769685a0c028d115321d10d58b46e5d58abb4e"),
  ("fcfdfeff000102030405060708090a0b0c0d0e0f101112131415161718191a1b", "0000000000000000", 448, "905c86f2f2c1e0454963e21d7498e8f467ecf23f8b02671f57584322e995222358d4fd541714bf12efb189acea624aff2d55b252974d39d8598e8a066536acb2"),
  ("0053a6f94c9ff24598eb3e91e4378add3083d6297ccf2275c81b6ec11467ba0d", "0000000000000000", 0, "f9d2dc274bb55aefc2a0d9f8a982830f6916122bc0a6870f991c6ed8d00d2f8594e3151de4c5a19a9a06fbc191c87bf039adf971314baf6d02337080f2dae5ce"),
  ("0053a6f94c9ff24598eb3e91e4378add3083d6297ccf2275c81b6ec11467ba0d", "0000000000000000", 65472, "05bda8ee240ba6dc53a42c14c17f620f6fa799a6bc88775e04eef427b4b9de5a5349327fcada077f385ba321db4b3939c0f49ea99801790b0fd32986afc41b85"),
  ("0053a6f94c9ff24598eb3e91e4378add3083d6297ccf2275c81b6ec11467ba0d", "0000000000000000", 65536, "fed5279620fbcbdd3c3980b11fce4787e6f9f97772beaad0ef215fdcd0b3a16fbb56d72afd5fd52e6a584bf840914168d04a594ffdda959a63eb4cf42694f03f"),
  ("0053a6f94c9ff24598eb3e91e4378add3083d6297ccf2275c81b6ec11467ba0d", "0000000000000000", 131008, "f161dce8fa4cf80f8143ddb21fa1bfa31ca4dc0a412233ede80ef72daa1b80394bce3875ca1e1e195d58bc3197f803a89c433a59a0718c1a009bcb4da2ac1778"),
  ("0558abfe51a4f74a9df04396e93c8fe23588db2e81d4277acd2073c6196cbf12", "0000000000000000", 0, "2f634849a4edc206ce3e3f89949df4e6ea9a0e3ee87f0ab108c4d3b789ace67307ac8c54f07f30bad9640b7f6edeec9db15e51599eb15e1ca94739fea5f1e3d7"),
  ("0558abfe51a4f74a9df04396e93c8fe23588db2e81d4277acd2073c6196cbf12", "0000000000000000", 65472, "eb2b0fd63c7eeeaa5a4d712eeefc0a7e214beb04d3fda19c32250949868216d3a659b312e13ec66c5832e970f9c91ff94f7463439a9827ecca52248d3cc604cd"),
  ("0558abfe51a4f74a9df04396e93c8fe23588db2e81d4277acd2073c6196cbf12", "0000000000000000", 65536, "425e0df93a3de6b22e0871eb4e435691d77b5c471228de302a79001f89f7e77d837c5ca0177b2206568edc2eb0f169d56b414b9dccdc928659b4be1e0dedff73"),
  ("0558abfe51a4f74a9df04396e93c8fe23588db2e81d4277acd2073c6196cbf12", "0000000000000000", 131008, "6aa3d6938b6b54b4cb8d2885274a991b4a0d5ccf35d981953ec64452facc8640b5acfa39a372e38be4e10ee68e7f1b505a5660cdfbae8dcbfcc9a3847bbb6ba4"),
  ("0a5db00356a9fc4fa2f5489bee4194e73a8de03386d92c7fd22578cb1e71c417", "0000000000000000", 0, "0a8bbd088abadc4d57d3389e32175878125bd89de7e9d05dbf29b753f5f0c2cbf0eef9333526e9308a114e06eb9564eb35c28ea93c17bef0466748079a355b9c"),
  ("0a5db00356a9fc4fa2f5489bee4194e73a8de03386d92c7fd22578cb1e71c417", "0000000000000000", 65472, "f47fdff047f0303f6cce2510fa2475f07784d5f0fbd63d1746bd8ce4bb02802c3052a375d7de75d439174e7b19ceba3b9546db027f14ffdb9ef542d5768ce5a7"),
  ("0a5db00356a9fc4fa2f5489bee4194e73a8de03386d92c7fd22578cb1e71c417", "0000000000000000", 65536, "40fec0ee1697d63cb04299a17c446de06b3407d10c6dd2143dfa24eb7362d09a6857c6aa83a191d65b05ebbbc8133d122bde75900c86fcd8785eece48659c3b0"),
  ("0a5db00356a9fc4fa2f5489bee4194e73a8de03386d92c7fd22578cb1e71c417", "0000000000000000", 131008, "7820087794d46993e984536e7b74c61567ab34c6c0a90090db080e6eb79532fb414cd1145a781a2c55519a3e3ad19fa6d78790313ebe19a86f61068e4c8e508d"),
  ("0f62b5085bae0154a7fa4da0f34699ec3f92e5388bde3184d72a7dd02376c91c", "0000000000000000", 0, "4a671a2ae75db7555bea5995dc53af8dc1e8776af917a3ab2ca9827bced53da700b779820f17294751a2c37ef5cccfe97bf7481e85afc9ecae431b7cf05f6153"),
  ("0f62b5085bae0154a7fa4da0f34699ec3f92e5388bde3184d72a7dd02376c91c", "0000000000000000", 65472, "15c415be73c12230ac9505b92b2b12737f6fb2faaf9c51f22eccb8cbed36a27a1e0738e1252d26e8e5e5651fe8aa02cc9887d141a7cbae80f01be09b314005bb"),
  ("0f62b5085bae0154a7fa4da0f34699ec3f92e5388bde3184d72a7dd02376c91c", "0000000000000000", 65536, "1c48158413f5ec5e64d2fa4786d91d2727df6becd614f6ae745cf2b6f35cd8243e5f1c440bede01e6c8a1145f2ab77fa24d634de88f955d4f830d4a548a926d0"),
  ("0f62b5085bae0154a7fa4da0f34699ec3f92e5388bde3184d72a7dd02376c91c", "0000000000000000", 131008, "a9be2fb00c8bd01054153f77ec0c633ce8df7f78e994907b9f387ff090cb3b954271feadf50c9084106f4285ff4f534daec130aae287d47033179bbaeeb36ce6"),
  ("0000000000000000000000000000000000000000000000000000000000000000", "8000000000000000", 0, "2aba3dc45b4947007b14c851cd694456b303ad59a465662803006705673d6c3e29f1d3510dfc0405463c03414e0e07e359f1f1816c68b2434a19d3eee0464873"),
  ("0000000000000000000000000000000000000000000000000000000000000000", "8000000000000000", 192, "eff0c107dca563b5c0048eb488b40341ed34052790475cd204a947eb480f3d753ef5347cebb0a21f25b6cc8de6b48906e604f554a6b01b23791f95c4a93a4717"),
  ("0000000000000000000000000000000000000000000000000000000000000000", "8000000000000000", 256, "e3393e1599863b52de8c52cf26c752fb473b74a34d6d9fe31e9ca8dd6292522f13eb456c5be9e5432c06e1ba3965d45448936bc98376bf903969f049347ea05d"),
  ("0000000000000000000000000000000000000000000000000000000000000000", "8000000000000000", 448, "fc4b2ef3b6b3815c99a437f16bdb06c5b948692786081d91c48cc7b072abb901c0491cc6900f2fea217bffc70c43edd665e3e020b59aaa43868e9949fbb9ae22"),
  ("0000000000000000000000000000000000000000000000000000000000000000", "0040000000000000", 0, "f28343bcf4c946fc95dcaaed9da10b277e573fc8ebc8cee246fddc533d29c2ea05451ed9a821c4161ee0afa32ec0fca0dad124b702da9248b3d2aa64489c9d26"),
  ("0000000000000000000000000000000000000000000000000000000000000000", "0040000000000000", 192, "c65f799168d6b229d0281309526b746c490d3edc0f6408a04339275fce04bdf4656ab5868495c32d238fdb97869a9332e09cb7be8031d38b8f565fb5469c8459"),
  ("0000000000000000000000000000000000000000000000000000000000000000", "0040000000000000", 256, "03e48fd41282fcd62c7217ed64153e55b558f82a613245c3d8a885542346aa3927de9734c0581338c3de5db443ec4227e3f82677d259d2d42601d187c79bf87a"),
  ("0000000000000000000000000000000000000000000000000000000000000000", "0040000000000000", 448, "551f95ad9751e4f4bace7fd48b6a3c67e86c4b1e5b747ba60377b07fe8365e09f8973085f8a6086fc56bd88168d8c5618b01b159ef29f658c85fd117925d46e0"),
  ("0000000000000000000000000000000000000000000000000000000000000000", "0000200000000000", 0, "621f3014e0adc8022868c3d9070bc49e48bc6b504aff11cb17957f0ebfb7612f7fcb67c60a2fbd7a4bd7c312e8f50af3ca7520821d73db47189dad557c436ddc"),
  ("0000000000000000000000000000000000000000000000000000000000000000", "0000200000000000", 192, "42c8dfe869c90018825e2037bb5e2ebbc4a4a42660afea8a2e385afbbc63ef3098d052ff4a52ed12107ee71c1aec271e6870538fceaa1191b4224a6ffdce5327"),
  ("0000000000000000000000000000000000000000000000000000000000000000", "0000200000000000", 256, "4214da4faf0df7fc2955d81403c9d49ee87116b1975c5823e28d9a08c5b1189dc52bcbef065b637f1870980cb778b75adda41613f5f4728ad8d8d189fbf0e76d"),
  ("0000000000000000000000000000000000000000000000000000000000000000", "0000200000000000", 448, "4ca854257ece95e67383fc8665c3a8238b87255f815ca4dec2d57db72924c60cb20a7ee40c559406aaab25be5f47184dd187ed7ea191133f3000cb88dcbac433"),
  ("0000000000000000000000000000000000000000000000000000000000000000", "0000001000000000", 0, "d2db1a5cf1c1acdbe81a7a4340ef53435e7f4b1a50523f8d283dcf851d696e60f2de7456181b8410d462ba6050f061f21c787fc12434af58bf2c59ca9077f3b0"),
  ("0000000000000000000000000000000000000000000000000000000000000000", "0000001000000000", 192, "6ce020b3e83765a11f9ae157ad2d07d1ea4e9fbbf386c83fef54319746e5f997d35be9f73b99772da97054ff073013143ff9e5b47c61966d8525f17265f48d08"),
  ("0000000000000000000000000000000000000000000000000000000000000000", "0000001000000000", 256, "ffeab16eea5c43bfd08d2591f9a4029324cddc83a840b2c136b7ce99af3a66cb3084e4e2ca6f44ac5ceaf7a1157be2673df688b43bd51b9a8444ce194e3ca7f2"),
  ("0000000000000000000000000000000000000000000000000000000000000000", "0000001000000000", 448, "0d3873fd47a7b3400115c40574469d215bce0679ed5cf9e374e473b4427de4985804dd75151d72ee367a3f066e641b7f5cf28a67215b74dd80eb3fc02e12a308"),
  ("0000000000000000000000000000000000000000000000000000000000000000", "0000000008000000", 0, "22e129373f7589d9eafff18dea63432e38d0245bae221d3635bee176760552b89b6bc49cfeb7d9a5b358963c488ed8fad01f1c72307cadeef9c20273fb5d6775"),
  ("0000000000000000000000000000000000000000000000000000000000000000", "0000000008000000", 192, "6e6ffcb8b324ee4ff55e64449b2a356bd53d8ab7747dffc0b3d044e0be1a736b4ab2109624600fe8ca7e6949a4df82aca5c96d039f78b67767a1b66fab0ef24b"),
  ("0000000000000000000000000000000000000000000000000000000000000000", "0000000008000000", 256, "c3df823dba0f84d70e425d0c2c88dce3caec3acca435b5a2832be2e0f0aa46ad3f288afe49be5c345dc65445d26993f51e3f46e0c1b02b5aedf73d68336aa04f"),
  ("0000000000000000000000000000000000000000000000000000000000000000", "0000000008000000", 448, "443b0fdc4f8365ab93a07682ebca7b9242259a26dab3574b2e562ccabdb2563396f331146347c26d5db49c87054642f860fc1a0b87468ed0b5cb9c30d72ea8f7"),
  ("0000000000000000000000000000000000000000000000000000000000000000", "0000000000040000", 0, "dc302570a4d1c44f31d9fa55c7712b11ae770bfaa3f8631dff924bcf00a09c906571b024ce5264215e516d73416bf3e3ce373cae669db1a057efd7eb184243b6"),
  ("0000000000000000000000000000000000000000000000000000000000000000", "0000000000040000", 192, "a52427068f8048fc5e3e6e94a1a616cd11f5a9ed4f8899f780f67836eec4fadbb19c183c6946541f182f224104df944466d96a6ce7f2efe723807a8738950ad9"),
  ("0000000000000000000000000000000000000000000000000000000000000000", "0000000000040000", 256, "d1410a14dfa3da5c9bdf18a34476f7c0d7a8373331741ed62682c555ea8b62a81edb10db9479baf2cd532cfb18357a92ff90897315f69cee526de31329cfa06b"),
  ("0000000000000000000000000000000000000000000000000000000000000000", "0000000000040000", 448, "9ca44af188e42090f9969fb5f771c987557912b83261760ee80a809f7e398a66d56049ffdffbd3e16633537b84afb38e564b717a0c26ebfee907b8ef7fda31f0"),
  ("0000000000000000000000000000000000000000000000000000000000000000", "0000000000000200", 0, "98951956f4bd5e2e9dc624ccd2d79e606d24a4db51d413fdaf9a9741a6f079b421400fda0b4d8785578bb318bdad4abca8c2d1ba3ba4e18c2f5572499f345bc1"),
  ("0000000000000000000000000000000000000000000000000000000000000000", "0000000000000200", 192, "c3a267f0eb87ed714e09cabc2780fef6e5f665bbbbb44c8448d8eb42d88275cd62ad759aac9f4080f73993de50ff94e834e2cf7b74a91e68b38eace9c12922c2"),
  ("0000000000000000000000000000000000000000000000000000000000000000", "0000000000000200", 256, "78bd0bb32a69e62362ee7e31f1dd9e96ca6e196844efd9459f270d612119dfa45dd1522967629143cecd585cfe62b7fd9d1503a62a238c35a66595c49dd71575"),
  ("0000000000000000000000000000000000000000000000000000000000000000", "0000000000000200", 448, "c17f946c14a492392a1c554993f406b2ea806e4186d97fcb420c21fb4245a3db4eba2bcb59d2c33ce2cd5044a79a96f95182112d9724e16ad9e965047da71f05"),
  ("0000000000000000000000000000000000000000000000000000000000000000", "0000000000000001", 0, "b47f96aa96786135297a3c4ec56a613d0b80095324ff43239d684c57ffe42e1c44f3cc011613db6cdc880999a1e65aed1287fcb11c839c37120765afa73e5075"),
  ("0000000000000000000000000000000000000000000000000000000000000000", "0000000000000001", 192, "97128bd699ddc1b4b135d94811b5d2d6b2adcbdc1ed8d3cf86ecf65a1750de66ca5f1c2ed350dc2f497396e029dbd4a06fdda6238be7d120dd41e9f19e6deea2"),
  ("0000000000000000000000000000000000000000000000000000000000000000", "0000000000000001", 256, "ff8065ad901a2dfc5c01642a840f7593ae032946058e54ea67300fbf7b928c203244ef546762ba640032b6a2514122de0ca969283f70ce21f981a5d668274f0d"),
  ("0000000000000000000000000000000000000000000000000000000000000000", "0000000000000001", 448, "1309268be548efec38d79df4334ca949ab15a2a1003e2b97969fe0cd74a16a065fe8691f03cbd0ecfcf6312f2ee0697f44bd3bf3e60320b289cbf21b428c8922"),
  ("0053a6f94c9ff24598eb3e91e4378add3083d6297ccf2275c81b6ec11467ba0d", "0d74db42a91077de", 0, "f5fad53f79f9df58c4aea0d0ed9a9601f278112ca7180d565b420a48019670eaf24ce493a86263f677b46ace1924773d2bb25571e1aa8593758fc382b1280b71"),
  ("0053a6f94c9ff24598eb3e91e4378add3083d6297ccf2275c81b6ec11467ba0d", "0d74db42a91077de", 65472, "b70c50139c63332ef6e77ac54338a4079b82bec9f9a403dfea821b83f7860791650ef1b2489d0590b1de772eeda4e3bcd60fa7ce9cd623d9d2fd5758b8653e70"),
  ("0053a6f94c9ff24598eb3e91e4378add3083d6297ccf2275c81b6ec11467ba0d", "0d74db42a91077de", 65536, "81582c65d7562b80aec2f1a673a9d01c9f892a23d4919f6ab47b9154e08e699b4117d7c666477b60f8391481682f5d95d96623dbc489d88daa6956b9f0646b6e"),
  ("0053a6f94c9ff24598eb3e91e4378add3083d6297ccf2275c81b6ec11467ba0d", "0d74db42a91077de", 131008, "a13ffa1208f8bf50900886faab40fd10e8caa306e63df39536a1564fb760b242a9d6a4628cdc878762834e27a541da2a5e3b3445989c76f611e0fec6d91acacc"),
  ("0558abfe51a4f74a9df04396e93c8fe23588db2e81d4277acd2073c6196cbf12", "167de44bb21980e7", 0, "3944f6dc9f85b128083879fdf190f7dee4053a07bc09896d51d0690bd4da4ac1062f1e47d3d0716f80a9b4d85e6d6085ee06947601c85f1a27a2f76e45a6aa87"),
  ("0558abfe51a4f74a9df04396e93c8fe23588db2e81d4277acd2073c6196cbf12", "167de44bb21980e7", 65472, "36e03b4b54b0b2e04d069e690082c8c592df56e633f5d8c7682a02a65ecd13718ca4352aaccb0da20ed6bbba62e177f210e3560e63bb822c4158caa806a88c82"),
  ("0558abfe51a4f74a9df04396e93c8fe23588db2e81d4277acd2073c6196cbf12", "167de44bb21980e7", 65536, "1b779e7a917c8c26039ffb23cf0ef8e08a1a13b43acdd9402cf5df38501098dfc945a6cc69a6a17367bc03431a86b3ed04b0245b56379bf997e25800ad837d7d"),
  ("0558abfe51a4f74a9df04396e93c8fe23588db2e81d4277acd2073c6196cbf12", "167de44bb21980e7", 131008, "7ec6dae81a105e67172a0b8c4bbe7d06a7a8759f914fbeb1af62c8a552ef4a4f56967ea29c7471f46f3b07f7a3746e953d315821b85b6e8cb40122b96635313c"),
  ("0a5db00356a9fc4fa2f5489bee4194e73a8de03386d92c7fd22578cb1e71c417", "1f86ed54bb2289f0", 0, "3fe85d5bb1960a82480b5e6f4e965a4460d7a54501664f7d60b54b06100a37ffdcf6bde5ce3f4886ba77dd5b44e95644e40a8ac65801155db90f02522b644023"),
  ("0a5db00356a9fc4fa2f5489bee4194e73a8de03386d92c7fd22578cb1e71c417", "1f86ed54bb2289f0", 65472, "c8d6e54c29ca204018a830e266ceee0d037dc47e921947302ace40d1b996a6d80b598677f3352f1daa6d9888f891ad95a1c32ffeb71bb861e8b07058515171c9"),
  ("0a5db00356a9fc4fa2f5489bee4194e73a8de03386d92c7fd22578cb1e71c417", "1f86ed54bb2289f0", 65536, "b79fd776542b4620efcb88449599f23403e74a6e91cacc50a05a8f8f3c0dea8b00e1a5e6081f5526ae975b3bc0450f1a0c8b66f808f1904b971361137c93156f"),
  ("0a5db00356a9fc4fa2f5489bee4194e73a8de03386d92c7fd22578cb1e71c417", "1f86ed54bb2289f0", 131008, "7998204fed70ce8e0d027b206635c08c8bc443622608970e40e3aedf3ce790aeedf89f922671b45378e2cd03f6f62356529c4158b7ff41ee854b1235373988c8"),
  ("0f62b5085bae0154a7fa4da0f34699ec3f92e5388bde3184d72a7dd02376c91c", "288ff65dc42b92f9", 0, "5e5e71f90199340304abb22a37b6625bf883fb89ce3b21f54a10b81066ef87da30b77699aa7379da595c77dd59542da208e5954f89e40eb7aa80a84a6176663f"),
  ("0f62b5085bae0154a7fa4da0f34699ec3f92e5388bde3184d72a7dd02376c91c", "288ff65dc42b92f9", 65472, "2da2174bd150a1dfec1796e921e9d6e24ecf0209bcbea4f98370fce629056f64917283436e2d3f45556225307d5cc5a565325d8993b37f1654195c240bf75b16"),
  ("0f62b5085bae0154a7fa4da0f34699ec3f92e5388bde3184d72a7dd02376c91c", "288ff65dc42b92f9", 65536, "abf39a210eee89598b7133377056c2fef42da731327563fb67c7bedb27f38c7c5a3fc2183a4c6b277f901152472c6b2abcf5e34cbe315e81fd3d180b5d66cb6c"),
  ("0f62b5085bae0154a7fa4da0f34699ec3f92e5388bde3184d72a7dd02376c91c", "288ff65dc42b92f9", 131008, "1ba89dbd3f98839728f56791d5b7ce235036de843cccab0390b8b5862f1e4596ae8a16fb23da997f371f4e0aacc26db8eb314ed470b1af6b9f8d69dd79a9d750")]

/-- The model (in one environment: Salsa20 has one backend) and the published stream. -/
def goodSalsa (c : SeekCipher) (pos : Nat) (pt ct : List U8) (sizes : List Nat) : Bool :=
  (envs.take 1).all (fun e => sizes.all fun n => applyAt c e pos n pt == some ct)
    && List.zipWith (· ^^^ ·) pt (Spec.window c.stream pos pt.length) == ct

#guard ecrypt.length = 412
#guard ecrypt.all fun (k, n, p, c) => goodSalsa (.salsa .debug 10 (hexV 32 k) (hexV 8 n)) p (zeros 64) (hex c) [64]
#guard (ecrypt.take 20).all fun (k, n, p, c) => goodSalsa (.salsa .release 10 (hexV 32 k) (hexV 8 n)) p (zeros 64) (hex c) [1, 13]

#guard goodSalsa (.salsa .debug 10 (hexV 32 "8000000000000000000000000000000000000000000000000000000000000000") (hexV 8 "0000000000000000")) 0 (zeros 64) (hex "e3be8fdd8beca2e3ea8ef9475b29a6e7003951e1097a5c38d23b7a5fad9f6844b22c97559e2723c7cbbd3fe4fc8d9a0744652a83e72a9c461876af4d7ef1a117") [1, 10, 64, 300]
#guard goodSalsa (.salsa .debug 10 (hexV 32 "0000000000000000000000000000000000000000000000000000000000000000") (hexV 8 "8000000000000000")) 0 (zeros 64) (hex "2aba3dc45b4947007b14c851cd694456b303ad59a465662803006705673d6c3e29f1d3510dfc0405463c03414e0e07e359f1f1816c68b2434a19d3eee0464873") [1, 10, 64, 300]
#guard goodSalsa (.salsa .debug 10 (hexV 32 "0000000000000000000000000000000000000000000000000000000000000000") (hexV 8 "0000000000000001")) 0 (zeros 64) (hex "b47f96aa96786135297a3c4ec56a613d0b80095324ff43239d684c57ffe42e1c44f3cc011613db6cdc880999a1e65aed1287fcb11c839c37120765afa73e5075") [1, 10, 64, 300]
#guard goodSalsa (.salsa .debug 10 (hexV 32 "0102030405060708090A0B0C0D0E0F101112131415161718191A1B1C1D1E1F20") (hexV 8 "0301040105090206")) 0 (zeros 256) (hex "6ebcbdbf76fccc64ab05542bee8a67cbc28fa2e141fbefbb3a2f9b221909c8d7d4295258cb539770dd24d7ac3443769ffa27a50e60644264dc8b6b612683372e085d0a12bf240b189ce2b78289862b56fdc9fcffc33bef9325a2e81b98fb3fb9aa04cf434615ceffeb985c1cb08d8440e90b1d56ddeaea16d9e15affff1f698c483c7a466af1fe062574adfd2b06a62b4d98440719ea776385c470349a7ed6969583463ed5d26b8fefccb205da0f5bfa98c77812fe756b09eacc282aa42f4bafa79633189046e2b20f35b3e0e54aa3b929e23c0f47dc7bcd4f928b2a9764be7d4b8a50f980a50b35ad8087375e0c556ecbe6a7161e8653ce9391e1e6710ed4f1") [1, 10, 64, 300]
#guard goodSalsa (.xsalsa .debug 10 (hexV 32 "746869732069732033322d62797465206b657920666f72207873616c73613230") (hexV 24 "32342d62797465206e6f6e636520666f72207873616c7361")) 0 (zeros 64) (hex "4848297feb1fb52fb66d81609bd547fabcbe7026edc8b5e5e449d088bfa69c088f5d8da1d791267c2c195a7f8cae9c4b4050d08ce6d3a151ec265f3a58e47648") [1, 64]
#guard goodSalsa (.xsalsa .debug 10 (hexV 32 "746869732069732033322d62797465206b657920666f72207873616c73613230") (hexV 24 "32342d62797465206e6f6e636520666f72207873616c7361")) 0 (hex "48656c6c6f20776f726c6421") (hex "002d4513843fc240c401e541") [1, 64]

/-- `salsa20_big_offset` -/
def bigOffset : Bool :=
  let c : SeekCipher := .salsa .debug 10 (hexV 32 "8000000000000000000000000000000000000000000000000000000000000000") (hexV 8 "8000000000000000")
  let p := 2 ^ 40
  let z := zeros 1000
  match envs.head? with
  | none => false
  | some e =>
    match runSeek c e [.seek (p - 500), .io (.write z), .pos (2 ^ 64 - 1)],
        runSeek c e [.seek p, .io (.write (zeros 500)), .seek (p - 500), .io (.write (zeros 500)), .pos (2 ^ 64 - 1)] with
    | some (b1, n1), some (b2, n2) => n1 == [p + 500] && n2 == [p] && b1 == b2.drop 500 ++ b2.take 500
    | _, _ => false

#guard bigOffset

/-- `salsa20_regression_2024_03`: `from_raw_state` and one block of Salsa20/8. -/
def rawState : Salsa.State := #v[2123785505, 879699904, 959334342, 2115744216, 477309436, 1153321713, 2181596049, 488300870,
  1113186107, 4152514392, 2202170644, 2028366353, 2177718219, 2842602797, 3038675742, 1716559436]

def rawBlock : List U8 :=
  match (Salsa.core ChaCha.Env 64 .debug 4).process (Sample.soft) (writeBlockClosure 64) rawState with
  | .ok (b, _) => b.toList
  | .error _ => []

#guard rawBlock = hex "66a3d4a32f86eb8eaefe5aa25cb5ff1aac91177dd03f114979d042f15658a505035b90d1559f1dd0c2ceaf3014129729fdd697cf94d16116588b271cd03d9b42"

end Verif.Tests
