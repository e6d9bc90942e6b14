import Verif.Vectors.Basic

/-!
# The vector of `input_sig_hash`
-/

namespace Verif.Vector

/-! ### `test_input_sig_hash` (sia/src/types/v2.rs) -/

example : ((Serde.v2Transaction env).de
    (.obj [("siacoinInputs", .arr [.obj [("parent", .obj [("id", .str "af88fb86ace93d500549ad5d3ccae9d75184c932d8b9f6b39b22dc1beb19cb2b"), ("stateElement", .obj [("leafIndex", .nat 17247661272366213787), ("merkleProof", .arr [.str "419c0046c59819e4541a3810134dac5c975eb61cb12382c0fbad713257a9efd3"])]), ("siacoinOutput", .obj [("value", .str "3088711336000000000000000000000000"), ("address", .str "c6b4adae9284845d1075bc33a68d281bf02ed406206f58a50d13191af7b6f617933bf733cd42")]), ("maturityHeight", .nat 0)]), ("satisfiedPolicy", .obj [("policy", .obj [("type", .str "pk"), ("policy", .str "ed25519:e655ec65952c4953c904c9ee16961dfb02e8689f1f82fcfd9e387c8ea1104a2b")]), ("signatures", .arr [.str "7ba834e5e33ca4ac7ad7dbd2b3bd42c7ae62db25263feb2a51777f5c8d5569b1eb28e349544689d3f96242a66d33dcdebeab4e5fa30c906fd2caaf83c16f3bfe"])])]]), ("siacoinOutputs", .arr [.obj [("value", .str "1597553234000000000000000000000000"), ("address", .str "bc99db1f50a653604797de23d535c9fbf73b493ab70089c7716c1e5c5fc2d0a578575d367eb0")]]), ("fileContracts", .arr [.obj [("capacity", .nat 10874342648285931495), ("filesize", .nat 13810078500867640614), ("fileMerkleRoot", .str "424b9304a9fccf94945ef14c6377060be59fb7d58ac8c952d67be05c67d863a2"), ("proofHeight", .nat 0), ("expirationHeight", .nat 0), ("renterOutput", .obj [("value", .str "1556050983000000000000000000000000"), ("address", .str "4505c61036d22e5075c676ea5906a645eb1cfa9a6a53d933ecfa198654b7d3f0fe74bdfbdaef")]), ("hostOutput", .obj [("value", .str "0"), ("address", .str "000000000000000000000000000000000000000000000000000000000000000089eb0d6a8a69")]), ("missedHostValue", .str "0"), ("totalCollateral", .str "0"), ("renterPublicKey", .str "ed25519:0000000000000000000000000000000000000000000000000000000000000000"), ("hostPublicKey", .str "ed25519:0000000000000000000000000000000000000000000000000000000000000000"), ("revisionNumber", .nat 18446744073709551615), ("renterSignature", .str "84d8091517ff09f11df171b21a1414200ea7074664c7e27d9de13c44bbb6cbc0de6de5783c6955065a77035bb2d92974fb5f11aa0dae9ac50dbddbb17d63d7fc"), ("hostSignature", .str "2fad832ddb5d6b11893851df4ecbd9a4b512a7a425dda67ac0da1604a0e8781d04e29cef928f31be706e6fc81089048ea87366449450e3da941a0b04487582f2")]]), ("fileContractRevisions", .arr [.obj [("parent", .obj [("id", .str "22e9e60d81478b36fc44ee67b8d8ba874d196fc6e9c56bfacd5fcecdde39b736"), ("stateElement", .obj [("leafIndex", .nat 12023426945600912207), ("merkleProof", .arr [.str "a0efcbdbe1f8e1b4fb6615eccac5948303d5a2c5afedda0baf658e5bbe41896e"])]), ("v2FileContract", .obj [("capacity", .nat 10776473623907646048), ("filesize", .nat 7973631990249562263), ("fileMerkleRoot", .str "acd56f68224de7828076cb53f3476413819c8c78dde2461422c5a96644fba623"), ("proofHeight", .nat 0), ("expirationHeight", .nat 0), ("renterOutput", .obj [("value", .str "842083234000000000000000000000000"), ("address", .str "150084c56cd2bc38e80220eb69a485b5c298ee3c9f7fcc046c6b975ea8fb70f9098afe1ad85b")]), ("hostOutput", .obj [("value", .str "0"), ("address", .str "000000000000000000000000000000000000000000000000000000000000000089eb0d6a8a69")]), ("missedHostValue", .str "0"), ("totalCollateral", .str "0"), ("renterPublicKey", .str "ed25519:0000000000000000000000000000000000000000000000000000000000000000"), ("hostPublicKey", .str "ed25519:0000000000000000000000000000000000000000000000000000000000000000"), ("revisionNumber", .nat 18446744073709551615), ("renterSignature", .str "94dd2555507b81cfd927b36891a9b37465c00cb46a61d96ede5f760f1c5a5cadabb8c7719adb5cb088eec92d9a9c52497973fc2b5d0c54a2dfa04e35490e25b5"), ("hostSignature", .str "d66133988a412e5542535e9a6c3815396c46020a4ad693074d6681049b39c438af9dd395478566e193263e8acfa915848ec23ff47a95eca51bac4ede2a92f634")])]), ("revision", .obj [("capacity", .nat 6034084714889303577), ("filesize", .nat 12020548219123782123), ("fileMerkleRoot", .str "2ce9c19107be51ab776221d61300c6c1aa32c2195246473eb15d7db12ec0943f"), ("proofHeight", .nat 0), ("expirationHeight", .nat 0), ("renterOutput", .obj [("value", .str "2247488091000000000000000000000000"), ("address", .str "6f7add99e7eba38429b101ff31190aa3a148c0087a3ad775790a8e01a90f71a94ca9ba2ffc71")]), ("hostOutput", .obj [("value", .str "0"), ("address", .str "000000000000000000000000000000000000000000000000000000000000000089eb0d6a8a69")]), ("missedHostValue", .str "0"), ("totalCollateral", .str "0"), ("renterPublicKey", .str "ed25519:0000000000000000000000000000000000000000000000000000000000000000"), ("hostPublicKey", .str "ed25519:0000000000000000000000000000000000000000000000000000000000000000"), ("revisionNumber", .nat 18446744073709551615), ("renterSignature", .str "7fb556fef4bfea24f7b9472b1b9874be600795da4535107d3910085a3e34c5818a60bd77d0bcbd92e6dbec604f1b67d827ba02072e83abfac217a2294157c53f"), ("hostSignature", .str "77664782e2c1dd42a3669f11f0519630561a4c0b48552c89bb74f79367f21fd73b6bc5ea112502f81bbc9e3df3b916158486c2e17145b95e5307ca56fb37fc6c")])]]), ("fileContractResolutions", .arr [.obj [("parent", .obj [("id", .str "6b8527472e1143e07099e3f516f56ac2b46860f13652582b2abb6fffeac1f5d9"), ("stateElement", .obj [("leafIndex", .nat 14811616376775388856), ("merkleProof", .arr [.str "bf4325ff8d463ba3bf62e9f697911a4bf8038971298440f4a2c5e010730ac594"])]), ("v2FileContract", .obj [("capacity", .nat 6642268570724229223), ("filesize", .nat 15896577861535581162), ("fileMerkleRoot", .str "6e19255c03515dbbee1280f8e13e7378810243042a01a439849c0ddbc0fd7eac"), ("proofHeight", .nat 0), ("expirationHeight", .nat 0), ("renterOutput", .obj [("value", .str "2825432965000000000000000000000000"), ("address", .str "2ca7f5d7cbd79fbf4b5f2f5a4ead652342dd0413e39e9406b2935c53162d9347359d0477b320")]), ("hostOutput", .obj [("value", .str "0"), ("address", .str "000000000000000000000000000000000000000000000000000000000000000089eb0d6a8a69")]), ("missedHostValue", .str "0"), ("totalCollateral", .str "0"), ("renterPublicKey", .str "ed25519:0000000000000000000000000000000000000000000000000000000000000000"), ("hostPublicKey", .str "ed25519:0000000000000000000000000000000000000000000000000000000000000000"), ("revisionNumber", .nat 18446744073709551615), ("renterSignature", .str "169330702f83d499de6bff18cc7c2474785e02b8101baf8427407e9f6cc3ee6e7768b7e6ef929a6510c1b0ac1c24eab8090af84c27c772c80201fe93da535e17"), ("hostSignature", .str "29bf20483727c327e36c3085a87d91ad3072ca82f5d62da1d9895980320ab7a65d133bb147d55bd97c9f5a36a85afbfb8d9209ac82afaca18df64054394f0f08")])]), ("type", .str "expiration"), ("resolution", .obj [])], .obj [("parent", .obj [("id", .str "2dd1bedefe81f2914ddf9f61c9d714d134d0af7a75d1c1322474d5e8eea342f2"), ("stateElement", .obj [("leafIndex", .nat 11863728860462350395), ("merkleProof", .arr [.str "91a391d6104f76e439580a90f56fec3c07d01ad5535315416243ae6d8e17289d"])]), ("v2FileContract", .obj [("capacity", .nat 3158332065060007910), ("filesize", .nat 11561455863259225844), ("fileMerkleRoot", .str "b4db7aa14dc851a348e0981c3ed1161dc286bca85424da42609b3c12f5f31ee6"), ("proofHeight", .nat 0), ("expirationHeight", .nat 0), ("renterOutput", .obj [("value", .str "2522086295000000000000000000000000"), ("address", .str "36e4ed130d7a9f0cbcdd0ed6fa78738dcd9eb6e779fc7501dd06f7cf968ce215e33778f0c79e")]), ("hostOutput", .obj [("value", .str "0"), ("address", .str "000000000000000000000000000000000000000000000000000000000000000089eb0d6a8a69")]), ("missedHostValue", .str "0"), ("totalCollateral", .str "0"), ("renterPublicKey", .str "ed25519:0000000000000000000000000000000000000000000000000000000000000000"), ("hostPublicKey", .str "ed25519:0000000000000000000000000000000000000000000000000000000000000000"), ("revisionNumber", .nat 18446744073709551615), ("renterSignature", .str "ff79f46439dd108ebe2c42434a11b916f7dee6f018798435b3c34a92ca121d3e21c0282d4efba4982a36e2cfe146e3c8ee31ba545911857a93d947faef543e2f"), ("hostSignature", .str "7f45f2f977e574ea980a0842f48d216b6680d129a98056cafa7f108487457bde8e0cd1cc5d74ba3187170f214115827bc961f0163203c479c3d4ab7e19f3d31f")])]), ("type", .str "storageProof"), ("resolution", .obj [("proofIndex", .obj [("id", .str "90da2d2ed68b716be7617b8c35c713ad66584a1dbf564cc44c09b6f3815e1d79"), ("stateElement", .obj [("leafIndex", .nat 1814794313179331469), ("merkleProof", .arr [.str "8a3990c651140b9486c09559c54623a4e8ca5c2705a7de2b0b54de6d97e6d01d"])]), ("chainIndex", .obj [("height", .nat 17891680254001945312), ("id", .str "e5b6bf4a036b93d8a178ffe86ee209502a0ff3d45d2b3216052267b7a5561d21")])]), ("leaf", .str "c5e078423107b4d2c0ab10509404c525343e96eff45ea6353039194470aec04e3994d52cd2d9a6cbbd3709387207f59f063bec4e7266f6fa0c6dfcf7d7634a1c"), ("proof", .arr [.str "f900e345a663fb6ec9eca5721a81e25fae111e50f38aeb76fd6258f2d4cecd86"])])], .obj [("parent", .obj [("id", .str "49d9f6a8cfae42cd9cc4d792b1799ab2752be164cd86ce5e474fe3731c31b492"), ("stateElement", .obj [("leafIndex", .nat 376572300431080610), ("merkleProof", .arr [.str "b2945edc55afbc2344d201baaed373fc0a737c00216186c5e724c3e7d681a705"])]), ("v2FileContract", .obj [("capacity", .nat 14165001982102687892), ("filesize", .nat 5514344128076756235), ("fileMerkleRoot", .str "3bcf704f911a925eea72629d71352e1f402fc7d3b632f0df6e203089a6fd9092"), ("proofHeight", .nat 0), ("expirationHeight", .nat 0), ("renterOutput", .obj [("value", .str "1548819653000000000000000000000000"), ("address", .str "c1f4c5d401041e4eb68455283ce6705f2dcdc5ac4d700f7dc233b13f91bbfa986aec255c62bb")]), ("hostOutput", .obj [("value", .str "0"), ("address", .str "000000000000000000000000000000000000000000000000000000000000000089eb0d6a8a69")]), ("missedHostValue", .str "0"), ("totalCollateral", .str "0"), ("renterPublicKey", .str "ed25519:0000000000000000000000000000000000000000000000000000000000000000"), ("hostPublicKey", .str "ed25519:0000000000000000000000000000000000000000000000000000000000000000"), ("revisionNumber", .nat 18446744073709551615), ("renterSignature", .str "ac99ce31b11341a8835e2666eed317b0042d45ce6ccb52a11a3d2d6c7ec050f432ea8e1fef95b3481da64c5b2b3a772459db094a68d4a3cf52f2e928f3dd7b55"), ("hostSignature", .str "c8a097593157a24390c5fc77bed87c54355e03572ff2b49137801c51ac55ff092141dfb46505808fa97ee22e839d682f9de7f595896338ebf1c4e1885067747c")])]), ("type", .str "renewal"), ("resolution", .obj [("finalRevision", .obj [("capacity", .nat 6539007356562521256), ("filesize", .nat 17290867016333557028), ("fileMerkleRoot", .str "ebaa3f96d6572cc3caf3036468ddf52ef6fbfcc3eacef4cffd6eabcd43d1b91a"), ("proofHeight", .nat 0), ("expirationHeight", .nat 0), ("renterOutput", .obj [("value", .str "2415984205000000000000000000000000"), ("address", .str "1300755d91ac9d739e168f5e54eb2aba9aa0c29cc29142ab4babf0e92be83f17cde6a5ff4ed5")]), ("hostOutput", .obj [("value", .str "0"), ("address", .str "000000000000000000000000000000000000000000000000000000000000000089eb0d6a8a69")]), ("missedHostValue", .str "0"), ("totalCollateral", .str "0"), ("renterPublicKey", .str "ed25519:0000000000000000000000000000000000000000000000000000000000000000"), ("hostPublicKey", .str "ed25519:0000000000000000000000000000000000000000000000000000000000000000"), ("revisionNumber", .nat 18446744073709551615), ("renterSignature", .str "a1489731bddba377854020ae706127938ce95c617d22db29b9f9aa331ee27dbfb625b67b3418647b40d4ab4f0075a69a10d66840a3cec4b3c86112ce7e648761"), ("hostSignature", .str "4181fc7c46f09d0124c365a1aeba76f906d99afb3f49d6637f54fc4e2746776a8f3aa343bc823c705c11a581a87ddb918d9bccec0cb2deb46aa4627cf5cf3e80")]), ("newContract", .obj [("capacity", .nat 2724141139581307456), ("filesize", .nat 2682841277844293416), ("fileMerkleRoot", .str "62ea0682d909fb36df6557ea2d8174b20db44c0ad1ed692b7b11b40893147e36"), ("proofHeight", .nat 0), ("expirationHeight", .nat 0), ("renterOutput", .obj [("value", .str "4004958805000000000000000000000000"), ("address", .str "cc6a403530f6da43fb262723a9536a96666bd74075d64dd7d0eb65df5c494c24b115cdee00c5")]), ("hostOutput", .obj [("value", .str "0"), ("address", .str "000000000000000000000000000000000000000000000000000000000000000089eb0d6a8a69")]), ("missedHostValue", .str "0"), ("totalCollateral", .str "0"), ("renterPublicKey", .str "ed25519:0000000000000000000000000000000000000000000000000000000000000000"), ("hostPublicKey", .str "ed25519:0000000000000000000000000000000000000000000000000000000000000000"), ("revisionNumber", .nat 0), ("renterSignature", .str "ed98b9027f795d3eeafac4928963a55189066fa8a447fd70041d498d6d1072ad5247d36cd657e1f5163889f14591e89159daca5c8c3e645af9b26ac782990cfc"), ("hostSignature", .str "841fff506bfbdc5c9f6dcda6de472dd6bc7e73e5f0974e0bc979fdcc24059246590ef2f6af2b75a786c27f78f43a27e5da91b320736a5cbb7bb15be8375e372e")]), ("renterRollover", .str "3037399761000000000000000000000000"), ("hostRollover", .str "2211277679000000000000000000000000"), ("renterSignature", .str "745f21dae4f1fba04c2d9b09ae69a9e5f096cf26707447fb3b1c17e486b71589b7dc5fda40ef08eac2122b51606b2fbe84211c5f6507631456ac0dd0ee164ef3"), ("hostSignature", .str "0510b572606c3144a4472538b722c2420165efda406b92b74457459d5c5b90a622490d7a70bd7e5e40b031fadd9d3edd90c13226869d8d358512aab5b0145a11")])]]), ("attestations", .arr [.obj [("publicKey", .str "ed25519:269ba257f490941f5fcfde5313e326fa205a1a8d91715d91f892581d7282bf21"), ("key", .str "629109f07df18f46"), ("value", .str "Adg+GFWhwVo="), ("signature", .str "d44eb9a001803f52814adae65da4dc195d760e7afb00b9593716e54a116db7b98ad8e774e101098d31abca3b389a01a08438d7a33508f1f665d2d48f4524509d")]]), ("minerFee", .str "2208027072000000000000000000000000")])).check (fun c => (V2.Transaction.inputSigHash Blake2b.hash c (chain 1 10 0)).1 == chunk 32 0xaefb1120a3f69fc8293caeb0bd36b4637d6fdf12f2f60494a2875358552f1422) = true := by decide +kernel

end Verif.Vector
