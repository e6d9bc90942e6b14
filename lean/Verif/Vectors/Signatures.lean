import Verif.Vectors.Basic

/-!
# Vectors of v2 signature hashes, addresses and networks
-/

namespace Verif.Vector

/-! ### `test_attestation_sig_hash` (sia/src/types/v2.rs) -/

example : ((V2.Attestation.sigHash Blake2b.hash ⟨id 0x774630427e7d7409eaaa88337b7a8e8ac6881320c290816882f63ac310488b70, "2d341885482102f2", [113, 1, 70, 231, 190, 215, 117, 38], Arr.zero 64⟩ (chain 1 10 0)).1 == chunk 32 0x5c4201fd4c261a1a3deb25130bd8f06d7d87a46281fd022252152844336a7c17) = true := by decide +kernel

/-! ### `test_file_contract_sig_hash` (sia/src/types/v2.rs) -/

example : ((Serde.v2FileContract env).de
    (.obj [("capacity", .nat 15437388468662742744), ("filesize", .nat 16009828729725979578), ("fileMerkleRoot", .str "2d3b2c7b78f04eb1b66ac467ae7831081f7b495a2964b943c2c750e70180785a"), ("proofHeight", .nat 0), ("expirationHeight", .nat 0), ("renterOutput", .obj [("value", .str "2825068531000000000000000000000000"), ("address", .str "cf620149bcbde171fcd9611a32ba29e2e97687f3b1562c1fe14c504f642690c9d8f5ec3cbeaf")]), ("hostOutput", .obj [("value", .str "0"), ("address", .str "000000000000000000000000000000000000000000000000000000000000000089eb0d6a8a69")]), ("missedHostValue", .str "0"), ("totalCollateral", .str "0"), ("renterPublicKey", .str "ed25519:0000000000000000000000000000000000000000000000000000000000000000"), ("hostPublicKey", .str "ed25519:0000000000000000000000000000000000000000000000000000000000000000"), ("revisionNumber", .nat 0), ("renterSignature", .str "bee650e82a5534269bef42be0dd9a0b0f6c465b31437567075275d2188c685b2b65ef0fc7f369c780a758786f480da4d55459a1d85215f64aa47db1e79b1b8de"), ("hostSignature", .str "c32cf921ee00344d76e96e6f2dd306bd9c21226c83bb2ac55ce69b8d991a2f2212f645341c720f2fd8a7c57edef9b32f26a2c29c55958a45fd5c0d56a2addae3")])).check (fun c => (V2.FileContract.sigHash Blake2b.hash c (chain 1 10 0)).1 == chunk 32 0x0b9b74e471b8936e0045e752a1a22a77b7c17807ec98a1a3f272f6d917790325) = true := by decide +kernel

/-! ### `test_contract_renewal_sig_hash` (sia/src/types/v2.rs) -/

example : ((Serde.renewal env).de
    (.obj [("finalRevision", .obj [("capacity", .nat 11959377077631068749), ("filesize", .nat 10613077956865333006), ("fileMerkleRoot", .str "9482be576a5d68b6ad311b359b12070fae3df71fc0d2ec480a5ba8c3f4c9ad40"), ("proofHeight", .nat 0), ("expirationHeight", .nat 0), ("renterOutput", .obj [("value", .str "107325855000000000000000000000000"), ("address", .str "cc590b0901f908ee76ea2c8497b9c29d7f2250db4427b7b1dfd8d5c0a368845c4a70d66c8998")]), ("hostOutput", .obj [("value", .str "0"), ("address", .str "000000000000000000000000000000000000000000000000000000000000000089eb0d6a8a69")]), ("missedHostValue", .str "0"), ("totalCollateral", .str "0"), ("renterPublicKey", .str "ed25519:0000000000000000000000000000000000000000000000000000000000000000"), ("hostPublicKey", .str "ed25519:0000000000000000000000000000000000000000000000000000000000000000"), ("revisionNumber", .nat 18446744073709551615), ("renterSignature", .str "a71062c50866e8e834143340117efc49adbe7c8e50775c2ef6c2d8fd84470231928115e377288d588d93342946adbcbc83c5e3be01d4d22accf59c86f44ad523"), ("hostSignature", .str "a277c4b62d6ab7eead9d02c9e6243810baa0af9a8fef8b70b2f33df83fc8e67b94b2247b53c5e6d3a93a6197d41dd07652b75896757cf1dfeb059edca458de40")]), ("newContract", .obj [("capacity", .nat 2615073250361876210), ("filesize", .nat 14611382285114970285), ("fileMerkleRoot", .str "5942d80cb6816da220a9576d62f3979b5e4f96b769cf785bcddf31698afb1432"), ("proofHeight", .nat 0), ("expirationHeight", .nat 0), ("renterOutput", .obj [("value", .str "4046664893000000000000000000000000"), ("address", .str "41b74682d50aed617224d17162150c3854cc290b522c20d62260466ef13a95e212b7d9c6778b")]), ("hostOutput", .obj [("value", .str "0"), ("address", .str "000000000000000000000000000000000000000000000000000000000000000089eb0d6a8a69")]), ("missedHostValue", .str "0"), ("totalCollateral", .str "0"), ("renterPublicKey", .str "ed25519:0000000000000000000000000000000000000000000000000000000000000000"), ("hostPublicKey", .str "ed25519:0000000000000000000000000000000000000000000000000000000000000000"), ("revisionNumber", .nat 0), ("renterSignature", .str "2614ae9d0b8300c98eadc1ffcab414298e30c678c0072359b1794623a04a68ef2474fbb1492071313b6f768946a52978b520c219a23649bfef9b9d0baabc7331"), ("hostSignature", .str "9c14a4f1428ad5bd72075c626fdf7dcf24143eda3a9cbecbc16ca751f0c88ee09e04a7f4f79718fb87df6debdd1d94d97bd00bcfa4fa77b3de582ad26eb45139")]), ("renterRollover", .str "3597839704000000000000000000000000"), ("hostRollover", .str "3099140907000000000000000000000000"), ("renterSignature", .str "4906067918dc6e7951c4e42b5b5bc1c3a3e3f02bddd10bf981275ccd0e8a5a067d35d4b5c2115256454490fed011e5c11ea35cb378eb6ada168b65d614515a44"), ("hostSignature", .str "5414a4c1e32f17b275148f3935a53b30cc30d1a0ff43e88f71e8308209282528a2942779638a6e2329314101e5ea79627d98b0f1b19830bf0ea89f670f7798bf")])).check (fun c => (V2.FileContractRenewal.sigHash Blake2b.hash c (chain 1 10 0)).1 == chunk 32 0xf20822926c53eac2bf91d54e5b39f7de76739226b131448e5508f077ebbccf3b) = true := by decide +kernel

/-! ### `test_address` (sia/src/types/spendpolicy.rs) -/

example : (SpendPolicy.address Blake2b.hash (.publicKey (id 0x0102030000000000000000000000000000000000000000000000000000000000))).check (fun a => (a.1 ++ (Blake2b.hash a.1).1.take 6) == chunk 38 0x55a7793237722c6df8222fd512063cb74228085ef1805c5184713648c159b919ac792fbad0e1) = true := by decide +kernel

example : (SpendPolicy.address Blake2b.hash (.above 100)).check (fun a => (a.1 ++ (Blake2b.hash a.1).1.take 6) == chunk 38 0xc2fba9b9607c800e80d9284ed0fb9a55737ba1bbd67311d0d9242dd6376bed0c6ee355e814fa) = true := by decide +kernel

example : (SpendPolicy.address Blake2b.hash (.after ⟨1433600000, 0⟩)).check (fun a => (a.1 ++ (Blake2b.hash a.1).1.take 6) == chunk 38 0x5bdb96e33ffdf72619ad38bee57ad4db9eb242aeb2ee32020ba16179af5d46d501bd2011806b) = true := by decide +kernel

example : (SpendPolicy.address Blake2b.hash (.hash (id 0x0100000000000000000000000000000000000000000000000000000000000000))).check (fun a => (a.1 ++ (Blake2b.hash a.1).1.take 6) == chunk 38 0x1cc0fc4cde659333cf7e61971cc5025c5a6b4759c9d1c1d438227c3eb57d841512d4cd4ce620) = true := by decide +kernel

example : (SpendPolicy.address Blake2b.hash (.threshold 2 [(.publicKey (id 0x0102030000000000000000000000000000000000000000000000000000000000)), .above 100, .threshold 2 [.publicKey (Arr.zero 32), .after ⟨1433600000, 0⟩]])).check (fun a => (a.1 ++ (Blake2b.hash a.1).1.take 6) == chunk 38 0x30f516630280059c25ae92f3bf3c451be258ecd3249c43906e3d9dd9e86f2dc00ef5eeffc2c4) = true := by decide +kernel

/-! ### `test_serialize_network` (sia/src/consensus.rs) -/

example : ((Network.anagami .checked).check fun n => ((Serde.network env).ser n).check fun d => d.same
    (.obj [("name", .str "anagami"), ("initialCoinbase", .str "300000000000000000000000000000"), ("minimumCoinbase", .str "300000000000000000000000000000"), ("initialTarget", .str "0000000100000000000000000000000000000000000000000000000000000000"), ("blockInterval", .nat 600000000000), ("maturityDelay", .nat 144), ("hardforkDevAddr", .obj [("height", .nat 1), ("oldAddress", .str "000000000000000000000000000000000000000000000000000000000000000089eb0d6a8a69"), ("newAddress", .str "000000000000000000000000000000000000000000000000000000000000000089eb0d6a8a69")]), ("hardforkTax", .obj [("height", .nat 2)]), ("hardforkStorageProof", .obj [("height", .nat 5)]), ("hardforkOak", .obj [("height", .nat 10), ("fixHeight", .nat 12), ("genesisTimestamp", .str "2024-08-22T00:00:00Z")]), ("hardforkASIC", .obj [("height", .nat 20), ("oakTime", .nat 10000000000000), ("oakTarget", .str "0000000100000000000000000000000000000000000000000000000000000000")]), ("hardforkFoundation", .obj [("height", .nat 30), ("primaryAddress", .str "241352c83da002e61f57e96b14f3a5f8b5de22156ce83b753ea495e64f1affebae88736b2347"), ("failsafeAddress", .str "000000000000000000000000000000000000000000000000000000000000000089eb0d6a8a69")]), ("hardforkV2", .obj [("allowHeight", .nat 2016), ("requireHeight", .nat 2304)])])) = true := by decide +kernel

example : ((Network.mainnet .checked).check fun n => ((Serde.network env).ser n).check fun d => d.same
    (.obj [("name", .str "mainnet"), ("initialCoinbase", .str "300000000000000000000000000000"), ("minimumCoinbase", .str "30000000000000000000000000000"), ("initialTarget", .str "0000000020000000000000000000000000000000000000000000000000000000"), ("blockInterval", .nat 600000000000), ("maturityDelay", .nat 144), ("hardforkDevAddr", .obj [("height", .nat 10000), ("oldAddress", .str "7d0c44f7664e2d34e53efde0661a6f628ec9264785ae8e3cd7c973e8d190c3c97b5e3ecbc567"), ("newAddress", .str "f371c70bce9eb8979cd5099f599ec4e4fcb14e0afcf31f9791e03e6496a4c0b358c98279730b")]), ("hardforkTax", .obj [("height", .nat 21000)]), ("hardforkStorageProof", .obj [("height", .nat 100000)]), ("hardforkOak", .obj [("height", .nat 135000), ("fixHeight", .nat 139000), ("genesisTimestamp", .str "2015-06-06T14:13:20Z")]), ("hardforkASIC", .obj [("height", .nat 179000), ("oakTime", .nat 120000000000000), ("oakTarget", .str "0000000000000000200000000000000000000000000000000000000000000000")]), ("hardforkFoundation", .obj [("height", .nat 298000), ("primaryAddress", .str "053b2def3cbdd078c19d62ce2b4f0b1a3c5e0ffbeeff01280efb1f8969b2f5bb4fdc680f0807"), ("failsafeAddress", .str "27c22a6c6e6645802a3b8fa0e5374657438ef12716d2205d3e866272de1b644dbabd53d6d560")]), ("hardforkV2", .obj [("allowHeight", .nat 1000000), ("requireHeight", .nat 1025000)])])) = true := by decide +kernel

example : ((Network.zen .checked).check fun n => ((Serde.network env).ser n).check fun d => d.same
    (.obj [("name", .str "zen"), ("initialCoinbase", .str "300000000000000000000000000000"), ("minimumCoinbase", .str "300000000000000000000000000000"), ("initialTarget", .str "0000000100000000000000000000000000000000000000000000000000000000"), ("blockInterval", .nat 600000000000), ("maturityDelay", .nat 144), ("hardforkDevAddr", .obj [("height", .nat 1), ("oldAddress", .str "000000000000000000000000000000000000000000000000000000000000000089eb0d6a8a69"), ("newAddress", .str "000000000000000000000000000000000000000000000000000000000000000089eb0d6a8a69")]), ("hardforkTax", .obj [("height", .nat 2)]), ("hardforkStorageProof", .obj [("height", .nat 5)]), ("hardforkOak", .obj [("height", .nat 10), ("fixHeight", .nat 12), ("genesisTimestamp", .str "2023-01-13T08:53:20Z")]), ("hardforkASIC", .obj [("height", .nat 20), ("oakTime", .nat 10000000000000), ("oakTarget", .str "0000000100000000000000000000000000000000000000000000000000000000")]), ("hardforkFoundation", .obj [("height", .nat 30), ("primaryAddress", .str "053b2def3cbdd078c19d62ce2b4f0b1a3c5e0ffbeeff01280efb1f8969b2f5bb4fdc680f0807"), ("failsafeAddress", .str "000000000000000000000000000000000000000000000000000000000000000089eb0d6a8a69")]), ("hardforkV2", .obj [("allowHeight", .nat 100000), ("requireHeight", .nat 102000)])])) = true := by decide +kernel

end Verif.Vector
