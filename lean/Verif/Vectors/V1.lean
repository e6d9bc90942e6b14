import Verif.Vectors.Basic

/-!
# Vectors of the v1 types
-/

namespace Verif.Vector

/-! ### `test_serialize_block` (sia/src/types/common.rs) -/

example : agrees .v1 (Serde.block env) (.obj [("parentID", .str "8fb49ccf17dfdcc9526dec6ee8a5cca20ff8247302053d3777410b9b0494ba8c"), ("nonce", .nat 1236112), ("timestamp", .str "1970-01-01T00:00:00Z"), ("minerPayouts", .arr [.obj [("value", .str "57234234623612361"), ("address", .str "000000000000000000000000000000000000000000000000000000000000000089eb0d6a8a69")]]), ("transactions", .arr [.obj [("siacoinInputs", .arr [.obj [("parentID", .str "8fb49ccf17dfdcc9526dec6ee8a5cca20ff8247302053d3777410b9b0494ba8c"), ("unlockConditions", .obj [("timelock", .nat 0), ("publicKeys", .arr [.str "ed25519:8fb49ccf17dfdcc9526dec6ee8a5cca20ff8247302053d3777410b9b0494ba8c"]), ("signaturesRequired", .nat 1)])]]), ("siacoinOutputs", .arr [.obj [("value", .str "67856467336433871"), ("address", .str "000000000000000000000000000000000000000000000000000000000000000089eb0d6a8a69")]])]])])
    (bytes 350 [0x8fb49ccf17dfdcc9526dec6ee8a5cca20ff8247302053d3777410b9b0494ba8c, 0x90dc120000000000000000000000000001000000000000000700000000000000, 0xcb563bafbb55c900000000000000000000000000000000000000000000000000, 0x00000000000000010000000000000001000000000000008fb49ccf17dfdcc952, 0x6dec6ee8a5cca20ff8247302053d3777410b9b0494ba8c000000000000000001, 0x000000000000006564323535313900000000000000000020000000000000008f, 0xb49ccf17dfdcc9526dec6ee8a5cca20ff8247302053d3777410b9b0494ba8c01, 0x0000000000000001000000000000000700000000000000f11318f74d10cf0000, 0x0000000000000000000000000000000000000000000000000000000000000000, 0x0000000000000000000000000000000000000000000000000000000000000000, 0x000000000000000000000000000000000000000000000000000000000000]) = true := by decide +kernel

/-! ### `test_serialize_unlock_key` (sia/src/types/v1.rs) -/

example : agrees .v1 Serde.unlockKey (.str "ed25519:9aac1ffb1cfd1079a8c6c87b47da1d567e35b97234993c288c1ad0db1d1ce1b6")
    (bytes 56 [0x6564323535313900000000000000000020000000000000009aac1ffb1cfd1079, 0xa8c6c87b47da1d567e35b97234993c288c1ad0db1d1ce1b6]) = true := by decide +kernel

/-! ### `test_serialize_unlock_conditions` (sia/src/types/v1.rs) -/

example : agrees .v1 Serde.unlockConditions (.obj [("timelock", .nat 123), ("publicKeys", .arr [.str "ed25519:9aac1ffb1cfd1079a8c6c87b47da1d567e35b97234993c288c1ad0db1d1ce1b6"]), ("signaturesRequired", .nat 1)])
    (bytes 80 [0x7b00000000000000010000000000000065643235353139000000000000000000, 0x20000000000000009aac1ffb1cfd1079a8c6c87b47da1d567e35b97234993c28, 0x8c1ad0db1d1ce1b60100000000000000]) = true := by decide +kernel

/-! ### `test_serialize_covered_fields` (sia/src/types/v1.rs) -/

example : agrees .v1 Serde.coveredFields (.obj [("wholeTransaction", .bool false), ("siacoinInputs", .arr [.nat 1]), ("siacoinOutputs", .arr [.nat 2, .nat 3])])
    (bytes 105 [0x0001000000000000000100000000000000020000000000000002000000000000, 0x0003000000000000000000000000000000000000000000000000000000000000, 0x0000000000000000000000000000000000000000000000000000000000000000, 0x000000000000000000]) = true := by decide +kernel

/-! ### `test_serialize_siacoin_input` (sia/src/types/v1.rs) -/

example : agrees .v1 Serde.v1SiacoinInput (.obj [("parentID", .str "b3633a1370a72002ae2a956d21e8d481c3a69e146633470cf625ecd83fdeaa24"), ("unlockConditions", .obj [("timelock", .nat 123), ("publicKeys", .arr [.str "ed25519:9aac1ffb1cfd1079a8c6c87b47da1d567e35b97234993c288c1ad0db1d1ce1b6"]), ("signaturesRequired", .nat 1)])])
    (bytes 112 [0xb3633a1370a72002ae2a956d21e8d481c3a69e146633470cf625ecd83fdeaa24, 0x7b00000000000000010000000000000065643235353139000000000000000000, 0x20000000000000009aac1ffb1cfd1079a8c6c87b47da1d567e35b97234993c28, 0x8c1ad0db1d1ce1b60100000000000000]) = true := by decide +kernel

/-! ### `test_serialize_siafund_input` (sia/src/types/v1.rs) -/

example : agrees .v1 (Serde.v1SiafundInput env) (.obj [("parentID", .str "b3633a1370a72002ae2a956d21e8d481c3a69e146633470cf625ecd83fdeaa24"), ("unlockConditions", .obj [("timelock", .nat 123), ("publicKeys", .arr [.str "ed25519:9aac1ffb1cfd1079a8c6c87b47da1d567e35b97234993c288c1ad0db1d1ce1b6"]), ("signaturesRequired", .nat 1)]), ("claimAddress", .str "8fb49ccf17dfdcc9526dec6ee8a5cca20ff8247302053d3777410b9b0494ba8cdf32abee86f0")])
    (bytes 144 [0xb3633a1370a72002ae2a956d21e8d481c3a69e146633470cf625ecd83fdeaa24, 0x7b00000000000000010000000000000065643235353139000000000000000000, 0x20000000000000009aac1ffb1cfd1079a8c6c87b47da1d567e35b97234993c28, 0x8c1ad0db1d1ce1b601000000000000008fb49ccf17dfdcc9526dec6ee8a5cca2, 0x0ff8247302053d3777410b9b0494ba8c]) = true := by decide +kernel

/-! ### `test_serialize_transaction_signature` (sia/src/types/v1.rs) -/

example : agrees .v1 Serde.transactionSignature (.obj [("parentID", .str "b3633a1370a72002ae2a956d21e8d481c3a69e146633470cf625ecd83fdeaa24"), ("publicKeyIndex", .nat 1), ("timelock", .nat 2), ("coveredFields", .obj [("wholeTransaction", .bool true)]), ("signature", .str "AwMDAwMDAwMDAwMDAwMDAwMDAwMDAwMDAwMDAwMDAwMDAwMDAwMDAwMDAwMDAwMDAwMDAwMDAwMDAwMDAwMDAw==")])
    (bytes 201 [0xb3633a1370a72002ae2a956d21e8d481c3a69e146633470cf625ecd83fdeaa24, 0x0100000000000000020000000000000001000000000000000000000000000000, 0x0000000000000000000000000000000000000000000000000000000000000000, 0x0000000000000000000000000000000000000000000000000000000000000000, 0x0040000000000000000303030303030303030303030303030303030303030303, 0x0303030303030303030303030303030303030303030303030303030303030303, 0x030303030303030303]) = true := by decide +kernel

/-! ### `test_serialize_filecontract` (sia/src/types/v1.rs) -/

example : agrees .v1 (Serde.v1FileContract env) (.obj [("filesize", .nat 1), ("fileMerkleRoot", .str "0101010000000000000000000000000000000000000000000000000000000000"), ("windowStart", .nat 2), ("windowEnd", .nat 3), ("payout", .str "456"), ("validProofOutputs", .arr [.obj [("value", .str "789"), ("address", .str "02020200000000000000000000000000000000000000000000000000000000008749787b31db")]]), ("missedProofOutputs", .arr [.obj [("value", .str "101112"), ("address", .str "0303030000000000000000000000000000000000000000000000000000000000c596d559a239")]]), ("unlockHash", .str "04040400000000000000000000000000000000000000000000000000000000006c604f10c928"), ("revisionNumber", .nat 4)])
    (bytes 207 [0x0100000000000000010101000000000000000000000000000000000000000000, 0x0000000000000000020000000000000003000000000000000200000000000000, 0x01c8010000000000000002000000000000000315020202000000000000000000, 0x0000000000000000000000000000000000000000010000000000000003000000, 0x00000000018af803030300000000000000000000000000000000000000000000, 0x0000000000000004040400000000000000000000000000000000000000000000, 0x000000000000000400000000000000]) = true := by decide +kernel

/-! ### `test_serialize_filecontract_revision` (sia/src/types/v1.rs) -/

example : agrees .v1 (Serde.v1FileContractRevision env) (.obj [("parentID", .str "0908070000000000000000000000000000000000000000000000000000000000"), ("unlockConditions", .obj [("timelock", .nat 123), ("publicKeys", .arr [.str "ed25519:9aac1ffb1cfd1079a8c6c87b47da1d567e35b97234993c288c1ad0db1d1ce1b6"]), ("signaturesRequired", .nat 1)]), ("revisionNumber", .nat 4), ("filesize", .nat 1), ("fileMerkleRoot", .str "0101010000000000000000000000000000000000000000000000000000000000"), ("windowStart", .nat 2), ("windowEnd", .nat 3), ("validProofOutputs", .arr [.obj [("value", .str "789"), ("address", .str "02020200000000000000000000000000000000000000000000000000000000008749787b31db")]]), ("missedProofOutputs", .arr [.obj [("value", .str "789"), ("address", .str "0303030000000000000000000000000000000000000000000000000000000000c596d559a239")]]), ("unlockHash", .str "04040400000000000000000000000000000000000000000000000000000000006c604f10c928")])
    (bytes 308 [0x0908070000000000000000000000000000000000000000000000000000000000, 0x7b00000000000000010000000000000065643235353139000000000000000000, 0x20000000000000009aac1ffb1cfd1079a8c6c87b47da1d567e35b97234993c28, 0x8c1ad0db1d1ce1b6010000000000000004000000000000000100000000000000, 0x0101010000000000000000000000000000000000000000000000000000000000, 0x0200000000000000030000000000000001000000000000000200000000000000, 0x0315020202000000000000000000000000000000000000000000000000000000, 0x0000010000000000000002000000000000000315030303000000000000000000, 0x0000000000000000000000000000000000000000040404000000000000000000, 0x0000000000000000000000000000000000000000]) = true := by decide +kernel

/-! ### `test_serialize_storage_proof` (sia/src/types/v1.rs) -/

example : agrees .v1 Serde.v1StorageProof (.obj [("parentID", .str "b3633a1370a72002ae2a956d21e8d481c3a69e146633470cf625ecd83fdeaa24"), ("leaf", .str "0102030405060708090a0b0c0d0e0f101112131415161718191a1b1c1d1e1f202122232425262728292a2b2c2d2e2f303132333435363738393a3b3c3d3e3f40"), ("proof", .arr [.str "0102030000000000000000000000000000000000000000000000000000000000", .str "0405060000000000000000000000000000000000000000000000000000000000"])])
    (bytes 168 [0xb3633a1370a72002ae2a956d21e8d481c3a69e146633470cf625ecd83fdeaa24, 0x0102030405060708090a0b0c0d0e0f101112131415161718191a1b1c1d1e1f20, 0x2122232425262728292a2b2c2d2e2f303132333435363738393a3b3c3d3e3f40, 0x0200000000000000010203000000000000000000000000000000000000000000, 0x0000000000000000040506000000000000000000000000000000000000000000, 0x0000000000000000]) = true := by decide +kernel

/-! ### `test_serialize_transaction` (sia/src/types/v1.rs) -/

example : agrees .v1 (Serde.v1Transaction env) (.obj [("siacoinInputs", .arr [.obj [("parentID", .str "750d22eff727689d1d8d1c83e513a30bb68ee7f9125a4dafc882459e34c2069d"), ("unlockConditions", .obj [("timelock", .nat 0), ("publicKeys", .arr [.str "ed25519:800ed6c2760e3e4ba1ff00128585c8cf8fed2e3dc1e3da1eb92d49f405bd6360"]), ("signaturesRequired", .nat 6312611591377486220)])]]), ("siacoinOutputs", .arr [.obj [("value", .str "890415399000000000000000000000000"), ("address", .str "480a064b5fca13002a7fe575845154bbf0b3af4cc4f147cbed387d43cce3568ae2497366eaa7")]]), ("fileContracts", .arr [.obj [("filesize", .nat 0), ("fileMerkleRoot", .str "0000000000000000000000000000000000000000000000000000000000000000"), ("windowStart", .nat 10536451586783908586), ("windowEnd", .nat 9324702155635244357), ("payout", .str "0"), ("validProofOutputs", .arr [.obj [("value", .str "1933513214000000000000000000000000"), ("address", .str "944524fff2c49c401e748db37cfda7569fa6df35b704fe716394f2ac3f40ce87b4506e9906f0")]]), ("missedProofOutputs", .arr [.obj [("value", .str "2469287901000000000000000000000000"), ("address", .str "1df67838262d7109ffcd9018f183b1eb33f05659a274b89ea6b52ff3617d34a770e9dd071d2e")]]), ("unlockHash", .str "000000000000000000000000000000000000000000000000000000000000000089eb0d6a8a69"), ("revisionNumber", .nat 9657412421282982780)]]), ("fileContractRevisions", .arr [.obj [("parentID", .str "e4e26d93771d3bbb3d9dd306105d77cfb3a6254d1cc3495903af6e013442c63c"), ("unlockConditions", .obj [("timelock", .nat 0), ("publicKeys", .arr [.str "ed25519:e6b9cde4eb058f8ecbb083d99779cb0f6d518d5386f019af6ead09fa52de8567"]), ("signaturesRequired", .nat 206644730660526450)]), ("revisionNumber", .nat 10595710523108536025), ("filesize", .nat 0), ("fileMerkleRoot", .str "0000000000000000000000000000000000000000000000000000000000000000"), ("windowStart", .nat 4348934140507359445), ("windowEnd", .nat 14012366839994454386), ("validProofOutputs", .arr [.obj [("value", .str "2435858510000000000000000000000000"), ("address", .str "543bc0eda69f728d0a0fbce08e5bfc5ed7b961300e0af226949e135f7d12e32f0544e5262d6f")]]), ("missedProofOutputs", .arr [.obj [("value", .str "880343701000000000000000000000000"), ("address", .str "7b7f9aee981fe0d93bb3f49c6233cf847ebdd39d7dc5253f7fc330df2167073b35f035703237")]]), ("unlockHash", .str "000000000000000000000000000000000000000000000000000000000000000089eb0d6a8a69")]]), ("storageProofs", .arr [.obj [("parentID", .str "c0b9e98c9e03a2740c75d673871c1ee91f36d1bb329ff3ddbf1dfa8c6e1a64eb"), ("leaf", .str "b78fa521dc62d9ced82bc3b61e0aa5a5c221d6cca5db63d94c9879543fb98c0a971094a89cd4408487ae32902248d321b545f9a051729aa0bb1725b848e3d453"), ("proof", .arr [.str "fe08c0a061475e7e5dec19e717cf98792fa7b555d0b5d3540a05db09f59ab8de"])]]), ("minerFees", .arr [.str "241119475000000000000000000000000"]), ("arbitraryData", .arr [.str "2shzIHEUJYwuNHz6c/gPz+aTEWZRTpDTmemX9yYAKlY="]), ("signatures", .arr [.obj [("parentID", .str "06d1fca03c5ddd9b09116db1b97c5451f7dc792b05362969f83e3e8dc1007f46"), ("publicKeyIndex", .nat 6088345341283457116), ("timelock", .nat 2014247885072555224), ("coveredFields", .obj [("wholeTransaction", .bool true)]), ("signature", .str "2XNEKGZrl9RhMa2JmGsvcmqQWAIX/uxtMwLnPI6VJPcXqub6qYIuoAThYp9NAwadk+1GG6CXC66g4rOjFYuNSA==")]])])
    (bytes 1205 [0x0100000000000000750d22eff727689d1d8d1c83e513a30bb68ee7f9125a4daf, 0xc882459e34c2069d000000000000000001000000000000006564323535313900, 0x00000000000000002000000000000000800ed6c2760e3e4ba1ff00128585c8cf, 0x8fed2e3dc1e3da1eb92d49f405bd63608c8111f5cbe69a570100000000000000, 0x0e000000000000002be69f532be55cd4697c87000000480a064b5fca13002a7f, 0xe575845154bbf0b3af4cc4f147cbed387d43cce3568a01000000000000000000, 0x0000000000000000000000000000000000000000000000000000000000000000, 0x000000000000ea125bc7e4fe3892453df5c634ff678100000000000000000100, 0x0000000000000e000000000000005f545e24bc638098ba76be000000944524ff, 0xf2c49c401e748db37cfda7569fa6df35b704fe716394f2ac3f40ce8701000000, 0x000000000e0000000000000079becb8684da8f5198dafd0000001df67838262d, 0x7109ffcd9018f183b1eb33f05659a274b89ea6b52ff3617d34a7000000000000, 0x00000000000000000000000000000000000000000000000000007c6b04146e05, 0x06860100000000000000e4e26d93771d3bbb3d9dd306105d77cfb3a6254d1cc3, 0x495903af6e013442c63c00000000000000000100000000000000656432353531, 0x390000000000000000002000000000000000e6b9cde4eb058f8ecbb083d99779, 0xcb0f6d518d5386f019af6ead09fa52de85677219baa54926de02d9aec0109586, 0x0b93000000000000000000000000000000000000000000000000000000000000, 0x00000000000000000000d58882248f845a3c7211557866ed75c2010000000000, 0x00000e000000000000007818db5664f130fd08a70e000000543bc0eda69f728d, 0x0a0fbce08e5bfc5ed7b961300e0af226949e135f7d12e32f0100000000000000, 0x0e000000000000002b677fe9d9b27794cd88b50000007b7f9aee981fe0d93bb3, 0xf49c6233cf847ebdd39d7dc5253f7fc330df2167073b00000000000000000000, 0x000000000000000000000000000000000000000000000100000000000000c0b9, 0xe98c9e03a2740c75d673871c1ee91f36d1bb329ff3ddbf1dfa8c6e1a64ebb78f, 0xa521dc62d9ced82bc3b61e0aa5a5c221d6cca5db63d94c9879543fb98c0a9710, 0x94a89cd4408487ae32902248d321b545f9a051729aa0bb1725b848e3d4530100, 0x000000000000fe08c0a061475e7e5dec19e717cf98792fa7b555d0b5d3540a05, 0xdb09f59ab8de0000000000000000000000000000000001000000000000000e00, 0x0000000000000be35b0b076a36b5d2bfd3000000010000000000000020000000, 0x00000000dac873207114258c2e347cfa73f80fcfe6931166514e90d399e997f7, 0x26002a56010000000000000006d1fca03c5ddd9b09116db1b97c5451f7dc792b, 0x05362969f83e3e8dc1007f465cd81a99d4257e54d8dc548fc70bf41b01000000, 0x0000000000000000000000000000000000000000000000000000000000000000, 0x0000000000000000000000000000000000000000000000000000000000000000, 0x000000000000000000000000004000000000000000d9734428666b97d46131ad, 0x89986b2f726a90580217feec6d3302e73c8e9524f717aae6faa9822ea004e162, 0x9f4d03069d93ed461ba0970baea0e2b3a3158b8d48]) = true := by decide +kernel

end Verif.Vector
