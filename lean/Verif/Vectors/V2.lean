import Verif.Vectors.Basic

/-!
# Vectors of the v2 types
-/

namespace Verif.Vector

/-! ### `test_serialize_siacoin_element` (sia/src/types/v2.rs) -/

example : agrees .v2 (Serde.siacoinElement env) (.obj [("stateElement", .obj [("leafIndex", .nat 0), ("merkleProof", .arr [.str "0000000000000000000000000000000000000000000000000000000000000000"])]), ("id", .str "0000000000000000000000000000000000000000000000000000000000000000"), ("siacoinOutput", .obj [("value", .str "2389084800000000000000000000000000"), ("address", .str "000000000000000000000000000000000000000000000000000000000000000089eb0d6a8a69")]), ("maturityHeight", .nat 0)])
    (bytes 136 [0x0000000000000000010000000000000000000000000000000000000000000000, 0x0000000000000000000000000000000000000000000000000000000000000000, 0x00000000000000000000000000000000000000809ab5dad71c4e547dca750000, 0x0000000000000000000000000000000000000000000000000000000000000000, 0x0000000000000000]) = true := by decide +kernel

/-! ### `test_serialize_siafund_element` (sia/src/types/v2.rs) -/

example : agrees .v2 (Serde.siafundElement env) (.obj [("stateElement", .obj [("leafIndex", .nat 0), ("merkleProof", .arr [.str "0000000000000000000000000000000000000000000000000000000000000000"])]), ("id", .str "0000000000000000000000000000000000000000000000000000000000000000"), ("siafundOutput", .obj [("value", .nat 1086708929188041408), ("address", .str "000000000000000000000000000000000000000000000000000000000000000089eb0d6a8a69")]), ("claimStart", .str "0")])
    (bytes 136 [0x0000000000000000010000000000000000000000000000000000000000000000, 0x0000000000000000000000000000000000000000000000000000000000000000, 0x00000000000000000000000000000000c0927f7203c4140f0000000000000000, 0x0000000000000000000000000000000000000000000000000000000000000000, 0x0000000000000000]) = true := by decide +kernel

/-! ### `test_serialize_file_contract_element` (sia/src/types/v2.rs) -/

example : agrees .v2 (Serde.fileContractElement env) (.obj [("stateElement", .obj [("leafIndex", .nat 0), ("merkleProof", .arr [.str "0000000000000000000000000000000000000000000000000000000000000000"])]), ("id", .str "0000000000000000000000000000000000000000000000000000000000000000"), ("v2FileContract", .obj [("capacity", .nat 7938725446189123975), ("filesize", .nat 4815560028289493432), ("fileMerkleRoot", .str "dc033023420634ed4c7685c82aa884eebe8415e16c57b6a55c673a5a98fa7b0d"), ("proofHeight", .nat 6265010746208955018), ("expirationHeight", .nat 5159880069065321628), ("renterOutput", .obj [("value", .str "3837391090000000000000000000000000"), ("address", .str "000000000000000000000000000000000000000000000000000000000000000089eb0d6a8a69")]), ("hostOutput", .obj [("value", .str "3827725744000000000000000000000000"), ("address", .str "000000000000000000000000000000000000000000000000000000000000000089eb0d6a8a69")]), ("missedHostValue", .str "965900695000000000000000000000000"), ("totalCollateral", .str "0"), ("renterPublicKey", .str "ed25519:0000000000000000000000000000000000000000000000000000000000000000"), ("hostPublicKey", .str "ed25519:0000000000000000000000000000000000000000000000000000000000000000"), ("revisionNumber", .nat 0), ("renterSignature", .str "00000000000000000000000000000000000000000000000000000000000000000000000000000000000000000000000000000000000000000000000000000000"), ("hostSignature", .str "00000000000000000000000000000000000000000000000000000000000000000000000000000000000000000000000000000000000000000000000000000000")])])
    (bytes 472 [0x0000000000000000010000000000000000000000000000000000000000000000, 0x0000000000000000000000000000000000000000000000000000000000000000, 0x000000000000000000000000000000008709756dbb042c6eb8e9c3f0544ed442, 0xdc033023420634ed4c7685c82aa884eebe8415e16c57b6a55c673a5a98fa7b0d, 0x8a2aca8914caf1569cac41a895939b470000003292d8b9e4856e58af32bd0000, 0x0000000000000000000000000000000000000000000000000000000000000000, 0x000000b0f3637fb05e9bedb0b8bc000000000000000000000000000000000000, 0x00000000000000000000000000000000000000f7420336ee348e78619f2f0000, 0x0000000000000000000000000000000000000000000000000000000000000000, 0x0000000000000000000000000000000000000000000000000000000000000000, 0x0000000000000000000000000000000000000000000000000000000000000000, 0x0000000000000000000000000000000000000000000000000000000000000000, 0x0000000000000000000000000000000000000000000000000000000000000000, 0x0000000000000000000000000000000000000000000000000000000000000000, 0x000000000000000000000000000000000000000000000000]) = true := by decide +kernel

/-! ### `test_serialize_file_contract` (sia/src/types/v2.rs) -/

example : agrees .v2 (Serde.v2FileContract env) (.obj [("capacity", .nat 0), ("filesize", .nat 0), ("fileMerkleRoot", .str "0000000000000000000000000000000000000000000000000000000000000000"), ("proofHeight", .nat 0), ("expirationHeight", .nat 0), ("renterOutput", .obj [("value", .str "0"), ("address", .str "000000000000000000000000000000000000000000000000000000000000000089eb0d6a8a69")]), ("hostOutput", .obj [("value", .str "0"), ("address", .str "000000000000000000000000000000000000000000000000000000000000000089eb0d6a8a69")]), ("missedHostValue", .str "0"), ("totalCollateral", .str "0"), ("renterPublicKey", .str "ed25519:0000000000000000000000000000000000000000000000000000000000000000"), ("hostPublicKey", .str "ed25519:0000000000000000000000000000000000000000000000000000000000000000"), ("revisionNumber", .nat 0), ("renterSignature", .str "00000000000000000000000000000000000000000000000000000000000000000000000000000000000000000000000000000000000000000000000000000000"), ("hostSignature", .str "00000000000000000000000000000000000000000000000000000000000000000000000000000000000000000000000000000000000000000000000000000000")])
    (bytes 392 [0x0000000000000000000000000000000000000000000000000000000000000000, 0x0000000000000000000000000000000000000000000000000000000000000000, 0x0000000000000000000000000000000000000000000000000000000000000000, 0x0000000000000000000000000000000000000000000000000000000000000000, 0x0000000000000000000000000000000000000000000000000000000000000000, 0x0000000000000000000000000000000000000000000000000000000000000000, 0x0000000000000000000000000000000000000000000000000000000000000000, 0x0000000000000000000000000000000000000000000000000000000000000000, 0x0000000000000000000000000000000000000000000000000000000000000000, 0x0000000000000000000000000000000000000000000000000000000000000000, 0x0000000000000000000000000000000000000000000000000000000000000000, 0x0000000000000000000000000000000000000000000000000000000000000000, 0x0000000000000000]) = true := by decide +kernel

/-! ### `test_serialize_file_contract_revision` (sia/src/types/v2.rs) -/

example : agrees .v2 (Serde.v2FileContractRevision env) (.obj [("parent", .obj [("stateElement", .obj [("leafIndex", .nat 0), ("merkleProof", .arr [.str "0000000000000000000000000000000000000000000000000000000000000000"])]), ("id", .str "0000000000000000000000000000000000000000000000000000000000000000"), ("v2FileContract", .obj [("capacity", .nat 0), ("filesize", .nat 0), ("fileMerkleRoot", .str "0000000000000000000000000000000000000000000000000000000000000000"), ("proofHeight", .nat 0), ("expirationHeight", .nat 0), ("renterOutput", .obj [("value", .str "0"), ("address", .str "000000000000000000000000000000000000000000000000000000000000000089eb0d6a8a69")]), ("hostOutput", .obj [("value", .str "0"), ("address", .str "000000000000000000000000000000000000000000000000000000000000000089eb0d6a8a69")]), ("missedHostValue", .str "0"), ("totalCollateral", .str "0"), ("renterPublicKey", .str "ed25519:0000000000000000000000000000000000000000000000000000000000000000"), ("hostPublicKey", .str "ed25519:0000000000000000000000000000000000000000000000000000000000000000"), ("revisionNumber", .nat 0), ("renterSignature", .str "00000000000000000000000000000000000000000000000000000000000000000000000000000000000000000000000000000000000000000000000000000000"), ("hostSignature", .str "00000000000000000000000000000000000000000000000000000000000000000000000000000000000000000000000000000000000000000000000000000000")])]), ("revision", .obj [("capacity", .nat 0), ("filesize", .nat 0), ("fileMerkleRoot", .str "0000000000000000000000000000000000000000000000000000000000000000"), ("proofHeight", .nat 0), ("expirationHeight", .nat 0), ("renterOutput", .obj [("value", .str "0"), ("address", .str "000000000000000000000000000000000000000000000000000000000000000089eb0d6a8a69")]), ("hostOutput", .obj [("value", .str "0"), ("address", .str "000000000000000000000000000000000000000000000000000000000000000089eb0d6a8a69")]), ("missedHostValue", .str "0"), ("totalCollateral", .str "0"), ("renterPublicKey", .str "ed25519:0000000000000000000000000000000000000000000000000000000000000000"), ("hostPublicKey", .str "ed25519:0000000000000000000000000000000000000000000000000000000000000000"), ("revisionNumber", .nat 0), ("renterSignature", .str "00000000000000000000000000000000000000000000000000000000000000000000000000000000000000000000000000000000000000000000000000000000"), ("hostSignature", .str "00000000000000000000000000000000000000000000000000000000000000000000000000000000000000000000000000000000000000000000000000000000")])])
    (bytes 864 [0x0000000000000000010000000000000000000000000000000000000000000000, 0x0000000000000000000000000000000000000000000000000000000000000000, 0x0000000000000000000000000000000000000000000000000000000000000000, 0x0000000000000000000000000000000000000000000000000000000000000000, 0x0000000000000000000000000000000000000000000000000000000000000000, 0x0000000000000000000000000000000000000000000000000000000000000000, 0x0000000000000000000000000000000000000000000000000000000000000000, 0x0000000000000000000000000000000000000000000000000000000000000000, 0x0000000000000000000000000000000000000000000000000000000000000000, 0x0000000000000000000000000000000000000000000000000000000000000000, 0x0000000000000000000000000000000000000000000000000000000000000000, 0x0000000000000000000000000000000000000000000000000000000000000000, 0x0000000000000000000000000000000000000000000000000000000000000000, 0x0000000000000000000000000000000000000000000000000000000000000000, 0x0000000000000000000000000000000000000000000000000000000000000000, 0x0000000000000000000000000000000000000000000000000000000000000000, 0x0000000000000000000000000000000000000000000000000000000000000000, 0x0000000000000000000000000000000000000000000000000000000000000000, 0x0000000000000000000000000000000000000000000000000000000000000000, 0x0000000000000000000000000000000000000000000000000000000000000000, 0x0000000000000000000000000000000000000000000000000000000000000000, 0x0000000000000000000000000000000000000000000000000000000000000000, 0x0000000000000000000000000000000000000000000000000000000000000000, 0x0000000000000000000000000000000000000000000000000000000000000000, 0x0000000000000000000000000000000000000000000000000000000000000000, 0x0000000000000000000000000000000000000000000000000000000000000000, 0x0000000000000000000000000000000000000000000000000000000000000000]) = true := by decide +kernel

/-! ### `test_serialize_file_contract_renewal` (sia/src/types/v2.rs) -/

example : agrees .v2 (Serde.renewal env) (.obj [("finalRevision", .obj [("capacity", .nat 0), ("filesize", .nat 0), ("fileMerkleRoot", .str "0000000000000000000000000000000000000000000000000000000000000000"), ("proofHeight", .nat 0), ("expirationHeight", .nat 0), ("renterOutput", .obj [("value", .str "0"), ("address", .str "000000000000000000000000000000000000000000000000000000000000000089eb0d6a8a69")]), ("hostOutput", .obj [("value", .str "0"), ("address", .str "000000000000000000000000000000000000000000000000000000000000000089eb0d6a8a69")]), ("missedHostValue", .str "0"), ("totalCollateral", .str "0"), ("renterPublicKey", .str "ed25519:0000000000000000000000000000000000000000000000000000000000000000"), ("hostPublicKey", .str "ed25519:0000000000000000000000000000000000000000000000000000000000000000"), ("revisionNumber", .nat 0), ("renterSignature", .str "00000000000000000000000000000000000000000000000000000000000000000000000000000000000000000000000000000000000000000000000000000000"), ("hostSignature", .str "00000000000000000000000000000000000000000000000000000000000000000000000000000000000000000000000000000000000000000000000000000000")]), ("newContract", .obj [("capacity", .nat 0), ("filesize", .nat 0), ("fileMerkleRoot", .str "0000000000000000000000000000000000000000000000000000000000000000"), ("proofHeight", .nat 0), ("expirationHeight", .nat 0), ("renterOutput", .obj [("value", .str "0"), ("address", .str "000000000000000000000000000000000000000000000000000000000000000089eb0d6a8a69")]), ("hostOutput", .obj [("value", .str "0"), ("address", .str "000000000000000000000000000000000000000000000000000000000000000089eb0d6a8a69")]), ("missedHostValue", .str "0"), ("totalCollateral", .str "0"), ("renterPublicKey", .str "ed25519:0000000000000000000000000000000000000000000000000000000000000000"), ("hostPublicKey", .str "ed25519:0000000000000000000000000000000000000000000000000000000000000000"), ("revisionNumber", .nat 0), ("renterSignature", .str "00000000000000000000000000000000000000000000000000000000000000000000000000000000000000000000000000000000000000000000000000000000"), ("hostSignature", .str "00000000000000000000000000000000000000000000000000000000000000000000000000000000000000000000000000000000000000000000000000000000")]), ("renterRollover", .str "0"), ("hostRollover", .str "0"), ("renterSignature", .str "00000000000000000000000000000000000000000000000000000000000000000000000000000000000000000000000000000000000000000000000000000000"), ("hostSignature", .str "00000000000000000000000000000000000000000000000000000000000000000000000000000000000000000000000000000000000000000000000000000000")])
    (bytes 944 [0x0000000000000000000000000000000000000000000000000000000000000000, 0x0000000000000000000000000000000000000000000000000000000000000000, 0x0000000000000000000000000000000000000000000000000000000000000000, 0x0000000000000000000000000000000000000000000000000000000000000000, 0x0000000000000000000000000000000000000000000000000000000000000000, 0x0000000000000000000000000000000000000000000000000000000000000000, 0x0000000000000000000000000000000000000000000000000000000000000000, 0x0000000000000000000000000000000000000000000000000000000000000000, 0x0000000000000000000000000000000000000000000000000000000000000000, 0x0000000000000000000000000000000000000000000000000000000000000000, 0x0000000000000000000000000000000000000000000000000000000000000000, 0x0000000000000000000000000000000000000000000000000000000000000000, 0x0000000000000000000000000000000000000000000000000000000000000000, 0x0000000000000000000000000000000000000000000000000000000000000000, 0x0000000000000000000000000000000000000000000000000000000000000000, 0x0000000000000000000000000000000000000000000000000000000000000000, 0x0000000000000000000000000000000000000000000000000000000000000000, 0x0000000000000000000000000000000000000000000000000000000000000000, 0x0000000000000000000000000000000000000000000000000000000000000000, 0x0000000000000000000000000000000000000000000000000000000000000000, 0x0000000000000000000000000000000000000000000000000000000000000000, 0x0000000000000000000000000000000000000000000000000000000000000000, 0x0000000000000000000000000000000000000000000000000000000000000000, 0x0000000000000000000000000000000000000000000000000000000000000000, 0x0000000000000000000000000000000000000000000000000000000000000000, 0x0000000000000000000000000000000000000000000000000000000000000000, 0x0000000000000000000000000000000000000000000000000000000000000000, 0x0000000000000000000000000000000000000000000000000000000000000000, 0x0000000000000000000000000000000000000000000000000000000000000000, 0x00000000000000000000000000000000]) = true := by decide +kernel

/-! ### `test_serialize_storage_proof` (sia/src/types/v2.rs) -/

example : agrees .v2 Serde.v2StorageProof (.obj [("proofIndex", .obj [("stateElement", .obj [("leafIndex", .nat 0), ("merkleProof", .arr [.str "0000000000000000000000000000000000000000000000000000000000000000"])]), ("id", .str "0000000000000000000000000000000000000000000000000000000000000000"), ("chainIndex", .obj [("height", .nat 0), ("id", .str "0000000000000000000000000000000000000000000000000000000000000000")])]), ("leaf", .str "03030303030303030303030303030303030303030303030303030303030303030303030303030303030303030303030303030303030303030303030303030303"), ("proof", .arr [.str "0000000000000000000000000000000000000000000000000000000000000000"])])
    (bytes 224 [0x0000000000000000010000000000000000000000000000000000000000000000, 0x0000000000000000000000000000000000000000000000000000000000000000, 0x0000000000000000000000000000000000000000000000000000000000000000, 0x0000000000000000000000000000000000000000000000000303030303030303, 0x0303030303030303030303030303030303030303030303030303030303030303, 0x0303030303030303030303030303030303030303030303030100000000000000, 0x0000000000000000000000000000000000000000000000000000000000000000]) = true := by decide +kernel

/-! ### `test_serialize_v2_file_contract_resolution` (sia/src/types/v2.rs) -/

example : agrees .v2 (Serde.resolution env) (.obj [("parent", .obj [("stateElement", .obj [("leafIndex", .nat 0), ("merkleProof", .arr [.str "0000000000000000000000000000000000000000000000000000000000000000"])]), ("id", .str "0000000000000000000000000000000000000000000000000000000000000000"), ("v2FileContract", .obj [("capacity", .nat 0), ("filesize", .nat 0), ("fileMerkleRoot", .str "0000000000000000000000000000000000000000000000000000000000000000"), ("proofHeight", .nat 0), ("expirationHeight", .nat 0), ("renterOutput", .obj [("value", .str "0"), ("address", .str "000000000000000000000000000000000000000000000000000000000000000089eb0d6a8a69")]), ("hostOutput", .obj [("value", .str "0"), ("address", .str "000000000000000000000000000000000000000000000000000000000000000089eb0d6a8a69")]), ("missedHostValue", .str "0"), ("totalCollateral", .str "0"), ("renterPublicKey", .str "ed25519:0000000000000000000000000000000000000000000000000000000000000000"), ("hostPublicKey", .str "ed25519:0000000000000000000000000000000000000000000000000000000000000000"), ("revisionNumber", .nat 0), ("renterSignature", .str "00000000000000000000000000000000000000000000000000000000000000000000000000000000000000000000000000000000000000000000000000000000"), ("hostSignature", .str "00000000000000000000000000000000000000000000000000000000000000000000000000000000000000000000000000000000000000000000000000000000")])]), ("type", .str "renewal"), ("resolution", .obj [("finalRevision", .obj [("capacity", .nat 0), ("expirationHeight", .nat 0), ("fileMerkleRoot", .str "0000000000000000000000000000000000000000000000000000000000000000"), ("filesize", .nat 0), ("hostOutput", .obj [("address", .str "000000000000000000000000000000000000000000000000000000000000000089eb0d6a8a69"), ("value", .str "0")]), ("hostPublicKey", .str "ed25519:0000000000000000000000000000000000000000000000000000000000000000"), ("hostSignature", .str "00000000000000000000000000000000000000000000000000000000000000000000000000000000000000000000000000000000000000000000000000000000"), ("missedHostValue", .str "0"), ("proofHeight", .nat 0), ("renterOutput", .obj [("address", .str "000000000000000000000000000000000000000000000000000000000000000089eb0d6a8a69"), ("value", .str "0")]), ("renterPublicKey", .str "ed25519:0000000000000000000000000000000000000000000000000000000000000000"), ("renterSignature", .str "00000000000000000000000000000000000000000000000000000000000000000000000000000000000000000000000000000000000000000000000000000000"), ("revisionNumber", .nat 0), ("totalCollateral", .str "0")]), ("hostRollover", .str "0"), ("hostSignature", .str "00000000000000000000000000000000000000000000000000000000000000000000000000000000000000000000000000000000000000000000000000000000"), ("newContract", .obj [("capacity", .nat 0), ("expirationHeight", .nat 0), ("fileMerkleRoot", .str "0000000000000000000000000000000000000000000000000000000000000000"), ("filesize", .nat 0), ("hostOutput", .obj [("address", .str "000000000000000000000000000000000000000000000000000000000000000089eb0d6a8a69"), ("value", .str "0")]), ("hostPublicKey", .str "ed25519:0000000000000000000000000000000000000000000000000000000000000000"), ("hostSignature", .str "00000000000000000000000000000000000000000000000000000000000000000000000000000000000000000000000000000000000000000000000000000000"), ("missedHostValue", .str "0"), ("proofHeight", .nat 0), ("renterOutput", .obj [("address", .str "000000000000000000000000000000000000000000000000000000000000000089eb0d6a8a69"), ("value", .str "0")]), ("renterPublicKey", .str "ed25519:0000000000000000000000000000000000000000000000000000000000000000"), ("renterSignature", .str "00000000000000000000000000000000000000000000000000000000000000000000000000000000000000000000000000000000000000000000000000000000"), ("revisionNumber", .nat 0), ("totalCollateral", .str "0")]), ("renterRollover", .str "0"), ("renterSignature", .str "00000000000000000000000000000000000000000000000000000000000000000000000000000000000000000000000000000000000000000000000000000000")])])
    (bytes 1417 [0x0000000000000000010000000000000000000000000000000000000000000000, 0x0000000000000000000000000000000000000000000000000000000000000000, 0x0000000000000000000000000000000000000000000000000000000000000000, 0x0000000000000000000000000000000000000000000000000000000000000000, 0x0000000000000000000000000000000000000000000000000000000000000000, 0x0000000000000000000000000000000000000000000000000000000000000000, 0x0000000000000000000000000000000000000000000000000000000000000000, 0x0000000000000000000000000000000000000000000000000000000000000000, 0x0000000000000000000000000000000000000000000000000000000000000000, 0x0000000000000000000000000000000000000000000000000000000000000000, 0x0000000000000000000000000000000000000000000000000000000000000000, 0x0000000000000000000000000000000000000000000000000000000000000000, 0x0000000000000000000000000000000000000000000000000000000000000000, 0x0000000000000000000000000000000000000000000000000000000000000000, 0x0000000000000000000000000000000000000000000000000000000000000000, 0x0000000000000000000000000000000000000000000000000000000000000000, 0x0000000000000000000000000000000000000000000000000000000000000000, 0x0000000000000000000000000000000000000000000000000000000000000000, 0x0000000000000000000000000000000000000000000000000000000000000000, 0x0000000000000000000000000000000000000000000000000000000000000000, 0x0000000000000000000000000000000000000000000000000000000000000000, 0x0000000000000000000000000000000000000000000000000000000000000000, 0x0000000000000000000000000000000000000000000000000000000000000000, 0x0000000000000000000000000000000000000000000000000000000000000000, 0x0000000000000000000000000000000000000000000000000000000000000000, 0x0000000000000000000000000000000000000000000000000000000000000000, 0x0000000000000000000000000000000000000000000000000000000000000000, 0x0000000000000000000000000000000000000000000000000000000000000000, 0x0000000000000000000000000000000000000000000000000000000000000000, 0x0000000000000000000000000000000000000000000000000000000000000000, 0x0000000000000000000000000000000000000000000000000000000000000000, 0x0000000000000000000000000000000000000000000000000000000000000000, 0x0000000000000000000000000000000000000000000000000000000000000000, 0x0000000000000000000000000000000000000000000000000000000000000000, 0x0000000000000000000000000000000000000000000000000000000000000000, 0x0000000000000000000000000000000000000000000000000000000000000000, 0x0000000000000000000000000000000000000000000000000000000000000000, 0x0000000000000000000000000000000000000000000000000000000000000000, 0x0000000000000000000000000000000000000000000000000000000000000000, 0x0000000000000000000000000000000000000000000000000000000000000000, 0x0000000000000000000000000000000000000000000000000000000000000000, 0x0000000000000000000000000000000000000000000000000000000000000000, 0x0000000000000000000000000000000000000000000000000000000000000000, 0x0000000000000000000000000000000000000000000000000000000000000000, 0x000000000000000000]) = true := by decide +kernel

example : agrees .v2 (Serde.resolution env) (.obj [("parent", .obj [("stateElement", .obj [("leafIndex", .nat 0), ("merkleProof", .arr [.str "0000000000000000000000000000000000000000000000000000000000000000"])]), ("id", .str "0000000000000000000000000000000000000000000000000000000000000000"), ("v2FileContract", .obj [("capacity", .nat 0), ("filesize", .nat 0), ("fileMerkleRoot", .str "0000000000000000000000000000000000000000000000000000000000000000"), ("proofHeight", .nat 0), ("expirationHeight", .nat 0), ("renterOutput", .obj [("value", .str "0"), ("address", .str "000000000000000000000000000000000000000000000000000000000000000089eb0d6a8a69")]), ("hostOutput", .obj [("value", .str "0"), ("address", .str "000000000000000000000000000000000000000000000000000000000000000089eb0d6a8a69")]), ("missedHostValue", .str "0"), ("totalCollateral", .str "0"), ("renterPublicKey", .str "ed25519:0000000000000000000000000000000000000000000000000000000000000000"), ("hostPublicKey", .str "ed25519:0000000000000000000000000000000000000000000000000000000000000000"), ("revisionNumber", .nat 0), ("renterSignature", .str "00000000000000000000000000000000000000000000000000000000000000000000000000000000000000000000000000000000000000000000000000000000"), ("hostSignature", .str "00000000000000000000000000000000000000000000000000000000000000000000000000000000000000000000000000000000000000000000000000000000")])]), ("type", .str "storageProof"), ("resolution", .obj [("leaf", .str "00000000000000000000000000000000000000000000000000000000000000000000000000000000000000000000000000000000000000000000000000000000"), ("proof", .arr [.str "0000000000000000000000000000000000000000000000000000000000000000"]), ("proofIndex", .obj [("chainIndex", .obj [("height", .nat 0), ("id", .str "0000000000000000000000000000000000000000000000000000000000000000")]), ("id", .str "0000000000000000000000000000000000000000000000000000000000000000"), ("stateElement", .obj [("leafIndex", .nat 0), ("merkleProof", .arr [.str "0000000000000000000000000000000000000000000000000000000000000000"])])])])])
    (bytes 697 [0x0000000000000000010000000000000000000000000000000000000000000000, 0x0000000000000000000000000000000000000000000000000000000000000000, 0x0000000000000000000000000000000000000000000000000000000000000000, 0x0000000000000000000000000000000000000000000000000000000000000000, 0x0000000000000000000000000000000000000000000000000000000000000000, 0x0000000000000000000000000000000000000000000000000000000000000000, 0x0000000000000000000000000000000000000000000000000000000000000000, 0x0000000000000000000000000000000000000000000000000000000000000000, 0x0000000000000000000000000000000000000000000000000000000000000000, 0x0000000000000000000000000000000000000000000000000000000000000000, 0x0000000000000000000000000000000000000000000000000000000000000000, 0x0000000000000000000000000000000000000000000000000000000000000000, 0x0000000000000000000000000000000000000000000000000000000000000000, 0x0000000000000000000000000000000000000000000000000000000000000000, 0x0000000000000000000000000000000000000000000000000100000000000000, 0x0001000000000000000000000000000000000000000000000000000000000000, 0x0000000000000000000000000000000000000000000000000000000000000000, 0x0000000000000000000000000000000000000000000000000000000000000000, 0x0000000000000000000000000000000000000000000000000000000000000000, 0x0000000000000000000000000000000000000000000000000000000000000000, 0x0000000000000000000000000000000000010000000000000000000000000000, 0x00000000000000000000000000000000000000000000000000]) = true := by decide +kernel

example : agrees .v2 (Serde.resolution env) (.obj [("parent", .obj [("stateElement", .obj [("leafIndex", .nat 0), ("merkleProof", .arr [.str "0000000000000000000000000000000000000000000000000000000000000000"])]), ("id", .str "0000000000000000000000000000000000000000000000000000000000000000"), ("v2FileContract", .obj [("capacity", .nat 0), ("filesize", .nat 0), ("fileMerkleRoot", .str "0000000000000000000000000000000000000000000000000000000000000000"), ("proofHeight", .nat 0), ("expirationHeight", .nat 0), ("renterOutput", .obj [("value", .str "0"), ("address", .str "000000000000000000000000000000000000000000000000000000000000000089eb0d6a8a69")]), ("hostOutput", .obj [("value", .str "0"), ("address", .str "000000000000000000000000000000000000000000000000000000000000000089eb0d6a8a69")]), ("missedHostValue", .str "0"), ("totalCollateral", .str "0"), ("renterPublicKey", .str "ed25519:0000000000000000000000000000000000000000000000000000000000000000"), ("hostPublicKey", .str "ed25519:0000000000000000000000000000000000000000000000000000000000000000"), ("revisionNumber", .nat 0), ("renterSignature", .str "00000000000000000000000000000000000000000000000000000000000000000000000000000000000000000000000000000000000000000000000000000000"), ("hostSignature", .str "00000000000000000000000000000000000000000000000000000000000000000000000000000000000000000000000000000000000000000000000000000000")])]), ("type", .str "expiration"), ("resolution", .obj [])])
    (bytes 473 [0x0000000000000000010000000000000000000000000000000000000000000000, 0x0000000000000000000000000000000000000000000000000000000000000000, 0x0000000000000000000000000000000000000000000000000000000000000000, 0x0000000000000000000000000000000000000000000000000000000000000000, 0x0000000000000000000000000000000000000000000000000000000000000000, 0x0000000000000000000000000000000000000000000000000000000000000000, 0x0000000000000000000000000000000000000000000000000000000000000000, 0x0000000000000000000000000000000000000000000000000000000000000000, 0x0000000000000000000000000000000000000000000000000000000000000000, 0x0000000000000000000000000000000000000000000000000000000000000000, 0x0000000000000000000000000000000000000000000000000000000000000000, 0x0000000000000000000000000000000000000000000000000000000000000000, 0x0000000000000000000000000000000000000000000000000000000000000000, 0x0000000000000000000000000000000000000000000000000000000000000000, 0x00000000000000000000000000000000000000000000000002]) = true := by decide +kernel

/-! ### `test_transaction_serialization` (sia/src/types/v2.rs) -/

example : agrees .v2 (Serde.v2Transaction env) (.obj [("minerFee", .str "0")])
    (bytes 9 [0x020000000000000000]) = true := by decide +kernel

example : agrees .v2 (Serde.v2Transaction env) (.obj [("siacoinInputs", .arr [.obj [("parent", .obj [("stateElement", .obj [("leafIndex", .nat 12312413), ("merkleProof", .arr [.str "aefb1120a3f69fc8293caeb0bd36b4637d6fdf12f2f60494a2875358552f1422"])]), ("id", .str "aefb1120a3f69fc8293caeb0bd36b4637d6fdf12f2f60494a2875358552f1422"), ("siacoinOutput", .obj [("value", .str "100"), ("address", .str "8fb49ccf17dfdcc9526dec6ee8a5cca20ff8247302053d3777410b9b0494ba8cdf32abee86f0")]), ("maturityHeight", .nat 0)]), ("satisfiedPolicy", .obj [("policy", .obj [("type", .str "pk"), ("policy", .str "ed25519:aefb1120a3f69fc8293caeb0bd36b4637d6fdf12f2f60494a2875358552f1422")]), ("signatures", .arr [.str "aefb1120a3f69fc8293caeb0bd36b4637d6fdf12f2f60494a2875358552f1422aefb1120a3f69fc8293caeb0bd36b4637d6fdf12f2f60494a2875358552f1422"])])]]), ("siacoinOutputs", .arr [.obj [("value", .str "100"), ("address", .str "8fb49ccf17dfdcc9526dec6ee8a5cca20ff8247302053d3777410b9b0494ba8cdf32abee86f0")]]), ("minerFee", .str "123581")])
    (bytes 339 [0x02030400000000000001000000000000005ddfbb000000000001000000000000, 0x00aefb1120a3f69fc8293caeb0bd36b4637d6fdf12f2f60494a2875358552f14, 0x22aefb1120a3f69fc8293caeb0bd36b4637d6fdf12f2f60494a2875358552f14, 0x22640000000000000000000000000000008fb49ccf17dfdcc9526dec6ee8a5cc, 0xa20ff8247302053d3777410b9b0494ba8c00000000000000000103aefb1120a3, 0xf69fc8293caeb0bd36b4637d6fdf12f2f60494a2875358552f14220100000000, 0x000000aefb1120a3f69fc8293caeb0bd36b4637d6fdf12f2f60494a287535855, 0x2f1422aefb1120a3f69fc8293caeb0bd36b4637d6fdf12f2f60494a287535855, 0x2f14220000000000000000010000000000000064000000000000000000000000, 0x0000008fb49ccf17dfdcc9526dec6ee8a5cca20ff8247302053d3777410b9b04, 0x94ba8cbde20100000000000000000000000000]) = true := by decide +kernel

end Verif.Vector
