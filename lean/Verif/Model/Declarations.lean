import Verif.Model.Derive

/-!
# The declarations of the types that derive their codecs

Each as it stands in the source: names, visibility and types of the fields, in order.
-/

namespace Verif.Derive

/-- The type expressions that occur in the fields of the deriving types. -/
inductive RTy where
  | u8
  | u64
  | usize
  | bool
  | string
  | bytes (n : Nat)
  | vec (t : RTy)
  | currency
  | hash256
  | blockId
  | siacoinOutputId
  | siafundOutputId
  | fileContractId
  | address
  | specifier
  | leaf
  | publicKey
  | signature
  | chainIndex
  | stateElement
  | siacoinOutput
  | siafundOutput
  | unlockKey
  | unlockConditions
  | v1SiacoinInput
  | v1SiafundInput
  | v1FileContract
  | v1FileContractRevision
  | v1StorageProof
  | v1CoveredFields
  | v1TransactionSignature
  | spendPolicy
  | satisfiedPolicy
  | v2FileContract
  | siacoinElement
  | siafundElement
  | fileContractElement
  | chainIndexElement
  deriving DecidableEq

/-- What the type expressions denote in the model.  `usize` is 64-bit; `[u8; n]` has a decoder for the lengths used. -/
def RTy.sem (v : Ver) : RTy → Ty v
  | .u8 => ⟨UInt8, inferInstance⟩
  | .u64 => ⟨U64, inferInstance⟩
  | .usize => ⟨U64, inferInstance⟩
  | .bool => ⟨Bool, inferInstance⟩
  | .string => ⟨String, inferInstance⟩
  | .bytes n => ⟨Arr n, inferInstance⟩
  | .vec t => ⟨List (t.sem v).carrier, inferInstance⟩
  | .currency => ⟨Currency, inferInstance⟩
  | .hash256 => ⟨Hash256, inferInstance⟩
  | .blockId => ⟨BlockID, inferInstance⟩
  | .siacoinOutputId => ⟨SiacoinOutputID, inferInstance⟩
  | .siafundOutputId => ⟨SiafundOutputID, inferInstance⟩
  | .fileContractId => ⟨FileContractID, inferInstance⟩
  | .address => ⟨Address, inferInstance⟩
  | .specifier => ⟨Specifier, inferInstance⟩
  | .leaf => ⟨Leaf, inferInstance⟩
  | .publicKey => ⟨PublicKey, inferInstance⟩
  | .signature => ⟨Signature, inferInstance⟩
  | .chainIndex => ⟨ChainIndex, inferInstance⟩
  | .stateElement => ⟨StateElement, inferInstance⟩
  | .siacoinOutput => ⟨SiacoinOutput, inferInstance⟩
  | .siafundOutput => ⟨SiafundOutput, inferInstance⟩
  | .unlockKey => ⟨UnlockKey, inferInstance⟩
  | .unlockConditions => ⟨UnlockConditions, inferInstance⟩
  | .v1SiacoinInput => ⟨V1.SiacoinInput, inferInstance⟩
  | .v1SiafundInput => ⟨V1.SiafundInput, inferInstance⟩
  | .v1FileContract => ⟨V1.FileContract, inferInstance⟩
  | .v1FileContractRevision => ⟨V1.FileContractRevision, inferInstance⟩
  | .v1StorageProof => ⟨V1.StorageProof, inferInstance⟩
  | .v1CoveredFields => ⟨V1.CoveredFields, inferInstance⟩
  | .v1TransactionSignature => ⟨V1.TransactionSignature, inferInstance⟩
  | .spendPolicy => ⟨SpendPolicy, inferInstance⟩
  | .satisfiedPolicy => ⟨SatisfiedPolicy, inferInstance⟩
  | .v2FileContract => ⟨V2.FileContract, inferInstance⟩
  | .siacoinElement => ⟨V2.SiacoinElement, inferInstance⟩
  | .siafundElement => ⟨V2.SiafundElement, inferInstance⟩
  | .fileContractElement => ⟨V2.FileContractElement, inferInstance⟩
  | .chainIndexElement => ⟨V2.ChainIndexElement, inferInstance⟩

namespace Decl

/-- `pub name: ty,`. -/
def pub (name : String) (ty : RTy) : Named RTy := ⟨name, .pub, ty⟩

/-- The types of `impl_hash_id!` (sia/src/macros.rs 5-15). -/
def hashId : Fields RTy := .unnamed [(.other, .bytes 32)]

/-- sia/src/types/common.rs 215. -/
def address : Fields RTy := .unnamed [(.other, .bytes 32)]

/-- sia/src/types/common.rs 343. -/
def leaf : Fields RTy := .unnamed [(.other, .bytes 64)]

/-- sia/src/types/specifier.rs 10-22. -/
def specifier : Fields RTy := .unnamed [(.other, .bytes 16)]

/-- sia/src/signing.rs 11. -/
def publicKey : Fields RTy := .unnamed [(.other, .bytes 32)]

/-- sia/src/signing.rs 114. -/
def signature : Fields RTy := .unnamed [(.other, .bytes 64)]

/-- sia/src/types/common.rs 149-153. -/
def chainIndex : Fields RTy := .named [pub "height" .u64, pub "id" .blockId]

/-- sia/src/types/common.rs 302-309. -/
def siacoinOutput : Fields RTy := .named [pub "value" .currency, pub "address" .address]

/-- sia/src/types/common.rs 313-318 (v2 only). -/
def siafundOutput : Fields RTy := .named [pub "value" .u64, pub "address" .address]

/-- sia/src/types/common.rs 390-395. -/
def stateElement : Fields RTy := .named [pub "leaf_index" .u64, pub "merkle_proof" (.vec .hash256)]

/-- sia/src/types/v1.rs 33-36. -/
def unlockKey : Fields RTy := .named [pub "algorithm" .specifier, pub "key" (.vec .u8)]

/-- sia/src/types/v1.rs 95-106. -/
def unlockConditions : Fields RTy :=
  .named [pub "timelock" .u64, pub "public_keys" (.vec .unlockKey), pub "signatures_required" .u64]

/-- sia/src/types/v1.rs 161-165. -/
def v1SiacoinInput : Fields RTy :=
  .named [pub "parent_id" .siacoinOutputId, pub "unlock_conditions" .unlockConditions]

/-- sia/src/types/v1.rs 169-174. -/
def v1SiafundInput : Fields RTy :=
  .named [pub "parent_id" .siafundOutputId, pub "unlock_conditions" .unlockConditions,
    pub "claim_address" .address]

/-- sia/src/types/v1.rs 178-189. -/
def v1FileContract : Fields RTy :=
  .named [pub "file_size" .u64, pub "file_merkle_root" .hash256, pub "window_start" .u64, pub "window_end" .u64,
    pub "payout" .currency, pub "valid_proof_outputs" (.vec .siacoinOutput),
    pub "missed_proof_outputs" (.vec .siacoinOutput), pub "unlock_hash" .address, pub "revision_number" .u64]

/-- sia/src/types/v1.rs 206-219. -/
def v1FileContractRevision : Fields RTy :=
  .named [pub "parent_id" .fileContractId, pub "unlock_conditions" .unlockConditions, pub "revision_number" .u64,
    pub "file_size" .u64, pub "file_merkle_root" .hash256, pub "window_start" .u64, pub "window_end" .u64,
    pub "valid_proof_outputs" (.vec .siacoinOutput), pub "missed_proof_outputs" (.vec .siacoinOutput),
    pub "unlock_hash" .address]

/-- sia/src/types/v1.rs 223-228. -/
def v1StorageProof : Fields RTy :=
  .named [pub "parent_id" .fileContractId, pub "leaf" .leaf, pub "proof" (.vec .hash256)]

/-- sia/src/types/v1.rs 232-254. -/
def v1CoveredFields : Fields RTy :=
  .named [pub "whole_transaction" .bool, pub "siacoin_inputs" (.vec .usize), pub "siacoin_outputs" (.vec .usize),
    pub "file_contracts" (.vec .usize), pub "file_contract_revisions" (.vec .usize),
    pub "storage_proofs" (.vec .usize), pub "siafund_inputs" (.vec .usize), pub "siafund_outputs" (.vec .usize),
    pub "miner_fees" (.vec .usize), pub "arbitrary_data" (.vec .usize), pub "signatures" (.vec .usize)]

/-- sia/src/types/v1.rs 267-275. -/
def v1TransactionSignature : Fields RTy :=
  .named [pub "parent_id" .hash256, pub "public_key_index" .u64, pub "timelock" .u64,
    pub "covered_fields" .v1CoveredFields, pub "signature" (.vec .u8)]

/-- sia/src/types/v1.rs 279-304. -/
def v1Transaction : Fields RTy :=
  .named [pub "siacoin_inputs" (.vec .v1SiacoinInput), pub "siacoin_outputs" (.vec .siacoinOutput),
    pub "file_contracts" (.vec .v1FileContract), pub "file_contract_revisions" (.vec .v1FileContractRevision),
    pub "storage_proofs" (.vec .v1StorageProof), pub "siafund_inputs" (.vec .v1SiafundInput),
    pub "siafund_outputs" (.vec .siafundOutput), pub "miner_fees" (.vec .currency),
    pub "arbitrary_data" (.vec (.vec .u8)), pub "signatures" (.vec .v1TransactionSignature)]

/-- sia/src/types/spendpolicy.rs 392-398. -/
def satisfiedPolicy : Fields RTy :=
  .named [pub "policy" .spendPolicy, pub "signatures" (.vec .signature), pub "preimages" (.vec .hash256)]

/-- sia/src/types/v2.rs 30-37. -/
def attestation : Fields RTy :=
  .named [pub "public_key" .publicKey, pub "key" .string, pub "value" (.vec .u8), pub "signature" .signature]

/-- sia/src/types/v2.rs 62-78. -/
def v2FileContract : Fields RTy :=
  .named [pub "capacity" .u64, pub "filesize" .u64, pub "file_merkle_root" .hash256, pub "proof_height" .u64,
    pub "expiration_height" .u64, pub "renter_output" .siacoinOutput, pub "host_output" .siacoinOutput,
    pub "missed_host_value" .currency, pub "total_collateral" .currency, pub "renter_public_key" .publicKey,
    pub "host_public_key" .publicKey, pub "revision_number" .u64, pub "renter_signature" .signature,
    pub "host_signature" .signature]

/-- sia/src/types/v2.rs 116-121. -/
def siacoinElement : Fields RTy :=
  .named [pub "state_element" .stateElement, pub "id" .siacoinOutputId, pub "siacoin_output" .siacoinOutput,
    pub "maturity_height" .u64]

/-- sia/src/types/v2.rs 126-131. -/
def siafundElement : Fields RTy :=
  .named [pub "state_element" .stateElement, pub "id" .siafundOutputId, pub "siafund_output" .siafundOutput,
    pub "claim_start" .currency]

/-- sia/src/types/v2.rs 137-141. -/
def fileContractElement : Fields RTy :=
  .named [pub "state_element" .stateElement, pub "id" .fileContractId, pub "v2_file_contract" .v2FileContract]

/-- sia/src/types/v2.rs 146-150. -/
def chainIndexElement : Fields RTy :=
  .named [pub "state_element" .stateElement, pub "id" .blockId, pub "chain_index" .chainIndex]

/-- sia/src/types/v2.rs 174-177. -/
def v2SiacoinInput : Fields RTy :=
  .named [pub "parent" .siacoinElement, pub "satisfied_policy" .satisfiedPolicy]

/-- sia/src/types/v2.rs 183-187. -/
def v2SiafundInput : Fields RTy :=
  .named [pub "parent" .siafundElement, pub "claim_address" .address, pub "satisfied_policy" .satisfiedPolicy]

/-- sia/src/types/v2.rs 192-195. -/
def v2FileContractRevision : Fields RTy :=
  .named [pub "parent" .fileContractElement, pub "revision" .v2FileContract]

/-- sia/src/types/v2.rs 209-218. -/
def fileContractRenewal : Fields RTy :=
  .named [pub "final_revision" .v2FileContract, pub "new_contract" .v2FileContract, pub "renter_rollover" .currency,
    pub "host_rollover" .currency, pub "renter_signature" .signature, pub "host_signature" .signature]

/-- sia/src/types/v2.rs 244-257. -/
def v2StorageProof : Fields RTy :=
  .named [pub "proof_index" .chainIndexElement, pub "leaf" .leaf, pub "proof" (.vec .hash256)]

end Decl

end Verif.Derive
