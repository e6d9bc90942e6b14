import Verif.Model.Blake2b
import Verif.Model.Writer
import Verif.Model.Signing

/-!
# The hashing functions, feeding a hash state piece by piece

`Verif.Model.Hashing` hashes the concatenation of all pieces.  Here the same functions follow the code write by write.
-/

namespace Verif

open Wr

namespace Blake2b

/-- `impl Write for blake2b_simd::State`: everything is taken and nothing fails.  The error type stands for the errors of the code itself. -/
def sink : Sink Stream Unit where
  write s buf := (s.update buf, .ok buf.length)

/-- `state.update(bytes)`. -/
def feed (bs : List UInt8) : Wr Stream Unit := fun s => ⟨bs, s.update bs, .ok⟩

/-- `return Err(encoding::Error::Custom(..))`. -/
def reject : Wr Stream Unit := fun s => ⟨[], s, .err (.io ())⟩

/-- `let mut state = Params::new().hash_length(32).to_state(); ..; Ok(state.finalize())`. -/
def run (w : Wr Stream Unit) : Res Hash256 :=
  match w Stream.new with
  | ⟨_, s, .ok⟩ => .ok s.finalize
  | ⟨_, _, .err _⟩ => .err .custom
  | ⟨_, _, .panic⟩ => .panic

/-- `update` of several pieces (e.g. sia/src/types/common.rs 68-71, sia/src/merkle.rs 60-64, sia/src/seed.rs 54-58). -/
def updates (ps : List (List UInt8)) : Res Hash256 := run (forEach feed ps)

/-- `Transaction::id` of v1 (sia/src/types/v1.rs 457-462). -/
def v1Id (t : V1.Transaction) : Res TransactionID := run (t.putNoSigs sink).unwrap

/-- `derive_child_id` (sia/src/types/v1.rs 464-470). -/
def v1ChildId (t : V1.Transaction) (pre : Specifier) (i : U64) : Res (Arr 32) :=
  run (feed pre.1 ?; (t.putNoSigs sink).unwrap ?; feed (le8 i))

/-- `whole_sig_hash` (sia/src/types/v1.rs 319-354). -/
def wholeSigHash (t : V1.Transaction) (cs : ChainState) (parentId : Arr 32) (publicKeyIndex timelock : U64) : Res Hash256 :=
  run (
    feed (le8 (BitVec.ofNat 64 t.siacoinInputs.length)) ?;
    forEach (fun i => feed cs.replayPrefix ?; emit .v1 sink i) t.siacoinInputs ?;
    emit .v1 sink t.siacoinOutputs ?;
    emit .v1 sink t.fileContracts ?;
    emit .v1 sink t.fileContractRevisions ?;
    emit .v1 sink t.storageProofs ?;
    feed (le8 (BitVec.ofNat 64 t.siafundInputs.length)) ?;
    forEach (fun i => feed cs.replayPrefix ?; emit .v1 sink i) t.siafundInputs ?;
    emit .v1 sink t.siafundOutputs ?;
    emit .v1 sink t.minerFees ?;
    emit .v1 sink t.arbitraryData ?;
    feed parentId.1 ?;
    emit .v1 sink publicKeyIndex ?;
    emit .v1 sink timelock)

/-- One of the loops of `partial_sig_hash` without a prefix (e.g. sia/src/types/v1.rs 373-380). -/
def selected {α : Type} [Writes .v1 α] (l : List α) (is : List U64) : Wr Stream Unit :=
  forEach (fun i => if h : i.toNat < l.length then emit .v1 sink l[i.toNat] else reject) is

/-- One of the loops with the replay prefix (sia/src/types/v1.rs 363-371, 409-417). -/
def selectedInputs {α : Type} [Writes .v1 α] (cs : ChainState) (l : List α) (is : List U64) : Wr Stream Unit :=
  forEach (fun i => if h : i.toNat < l.length then feed cs.replayPrefix ?; emit .v1 sink l[i.toNat] else reject) is

/-- `partial_sig_hash` (sia/src/types/v1.rs 356-455). -/
def partialSigHash (t : V1.Transaction) (cs : ChainState) (c : V1.CoveredFields) : Res Hash256 :=
  run (
    selectedInputs cs t.siacoinInputs c.siacoinInputs ?;
    selected t.siacoinOutputs c.siacoinOutputs ?;
    selected t.fileContracts c.fileContracts ?;
    selected t.fileContractRevisions c.fileContractRevisions ?;
    selected t.storageProofs c.storageProofs ?;
    selectedInputs cs t.siafundInputs c.siafundInputs ?;
    selected t.siafundOutputs c.siafundOutputs ?;
    selected t.minerFees c.minerFees ?;
    selected t.arbitraryData c.arbitraryData ?;
    selected t.signatures c.signatures)

/-- `Transaction::id` of v2 (sia/src/types/v2.rs 514-518). -/
def v2Id (t : V2.Transaction) : Res TransactionID := run (t.putSemantics sink).unwrap

/-- `Transaction::input_sig_hash` (sia/src/types/v2.rs 520-526). -/
def inputSigHash (t : V2.Transaction) (cs : ChainState) : Res Hash256 :=
  run (feed (ascii "sia/sig/input|") ?; feed cs.replayPrefix ?; (t.putSemantics sink).unwrap)

/-- `Attestation::sig_hash` (sia/src/types/v2.rs 47-53). -/
def attestationSigHash (a : V2.Attestation) (cs : ChainState) : Res Hash256 :=
  run (feed (ascii "sia/sig/attestation|") ?; feed cs.replayPrefix ?; (a.putSemantics sink).unwrap)

/-- `FileContract::sig_hash` (sia/src/types/v2.rs 104-110). -/
def contractSigHash (c : V2.FileContract) (cs : ChainState) : Res Hash256 :=
  run (feed (ascii "sia/sig/filecontract|") ?; feed cs.replayPrefix ?; (c.putSemantics sink).unwrap)

/-- `FileContractRenewal::sig_hash` (sia/src/types/v2.rs 231-237). -/
def renewalSigHash (r : V2.FileContractRenewal) (cs : ChainState) : Res Hash256 :=
  run (feed (ascii "sia/sig/filecontractrenewal|") ?; feed cs.replayPrefix ?; (r.putSemantics sink).unwrap)

/-- The leaf of a public key in `UnlockConditions::address` (sia/src/types/v1.rs 138-143). -/
def keyLeaf (k : UnlockKey) : Res Hash256 := run (feed [0] ?; (emit .v2 sink k).unwrap)

/-- The hash of a policy that is neither opaque nor unlock conditions, its children already opaque (sia/src/types/spendpolicy.rs 153-167). -/
def policyHash (p : SpendPolicy) : Res Address := run (feed (ascii "sia/address|") ?; (emit .v2 sink p).unwrap)

end Blake2b

end Verif
