import Verif.Spec.Layout
import Verif.Spec.Signing

/-!
# Where outputs, contracts and attestations come from

The identifiers of the crate are chained: a v2 output is named by the id of its transaction, a claim by the siafund output claimed, a payout by its
contract, a renewal by the contract renewed.  An `Origin` is such a chain, back to transactions and blocks.
-/

namespace Verif

/-- Where an output, a contract or an attestation comes from.  The ids of blocks are taken as given, since the crate does not compute them. -/
inductive Origin where
  | foundation (b : BlockID)
  | miner (b : BlockID) (i : U64)
  | v1Siacoin (t : V1.Transaction) (i : U64)
  | v1Siafund (t : V1.Transaction) (i : U64)
  | v1Contract (t : V1.Transaction) (i : U64)
  | v2Siacoin (t : V2.Transaction) (i : U64)
  | v2Siafund (t : V2.Transaction) (i : U64)
  | v2Contract (t : V2.Transaction) (i : U64)
  | v2Attestation (t : V2.Transaction) (i : U64)
  | claim (siafunds : Origin)
  | v2Claim (siafunds : Origin)
  | valid (contract : Origin) (i : U64)
  | missed (contract : Origin) (i : U64)
  | v2Renter (contract : Origin)
  | v2Host (contract : Origin)
  | v2Renewal (contract : Origin)

namespace Origin

/-- The identifier, as the methods of the crate compute it one from the other. -/
def id (H : Hasher) : Origin → Arr 32
  | foundation b => Ids.foundationOutputId H b
  | miner b i => Ids.minerOutputId H b i
  | v1Siacoin t i => t.siacoinOutputId H i
  | v1Siafund t i => t.siafundOutputId H i
  | v1Contract t i => t.fileContractId H i
  | v2Siacoin t i => Ids.v2SiacoinOutputId H (t.id H) i
  | v2Siafund t i => Ids.v2SiafundOutputId H (t.id H) i
  | v2Contract t i => Ids.v2FileContractId H (t.id H) i
  | v2Attestation t i => Ids.v2AttestationId H (t.id H) i
  | claim o => Ids.claimOutputId H (o.id H)
  | v2Claim o => Ids.v2ClaimOutputId H (o.id H)
  | valid o i => Ids.validOutputId H (o.id H) i
  | missed o i => Ids.missedOutputId H (o.id H) i
  | v2Renter o => Ids.v2RenterOutputId H (o.id H)
  | v2Host o => Ids.v2HostOutputId H (o.id H)
  | v2Renewal o => Ids.v2RenewalId H (o.id H)

/-- The strings hashed along the chain, in the layout of C56. -/
def strings (H : Hasher) : Origin → List (List UInt8)
  | foundation b => [Layout.derivation (.foundation b)]
  | miner b i => [Layout.derivation (.miner b i)]
  | v1Siacoin t i => [Layout.derivation (.siacoin t i)]
  | v1Siafund t i => [Layout.derivation (.siafund t i)]
  | v1Contract t i => [Layout.derivation (.fileContract t i)]
  | v2Siacoin t i => [Layout.derivation (.v2Siacoin (t.id H) i), Layout.v2Effects t]
  | v2Siafund t i => [Layout.derivation (.v2Siafund (t.id H) i), Layout.v2Effects t]
  | v2Contract t i => [Layout.derivation (.v2FileContract (t.id H) i), Layout.v2Effects t]
  | v2Attestation t i => [Layout.derivation (.v2Attestation (t.id H) i), Layout.v2Effects t]
  | claim o => Layout.derivation (.claim (o.id H)) :: o.strings H
  | v2Claim o => Layout.derivation (.v2Claim (o.id H)) :: o.strings H
  | valid o i => Layout.derivation (.valid (o.id H) i) :: o.strings H
  | missed o i => Layout.derivation (.missed (o.id H) i) :: o.strings H
  | v2Renter o => Layout.derivation (.v2Renter (o.id H)) :: o.strings H
  | v2Host o => Layout.derivation (.v2Host (o.id H)) :: o.strings H
  | v2Renewal o => Layout.derivation (.v2Renewal (o.id H)) :: o.strings H

/-- The transactions have vectors of 64-bit length. -/
def Sized : Origin → Prop
  | foundation _ | miner _ _ => True
  | v1Siacoin t _ | v1Siafund t _ | v1Contract t _ => t.Sized
  | v2Siacoin t _ | v2Siafund t _ | v2Contract t _ | v2Attestation t _ => t.Sized
  | claim o | v2Claim o | valid o _ | missed o _ | v2Renter o | v2Host o | v2Renewal o => o.Sized

/-- The same v2 transaction as far as its id says (C24): everything but witnesses, if the resolutions are of the same kinds; in any case what is
spent, the outputs, the contracts and the revisions. -/
def SameV2 (t t' : V2.Transaction) : Prop :=
  t.effects.siacoinsSpent = t'.effects.siacoinsSpent ∧ t.effects.siacoinOutputs = t'.effects.siacoinOutputs ∧
  t.effects.siafundsSpent = t'.effects.siafundsSpent ∧ t.effects.siafundOutputs = t'.effects.siafundOutputs ∧
  t.effects.contracts = t'.effects.contracts ∧ t.effects.revisions = t'.effects.revisions ∧
  (t.resolutionKinds = t'.resolutionKinds → t.effects = t'.effects)

/-- The same method at the same index all along the chain, back to the same block or the same transaction but for its signatures. -/
inductive Same : Origin → Origin → Prop
  | foundation (b : BlockID) : Same (.foundation b) (.foundation b)
  | miner (b : BlockID) (i : U64) : Same (.miner b i) (.miner b i)
  | v1Siacoin {t t' : V1.Transaction} (i : U64) : t.unsigned = t'.unsigned → Same (.v1Siacoin t i) (.v1Siacoin t' i)
  | v1Siafund {t t' : V1.Transaction} (i : U64) : t.unsigned = t'.unsigned → Same (.v1Siafund t i) (.v1Siafund t' i)
  | v1Contract {t t' : V1.Transaction} (i : U64) : t.unsigned = t'.unsigned → Same (.v1Contract t i) (.v1Contract t' i)
  | v2Siacoin {t t' : V2.Transaction} (i : U64) : SameV2 t t' → Same (.v2Siacoin t i) (.v2Siacoin t' i)
  | v2Siafund {t t' : V2.Transaction} (i : U64) : SameV2 t t' → Same (.v2Siafund t i) (.v2Siafund t' i)
  | v2Contract {t t' : V2.Transaction} (i : U64) : SameV2 t t' → Same (.v2Contract t i) (.v2Contract t' i)
  | v2Attestation {t t' : V2.Transaction} (i : U64) : SameV2 t t' → Same (.v2Attestation t i) (.v2Attestation t' i)
  | claim {o o' : Origin} : Same o o' → Same (.claim o) (.claim o')
  | v2Claim {o o' : Origin} : Same o o' → Same (.v2Claim o) (.v2Claim o')
  | valid {o o' : Origin} (i : U64) : Same o o' → Same (.valid o i) (.valid o' i)
  | missed {o o' : Origin} (i : U64) : Same o o' → Same (.missed o i) (.missed o' i)
  | v2Renter {o o' : Origin} : Same o o' → Same (.v2Renter o) (.v2Renter o')
  | v2Host {o o' : Origin} : Same o o' → Same (.v2Host o) (.v2Host o')
  | v2Renewal {o o' : Origin} : Same o o' → Same (.v2Renewal o) (.v2Renewal o')

/-- What an identifier can name. -/
inductive Thing where
  | siacoins (o : SiacoinOutput)
  | siafunds (o : SiafundOutput)
  | contract (c : V1.FileContract)
  | v2Contract (c : V2.FileContract)

/-- What a transaction creates under the identifier, v2 contracts without their signatures. -/
def thing : Origin → Option Thing
  | v1Siacoin t i => t.siacoinOutputs[i.toNat]?.map .siacoins
  | v1Siafund t i => t.siafundOutputs[i.toNat]?.map .siafunds
  | v1Contract t i => t.fileContracts[i.toNat]?.map .contract
  | v2Siacoin t i => t.siacoinOutputs[i.toNat]?.map .siacoins
  | v2Siafund t i => t.siafundOutputs[i.toNat]?.map .siafunds
  | v2Contract t i => t.fileContracts[i.toNat]?.map fun c => .v2Contract c.unsigned
  | _ => none

end Origin

end Verif
