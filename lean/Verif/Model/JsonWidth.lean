import Verif.Model.Serde

/-!
# Reading JSON on targets with other pointer widths

`CoveredFields` holds `Vec<usize>`.  Derived `Deserialize` reads its elements with `usize::deserialize`, which on 32-bit targets takes the number as a
`u64` and refuses it if it does not fit (`serde` 1.0).  Here the reader of indices is a parameter.
-/

namespace Verif

namespace Serde

open JField Shape

/-- `usize` with 32 bits (the indices, sia/src/types/v1.rs 235-253).  Written as any unsigned number; `serde` is not in /repo. -/
def usize32 : Serde U64 where
  ser x := .ok (.nat x)
  de
    | .nat n => if n.toNat < 2 ^ 32 then .ok n else .fail
    | _ => .fail

/-- `CoveredFields` (sia/src/types/v1.rs 230-255). -/
def coveredFieldsOf (ix : Serde U64) : Serde V1.CoveredFields :=
  record (cons (req "wholeTransaction" bool) (cons (vec "siacoinInputs" (list ix)) (cons (vec "siacoinOutputs" (list ix))
    (cons (vec "fileContracts" (list ix)) (cons (vec "fileContractRevisions" (list ix)) (cons (vec "storageProofs" (list ix))
    (cons (vec "siafundInputs" (list ix)) (cons (vec "siafundOutputs" (list ix)) (cons (vec "minerFees" (list ix))
    (cons (vec "arbitraryData" (list ix)) (one (vec "signatures" (list ix)))))))))))))  Struct.fields Struct.build

/-- `TransactionSignature` (sia/src/types/v1.rs 265-275). -/
def transactionSignatureOf (ix : Serde U64) : Serde V1.TransactionSignature :=
  record (cons (req "parentID" id) (cons (req "publicKeyIndex" u64) (cons (req "timelock" u64) (cons (req "coveredFields" (coveredFieldsOf ix))
    (one (req "signature" base64)))))) Struct.fields Struct.build

/-- `v1::Transaction` (sia/src/types/v1.rs 277-304). -/
def v1TransactionOf (ix : Serde U64) (E : Env) : Serde V1.Transaction :=
  record (cons (vec "siacoinInputs" (list v1SiacoinInput)) (cons (vec "siacoinOutputs" (list (siacoinOutput E)))
    (cons (vec "fileContracts" (list (v1FileContract E))) (cons (vec "fileContractRevisions" (list (v1FileContractRevision E)))
    (cons (vec "storageProofs" (list v1StorageProof)) (cons (vec "siafundInputs" (list (v1SiafundInput E)))
    (cons (vec "siafundOutputs" (list (siafundOutput E))) (cons (vec "minerFees" (list (currency E)))
    (cons (vec "arbitraryData" (list base64)) (one (vec "signatures" (list (transactionSignatureOf ix))))))))))))) Struct.fields Struct.build

/-- `Block` (sia/src/types/common.rs 168-178). -/
def blockOf (ix : Serde U64) (E : Env) : Serde Block :=
  record (cons (req "parentID" id) (cons (req "nonce" u64) (cons (req "timestamp" (time E)) (cons (req "minerPayouts" (list (siacoinOutput E)))
    (one (req "transactions" (list (v1TransactionOf ix E)))))))) Struct.fields Struct.build

end Serde

end Verif
