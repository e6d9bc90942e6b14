import Verif.Model.Json
import Verif.Model.Consensus

/-!
# JSON forms of the types
-/

namespace Verif

/-! ## Base64 (`base64` crate 0.22.1, engine `STANDARD`) -/

/-- A symbol of the standard alphabet, by its value below 64. -/
def b64Symbol (n : Nat) : UInt8 :=
  if n < 26 then UInt8.ofNat (65 + n)
  else if n < 52 then UInt8.ofNat (97 + (n - 26))
  else if n < 62 then UInt8.ofNat (48 + (n - 52))
  else if n = 62 then 43
  else 47

/-- The value of a symbol. -/
def b64Value (c : UInt8) : Option Nat :=
  if 65 ≤ c ∧ c ≤ 90 then some (c.toNat - 65)
  else if 97 ≤ c ∧ c ≤ 122 then some (c.toNat - 97 + 26)
  else if 48 ≤ c ∧ c ≤ 57 then some (c.toNat - 48 + 52)
  else if c = 43 then some 62
  else if c = 47 then some 63
  else none

/-- `STANDARD.encode`: four symbols for three bytes, padded with `=`. -/
def b64Encode : List UInt8 → List UInt8
  | [] => []
  | [a] =>
    let n := a.toNat * 65536
    [b64Symbol (n / 262144), b64Symbol (n / 4096 % 64), 61, 61]
  | [a, b] =>
    let n := a.toNat * 65536 + b.toNat * 256
    [b64Symbol (n / 262144), b64Symbol (n / 4096 % 64), b64Symbol (n / 64 % 64), 61]
  | a :: b :: c :: rest =>
    let n := a.toNat * 65536 + b.toNat * 256 + c.toNat
    b64Symbol (n / 262144) :: b64Symbol (n / 4096 % 64) :: b64Symbol (n / 64 % 64) :: b64Symbol (n % 64) :: b64Encode rest

/-- `STANDARD.decode`: padding is required, the bits after the last byte must be zero. -/
def b64Decode : List UInt8 → Option (List UInt8)
  | [] => some []
  | a :: b :: c :: d :: rest =>
    if rest.isEmpty && d == 61 then
      if c = 61 then
        match b64Value a, b64Value b with
        | some x, some y => if y % 16 = 0 then some [UInt8.ofNat ((x * 64 + y) / 16)] else none
        | _, _ => none
      else
        match b64Value a, b64Value b, b64Value c with
        | some x, some y, some z =>
          let n := (x * 64 + y) * 64 + z
          if z % 4 = 0 then some [UInt8.ofNat (n / 1024), UInt8.ofNat (n / 4 % 256)] else none
        | _, _, _ => none
    else
      match b64Value a, b64Value b, b64Value c, b64Value d with
      | some x, some y, some z, some w =>
        match b64Decode rest with
        | none => none
        | some bs =>
          let n := ((x * 64 + y) * 64 + z) * 64 + w
          some (UInt8.ofNat (n / 65536) :: UInt8.ofNat (n / 256 % 256) :: UInt8.ofNat (n % 256) :: bs)
      | _, _, _, _ => none
  | _ => none

/-! ## What the types need from elsewhere -/

/-- `hash` is blake2b-256, `mode` the overflow checks, `stack` the number of nested calls of the policy reader that fit on the stack, `timeText` and
`timeRead` are the RFC 3339 formatting and parsing of the `time` crate (an error of theirs is `none`). -/
structure Env where
  hash : Hasher
  mode : Mode
  stack : Nat
  timeText : DateTime → Option String
  timeRead : String → Option DateTime

/-- A `String` from bytes known to be UTF-8. -/
def textOf (bs : List UInt8) : String := (strOfBytes bs).getD ""

/-- A parse result as a deserialisation result. -/
def ofExcept {ε α : Type} : Except ε α → Res α
  | .ok a => .ok a
  | .error _ => .fail

/-- A parse result as a deserialisation result. -/
def ofOut {ε α : Type} : Out ε α → Res α
  | .ok a => .ok a
  | .err _ => .fail
  | .panic => .panic

namespace Serde

/-- The identifier types (sia/src/macros.rs 17-34), in a human-readable format. -/
def id : Serde Hash256 := text (fun h => .ok (textOf (showId h))) (fun s => ofExcept (parseId (strBytes s)))

/-- `Address` (sia/src/types/common.rs 217-234). -/
def address (E : Env) : Serde Address := text (fun a => .ok (textOf (showAddress E.hash a))) (fun s => ofExcept (parseAddress E.hash (strBytes s)))

/-- `PublicKey` (sia/src/signing.rs 17-37). -/
def key : Serde PublicKey := text (fun k => .ok (textOf (showKey k))) (fun s => ofOption (deserializeKey (strBytes s)))

/-- `Signature` (sia/src/signing.rs 116-134). -/
def signature : Serde Signature := text (fun x => .ok (textOf (showSignature x))) (fun s => ofOption (deserializeSignature (strBytes s)))

/-- `Leaf` (sia/src/types/common.rs 369-388). -/
def leaf : Serde Leaf := text (fun x => .ok (textOf (showLeaf x))) (fun s => ofOption (deserializeLeaf (strBytes s)))

/-- `UnlockKey` (sia/src/types/v1.rs 38-58), in a human-readable format; `to_string` panics when `Display` fails. -/
def unlockKey : Serde UnlockKey :=
  text (fun k => match showUnlockKey k with | some s => .ok (textOf s) | none => .panic) (fun s => ofExcept (parseUnlockKey (strBytes s)))

/-- `Currency` (sia/src/types/currency.rs 18-75). -/
def currency (E : Env) : Serde Currency where
  ser c := .ok (.str (String.ofList (showCurrency c)))
  de j := ofOut (deserializeCurrency E.mode (match j with
    | .str s => .str s.toList
    | .nat n => .u64 n
    | .neg k => .i64 (BitVec.ofInt 64 (-(k.toNat : Int) - 1))
    | _ => .other))

/-- `Work` (sia/src/types/work.rs 43-59). -/
def work : Serde Work := text (fun w => .ok (String.ofList (showWork w))) (fun s => ofExcept (parseWork s.toList))

/-- The `base64` helper module (sia/src/types/utils.rs 2-18).  `list base64` is the `vec_base64` module (80-105). -/
def base64 : Serde (List UInt8) := text (fun b => .ok (textOf (b64Encode b))) (fun s => ofOption (b64Decode (strBytes s)))

/-- `time::serde::rfc3339`. -/
def time (E : Env) : Serde DateTime := text (fun t => ofOption (E.timeText t)) (fun s => ofOption (E.timeRead s))

/-- The loop of `timestamp_array::deserialize` (sia/src/types/utils.rs 56-71); `done` are the timestamps set so far. -/
def readTimes (E : Env) (done : List DateTime) : List Json → Res (List DateTime)
  | [] => .ok (done ++ List.replicate (11 - done.length) DateTime.epoch)
  | .str s :: l =>
    if 11 ≤ done.length then .fail
    else match E.timeRead s with
      | none => .fail
      | some t => readTimes E (done ++ [t]) l
  | _ :: _ => .fail

/-- The `timestamp_array` module (sia/src/types/utils.rs 20-77). -/
def times (E : Env) : Serde (Vec DateTime 11) where
  ser l := do
    let js ← each (time E).ser l.1
    pure (.arr js)
  de
    | .arr l => do
      let ts ← readTimes E [] l
      if h : ts.length = 11 then pure ⟨ts, h⟩ else .panic
    | _ => .fail

/-- The `nano_second_duration` module (sia/src/types/utils.rs 106-118): both casts wrap. -/
def duration : Serde Duration where
  ser d := .ok (.nat (BitVec.ofInt 64 d.ns))
  de
    | .nat n => .ok ⟨n.toInt⟩
    | _ => .fail

/-! ## Derived structs -/

open JField Shape

/-- `ChainIndex` (sia/src/types/common.rs 149-153). -/
def chainIndex : Serde ChainIndex := record (cons (req "height" u64) (one (req "id" id))) Struct.fields Struct.build

/-- `SiacoinOutput` (sia/src/types/common.rs 302-309). -/
def siacoinOutput (E : Env) : Serde SiacoinOutput :=
  record (cons (req "value" (currency E)) (one (req "address" (address E)))) Struct.fields Struct.build

/-- `SiafundOutput` (sia/src/types/common.rs 313-318). -/
def siafundOutput (E : Env) : Serde SiafundOutput :=
  record (cons (req "value" u64) (one (req "address" (address E)))) (fun x => (x.value, x.address)) (fun (a, b) => ⟨a, b⟩)

/-- `StateElement` (sia/src/types/common.rs 390-395). -/
def stateElement : Serde StateElement := record (cons (req "leafIndex" u64) (one (req "merkleProof" (list id)))) Struct.fields Struct.build

/-- `UnlockConditions` (sia/src/types/v1.rs 94-102). -/
def unlockConditions : Serde UnlockConditions :=
  record (cons (req "timelock" u64) (cons (req "publicKeys" (list unlockKey)) (one (req "signaturesRequired" u64)))) Struct.fields Struct.build

/-- `v1::SiacoinInput` (sia/src/types/v1.rs 159-165). -/
def v1SiacoinInput : Serde V1.SiacoinInput :=
  record (cons (req "parentID" id) (one (req "unlockConditions" unlockConditions))) Struct.fields Struct.build

/-- `v1::SiafundInput` (sia/src/types/v1.rs 167-174). -/
def v1SiafundInput (E : Env) : Serde V1.SiafundInput :=
  record (cons (req "parentID" id) (cons (req "unlockConditions" unlockConditions) (one (req "claimAddress" (address E))))) Struct.fields Struct.build

/-- `v1::FileContract` (sia/src/types/v1.rs 176-189). -/
def v1FileContract (E : Env) : Serde V1.FileContract :=
  record (cons (req "filesize" u64) (cons (req "fileMerkleRoot" id) (cons (req "windowStart" u64) (cons (req "windowEnd" u64)
    (cons (req "payout" (currency E)) (cons (req "validProofOutputs" (list (siacoinOutput E)))
    (cons (req "missedProofOutputs" (list (siacoinOutput E))) (cons (req "unlockHash" (address E)) (one (req "revisionNumber" u64)))))))))) 
    Struct.fields Struct.build

/-- `v1::FileContractRevision` (sia/src/types/v1.rs 204-219). -/
def v1FileContractRevision (E : Env) : Serde V1.FileContractRevision :=
  record (cons (req "parentID" id) (cons (req "unlockConditions" unlockConditions) (cons (req "revisionNumber" u64) (cons (req "filesize" u64)
    (cons (req "fileMerkleRoot" id) (cons (req "windowStart" u64) (cons (req "windowEnd" u64)
    (cons (req "validProofOutputs" (list (siacoinOutput E))) (cons (req "missedProofOutputs" (list (siacoinOutput E)))
    (one (req "unlockHash" (address E)))))))))))) Struct.fields Struct.build

/-- `v1::StorageProof` (sia/src/types/v1.rs 221-228). -/
def v1StorageProof : Serde V1.StorageProof :=
  record (cons (req "parentID" id) (cons (req "leaf" leaf) (one (req "proof" (list id))))) Struct.fields Struct.build

/-- `CoveredFields` (sia/src/types/v1.rs 230-255). -/
def coveredFields : Serde V1.CoveredFields :=
  record (cons (req "wholeTransaction" bool) (cons (vec "siacoinInputs" (list u64)) (cons (vec "siacoinOutputs" (list u64))
    (cons (vec "fileContracts" (list u64)) (cons (vec "fileContractRevisions" (list u64)) (cons (vec "storageProofs" (list u64))
    (cons (vec "siafundInputs" (list u64)) (cons (vec "siafundOutputs" (list u64)) (cons (vec "minerFees" (list u64))
    (cons (vec "arbitraryData" (list u64)) (one (vec "signatures" (list u64)))))))))))))  Struct.fields Struct.build

/-- `TransactionSignature` (sia/src/types/v1.rs 265-275). -/
def transactionSignature : Serde V1.TransactionSignature :=
  record (cons (req "parentID" id) (cons (req "publicKeyIndex" u64) (cons (req "timelock" u64) (cons (req "coveredFields" coveredFields)
    (one (req "signature" base64)))))) Struct.fields Struct.build

/-- `v1::Transaction` (sia/src/types/v1.rs 277-304). -/
def v1Transaction (E : Env) : Serde V1.Transaction :=
  record (cons (vec "siacoinInputs" (list v1SiacoinInput)) (cons (vec "siacoinOutputs" (list (siacoinOutput E)))
    (cons (vec "fileContracts" (list (v1FileContract E))) (cons (vec "fileContractRevisions" (list (v1FileContractRevision E)))
    (cons (vec "storageProofs" (list v1StorageProof)) (cons (vec "siafundInputs" (list (v1SiafundInput E)))
    (cons (vec "siafundOutputs" (list (siafundOutput E))) (cons (vec "minerFees" (list (currency E)))
    (cons (vec "arbitraryData" (list base64)) (one (vec "signatures" (list transactionSignature)))))))))))) Struct.fields Struct.build

/-- `Block` (sia/src/types/common.rs 168-178). -/
def block (E : Env) : Serde Block :=
  record (cons (req "parentID" id) (cons (req "nonce" u64) (cons (req "timestamp" (time E)) (cons (req "minerPayouts" (list (siacoinOutput E)))
    (one (req "transactions" (list (v1Transaction E)))))))) Struct.fields Struct.build

end Serde

/-! ## Spend policies -/

/-- `type_str` (sia/src/types/spendpolicy.rs 91-103, constants 24-30). -/
def SpendPolicy.typeStr : SpendPolicy → String
  | .above _ => "above"
  | .after _ => "after"
  | .publicKey _ => "pk"
  | .hash _ => "h"
  | .threshold _ _ => "thresh"
  | .opaqueAddr _ => "opaque"
  | .unlockConditions _ => "uc"

/-- A failure inside `json!` is unwrapped. -/
def unwrap {α : Type} : Res α → Res α
  | .ok a => .ok a
  | _ => .panic

mutual

/-- `Serialize` of `SpendPolicy` (sia/src/types/spendpolicy.rs 276-313).  `json!` builds a `Value` from the sub-policies. -/
def serPolicy (E : Env) : SpendPolicy → Res Json
  | .above h => do
    let j ← Serde.u64.ser h
    pure (.obj [("type", .str "above"), ("policy", j)])
  | .after t => do
    let j ← Serde.u64.ser (BitVec.ofInt 64 t.secs)
    pure (.obj [("type", .str "after"), ("policy", j)])
  | .publicKey pk => do
    let j ← Serde.key.ser pk
    pure (.obj [("type", .str "pk"), ("policy", j)])
  | .hash h => do
    let j ← Serde.id.ser h
    pure (.obj [("type", .str "h"), ("policy", j)])
  | .threshold n of => do
    let x ← unwrap (Serde.u8.ser n)
    let js ← unwrap (serPolicies E of)
    pure (.obj [("type", .str "thresh"), ("policy", (Json.obj [("n", x), ("of", .arr js)]).norm)])
  | .opaqueAddr a => do
    let j ← (Serde.address E).ser a
    pure (.obj [("type", .str "opaque"), ("policy", j)])
  | .unlockConditions uc => do
    let j ← Serde.unlockConditions.ser uc
    pure (.obj [("type", .str "uc"), ("policy", j)])

/-- The sub-policies in order. -/
def serPolicies (E : Env) : List SpendPolicy → Res (List Json)
  | [] => .ok []
  | p :: ps => do
    let j ← serPolicy E p
    let js ← serPolicies E ps
    pure (j :: js)

end

/-- The loop of `visit_map` (sia/src/types/spendpolicy.rs 192-203): the type must be a string, the policy is read into a `Value`, later members overwrite
earlier ones, other keys are errors. -/
def policyMembers : Option String × Option Json → List (String × Json) → Res (Option String × Option Json)
  | x, [] => .ok x
  | x, (k, v) :: m =>
    if k = "type" then do
      let s ← Serde.string.de v
      policyMembers (some s, x.2) m
    else if k = "policy" then policyMembers (x.1, some v.norm) m
    else .fail

/-- `Deserialize` of `SpendPolicy` (sia/src/types/spendpolicy.rs 171-274).  The first number is the nested calls the stack still has room for. -/
def dePolicy (E : Env) : Nat → Json → Res SpendPolicy
  | 0, _ => .panic
  | n + 1, j =>
    match j with
    | .obj m => do
      let (type, value) ← policyMembers (none, none) m
      match type, value with
      | some type, some value =>
        if type = "above" then do let h ← Serde.u64.de value; pure (.above h)
        else if type = "after" then do
          let secs ← Serde.u64.de value
          match DateTime.fromUnix secs.toInt with
          | some t => pure (.after t)
          | none => .fail
        else if type = "pk" then do let pk ← Serde.key.de value; pure (.publicKey pk)
        else if type = "h" then do let h ← Serde.id.de value; pure (.hash h)
        else if type = "thresh" then do
          let p ← (Shape.cons (.req "n" Serde.u8) (.one (.req "of" (Serde.list ⟨serPolicy E, dePolicy E n, Take.whole (dePolicy E n)⟩)))).de value
          pure (.threshold p.1 p.2)
        else if type = "opaque" then do let a ← (Serde.address E).de value; pure (.opaqueAddr a)
        else if type = "uc" then do let uc ← Serde.unlockConditions.de value; pure (.unlockConditions uc)
        else .fail
      | _, _ => .fail
    | _ => .fail

namespace Serde

open JField Shape

/-- One round of `visit_map` on a text.  An unknown key is an error before its value is looked at. -/
def takePolicyMember (finite : List Char → Bool) (depth : Nat) (x : Option String × Option Json) (k : String) (t : List Char) :
    Res ((Option String × Option Json) × List Char) :=
  if k = "type" then do
    let (s, t) ← string.take finite depth t
    pure ((some s, x.2), t)
  else if k = "policy" then do
    let (v, t) ← Take.whole (fun v => .ok v.norm) finite depth t
    pure ((x.1, some v), t)
  else .fail

/-- `Deserialize` of `SpendPolicy` on a text (sia/src/types/spendpolicy.rs 171-274).  Below the first level policies are read from a `Value`; what follows
the loop is as for an object with just the two members. -/
def takePolicy (E : Env) (n : Nat) : Take SpendPolicy := fun finite depth t =>
  match n, Json.skip t with
  | 0, _ => .panic
  | _, [] => .fail
  | n + 1, c :: t =>
    if c = '{' then
      if depth = 0 then .fail
      else do
        let (x, t) ← takeObject (takePolicyMember finite (depth - 1)) (none, none) t
        match x with
        | (some type, some value) => do
          let p ← dePolicy E (n + 1) (.obj [("type", .str type), ("policy", value)])
          pure (p, t)
        | _ => .fail
    else .fail

/-- `SpendPolicy`. -/
def policy (E : Env) : Serde SpendPolicy := ⟨serPolicy E, dePolicy E E.stack, takePolicy E E.stack⟩

/-- `SatisfiedPolicy` (sia/src/types/spendpolicy.rs 390-398). -/
def satisfiedPolicy (E : Env) : Serde SatisfiedPolicy :=
  record (cons (req "policy" (policy E)) (cons (vec "signatures" (list signature)) (one (vec "preimages" (list id))))) Struct.fields Struct.build

/-! ## v2 -/

/-- `v2::Attestation` (sia/src/types/v2.rs 28-37). -/
def attestation : Serde V2.Attestation :=
  record (cons (req "publicKey" key) (cons (req "key" string) (cons (req "value" base64) (one (req "signature" signature))))) Struct.fields Struct.build

/-- `v2::FileContract` (sia/src/types/v2.rs 60-78). -/
def v2FileContract (E : Env) : Serde V2.FileContract :=
  record (cons (req "capacity" u64) (cons (req "filesize" u64) (cons (req "fileMerkleRoot" id) (cons (req "proofHeight" u64)
    (cons (req "expirationHeight" u64) (cons (req "renterOutput" (siacoinOutput E)) (cons (req "hostOutput" (siacoinOutput E))
    (cons (req "missedHostValue" (currency E)) (cons (req "totalCollateral" (currency E)) (cons (req "renterPublicKey" key)
    (cons (req "hostPublicKey" key) (cons (req "revisionNumber" u64) (cons (req "renterSignature" signature)
    (one (req "hostSignature" signature))))))))))))))) Struct.fields Struct.build

/-- `v2::SiacoinElement` (sia/src/types/v2.rs 113-121). -/
def siacoinElement (E : Env) : Serde V2.SiacoinElement :=
  record (cons (req "stateElement" stateElement) (cons (req "id" id) (cons (req "siacoinOutput" (siacoinOutput E)) (one (req "maturityHeight" u64)))))
    Struct.fields Struct.build

/-- `v2::SiafundElement` (sia/src/types/v2.rs 123-131). -/
def siafundElement (E : Env) : Serde V2.SiafundElement :=
  record (cons (req "stateElement" stateElement) (cons (req "id" id) (cons (req "siafundOutput" (siafundOutput E)) (one (req "claimStart" (currency E))))))
    Struct.fields Struct.build

/-- `v2::FileContractElement` (sia/src/types/v2.rs 133-141). -/
def fileContractElement (E : Env) : Serde V2.FileContractElement :=
  record (cons (req "stateElement" stateElement) (cons (req "id" id) (one (req "v2FileContract" (v2FileContract E))))) Struct.fields Struct.build

/-- `v2::ChainIndexElement` (sia/src/types/v2.rs 143-150). -/
def chainIndexElement : Serde V2.ChainIndexElement :=
  record (cons (req "stateElement" stateElement) (cons (req "id" id) (one (req "chainIndex" chainIndex)))) Struct.fields Struct.build

/-- `v2::SiacoinInput` (sia/src/types/v2.rs 170-177). -/
def v2SiacoinInput (E : Env) : Serde V2.SiacoinInput :=
  record (cons (req "parent" (siacoinElement E)) (one (req "satisfiedPolicy" (satisfiedPolicy E)))) Struct.fields Struct.build

/-- `v2::SiafundInput` (sia/src/types/v2.rs 179-187). -/
def v2SiafundInput (E : Env) : Serde V2.SiafundInput :=
  record (cons (req "parent" (siafundElement E)) (cons (req "claimAddress" (address E)) (one (req "satisfiedPolicy" (satisfiedPolicy E)))))
    Struct.fields Struct.build

/-- `v2::FileContractRevision` (sia/src/types/v2.rs 189-195). -/
def v2FileContractRevision (E : Env) : Serde V2.FileContractRevision :=
  record (cons (req "parent" (fileContractElement E)) (one (req "revision" (v2FileContract E)))) Struct.fields Struct.build

/-- `v2::FileContractRenewal` (sia/src/types/v2.rs 205-218). -/
def renewal (E : Env) : Serde V2.FileContractRenewal :=
  record (cons (req "finalRevision" (v2FileContract E)) (cons (req "newContract" (v2FileContract E)) (cons (req "renterRollover" (currency E))
    (cons (req "hostRollover" (currency E)) (cons (req "renterSignature" signature) (one (req "hostSignature" signature))))))) Struct.fields Struct.build

/-- `v2::StorageProof` (sia/src/types/v2.rs 240-257). -/
def v2StorageProof : Serde V2.StorageProof :=
  record (cons (req "proofIndex" chainIndexElement) (cons (req "leaf" leaf) (one (req "proof" (list id))))) Struct.fields Struct.build

/-- The loop of `visit_map` (sia/src/types/v2.rs 410-423): later members overwrite earlier ones, other keys are errors. -/
def resolutionMembers (E : Env) : Option V2.FileContractElement × Option String × Option Json → List (String × Json) →
    Res (Option V2.FileContractElement × Option String × Option Json)
  | x, [] => .ok x
  | x, (k, v) :: m =>
    if k = "parent" then do
      let p ← (fileContractElement E).de v
      resolutionMembers E (some p, x.2) m
    else if k = "type" then do
      let s ← string.de v
      resolutionMembers E (x.1, some s, x.2.2) m
    else if k = "resolution" then resolutionMembers E (x.1, x.2.1, some v.norm) m
    else .fail

/-- One round of `visit_map` on a text. -/
def takeResolutionMember (E : Env) (finite : List Char → Bool) (depth : Nat) (x : Option V2.FileContractElement × Option String × Option Json) (k : String)
    (t : List Char) : Res ((Option V2.FileContractElement × Option String × Option Json) × List Char) :=
  if k = "parent" then do
    let (p, t) ← (fileContractElement E).take finite depth t
    pure ((some p, x.2), t)
  else if k = "type" then do
    let (s, t) ← string.take finite depth t
    pure ((x.1, some s, x.2.2), t)
  else if k = "resolution" then do
    let (v, t) ← Take.whole (fun v => .ok v.norm) finite depth t
    pure ((x.1, x.2.1, some v), t)
  else .fail

/-- What follows the loop (sia/src/types/v2.rs 424-447). -/
def resolutionOf (E : Env) : Option V2.FileContractElement × Option String × Option Json → Res V2.FileContractResolution
  | (some p, some t, some r) =>
    if t = "renewal" then do let x ← (renewal E).de r; pure ⟨p, .renewal x⟩
    else if t = "storageProof" then do let x ← v2StorageProof.de r; pure ⟨p, .storageProof x⟩
    else if t = "expiration" then pure ⟨p, .expiration⟩
    else .fail
  | _ => .fail

/-- `v2::FileContractResolution` (sia/src/types/v2.rs 359-450).  `deserialize_struct` without `visit_seq` refuses arrays. -/
def resolution (E : Env) : Serde V2.FileContractResolution where
  ser x := do
    let p ← (fileContractElement E).ser x.parent
    let (t, r) ← (match x.resolution with
      | .renewal r => do let j ← (renewal E).ser r; pure ("renewal", j.norm)
      | .storageProof s => do let j ← v2StorageProof.ser s; pure ("storageProof", j.norm)
      | .expiration => pure ("expiration", Json.obj []))
    pure (.obj [("parent", p), ("type", .str t), ("resolution", r)])
  de
    | .obj m => do
      let x ← resolutionMembers E (none, none, none) m
      resolutionOf E x
    | _ => .fail
  take finite depth t :=
    match Json.skip t with
    | [] => .fail
    | c :: t =>
      if c = '{' then
        if depth = 0 then .fail
        else do
          let (x, t) ← takeObject (takeResolutionMember E finite (depth - 1)) (none, none, none) t
          let r ← resolutionOf E x
          pure (r, t)
      else .fail

/-- `v2::Transaction` (sia/src/types/v2.rs 452-481). -/
def v2Transaction (E : Env) : Serde V2.Transaction :=
  record (cons (vec "siacoinInputs" (list (v2SiacoinInput E))) (cons (vec "siacoinOutputs" (list (siacoinOutput E)))
    (cons (vec "siafundInputs" (list (v2SiafundInput E))) (cons (vec "siafundOutputs" (list (siafundOutput E)))
    (cons (vec "fileContracts" (list (v2FileContract E))) (cons (vec "fileContractRevisions" (list (v2FileContractRevision E)))
    (cons (vec "fileContractResolutions" (list (resolution E))) (cons (vec "attestations" (list attestation))
    (cons (vec "arbitraryData" base64) (cons (opt? "newFoundationAddress" (option (address E))) (one (req "minerFee" (currency E)))))))))))))
    (fun t => (t.siacoinInputs, t.siacoinOutputs, t.siafundInputs, t.siafundOutputs, t.fileContracts, t.fileContractRevisions,
      t.fileContractResolutions, t.attestations, t.arbitraryData, t.newFoundationAddress, t.minerFee))
    (fun (a, b, c, d, e, f, g, h, i, j, k) => ⟨a, b, c, d, e, f, g, h, i, j, k⟩)

/-! ## Consensus -/

/-- Take the tree roots for the one bits of the leaf count from a list, in order (sia/src/consensus.rs 334-342); `none` when the list runs out. -/
def placeTrees (present : Nat → Bool) : Nat → (n : Nat) → List Hash256 → Option (Vec Hash256 n)
  | _, 0, _ => some ⟨[], rfl⟩
  | i, n + 1, l =>
    if present i then l.head?.bind fun h => (placeTrees present (i + 1) n l.tail).map fun r => ⟨h :: r.1, by simp [r.2]⟩
    else (placeTrees present (i + 1) n l).map fun r => ⟨Arr.zero 32 :: r.1, by simp [r.2]⟩

/-- The tree roots at the one bits of the leaf count (sia/src/consensus.rs 300-306). -/
def keepTrees (present : Nat → Bool) : Nat → List Hash256 → List Hash256
  | _, [] => []
  | i, h :: l => if present i then h :: keepTrees present (i + 1) l else keepTrees present (i + 1) l

/-- `count_ones` of a `u64`. -/
def countOnes (x : U64) : Nat := (List.range 64).countP fun i => x.getLsbD i

/-- What follows the members (sia/src/consensus.rs 326-345). -/
def accumulatorOf (inter : U64 × List Hash256) : Res ElementAccumulator :=
  if inter.2.length ≠ countOnes inter.1 then .fail
  else match placeTrees (hasTreeAtHeight inter.1) 0 64 inter.2 with
    | none => .fail
    | some trees => pure ⟨inter.1, trees⟩

/-- `ElementAccumulator` (sia/src/consensus.rs 296-346). -/
def accumulator : Serde ElementAccumulator where
  ser a := do
    let n ← u64.ser a.numLeaves
    let t ← (list id).ser (keepTrees (hasTreeAtHeight a.numLeaves) 0 a.trees.1)
    pure (.obj [("numLeaves", n), ("trees", t)])
  de j := do
    let inter ← (cons (req "numLeaves" u64) (one (req "trees" (list id)))).de j
    accumulatorOf inter
  take finite depth t := do
    let (inter, t) ← (cons (req "numLeaves" u64) (one (req "trees" (list id)))).take finite depth t
    let a ← accumulatorOf inter
    pure (a, t)

/-- `State` (sia/src/consensus.rs 348-373). -/
def state (E : Env) : Serde State :=
  record (cons (req "index" chainIndex) (cons (req "prevTimestamps" (times E)) (cons (req "depth" id) (cons (req "childTarget" id)
    (cons (req "siafundPool" (currency E)) (cons (req "oakTime" duration) (cons (req "oakTarget" id)
    (cons (req "foundationPrimaryAddress" (address E)) (cons (req "foundationFailsafeAddress" (address E)) (cons (req "totalWork" work)
    (cons (req "difficulty" work) (cons (req "oakWork" work) (cons (req "elements" accumulator) (one (req "attestations" u64)))))))))))))))
    (fun s => (s.index, s.prevTimestamps, s.depth, s.childTarget, s.siafundPool, s.oakTime, s.oakTarget, s.foundationPrimaryAddress,
      s.foundationFailsafeAddress, s.totalWork, s.difficulty, s.oakWork, s.elements, s.attestations))
    (fun (a, b, c, d, e, f, g, h, i, j, k, l, m, n) => ⟨a, b, c, d, e, f, g, h, i, j, k, l, m, n⟩)

/-- `HardforkDevAddr` (sia/src/consensus.rs 11-17). -/
def hardforkDevAddr (E : Env) : Serde HardforkDevAddr :=
  record (cons (req "height" u64) (cons (req "oldAddress" (address E)) (one (req "newAddress" (address E)))))
    (fun x => (x.height, x.oldAddress, x.newAddress)) (fun (a, b, c) => ⟨a, b, c⟩)

/-- `HardforkTax`, `HardforkStorageProof` (sia/src/consensus.rs 21-33): a height. -/
def hardforkHeight : Serde U64 := record (one (req "height" u64)) (fun x => x) (fun x => x)

/-- `HardforkOak` (sia/src/consensus.rs 37-44). -/
def hardforkOak (E : Env) : Serde HardforkOak :=
  record (cons (req "height" u64) (cons (req "fixHeight" u64) (one (req "genesisTimestamp" (time E)))))
    (fun x => (x.height, x.fixHeight, x.genesisTimestamp)) (fun (a, b, c) => ⟨a, b, c⟩)

/-- `HardforkASIC` (sia/src/consensus.rs 48-55). -/
def hardforkASIC : Serde HardforkASIC :=
  record (cons (req "height" u64) (cons (req "oakTime" duration) (one (req "oakTarget" id))))
    (fun x => (x.height, x.oakTime, x.oakTarget)) (fun (a, b, c) => ⟨a, b, c⟩)

/-- `HardforkFoundation` (sia/src/consensus.rs 59-65). -/
def hardforkFoundation (E : Env) : Serde HardforkFoundation :=
  record (cons (req "height" u64) (cons (req "primaryAddress" (address E)) (one (req "failsafeAddress" (address E)))))
    (fun x => (x.height, x.primaryAddress, x.failsafeAddress)) (fun (a, b, c) => ⟨a, b, c⟩)

/-- `HardforkV2` (sia/src/consensus.rs 68-73). -/
def hardforkV2 : Serde HardforkV2 :=
  record (cons (req "allowHeight" u64) (one (req "requireHeight" u64))) (fun x => (x.allowHeight, x.requireHeight)) (fun (a, b) => ⟨a, b⟩)

/-- `Network` (sia/src/consensus.rs 76-96). -/
def network (E : Env) : Serde Network :=
  record (cons (req "name" string) (cons (req "initialCoinbase" (currency E)) (cons (req "minimumCoinbase" (currency E)) (cons (req "initialTarget" id)
    (cons (req "blockInterval" duration) (cons (req "maturityDelay" u64) (cons (req "hardforkDevAddr" (hardforkDevAddr E))
    (cons (req "hardforkTax" hardforkHeight) (cons (req "hardforkStorageProof" hardforkHeight) (cons (req "hardforkOak" (hardforkOak E))
    (cons (req "hardforkASIC" hardforkASIC) (cons (req "hardforkFoundation" (hardforkFoundation E)) (one (req "hardforkV2" hardforkV2))))))))))))))
    (fun n => (n.name, n.initialCoinbase, n.minimumCoinbase, n.initialTarget, n.blockInterval, n.maturityDelay, n.hardforkDevAddr, n.hardforkTax,
      n.hardforkStorageProof, n.hardforkOak, n.hardforkASIC, n.hardforkFoundation, n.hardforkV2))
    (fun (a, b, c, d, e, f, g, h, i, j, k, l, m) => ⟨a, b, c, d, e, f, g, h, i, j, k, l, m⟩)

/-- `ChainState` (sia/src/consensus.rs 437-443). -/
def chainState (E : Env) : Serde ChainState :=
  record (cons (req "network" (network E)) (one (req "state" (state E)))) (fun x => (x.network, x.state)) (fun (a, b) => ⟨a, b⟩)

end Serde

end Verif
