import Verif.Model.Reader
import Verif.Model.Serde

/-!
# Other repairs, not in the code

The address macro with its checksum (C47), the work decoder without the replaced error (C62) and a text for every unlock key (C42).
-/

namespace Verif

/-- `address!` (sia/src/macros.rs 151-160) decoding all 38 bytes and comparing the checksum as `Address::parse_string` does. -/
def addressLitChecked (H : Hasher) (text : List UInt8) : Option Address :=
  if text.length ≠ 76 then none
  else match decodeHexLoop text 38 0 with
    | none => none
    | some data => if (H (data.take 32)).1.take 6 = data.drop 32 then some (toArr 32 (data.take 32)) else none

/-- The work fields of `State`, each `r.read_exact(&mut buf)?` as in the v1 decoder of `Work` (sia/src/types/work.rs 37-41). -/
abbrev State.Works := Work × Work × Work

/-- The fields of `State` between the timestamps and the work fields. -/
abbrev State.Before := BlockID × BlockID × Currency × Duration × BlockID × Address × Address

/-- `State::decode` (sia/src/consensus.rs 403-435) with these work fields. -/
def State.decodeKeeping (m : Mode) : Dec State := do
  let index ← (dec .v2 : Dec ChainIndex)
  let count ← Dec.lift (timestampsCount m index)
  let prevTimestamps ← decodeSlots (fun i => decide (i < count)) (dec .v2) DateTime.epoch 0 11
  let (a, b, c, d, e, f, g) ← (dec .v2 : Dec State.Before)
  let (h, i, j) ← (dec .v1 : Dec State.Works)
  let (k, l) ← (dec .v2 : Dec (ElementAccumulator × U64))
  pure ⟨index, prevTimestamps, a, b, c, d, e, f, g, h, i, j, k, l⟩

/-- The same with the reader in view. -/
def State.getKeeping {σ ε : Type} (m : Mode) (S : Source σ ε) : Rd σ ε State := do
  let index ← (Verif.get .v2 S : Rd σ ε ChainIndex)
  let count ← Rd.lift (timestampsCount m index)
  let prevTimestamps ← Rd.slots (fun i => decide (i < count)) (Verif.get .v2 S) DateTime.epoch 0 11
  let (a, b, c, d, e, f, g) ← (Verif.get .v2 S : Rd σ ε State.Before)
  let (h, i, j) ← (Verif.get .v1 S : Rd σ ε State.Works)
  let (k, l) ← (Verif.get .v2 S : Rd σ ε (ElementAccumulator × U64))
  pure ⟨index, prevTimestamps, a, b, c, d, e, f, g, h, i, j, k, l⟩

/-- `Display` of `UnlockKey` (sia/src/types/v1.rs 60-64) with the algorithm in hex if it is not UTF-8 or has a colon. -/
def showUnlockKeyFully (k : UnlockKey) : List UInt8 :=
  match showSpecifier k.algorithm with
  | some a => if (58 : UInt8) ∈ a then hexEncode k.algorithm.1 ++ [58] ++ hexEncode k.key else a ++ [58] ++ hexEncode k.key
  | none => hexEncode k.algorithm.1 ++ [58] ++ hexEncode k.key

/-- `UnlockKey::parse_string` (sia/src/types/v1.rs 69-75) reading an algorithm of 32 hex digits as 16 bytes. -/
def parseUnlockKeyFully (s : List UInt8) : Except ParseErr UnlockKey :=
  match splitColon s with
  | none => .error .missingPrefix
  | some (pre, key) =>
    match hexDecode key with
    | .error e => .error (.hexError e)
    | .ok k =>
      if pre.length = 32 then
        match hexDecode pre with
        | .ok a => .ok ⟨toArr 16 a, k⟩
        | .error _ => .ok ⟨specifierOf pre, k⟩
      else .ok ⟨specifierOf pre, k⟩

namespace Serde

/-- `UnlockKey` with this text. -/
def unlockKeyFully : Serde UnlockKey := text (fun k => .ok (textOf (showUnlockKeyFully k))) (fun s => ofExcept (parseUnlockKeyFully (strBytes s)))

open JField Shape in
/-- `UnlockConditions` (sia/src/types/v1.rs 94-102) with these keys. -/
def unlockConditionsFully : Serde UnlockConditions :=
  record (cons (req "timelock" u64) (cons (req "publicKeys" (list unlockKeyFully)) (one (req "signaturesRequired" u64)))) Struct.fields Struct.build

end Serde

mutual

/-- `Serialize` of `SpendPolicy` (sia/src/types/spendpolicy.rs 276-313) with these unlock conditions. -/
def serPolicyFully (E : Env) : SpendPolicy → Res Json
  | .above h => do
    let j ← Serde.u64.ser h
    pure (.obj [("type", .str "above"), ("policy", j)])
  | .after t => do
    let j ← Serde.u64.ser (BitVec.ofInt 64 t.secs)
    pure (.obj [("type", .str "after"), ("policy", j)])
  | .publicKey pk => do
    let j ← Serde.key.ser pk
    pure (.obj [("type", .str "pk"), ("policy", j)])
  | .hash h => do
    let j ← Serde.id.ser h
    pure (.obj [("type", .str "h"), ("policy", j)])
  | .threshold n of => do
    let x ← unwrap (Serde.u8.ser n)
    let js ← unwrap (serPoliciesFully E of)
    pure (.obj [("type", .str "thresh"), ("policy", (Json.obj [("n", x), ("of", .arr js)]).norm)])
  | .opaqueAddr a => do
    let j ← (Serde.address E).ser a
    pure (.obj [("type", .str "opaque"), ("policy", j)])
  | .unlockConditions uc => do
    let j ← Serde.unlockConditionsFully.ser uc
    pure (.obj [("type", .str "uc"), ("policy", j)])

/-- The sub-policies in order. -/
def serPoliciesFully (E : Env) : List SpendPolicy → Res (List Json)
  | [] => .ok []
  | p :: ps => do
    let j ← serPolicyFully E p
    let js ← serPoliciesFully E ps
    pure (j :: js)

end

/-- `Deserialize` of `SpendPolicy` (sia/src/types/spendpolicy.rs 171-274) with these unlock conditions. -/
def dePolicyFully (E : Env) : Nat → Json → Res SpendPolicy
  | 0, _ => .panic
  | n + 1, j =>
    match j with
    | .obj m => do
      let (type, value) ← policyMembers (none, none) m
      match type, value with
      | some type, some value =>
        if type = "above" then do let h ← Serde.u64.de value; pure (.above h)
        else if type = "after" then do
          let secs ← Serde.u64.de value
          match DateTime.fromUnix secs.toInt with
          | some t => pure (.after t)
          | none => .fail
        else if type = "pk" then do let pk ← Serde.key.de value; pure (.publicKey pk)
        else if type = "h" then do let h ← Serde.id.de value; pure (.hash h)
        else if type = "thresh" then do
          let p ← (Shape.cons (.req "n" Serde.u8) (.one (.req "of" (Serde.list { ser := serPolicyFully E, de := dePolicyFully E n })))).de value
          pure (.threshold p.1 p.2)
        else if type = "opaque" then do let a ← (Serde.address E).de value; pure (.opaqueAddr a)
        else if type = "uc" then do let uc ← Serde.unlockConditionsFully.de value; pure (.unlockConditions uc)
        else .fail
      | _, _ => .fail
    | _ => .fail

/-- `SpendPolicy` with these unlock conditions. -/
def Serde.policyFully (E : Env) : Serde SpendPolicy := { ser := serPolicyFully E, de := dePolicyFully E E.stack }

end Verif
