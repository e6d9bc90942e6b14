import Verif.Model.Types

/-!
# Spend policies (sia/src/types/spendpolicy.rs)
-/

namespace Verif

variable {v : Ver}

/-- `SpendPolicy` (sia/src/types/spendpolicy.rs 56-75). -/
inductive SpendPolicy where
  | above (height : U64)
  | after (time : DateTime)
  | publicKey (pk : PublicKey)
  | hash (h : Hash256)
  | threshold (n : UInt8) (of : List SpendPolicy)
  | opaqueAddr (addr : Address)
  | unlockConditions (uc : UnlockConditions)

namespace SpendPolicy

/-- `type_prefix` (sia/src/types/spendpolicy.rs 78-89, constants 15-22). -/
def typePrefix : SpendPolicy → UInt8
  | .above _ => 1
  | .after _ => 2
  | .publicKey _ => 3
  | .hash _ => 4
  | .threshold _ _ => 5
  | .opaqueAddr _ => 6
  | .unlockConditions _ => 7

mutual

/-- `encode_policy` (sia/src/types/spendpolicy.rs 318-340).  `policies.len() as u8` truncates. -/
def encodePolicy : SpendPolicy → List UInt8
  | .above h => [typePrefix (.above h)] ++ enc .v2 h
  | .after t => [typePrefix (.after t)] ++ leBytes 8 (BitVec.ofInt 64 t.secs).toNat
  | .publicKey pk => [typePrefix (.publicKey pk)] ++ enc .v2 pk
  | .hash h => [typePrefix (.hash h)] ++ enc .v2 h
  | .threshold n of => [typePrefix (.threshold n of)] ++ (enc .v2 n ++ (enc .v2 (UInt8.ofNat of.length) ++ encodePolicies of))
  | .opaqueAddr a => [typePrefix (.opaqueAddr a)] ++ enc .v2 a
  | .unlockConditions uc => [typePrefix (.unlockConditions uc)] ++ enc .v2 uc

/-- The loop over the sub-policies (sia/src/types/spendpolicy.rs 330-332). -/
def encodePolicies : List SpendPolicy → List UInt8
  | [] => []
  | p :: ps => encodePolicy p ++ encodePolicies ps

end

/-- `decode_policy` (sia/src/types/spendpolicy.rs 349-379).  The first argument is the number of nested calls
the stack still has room for. -/
def decodePolicy : Nat → Dec SpendPolicy
  | 0 => Dec.crash
  | k + 1 => do
    let ty ← (dec .v2 : Dec UInt8)
    if ty = 1 then do
      let h ← dec .v2
      pure (.above h)
    else if ty = 2 then do
      let secs ← (dec .v2 : Dec U64)
      match DateTime.fromUnix secs.toInt with
      | some t => pure (.after t)
      | none => Dec.fail .custom
    else if ty = 3 then do
      let pk ← dec .v2
      pure (.publicKey pk)
    else if ty = 4 then do
      let h ← dec .v2
      pure (.hash h)
    else if ty = 5 then do
      let of ← (dec .v2 : Dec UInt8)
      let n ← (dec .v2 : Dec UInt8)
      Dec.reserve n.toNat
      let ps ← decodeN (decodePolicy k) n.toNat
      pure (.threshold of ps)
    else if ty = 6 then do
      let a ← dec .v2
      pure (.opaqueAddr a)
    else if ty = 7 then do
      let uc ← dec .v2
      pure (.unlockConditions uc)
    else Dec.fail .custom

end SpendPolicy

/-- `SpendPolicy` codec (sia/src/types/spendpolicy.rs 315-388): a version byte 1, then the policy.  There is only
a v2 codec. -/
instance : Codec v SpendPolicy where
  encode p := enc .v2 (1 : UInt8) ++ p.encodePolicy
  decode := do
    let ver ← (dec .v2 : Dec UInt8)
    if ver ≠ 1 then Dec.fail .custom
    else fun lim bs => SpendPolicy.decodePolicy lim.stack lim bs

/-- `SatisfiedPolicy` (sia/src/types/spendpolicy.rs 390-398). -/
structure SatisfiedPolicy where
  policy : SpendPolicy
  signatures : List Signature
  preimages : List Hash256

instance : Struct SatisfiedPolicy (SpendPolicy × List Signature × List Hash256) where
  fields x := (x.policy, x.signatures, x.preimages)
  build := fun (a, b, c) => ⟨a, b, c⟩
instance : Codec v SatisfiedPolicy := inferInstance

end Verif
