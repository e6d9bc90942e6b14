import Verif.Model.Hashing
import Verif.Model.Number
import Verif.Model.Text

/-!
# Small constructors and texts
-/

namespace Verif

/-- `From<PublicKey> for UnlockKey` (sia/src/types/v1.rs 78-85); `ALGORITHM_ED25519` (sia/src/types/v1.rs 26). -/
def UnlockKey.ofPublicKey (k : PublicKey) : UnlockKey := ⟨specifier (ascii "ed25519"), k.1⟩

/-- `UnlockConditions::new` (sia/src/types/v1.rs 105-115): the arguments in the order of the code. -/
def UnlockConditions.new (timelock : U64) (publicKeys : List UnlockKey) (requiredSignatures : U64) : UnlockConditions :=
  ⟨timelock, publicKeys, requiredSignatures⟩

/-- `UnlockConditions::standard_unlock_conditions` (sia/src/types/v1.rs 117-123). -/
def UnlockConditions.standard (k : PublicKey) : UnlockConditions := ⟨0, [UnlockKey.ofPublicKey k], 1⟩

/-- `CoveredFields::whole_transaction` (sia/src/types/v1.rs 256-263), with the derived `Default` (line 230). -/
def V1.CoveredFields.whole : V1.CoveredFields := ⟨true, [], [], [], [], [], [], [], [], [], []⟩

/-- `From<&[u8]> for Address` (sia/src/types/common.rs 271-277): `copy_from_slice` panics unless there are 32 bytes. -/
def Address.ofSlice (s : List UInt8) : Res Address := if h : s.length = 32 then .ok ⟨s, h⟩ else .panic

/-- `Display for ChainIndex` (sia/src/types/common.rs 161-165). -/
def ChainIndex.show (i : ChainIndex) : List UInt8 := ascii (String.ofList (showNat i.height.toNat)) ++ 58 :: hexEncode i.id.1

end Verif
