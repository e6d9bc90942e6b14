import Verif.Model.Serde

/-!
# The JSON form of a contract resolution on its own
-/

namespace Verif.Serde

/-- The content of `Expiration()` on a text: the `deserialize_seq` of `serde_json` with no elements to read, so a pair of brackets. -/
def takeExpiration (depth : Nat) (t : List Char) : Res (V2.ContractResolution × List Char) :=
  match Json.skip t with
  | [] => .fail
  | c :: t =>
    if c = '[' then
      if depth = 0 then .fail
      else if (Json.skip t).head? = some ']' then .ok (.expiration, (Json.skip t).tail) else .fail
    else .fail

/-- The content of a variant on a text. -/
def takeVariant (E : Env) (finite : List Char → Bool) (depth : Nat) (k : String) (t : List Char) : Res (V2.ContractResolution × List Char) :=
  if k = "renewal" then do
    let (r, t) ← (renewal E).take finite depth t
    pure (.renewal r, t)
  else if k = "storageProof" then do
    let (s, t) ← v2StorageProof.take finite depth t
    pure (.storageProof s, t)
  else if k = "expiration" then takeExpiration depth t
  else .fail

/-- `v2::ContractResolution` (sia/src/types/v2.rs 297-305): derived, so an object with one member named after the variant.  `Expiration()` is a tuple variant
without fields, an empty array.  A string is a unit variant, which none of these is.  On a text this is the `deserialize_enum` of `serde_json`: an opening
brace, the name of the variant, a colon, the content, a closing brace. -/
def contractResolution (E : Env) : Serde V2.ContractResolution where
  ser
    | .renewal r => do let j ← (renewal E).ser r; pure (.obj [("renewal", j)])
    | .storageProof s => do let j ← v2StorageProof.ser s; pure (.obj [("storageProof", j)])
    | .expiration => .ok (.obj [("expiration", .arr [])])
  de
    | .obj [(k, v)] =>
      if k = "renewal" then do let r ← (renewal E).de v; pure (.renewal r)
      else if k = "storageProof" then do let s ← v2StorageProof.de v; pure (.storageProof s)
      else if k = "expiration" then
        match v with
        | .arr [] => .ok .expiration
        | _ => .fail
      else .fail
    | _ => .fail
  take finite depth t :=
    match Json.skip t with
    | [] => .fail
    | c :: t =>
      if c = '{' then
        if depth = 0 then .fail
        else do
          let (k, t) ← ofOption (Json.readKey (t.length + 1) t)
          let (r, t) ← takeVariant E finite (depth - 1) k t
          if (Json.skip t).head? = some '}' then pure (r, (Json.skip t).tail) else .fail
      else .fail

end Verif.Serde
