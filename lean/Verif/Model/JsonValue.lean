import Verif.Model.Number

/-!
# JSON values

`serde_json` 1.0.134 without the `preserve_order` feature.
-/

namespace Verif

/-- A JSON document as the parser of `serde_json` sees it: object members in the order of the text, repeated keys included.
Numbers are an integer from 0 to 2^64 - 1 (`nat`), an integer from -2^63 to -1 (`neg k` is `-(k + 1)`), or anything else (`float`). -/
inductive Json where
  | null
  | bool (b : Bool)
  | nat (n : U64)
  | neg (k : BitVec 63)
  | float
  | str (s : String)
  | arr (l : List Json)
  | obj (m : List (String × Json))

namespace Json

/-- Insert into a sorted map unless the key is there. -/
def insertKey (k : String) (v : Json) : List (String × Json) → List (String × Json)
  | [] => [(k, v)]
  | (k', v') :: m => if k < k' then (k, v) :: (k', v') :: m else if k = k' then (k', v') :: m else (k', v') :: insertKey k v m

mutual

/-- Reading a document into a `serde_json::Value`, or building one with `to_value`: objects become `BTreeMap`s, so members are sorted by key and of
a repeated key the last counts. -/
def norm : Json → Json
  | .arr l => .arr (normList l)
  | .obj m => .obj (normMembers m)
  | j => j

/-- Elements of an array. -/
def normList : List Json → List Json
  | [] => []
  | j :: l => norm j :: normList l

/-- Members of an object. -/
def normMembers : List (String × Json) → List (String × Json)
  | [] => []
  | (k, v) :: m => insertKey k (norm v) (normMembers m)

end

mutual

/-- Nesting depth of arrays and objects. -/
def depth : Json → Nat
  | .arr l => depthList l + 1
  | .obj m => depthMembers m + 1
  | _ => 0

def depthList : List Json → Nat
  | [] => 0
  | j :: l => max (depth j) (depthList l)

def depthMembers : List (String × Json) → Nat
  | [] => 0
  | (_, v) :: m => max (depth v) (depthMembers m)

end

end Json

end Verif
