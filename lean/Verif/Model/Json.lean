import Verif.Model.JsonText

/-!
# `serde`

The code `serde_derive` generates, and how `serde_json` 1.0.134 runs it.  A value is read either from a document (`from_value`, and the meaning of a text) or
from a text, in one pass.
-/

namespace Verif

/-- The only error. -/
def Res.fail {α : Type} : Res α := .err .custom

/-- A parse result as a deserialisation result. -/
def ofOption {α : Type} : Option α → Res α
  | some a => .ok a
  | none => .fail

/-- A reader of one value from a text.  Its arguments are which numbers that are not integers fit an `f64`, how many arrays and objects may still be
opened, and the text; it gives the value and the rest of the text. -/
abbrev Take (α : Type) := (List Char → Bool) → Nat → List Char → Res (α × List Char)

/-- Read a value whatever it is, then see to it.  This is how a `Value` is read.  It stands as well for a type that does not take arrays and objects: its
reader fails already at the bracket. -/
def Take.whole {α : Type} (de : Json → Res α) : Take α := fun finite depth s =>
  match Json.readValue finite (s.length + 1) depth s with
  | some (j, s) => do
    let a ← de j
    pure (a, s)
  | none => .fail

/-- How a type is written to JSON, read from a document, and read from a text.  Simplification: all errors are the same, `Err.custom`. -/
structure Serde (α : Type) where
  ser : α → Res Json
  de : Json → Res α
  take : Take α := Take.whole de

/-- `serde_json::from_str` on the text of a document: the parser refuses arrays and objects nested 128 deep.  Simplification: members that are skipped
because no field has their name count as well, although the parser skips them without that limit; `ofText` is without this simplification. -/
def Serde.fromStr {α : Type} (s : Serde α) (j : Json) : Res α := if j.depth < 128 then s.de j else .err .custom

/-- `serde_json::to_string`. -/
def Serde.toText {α : Type} (s : Serde α) (a : α) : Res (List Char) := do
  let j ← s.ser a
  pure j.print

/-- `serde_json::from_str`: arrays and objects may be nested 127 deep, and only white space may follow the value. -/
def Serde.ofText {α : Type} (s : Serde α) (finite : List Char → Bool) (t : List Char) : Res α := do
  let (a, r) ← s.take finite 127 t
  if Json.skip r = [] then pure a else .fail

/-- The loop of a `visit_map` on a text, up to the closing brace; `step` takes a key and reads the value.  The number bounds the rounds. -/
def takeMembers {X : Type} (step : X → String → List Char → Res (X × List Char)) : Nat → X → List Char → Res (X × List Char)
  | 0, _, _ => .fail
  | fuel + 1, x, t => do
    let (k, t) ← ofOption (Json.readKey (t.length + 1) t)
    let (y, t) ← step x k t
    let (more, t) ← ofOption (Json.readSeparator '}' t)
    if more then takeMembers step fuel y t else pure (y, t)

/-- A `visit_map` on a text, after the opening brace. -/
def takeObject {X : Type} (step : X → String → List Char → Res (X × List Char)) (x : X) (t : List Char) : Res (X × List Char) :=
  if (Json.skip t).head? = some '}' then pure (x, (Json.skip t).tail) else takeMembers step (t.length + 1) x t

/-- A field of a derived struct: its name, how its type is written and read, and for `#[serde(default, skip_serializing_if = ..)]` the default and
the condition. -/
structure JField (α : Type) where
  name : String
  type : Serde α
  opt : Option (α × (α → Bool)) := none

/-- The fields of a struct in order. -/
inductive Shape : Type → Type 1 where
  | one {α : Type} (f : JField α) : Shape α
  | cons {α β : Type} (f : JField α) (s : Shape β) : Shape (α × β)

namespace JField

variable {α : Type} (f : JField α)

/-- Derived `Serialize` on one field: skipped under the condition of `skip_serializing_if`. -/
def ser (a : α) : Res (List (String × Json)) :=
  match f.opt with
  | some (_, skip) => if skip a then .ok [] else do let j ← f.type.ser a; pure [(f.name, j)]
  | none => do let j ← f.type.ser a; pure [(f.name, j)]

/-- What derived `Deserialize` puts in for a missing field. -/
def missing : Res α :=
  match f.opt with
  | some (d, _) => .ok d
  | none => .fail

/-- A known key in derived `visit_map`: it must be new, and its value is read. -/
def put (x : Option α) (v : Json) : Res (Option α) :=
  match x with
  | some _ => .fail
  | none => do
    let a ← f.type.de v
    pure (some a)

/-- The same, from a text. -/
def takePut (finite : List Char → Bool) (depth : Nat) (x : Option α) (t : List Char) : Res (Option α × List Char) :=
  match x with
  | some _ => .fail
  | none => do
    let (a, t) ← f.type.take finite depth t
    pure (some a, t)

/-- The end of derived `visit_map`. -/
def get (x : Option α) : Res α :=
  match x with
  | some a => .ok a
  | none => f.missing

end JField

namespace Shape

/-- Derived `Serialize`: the members of the object. -/
def ser : {β : Type} → Shape β → β → Res (List (String × Json))
  | _, .one f, a => f.ser a
  | _, .cons f s, p => do
    let x ← f.ser p.1
    let y ← s.ser p.2
    pure (x ++ y)

/-- The local variables of derived `visit_map`, one `Option` per field. -/
def Slots : {β : Type} → Shape β → Type
  | α, .one _ => Option α
  | _, .cons (α := α) _ s => Option α × s.Slots

/-- All `None`. -/
def start : {β : Type} → (s : Shape β) → s.Slots
  | _, .one _ => none
  | _, .cons _ s => (none, s.start)

/-- One round of derived `visit_map`: a known key must be new, its value is read; an unknown key is skipped. -/
def step : {β : Type} → (s : Shape β) → s.Slots → String → Json → Res s.Slots
  | _, .one f, x, k, v => if k = f.name then f.put x v else .ok x
  | _, .cons f s, x, k, v =>
    if k = f.name then do
      let a ← f.put x.1 v
      pure (a, x.2)
    else do
      let y ← s.step x.2 k v
      pure (x.1, y)

/-- The loop of derived `visit_map`. -/
def run {β : Type} (s : Shape β) : s.Slots → List (String × Json) → Res s.Slots
  | x, [] => .ok x
  | x, (k, v) :: m => do
    let y ← s.step x k v
    run s y m

/-- The end of derived `visit_map`: missing fields. -/
def finish : {β : Type} → (s : Shape β) → s.Slots → Res β
  | _, .one f, x => f.get x
  | _, .cons f s, x => do
    let a ← f.get x.1
    let b ← s.finish x.2
    pure (a, b)

/-- Derived `visit_seq`: the fields in order; trailing elements are refused by `serde_json`. -/
def seq : {β : Type} → Shape β → List Json → Res β
  | _, .one f, l =>
    match l with
    | [] => f.missing
    | j :: l => do
      let a ← f.type.de j
      if l.isEmpty then pure a else .fail
  | _, .cons f s, l =>
    match l with
    | [] => do
      let a ← f.missing
      let b ← s.seq []
      pure (a, b)
    | j :: l => do
      let a ← f.type.de j
      let b ← s.seq l
      pure (a, b)

/-- Derived `Deserialize` for a struct; `serde_json` takes an object or an array. -/
def de {β : Type} (s : Shape β) : Json → Res β
  | .obj m => do
    let x ← s.run s.start m
    s.finish x
  | .arr l => s.seq l
  | _ => .fail

/-- One round of derived `visit_map` on a text.  The value of an unknown key is skipped, which checks less than reading it. -/
def takeStep (finite : List Char → Bool) (depth : Nat) : {β : Type} → (s : Shape β) → s.Slots → String → List Char → Res (s.Slots × List Char)
  | _, .one f, x, k, t =>
    if k = f.name then f.takePut finite depth x t
    else do
      let t ← ofOption (Json.skipValue (t.length + 1) t)
      pure (x, t)
  | _, .cons f s, x, k, t =>
    if k = f.name then do
      let (a, t) ← f.takePut finite depth x.1 t
      pure ((a, x.2), t)
    else do
      let (y, t) ← s.takeStep finite depth x.2 k t
      pure ((x.1, y), t)

/-- Is there another element?  After the opening bracket there is unless it is closed, later it needs a comma. -/
def another (first : Bool) (t : List Char) : Res (Bool × List Char) :=
  if first then
    if (Json.skip t).head? = some ']' then .ok (false, (Json.skip t).tail) else .ok (true, t)
  else ofOption (Json.readSeparator ']' t)

/-- Derived `visit_seq` on a text, up to the closing bracket. -/
def takeSeq (finite : List Char → Bool) (depth : Nat) : {β : Type} → Shape β → Bool → List Char → Res (β × List Char)
  | _, .one f, first, t => do
    let (more, t) ← another first t
    if more then do
      let (a, t) ← f.type.take finite depth t
      let (more, t) ← another false t
      if more then .fail else pure (a, t)
    else do
      let a ← f.missing
      pure (a, t)
  | _, .cons f s, first, t => do
    let (more, t) ← another first t
    if more then do
      let (a, t) ← f.type.take finite depth t
      let (b, t) ← s.takeSeq finite depth false t
      pure ((a, b), t)
    else do
      let a ← f.missing
      let b ← s.seq []
      pure ((a, b), t)

/-- Derived `Deserialize` for a struct, on a text. -/
def take {β : Type} (s : Shape β) : Take β := fun finite depth t =>
  match Json.skip t with
  | [] => .fail
  | c :: t =>
    if c = '{' then
      if depth = 0 then .fail
      else do
        let (x, t) ← takeObject (s.takeStep finite (depth - 1)) s.start t
        let b ← s.finish x
        pure (b, t)
    else if c = '[' then if depth = 0 then .fail else s.takeSeq finite (depth - 1) true t
    else .fail

end Shape

namespace Serde

/-- `#[derive(Serialize, Deserialize)]` on a struct. -/
def record {α β : Type} (s : Shape β) (fields : α → β) (build : β → α) : Serde α where
  ser a := do
    let m ← s.ser (fields a)
    pure (.obj m)
  de j := do
    let b ← s.de j
    pure (build b)
  take finite depth t := do
    let (b, t) ← s.take finite depth t
    pure (build b, t)

/-- A type written as a string. -/
def text {α : Type} (write : α → Res String) (read : String → Res α) : Serde α where
  ser a := do
    let s ← write a
    pure (.str s)
  de
    | .str s => read s
    | _ => .fail

/-- `u64` and `usize` (64 bits). -/
def u64 : Serde U64 where
  ser x := .ok (.nat x)
  de
    | .nat n => .ok n
    | _ => .fail

/-- `u8`. -/
def u8 : Serde UInt8 where
  ser x := .ok (.nat (BitVec.ofNat 64 x.toNat))
  de
    | .nat n => if n.toNat < 256 then .ok (UInt8.ofNat n.toNat) else .fail
    | _ => .fail

/-- `bool`. -/
def bool : Serde Bool where
  ser x := .ok (.bool x)
  de
    | .bool b => .ok b
    | _ => .fail

/-- `String`. -/
def string : Serde String := text .ok .ok

/-- Apply to each in order, stopping at the first failure. -/
def each {α β : Type} (f : α → Res β) : List α → Res (List β)
  | [] => .ok []
  | a :: l => do
    let b ← f a
    let r ← each f l
    pure (b :: r)

/-- Elements of an array in a text, up to the closing bracket.  The first number bounds how many. -/
def takeEach {α : Type} (t : Take α) (finite : List Char → Bool) : Nat → Nat → List Char → Res (List α × List Char)
  | 0, _, _ => .fail
  | fuel + 1, depth, s => do
    let (a, s) ← t finite depth s
    let (more, s) ← ofOption (Json.readSeparator ']' s)
    if more then do
      let (l, s) ← takeEach t finite fuel depth s
      pure (a :: l, s)
    else pure ([a], s)

/-- `Vec<T>`. -/
def list {α : Type} (s : Serde α) : Serde (List α) where
  ser l := do
    let js ← each s.ser l
    pure (.arr js)
  de
    | .arr l => each s.de l
    | _ => .fail
  take finite depth t :=
    match Json.skip t with
    | [] => .fail
    | c :: t =>
      if c = '[' then
        if depth = 0 then .fail
        else if (Json.skip t).head? = some ']' then .ok ([], (Json.skip t).tail)
        else takeEach s.take finite (t.length + 1) (depth - 1) t
      else .fail

/-- `Option<T>`. -/
def option {α : Type} (s : Serde α) : Serde (Option α) where
  ser
    | none => .ok .null
    | some a => s.ser a
  de
    | .null => .ok none
    | j => do
      let a ← s.de j
      pure (some a)
  take finite depth t :=
    if (Json.skip t).head? = some 'n' then do
      let t ← ofOption (Json.skipWord ['n', 'u', 'l', 'l'] (Json.skip t))
      pure (none, t)
    else do
      let (a, t) ← s.take finite depth t
      pure (some a, t)

end Serde

/-- A required field. -/
def JField.req {α : Type} (name : String) (t : Serde α) : JField α := { name := name, type := t }

/-- `#[serde(default, skip_serializing_if = "Vec::is_empty")]`. -/
def JField.vec {α : Type} (name : String) (t : Serde (List α)) : JField (List α) := { name := name, type := t, opt := some ([], List.isEmpty) }

/-- `#[serde(default, skip_serializing_if = "Option::is_none")]`. -/
def JField.opt? {α : Type} (name : String) (t : Serde (Option α)) : JField (Option α) := { name := name, type := t, opt := some (none, Option.isNone) }

end Verif
