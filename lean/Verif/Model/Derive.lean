import Verif.Model.V2

/-!
# The derive macros (sia_derive/src/lib.rs)

`SiaEncode`, `SiaDecode`, `V1SiaEncode` and `V1SiaDecode` are programs that read the declaration of a type and
write the body of a method.  They are modelled as such: a declaration (`Data`), the four macros as functions from
declarations to generated programs (`Encoder`, `Decoder`), and what rustc makes of a generated program for the
declared type (`Fields.runEncoder`, `Fields.runDecoder`), where `none` means that the program does not compile.

Simplifications: a declaration has no generic parameters (no deriving type of the crate has any); attributes and
the name of the type are left out; the macros cannot look into a type, so types are elements of an arbitrary set
`τ` of type expressions, with equal expressions denoting equal types.
-/

namespace Verif.Derive

variable {τ : Type}

/-- `syn::Visibility`: `Public`, or one of `Restricted` and `Inherited`, between which the macros make no
difference. -/
inductive Vis where
  | pub
  | other
  deriving DecidableEq, Repr

/-- A named field of a struct (`syn::Field` with an identifier). -/
structure Named (τ : Type) where
  name : String
  vis : Vis
  ty : τ

/-- `syn::Fields`. -/
inductive Fields (τ : Type) where
  | named (l : List (Named τ))
  | unnamed (l : List (Vis × τ))
  | unit

/-- `syn::Data`; what is inside an enum or a union plays no part. -/
inductive Data (τ : Type) where
  | struct (f : Fields τ)
  | enum
  | union

/-- `syn::Member`: what follows `self.` in the generated encoders. -/
inductive Member where
  | name (s : String)
  | index (i : Nat)
  deriving DecidableEq, Repr

/-- A generated encoder: `self.#member.encode(w)?;` for each member, then `Ok(())`. -/
abbrev Encoder := List Member

/-- A generated decoder: `Ok(Self { #name: <#ty>::decode(r)?, ... })`, `Ok(Self(<#ty>::decode(r)?, ...))` or
`Ok(Self)`. -/
inductive Decoder (τ : Type) where
  | named (l : List (String × τ))
  | tuple (l : List τ)
  | unit

/-- `derive_sia_encode` (sia_derive/src/lib.rs 5-51); `none` is a panic of the macro. -/
def siaEncode : Data τ → Option Encoder
  | .struct (.named l) => some (l.filterMap fun f => match f.vis with
    | .pub => some (.name f.name)
    | .other => none)
  | .struct (.unnamed l) => some (l.zipIdx.map fun p => .index p.2)
  | .struct .unit => some []
  | .enum => none
  | .union => none

/-- `derive_sia_decode` (sia_derive/src/lib.rs 53-101). -/
def siaDecode : Data τ → Option (Decoder τ)
  | .struct (.named l) => some (.named (l.filterMap fun f => match f.vis with
    | .pub => some (f.name, f.ty)
    | .other => none))
  | .struct (.unnamed l) => some (.tuple (l.map fun f => f.2))
  | .struct .unit => some .unit
  | .enum => none
  | .union => none

/-- `derive_v1_sia_encode` (sia_derive/src/lib.rs 103-144). -/
def v1SiaEncode : Data τ → Option Encoder
  | .struct (.named l) => some (l.map fun f => .name f.name)
  | .struct (.unnamed l) => some (l.zipIdx.map fun p => .index p.2)
  | .struct .unit => some []
  | .enum => none
  | .union => none

/-- `derive_v1_sia_decode` (sia_derive/src/lib.rs 146-190). -/
def v1SiaDecode : Data τ → Option (Decoder τ)
  | .struct (.named l) => some (.named (l.map fun f => (f.name, f.ty)))
  | .struct (.unnamed l) => some (.tuple (l.map fun f => f.2))
  | .struct .unit => some .unit
  | .enum => none
  | .union => none

/-- The macro that derives the encoder of a version. -/
def deriveEncode : Ver → Data τ → Option Encoder
  | .v1 => v1SiaEncode
  | .v2 => siaEncode

/-- The macro that derives the decoder of a version. -/
def deriveDecode : Ver → Data τ → Option (Decoder τ)
  | .v1 => v1SiaDecode
  | .v2 => siaDecode

/-! ## What rustc makes of the generated programs -/

/-- A Rust type with its encoder and decoder. -/
structure Ty (v : Ver) where
  carrier : Type
  codec : Codec v carrier

instance {v : Ver} (t : Ty v) : Codec v t.carrier := t.codec

variable {v : Ver} (sem : τ → Ty v)

/-- The value of a struct: the values of its fields in declaration order. -/
def Value : List τ → Type
  | [] => Unit
  | t :: ts => (sem t).carrier × Value ts

/-- The types of the fields in declaration order. -/
def Fields.types : Fields τ → List τ
  | .named l => l.map fun f => f.ty
  | .unnamed l => l.map fun f => f.2
  | .unit => []

/-- The field that `self.#member` denotes. -/
def Fields.resolve : Fields τ → Member → Option Nat
  | .named l, .name s => l.findIdx? fun f => f.name == s
  | .unnamed l, .index i => if i < l.length then some i else none
  | _, _ => none

/-- `self.#member.encode(w)` for the `i`-th field. -/
def encodeAt : (ts : List τ) → Value sem ts → Nat → Option (List UInt8)
  | [], _, _ => none
  | _ :: _, x, 0 => some (enc v x.1)
  | _ :: ts, x, i + 1 => encodeAt ts x.2 i

/-- A generated encoder at work on a value of the struct (the bytes it writes, by C25 whatever the writer). -/
def Fields.runEncoder (F : Fields τ) (x : Value sem F.types) : Encoder → Option (List UInt8)
  | [] => some []
  | m :: ms => do
    let i ← F.resolve m
    let b ← encodeAt sem F.types x i
    let r ← F.runEncoder x ms
    some (b ++ r)

/-- Calls of `decode` one after the other. -/
def decodeAll : (ts : List τ) → Dec (Value sem ts)
  | [] => pure ()
  | t :: ts => do
    let a ← (dec v : Dec (sem t).carrier)
    let as ← decodeAll ts
    pure (a, as)

variable [DecidableEq τ]

/-- The initialiser of the field called `s` of type `t` in a struct expression. -/
def pick : (l : List (String × τ)) → Value sem (l.map fun f => f.2) → String → (t : τ) → Option (sem t).carrier
  | [], _, _, _ => none
  | p :: l, x, s, t =>
    if p.1 = s then if h : p.2 = t then some (h ▸ x.1) else none
    else pick l x.2 s t

/-- The value of a struct expression with the values of its initialisers in the order written. -/
def arrange (l : List (String × τ)) (x : Value sem (l.map fun f => f.2)) :
    (fs : List (Named τ)) → Option (Value sem (fs.map fun f => f.ty))
  | [] => some ()
  | f :: fs => do
    let a ← pick sem l x f.name f.ty
    let as ← arrange l x fs
    some (a, as)

/-- Whether rustc accepts a struct expression: no field twice, no unknown field, every field given with its type. -/
def accepts (fs : List (Named τ)) (l : List (String × τ)) : Bool :=
  decide ((l.map fun p => p.1).Nodup) && l.all (fun p => fs.any fun f => f.name == p.1) &&
    fs.all (fun f => l.any fun p => p.1 == f.name && decide (p.2 = f.ty))

/-- A generated decoder for the declared struct, if it compiles.  The initialisers are evaluated in the order
written. -/
def Fields.runDecoder : (F : Fields τ) → Decoder τ → Option (Dec (Value sem F.types))
  | .named fs, .named l =>
    if accepts fs l then some do
      let x ← decodeAll sem (l.map fun f => f.2)
      match arrange sem l x fs with
      | some y => pure y
      | none => Dec.crash
    else none
  | .unnamed fs, .tuple l =>
    if h : l = fs.map fun f => f.2 then
      some (h ▸ decodeAll sem l : Dec (Value sem (fs.map fun f => f.2)))
    else none
  | .unit, .unit => some (pure ())
  | _, _ => none

/-- The derived encoder of a declared type applied to a value of it: `none` if the macro panics or its output does
not compile. -/
def encoderOf (F : Fields τ) (x : Value sem F.types) : Option (List UInt8) := do
  F.runEncoder sem x (← deriveEncode v (.struct F))

/-- The derived decoder of a declared type. -/
def decoderOf (F : Fields τ) : Option (Dec (Value sem F.types)) := do
  F.runDecoder sem (← deriveDecode v (.struct F))

end Verif.Derive
