import Verif.Model.Derive

/-!
# What a derived codec should do

Stated over the declaration of the type alone, without the generated programs.
-/

namespace Verif.Derive

variable {τ : Type} {v : Ver} (sem : τ → Ty v)

/-- The fields of a struct have different names (rustc accepts no other declaration). -/
def Fields.Distinct : Fields τ → Prop
  | .named l => (l.map fun f => f.name).Nodup
  | _ => True

/-- The names of the fields in declaration order. -/
def Fields.names : Fields τ → List String
  | .named l => l.map fun f => f.name
  | _ => []

/-- Which fields the codecs of a version are to cover: all of them in v1; in v2 all but the named fields that are
not `pub`. -/
def Fields.covered (v : Ver) : Fields τ → List Bool
  | .named l => l.map fun f => decide (v = .v1 ∨ f.vis = .pub)
  | .unnamed l => l.map fun _ => true
  | .unit => []

/-- The codecs of a version cover all fields. -/
def Fields.Covered (v : Ver) (F : Fields τ) : Prop := ∀ b ∈ F.covered v, b = true

/-- The encodings of the fields that are covered, in declaration order. -/
def layout : List Bool → (ts : List τ) → Value sem ts → List UInt8
  | b :: bs, _ :: ts, x => (if b then enc v x.1 else []) ++ layout bs ts x.2
  | _, _, _ => []

/-- Two values that agree in the covered fields. -/
def Alike : List Bool → (ts : List τ) → Value sem ts → Value sem ts → Prop
  | b :: bs, _ :: ts, x, y => (b = true → x.1 = y.1) ∧ Alike bs ts x.2 y.2
  | _, _, _, _ => True

/-- The stream `bs` starts with the fields one after the other, read by their own decoders, and continues with
`rest`. -/
def Reads (lim : Lim) : (ts : List τ) → List UInt8 → Value sem ts → List UInt8 → Prop
  | [], bs, _, rest => bs = rest
  | t :: ts, bs, x, rest =>
    ∃ mid, (dec v : Dec (sem t).carrier) lim bs = .ok (x.1, mid) ∧ Reads lim ts mid x.2 rest

/-- The first field that is not read fails with the error `e`. -/
def Fails (lim : Lim) (e : Err) : List τ → List UInt8 → Prop
  | [], _ => False
  | t :: ts, bs => (dec v : Dec (sem t).carrier) lim bs = .err e ∨
    ∃ a mid, (dec v : Dec (sem t).carrier) lim bs = .ok (a, mid) ∧ Fails lim e ts mid

/-- The first field that is not read makes its decoder panic. -/
def Panics (lim : Lim) : List τ → List UInt8 → Prop
  | [], _ => False
  | t :: ts, bs => (dec v : Dec (sem t).carrier) lim bs = .panic ∨
    ∃ a mid, (dec v : Dec (sem t).carrier) lim bs = .ok (a, mid) ∧ Panics lim ts mid

/-- Every field of a value is read back from its encoding with anything after it. -/
def FieldsReadBack (lim : Lim) : (ts : List τ) → Value sem ts → Prop
  | [], _ => True
  | t :: ts, x => (∀ rest, (dec v : Dec (sem t).carrier) lim (enc v x.1 ++ rest) = .ok (x.1, rest)) ∧
    FieldsReadBack lim ts x.2

variable [DecidableEq τ]

/-- The derived codec of the declaration `F` is the codec of the type `S`, whose values are the values of the
declared struct through `fields`. -/
structure Derives (v : Ver) (sem : τ → Ty v) (F : Fields τ) (S : Type) [Codec v S]
    (fields : S → Value sem F.types) : Prop where
  distinct : F.Distinct
  injective : ∀ a b, fields a = fields b → a = b
  surjective : ∀ x, ∃ a, fields a = x
  encoder : ∀ a, encoderOf sem F (fields a) = some (enc v a)
  decoder : decoderOf sem F = some (do
    let a ← (dec v : Dec S)
    pure (fields a))

end Verif.Derive
