import Verif.Model.Json

/-!
# When two JSON documents say the same, and what reading a struct means
-/

namespace Verif

/-- `j'` is `j` with the members of some objects in another order.  Only members with different keys change places. -/
inductive Json.Reordered : Json → Json → Prop
  | refl (j : Json) : Reordered j j
  | trans {j j' j'' : Json} : Reordered j j' → Reordered j' j'' → Reordered j j''
  | swap (k l : String) (v w : Json) (m : List (String × Json)) : k ≠ l →
      Reordered (.obj ((k, v) :: (l, w) :: m)) (.obj ((l, w) :: (k, v) :: m))
  | member (k : String) {v v' : Json} {m m' : List (String × Json)} : Reordered v v' → Reordered (.obj m) (.obj m') →
      Reordered (.obj ((k, v) :: m)) (.obj ((k, v') :: m'))
  | element {v v' : Json} {l l' : List Json} : Reordered v v' → Reordered (.arr l) (.arr l') → Reordered (.arr (v :: l)) (.arr (v' :: l'))

/-- The values of the members with key `k`, in order. -/
def valuesOf (k : String) (m : List (String × Json)) : List Json := m.filterMap fun p => if p.1 = k then some p.2 else none

/-- The value of one field read from the members of an object: the field occurs once and its value is read, or it does not occur and has a default. -/
def JField.Reads {α : Type} (f : JField α) (m : List (String × Json)) (a : α) : Prop :=
  (∃ v, valuesOf f.name m = [v] ∧ f.type.de v = .ok a) ∨ (valuesOf f.name m = [] ∧ ∃ skip, f.opt = some (a, skip))

/-- The fields read from the members of an object, each on its own. -/
def Shape.Reads : {β : Type} → Shape β → List (String × Json) → β → Prop
  | _, .one f, m, a => f.Reads m a
  | _, .cons f s, m, p => f.Reads m p.1 ∧ s.Reads m p.2

/-- One field read from the first element of an array, or its default if there is none. -/
def JField.ReadsAt {α : Type} (f : JField α) : Option Json → α → Prop
  | some v, a => f.type.de v = .ok a
  | none, a => ∃ skip, f.opt = some (a, skip)

/-- The fields read from the elements of an array by position; there are no more elements than fields. -/
def Shape.ReadsSeq : {β : Type} → Shape β → List Json → β → Prop
  | _, .one f, l, a => l.length ≤ 1 ∧ f.ReadsAt l.head? a
  | _, .cons f s, l, p => f.ReadsAt l.head? p.1 ∧ s.ReadsSeq l.tail p.2

/-- The names of the fields. -/
def Shape.names : {β : Type} → Shape β → List String
  | _, .one f => [f.name]
  | _, .cons f s => f.name :: s.names

end Verif
