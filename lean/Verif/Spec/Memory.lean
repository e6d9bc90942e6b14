import Verif.Model.Memory

/-!
# How much memory decoding may ask for (C71)
-/

namespace Verif

/-- No type that occurs in a vector is larger than `S` bytes. -/
def Alloc.within (A : Alloc) (S : Nat) : Prop := 64 ≤ S ∧ ∀ name, A.size name ≤ S

/-- A decoder with account returns what the decoder returns, on a machine that can give any vector a 64-bit length can ask for. -/
def Accounts (v : Ver) (α : Type) [Codec v α] [Metered v α] : Prop :=
  ∀ (A : Alloc) (S : Nat) (M : Machine) (bs : List UInt8), A.grow = false → A.within S → S * 2 ^ 64 ≤ M.bytes →
    ((met v A : Met α) M bs).2 = (dec v : Dec α) ⟨2 ^ 64, M.stack⟩ bs

/-- A value that is decoded costs at most `S` bytes per byte it was decoded from, on every machine. -/
def CostsWhatItIs (v : Ver) (α : Type) [Metered v α] : Prop :=
  ∀ (A : Alloc) (S : Nat) (M : Machine) (bs rest : List UInt8) (a : α), A.grow = false → A.within S →
    ((met v A : Met α) M bs).2 = .ok (a, rest) → ((met v A : Met α) M bs).1 ≤ S * (bs.length - rest.length)

/-- What can be decoded at all can be decoded where `S` bytes per byte of it can be had. -/
def DecodesInRoom (v : Ver) (α : Type) [Codec v α] [Metered v α] : Prop :=
  ∀ (A : Alloc) (S : Nat) (M : Machine) (bs rest : List UInt8) (a : α), A.grow = false → A.within S →
    (dec v : Dec α) ⟨2 ^ 64, M.stack⟩ bs = .ok (a, rest) → S * (bs.length - rest.length) ≤ M.bytes → ((met v A : Met α) M bs).2 = .ok (a, rest)

/-- A decoder whose vectors grow asks for at most eight times `S` bytes per byte of input, whatever the input and the outcome. -/
def CostsByInput (v : Ver) (α : Type) [Metered v α] : Prop :=
  ∀ (A : Alloc) (S : Nat) (M : Machine) (bs : List UInt8), A.grow = true → A.within S → ((met v A : Met α) M bs).1 ≤ 8 * S * bs.length

/-- It returns what the decoder of the code returns on a machine that can give any vector a 64-bit length can ask for. -/
def GrowsToTheSame (v : Ver) (α : Type) [Codec v α] [Metered v α] : Prop :=
  ∀ (A : Alloc) (S : Nat) (M : Machine) (bs : List UInt8), A.grow = true → A.within S → S * (2 * bs.length + 8) ≤ M.bytes →
    ((met v A : Met α) M bs).2 = (dec v : Dec α) ⟨2 ^ 64, M.stack⟩ bs

end Verif
