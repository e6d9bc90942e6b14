import Verif.Spec.Json
import Verif.Spec.Text
import Verif.Model.Serde

/-!
# Which values JSON is meant to preserve
-/

namespace Verif

/-- The algorithm is UTF-8 and has no colon. -/
def UnlockKey.Textual (k : UnlockKey) : Prop := ∃ t, IsText t ∧ Names t k.algorithm ∧ (58 : UInt8) ∉ t

/-- All algorithms are UTF-8 without colon. -/
def UnlockConditions.Textual (uc : UnlockConditions) : Prop := ∀ k ∈ uc.publicKeys, k.Textual

/-- The library parses the text it formats for this time. -/
def Env.Keeps (E : Env) (t : DateTime) : Prop := ∃ s, E.timeText t = some s ∧ E.timeRead s = some t

/-- Policies nested at most `d` deep, with whole-second timestamps in the range of `OffsetDateTime` and textual unlock keys. -/
def SpendPolicy.JsonFits : Nat → SpendPolicy → Prop
  | 0, _ => False
  | d + 1, .threshold _ of => ∀ p ∈ of, JsonFits d p
  | _ + 1, .after t => t.nanos = 0 ∧ -377705116800 ≤ t.secs ∧ t.secs ≤ 253402300799
  | _ + 1, .unlockConditions uc => uc.Textual
  | _ + 1, .above _ => True
  | _ + 1, .publicKey _ => True
  | _ + 1, .hash _ => True
  | _ + 1, .opaqueAddr _ => True

/-- What the member "policy" says about a policy; `sub` reads the policies of a threshold. -/
def SpendPolicy.SaidBy (E : Env) (sub : Serde SpendPolicy) : SpendPolicy → Json → Prop
  | .above h, v => v = .nat h
  | .after t, v => ∃ n, v = .nat n ∧ t.nanos = 0 ∧ t.secs = n.toInt ∧ -377705116800 ≤ t.secs ∧ t.secs ≤ 253402300799
  | .publicKey k, v => Serde.key.de v = .ok k
  | .hash h, v => Serde.id.de v = .ok h
  | .opaqueAddr a, v => (Serde.address E).de v = .ok a
  | .unlockConditions uc, v => Serde.unlockConditions.de v = .ok uc
  | .threshold n of, .obj m => ∃ x y, valuesOf "n" m = [x] ∧ Serde.u8.de x = .ok n ∧ valuesOf "of" m = [y] ∧ (Serde.list sub).de y = .ok of
  | .threshold n of, .arr l => ∃ x y, l = [x, y] ∧ Serde.u8.de x = .ok n ∧ (Serde.list sub).de y = .ok of
  | .threshold _ _, _ => False

/-- The member "type" of a policy. -/
def SpendPolicy.kind : SpendPolicy → String
  | .above _ => "above"
  | .after _ => "after"
  | .publicKey _ => "pk"
  | .hash _ => "h"
  | .opaqueAddr _ => "opaque"
  | .unlockConditions _ => "uc"
  | .threshold _ _ => "thresh"

/-- How deep the JSON of a policy is nested. -/
def SpendPolicy.jsonDepth : SpendPolicy → Nat
  | .unlockConditions _ => 3
  | .threshold _ of => deepest of + 3
  | _ => 1
where
  deepest : List SpendPolicy → Nat
    | [] => 0
    | p :: ps => max (jsonDepth p) (deepest ps)

/-- v1 transactions: textual unlock keys. -/
def V1.Transaction.JsonFits (t : V1.Transaction) : Prop :=
  (∀ i ∈ t.siacoinInputs, i.unlockConditions.Textual) ∧ (∀ i ∈ t.siafundInputs, i.unlockConditions.Textual) ∧
  (∀ r ∈ t.fileContractRevisions, r.unlockConditions.Textual)

/-- v2 transactions: policies that fit. -/
def V2.Transaction.JsonFits (E : Env) (t : V2.Transaction) : Prop :=
  (∀ i ∈ t.siacoinInputs, i.satisfiedPolicy.policy.JsonFits E.stack) ∧ (∀ i ∈ t.siafundInputs, i.satisfiedPolicy.policy.JsonFits E.stack)

/-- Blocks: a time the library keeps and transactions that fit. -/
def Block.JsonFits (E : Env) (b : Block) : Prop := E.Keeps b.timestamp ∧ ∀ t ∈ b.transactions, t.JsonFits

/-- Durations of at most 64 bits. -/
def Duration.JsonFits (d : Duration) : Prop := -2 ^ 63 ≤ d.ns ∧ d.ns < 2 ^ 63

/-- Accumulators in normal form: the trees at the zero bits of the leaf count are the zero hash. -/
def ElementAccumulator.Normal (a : ElementAccumulator) : Prop :=
  ∀ i (h : i < a.trees.1.length), a.numLeaves.toNat.testBit i = false → a.trees.1[i] = Arr.zero 32

/-- The trees at the one bits of the leaf count, lowest first. -/
def ElementAccumulator.roots (a : ElementAccumulator) : List Hash256 :=
  ((List.range 64).filter fun i => a.numLeaves.toNat.testBit i).map fun i => a.trees.1.getD i (Arr.zero 32)

/-- Chain states. -/
def State.JsonFits (E : Env) (s : State) : Prop := (∀ t ∈ s.prevTimestamps.1, E.Keeps t) ∧ s.oakTime.JsonFits ∧ s.elements.Normal

/-- Networks. -/
def Network.JsonFits (E : Env) (n : Network) : Prop :=
  n.blockInterval.JsonFits ∧ E.Keeps n.hardforkOak.genesisTimestamp ∧ n.hardforkASIC.oakTime.JsonFits

end Verif
