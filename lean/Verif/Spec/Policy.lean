import Verif.Spec.Cover
import Verif.Spec.Hashing
import Verif.Spec.Fits

/-!
# What the address of a policy is supposed to commit to
-/

namespace Verif.SpendPolicy

/-- `q` is `p` with one sub-policy, at any depth (possibly `p` itself), replaced by the opaque policy of its address. -/
inductive Hides (H : Hasher) : SpendPolicy → SpendPolicy → Prop
  | here (p : SpendPolicy) (a : Address) : p.address H = .ok a → Hides H p (.opaqueAddr a)
  | inside (n : UInt8) (before after : List SpendPolicy) (p q : SpendPolicy) : Hides H p q →
      Hides H (.threshold n (before ++ p :: after)) (.threshold n (before ++ q :: after))

/-- `p` and `q` are the same policy except for what addresses leave out: some parts of either may be hidden behind the opaque policy of
their address, unlock conditions may differ in keys that their address leaves out (C68), and times in fractions of seconds. -/
inductive Agree (H : Hasher) : SpendPolicy → SpendPolicy → Prop
  | same (p : SpendPolicy) : Agree H p p
  | hiddenLeft (p : SpendPolicy) (a : Address) : p.address H = .ok a → Agree H (.opaqueAddr a) p
  | hiddenRight (p : SpendPolicy) (a : Address) : p.address H = .ok a → Agree H p (.opaqueAddr a)
  | inside (n : UInt8) (ps qs : List SpendPolicy) : ps.length = qs.length → (∀ pq ∈ ps.zip qs, Agree H pq.1 pq.2) →
      Agree H (.threshold n ps) (.threshold n qs)
  | conditions (uc uc' : UnlockConditions) : uc.publicKeys.length + 2 < 2 ^ 64 → uc'.publicKeys.length + 2 < 2 ^ 64 → uc.SameAddress uc' →
      Agree H (.unlockConditions uc) (.unlockConditions uc')
  | after (t t' : DateTime) : t.secs = t'.secs → Agree H (.after t) (.after t')

/-- The policies of Rust: times in the range of `OffsetDateTime`, lengths that fit in 64 bits.  The number of sub-policies of a threshold is not limited:
the byte counting them is ambiguous beyond 255, but the hashed string is not. -/
inductive Committing : SpendPolicy → Prop
  | above (h : U64) : Committing (.above h)
  | after (t : DateTime) : -377705116800 ≤ t.secs ∧ t.secs ≤ 253402300799 → Committing (.after t)
  | publicKey (k : PublicKey) : Committing (.publicKey k)
  | hash (h : Hash256) : Committing (.hash h)
  | threshold (n : UInt8) (of : List SpendPolicy) : (∀ p ∈ of, Committing p) → Committing (.threshold n of)
  | opaqueAddr (a : Address) : Committing (.opaqueAddr a)
  | unlockConditions (uc : UnlockConditions) : uc.publicKeys.length + 2 < 2 ^ 64 → V1.SizedConditions uc →
      Committing (.unlockConditions uc)

/-- Policies of which the address leaves out nothing: no opaque parts, times in whole seconds, unlock conditions with at most one key. -/
inductive Transparent : SpendPolicy → Prop
  | above (h : U64) : Transparent (.above h)
  | after (t : DateTime) : t.nanos = 0 → Transparent (.after t)
  | publicKey (k : PublicKey) : Transparent (.publicKey k)
  | hash (h : Hash256) : Transparent (.hash h)
  | threshold (n : UInt8) (of : List SpendPolicy) : (∀ p ∈ of, Transparent p) → Transparent (.threshold n of)
  | unlockConditions (uc : UnlockConditions) : uc.publicKeys.length ≤ 1 → Transparent (.unlockConditions uc)

/-- `s` is one of the strings that are hashed for the address of the policy. -/
inductive Hashed (H : Hasher) : SpendPolicy → List UInt8 → Prop
  | above (h : U64) : Hashed H (.above h) (ascii "sia/address|" ++ [1, 1] ++ leBytes 8 h.toNat)
  | after (t : DateTime) : Hashed H (.after t) (ascii "sia/address|" ++ [1, 2] ++ leBytes 8 (BitVec.ofInt 64 t.secs).toNat)
  | publicKey (k : PublicKey) : Hashed H (.publicKey k) (ascii "sia/address|" ++ [1, 3] ++ k.1)
  | hash (h : Hash256) : Hashed H (.hash h) (ascii "sia/address|" ++ [1, 4] ++ h.1)
  | threshold (n : UInt8) (of : List SpendPolicy) (as : List Address) : of.map (address H) = as.map .ok →
      Hashed H (.threshold n of)
        (ascii "sia/address|" ++ [1, 5, n, UInt8.ofNat of.length] ++ as.flatMap (fun a => 6 :: a.1))
  | child (n : UInt8) (of : List SpendPolicy) (p : SpendPolicy) (s : List UInt8) : p ∈ of → Hashed H p s →
      Hashed H (.threshold n of) s
  | unlockConditions (uc : UnlockConditions) (s : List UInt8) : uc.HashedFor H s → Hashed H (.unlockConditions uc) s

end Verif.SpendPolicy
