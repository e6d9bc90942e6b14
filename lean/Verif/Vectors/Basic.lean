import Verif.Model.Helpers
import Verif.Model.Network
import Verif.Model.Rfc3339
import Verif.Model.Streaming
import Verif.Props.Network

/-!
# The unit-test vectors of the repository, evaluated on the model

These are tests of the *model*, not proofs about all inputs, and no property rests on them: each `example`
takes a vector out of the `#[cfg(test)]` code of the repository and evaluates the model on it in the kernel,
with the concrete BLAKE2b and RFC 3339 text.  They show that the definitions the theorems speak about give the
same bytes, documents, identifiers, signature hashes and addresses as the Rust code does in its own tests.
The tests of seeds and keys are in `Vectors/Seeds.lean`.
-/

namespace Verif

mutual

/-- Equality of documents, member order included. -/
def Json.same : Json → Json → Bool
  | .null, .null => true
  | .bool a, .bool b => a == b
  | .nat a, .nat b => a == b
  | .neg a, .neg b => a == b
  | .str a, .str b => a == b
  | .arr a, .arr b => Json.sameList a b
  | .obj a, .obj b => Json.sameMembers a b
  | _, _ => false

def Json.sameList : List Json → List Json → Bool
  | [], [] => true
  | a :: as, b :: bs => Json.same a b && Json.sameList as bs
  | _, _ => false

def Json.sameMembers : List (String × Json) → List (String × Json) → Bool
  | [], [] => true
  | (k, a) :: as, (l, b) :: bs => k == l && Json.same a b && Json.sameMembers as bs
  | _, _ => false

end

namespace Vector

/-- The environment of the tests: BLAKE2b, RFC 3339, a debug build. -/
def env : Env := Env.real .checked 100

def lim : Lim := ⟨1000, 100⟩

/-- The `k` bytes of a number, most significant first. -/
def chunk : Nat → Nat → List UInt8
  | 0, _ => []
  | k + 1, x => UInt8.ofNat (x >>> (8 * k)) :: chunk k x

/-- `n` bytes, written as numbers of 32 bytes each (the last one may be shorter). -/
def bytes : Nat → List Nat → List UInt8
  | _, [] => []
  | n, x :: xs => chunk (min n 32) x ++ bytes (n - 32) xs

/-- The document is read as a value; the value is encoded as the bytes; the bytes are decoded, nothing is left, and
the value decoded is encoded as the same bytes and written as the same document. -/
def agrees {α : Type} (v : Ver) [Codec v α] (S : Serde α) (doc : Json) (bytes : List UInt8) : Bool :=
  (S.de doc).check fun a =>
    enc v a == bytes && (dec (α := α) v lim (bytes)).check fun p =>
      p.2 == [] && enc v p.1 == bytes && (S.ser p.1).check fun d => d.same doc

/-- The same for `State`, whose encoder and decoder can panic. -/
def agreesState (doc : Json) (bytes : List UInt8) : Bool :=
  ((Serde.state env).de doc).check fun a =>
    (a.encode .checked).check fun b => b == bytes && (State.decode .checked lim bytes).check fun p =>
      p.2 == [] && p.1 == a && ((Serde.state env).ser p.1).check fun d => d.same doc

/-- The chain state of the tests (sia/src/types/v1.rs `test_transaction_whole_sig_hash` and others, sia/src/types/v2.rs
`test_chain_state`): height 1, everything else zero but the heights given. -/
def chain (height taxHeight allow : U64) : ChainState :=
  { network :=
      { name := "test"
        initialCoinbase := ⟨0⟩
        minimumCoinbase := ⟨0⟩
        initialTarget := Arr.zero 32
        blockInterval := ⟨1000000000⟩
        maturityDelay := 0
        hardforkDevAddr := ⟨0, Arr.zero 32, Arr.zero 32⟩
        hardforkTax := taxHeight
        hardforkStorageProof := 0
        hardforkOak := ⟨0, 0, ⟨0, 0⟩⟩
        hardforkASIC := ⟨0, ⟨0⟩, Arr.zero 32⟩
        hardforkFoundation := ⟨0, Arr.zero 32, Arr.zero 32⟩
        hardforkV2 := ⟨allow, allow⟩ }
    state :=
      { index := ⟨height, Arr.zero 32⟩
        prevTimestamps := Vec.fill 11 ⟨0, 0⟩
        depth := Arr.zero 32
        childTarget := Arr.zero 32
        siafundPool := ⟨0⟩
        oakTime := ⟨0⟩
        oakTarget := Arr.zero 32
        foundationPrimaryAddress := Arr.zero 32
        foundationFailsafeAddress := Arr.zero 32
        totalWork := ⟨0⟩
        difficulty := ⟨0⟩
        oakWork := ⟨0⟩
        elements := ⟨0, Vec.fill 64 (Arr.zero 32)⟩
        attestations := 0 } }

/-- A hash of 32 bytes. -/
def id (x : Nat) : Hash256 := toArr 32 (chunk 32 x)

end Vector

end Verif
