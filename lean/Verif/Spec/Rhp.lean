import Verif.Model.Rhp
import Verif.Spec.Merkle

/-!
# What a sector root is supposed to be, and how parallel loops may run
-/

namespace Verif

/-- The `p`-th 64-byte segment. -/
def segment (sector : List UInt8) (p : Nat) : List UInt8 := (sector.drop (64 * p)).take 64

/-- `r` is the Merkle root over the leaf hashes of the 65536 segments of the sector. -/
def IsSectorRoot (H : Hasher) (sector : List UInt8) (r : Hash256) : Prop :=
  IsMerkleRoot H ((List.range 65536).map fun p => H ([0] ++ segment sector p)) r

/-! ## Interleavings -/

/-- Task number `i` makes its next step; nothing happens if there is no such task or it has finished. -/
def advance {σ : Type} (i : Nat) (ts : List (Task σ)) : List (Task σ) :=
  ts.modify i fun
    | (s, []) => (s, [])
    | (s, f :: fs) => (s.bind f, fs)

/-- Steps are made in the order of a schedule, one step of one task at a time. -/
def interleave {σ : Type} : List Nat → List (Task σ) → List (Task σ)
  | [], ts => ts
  | i :: sched, ts => interleave sched (advance i ts)

namespace Rhp

/-- The possible outcomes of a parallel loop: the tasks are interleaved by some schedule after which all have finished. -/
inductive LoopRun (ts : List (Task Local)) : Option (List Hash256) → Prop
  | mk (sched : List Nat) : (∀ t ∈ interleave sched ts, t.2 = []) →
      LoopRun ts (((interleave sched ts).mapM Prod.fst).map (List.flatMap Local.nodes))

/-- The possible outcomes of the second loop from chunk size `c` on. -/
inductive LevelsRun (H : Hasher) : Nat → List Hash256 → Option (List Hash256) → Prop
  | stop (c : Nat) (tree : List Hash256) : tree.length < c → LevelsRun H c tree (some tree)
  | panic (c : Nat) (tree : List Hash256) : c ≤ tree.length → LoopRun (nodeTasks H c tree) none → LevelsRun H c tree none
  | step (c : Nat) (tree tree' : List Hash256) (r : Option (List Hash256)) : c ≤ tree.length →
      LoopRun (nodeTasks H c tree) (some tree') → LevelsRun H (c * 2) tree' r → LevelsRun H c tree r

/-- The possible outcomes of `sector_root` on a sector of the right size, with `n` segments (65536 in the code). -/
inductive SectorRun (H : Hasher) (n : Nat) (sector : List UInt8) : Res Hash256 → Prop
  | panic1 : LoopRun (leafTasks (fun i j => i + j) H sector (List.replicate n (Arr.zero 32))) none →
      SectorRun H n sector .panic
  | panic2 (tree : List Hash256) :
      LoopRun (leafTasks (fun i j => i + j) H sector (List.replicate n (Arr.zero 32))) (some tree) →
      LevelsRun H 4 tree none → SectorRun H n sector .panic
  | done (tree tree' : List Hash256) (a b : Hash256) :
      LoopRun (leafTasks (fun i j => i + j) H sector (List.replicate n (Arr.zero 32))) (some tree) →
      LevelsRun H 4 tree (some tree') → tree'[0]? = some a → tree'[n / 2]? = some b →
      SectorRun H n sector (.ok (H ([1] ++ a.1 ++ b.1)))

end Rhp

end Verif
