import Verif.Model.Merkle

/-!
# Sector roots (sia/src/rhp.rs)

The parallel loops run one task per chunk of the array.  A task owns its chunk (`par_chunks_mut` hands out disjoint `&mut`
slices) and its local variables, and is a sequence of steps on these.  Here the tasks run one after the other; that every
interleaving of their steps gives the same array is C35.
-/

namespace Verif

/-- A step of a task: changes the chunk and the local variables, or panics (`none`) on an index out of bounds. -/
abbrev Step (σ : Type) := σ → Option σ

/-- A task that has reached a state and has steps left. -/
abbrev Task (σ : Type) := Option σ × List (Step σ)

/-- Run the rest of a task. -/
def Task.run {σ : Type} (t : Task σ) : Option σ := t.2.foldl (fun s f => s.bind f) t.1

/-- `par_chunks_mut(c)` of a slice (the last chunk may be shorter). -/
def chunksOf {α : Type} (c : Nat) (l : List α) : List (List α) :=
  (List.range ((l.length + c - 1) / c)).map fun i => (l.drop (i * c)).take c

/-- `xs[i] = x`. -/
def put {α : Type} (xs : List α) (i : Nat) (x : α) : Option (List α) := if i < xs.length then some (xs.set i x) else none

/-- `&xs[a..b]`. -/
def slice {α : Type} (xs : List α) (a b : Nat) : Option (List α) :=
  if a ≤ b ∧ b ≤ xs.length then some ((xs.drop a).take (b - a)) else none

namespace Rhp

/-- `SEGMENT_SIZE` (sia/src/rhp.rs 7). -/
def segmentSize : Nat := 64
/-- `SECTOR_SIZE` (sia/src/rhp.rs 8). -/
def sectorSize : Nat := 2 ^ 22

/-- A task's chunk of `tree_hashes` and its locals: the inputs and the results of the hash jobs. -/
structure Local where
  nodes : List Hash256
  inputs : List (List UInt8)
  jobs : List Hash256

/-- `hash_many` (sia/src/rhp.rs 36, 64): hash every input. -/
def hashMany (H : Hasher) : Step Local := fun s => some { s with jobs := s.inputs.map H }

/-- `nodes[i] = jobs[j].to_hash().into()`. -/
def store (i j : Nat) : Step Local := fun s => do
  let h ← s.jobs[j]?
  let nodes ← put s.nodes i h
  pure { s with nodes }

/-- `inputs[j]` of the first loop (sia/src/rhp.rs 22-26); `at_ i j` is the number of the segment read, `i + j` in the code. -/
def loadLeaf (at_ : Nat → Nat → Nat) (sector : List UInt8) (i j : Nat) : Step Local := fun s => do
  let seg ← slice sector (segmentSize * at_ i j) (segmentSize * (at_ i j + 1))
  let inputs ← put s.inputs j ([0] ++ seg)
  pure { s with inputs }

/-- The closure of the first loop (sia/src/rhp.rs 19-42) on chunk `i`. -/
def leafTask (at_ : Nat → Nat → Nat) (H : Hasher) (sector : List UInt8) (i : Nat) (chunk : List Hash256) : Task Local :=
  (some ⟨chunk, List.replicate 4 (List.replicate 65 0), []⟩,
    [loadLeaf at_ sector i 0, loadLeaf at_ sector i 1, loadLeaf at_ sector i 2, loadLeaf at_ sector i 3, hashMany H,
      store 0 0, store 1 1, store 2 2, store 3 3])

/-- `inputs[j]` of the second loop (sia/src/rhp.rs 49-54). -/
def loadNodes (c j : Nat) : Step Local := fun s => do
  let left ← s.nodes[j * c / 2]?
  let right ← s.nodes[j * c / 2 + c / 4]?
  let inputs ← put s.inputs j ([1] ++ left.1 ++ right.1)
  pure { s with inputs }

/-- The closure of the second loop (sia/src/rhp.rs 46-69). -/
def nodeTask (H : Hasher) (c : Nat) (chunk : List Hash256) : Task Local :=
  (some ⟨chunk, List.replicate 2 (List.replicate 65 0), []⟩,
    [loadNodes c 0, loadNodes c 1, hashMany H, store 0 0, store (chunk.length / 2) 1])

/-- The array after all tasks of a loop have run one after the other. -/
def joinTasks (ts : List (Task Local)) : Option (List Hash256) := do
  let done ← ts.mapM Task.run
  pure (done.flatMap (·.nodes))

/-- The tasks of the first loop (sia/src/rhp.rs 15-18).  `par_chunks_exact_mut` would leave out an incomplete last chunk;
65536 is a multiple of 4. -/
def leafTasks (at_ : Nat → Nat → Nat) (H : Hasher) (sector : List UInt8) (tree : List Hash256) : List (Task Local) :=
  (chunksOf 4 tree).zipIdx.map fun ci => leafTask at_ H sector ci.2 ci.1

/-- The tasks of the second loop for one chunk size (sia/src/rhp.rs 46). -/
def nodeTasks (H : Hasher) (c : Nat) (tree : List Hash256) : List (Task Local) := (chunksOf c tree).map (nodeTask H c)

/-- The second loop (sia/src/rhp.rs 44-71), with `fuel` iterations left. -/
def levels (H : Hasher) : (fuel c : Nat) → List Hash256 → Option (List Hash256)
  | 0, _, tree => some tree
  | fuel + 1, c, tree =>
    if c ≤ tree.length then do
      let tree ← joinTasks (nodeTasks H c tree)
      levels H fuel (c * 2) tree
    else some tree

/-- `sector_root` for an arbitrary sector size and segment numbering; the loop body runs at most `size` times because
`chunk_size` doubles. -/
def rootOf (at_ : Nat → Nat → Nat) (size : Nat) (H : Hasher) (sector : List UInt8) : Option Hash256 := do
  guard (sector.length = size)
  let tree ← joinTasks (leafTasks at_ H sector (List.replicate (size / segmentSize) (Arr.zero 32)))
  let tree ← levels H size 4 tree
  let left ← tree[0]?
  let right ← tree[tree.length / 2]?
  pure (sumNode H left right)

/-- `sector_root` (sia/src/rhp.rs 11-76); a failed assertion and an index out of bounds panic. -/
def sectorRoot (H : Hasher) (sector : List UInt8) : Res Hash256 :=
  match rootOf (fun i j => i + j) sectorSize H sector with
  | some r => .ok r
  | none => .panic

end Rhp

end Verif
