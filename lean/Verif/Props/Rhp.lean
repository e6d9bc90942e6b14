import Verif.Lemmas.Rhp
import Verif.Props.Merkle

/-!
# Sector roots (C34, C35)

C34 is violated by the code: the first loop hashes segment `i + j` into slot `j` of chunk `i` instead of segment `4 * i + j`
(sia/src/rhp.rs 25).
-/

namespace Verif

open Rhp

variable {H : Hasher}

theorem rootOf_eq (at_ : Nat → Nat → Nat) (H : Hasher) (sector : List UInt8) (k : Nat) (hk : 2 ≤ k) (hl : sector.length = 64 * 2 ^ k)
    (hb : ∀ i < 2 ^ (k - 2), ∀ j < 4, at_ i j < 2 ^ k) :
    ∃ r, rootOf at_ (64 * 2 ^ k) H sector = some r ∧
      IsMerkleRoot H ((List.range (2 ^ k)).map fun p => H ([0] ++ segment sector (at_ (p / 4) (p % 4)))) r := by
  have e : 2 ^ k = 2 ^ (k - 2) * 4 := by
    rw [show 4 = 2 ^ 2 from rfl, ← Nat.pow_add]; congr 1; omega
  have h1 := leaves_get (H := H) at_ sector (List.replicate (2 ^ k) (Arr.zero 32)) (2 ^ (k - 2)) (by rw [List.length_replicate, e])
    (by intro i hi j hj; have := hb i hi j hj; omega)
  rw [← e] at h1
  generalize hL : (List.range (2 ^ k)).map (fun p => H ([0] ++ segment sector (at_ (p / 4) (p % 4)))) = L at h1 ⊢
  have hLl : L.length = 2 ^ k := by rw [← hL]; simp
  have hp := Nat.lt_two_pow_self (n := k)
  obtain ⟨tree', h2, -, -, h3⟩ := levels_reduced (H := H) k L hLl (64 * 2 ^ k) 0 L (by omega) (by omega) (reduced_start L)
  obtain ⟨a, b, h4, h5, h6⟩ := final k L tree' (by omega) hLl h3
  refine ⟨H ([1] ++ a.1 ++ b.1), ?_, h6⟩
  unfold rootOf segmentSize
  rw [Nat.mul_div_cancel_left _ (by omega), h1]
  rw [show 2 ^ (0 + 2) = 4 from rfl] at h2
  simp only [hl, guard, if_true, Option.pure_def, Option.bind_eq_bind, Option.bind_some, h2, h4, h5, sumNode_eq]

theorem sectorRoot_of_some {sector : List UInt8} {r : Hash256} (h : rootOf (fun i j => i + j) sectorSize H sector = some r) :
    sectorRoot H sector = .ok r := by rw [sectorRoot, h]

/-- C34, exactly what is computed: for every sector of 4 MiB the result is the Merkle root over 65536 leaves of which number
`p` is the hash of segment `p / 4 + p % 4`. -/
theorem C34_exact (H : Hasher) (sector : List UInt8) (hl : sector.length = 2 ^ 22) (r : Hash256) :
    sectorRoot H sector = .ok r ↔
      IsMerkleRoot H ((List.range 65536).map fun p => H ([0] ++ segment sector (p / 4 + p % 4))) r := by
  have hb : ∀ i < 2 ^ (16 - 2), ∀ j < 4, i + j < 2 ^ 16 := by
    intro i hi j hj
    have : (2 : Nat) ^ (16 - 2) = 16384 := rfl
    have : (2 : Nat) ^ 16 = 65536 := rfl
    omega
  obtain ⟨r', h1, h2⟩ := rootOf_eq (fun i j => i + j) H sector 16 (by omega) hl hb
  have h1 := sectorRoot_of_some h1
  rw [h1, Res.ok.injEq]
  exact ⟨fun e => e ▸ h2, fun h => h2.unique h⟩

/-- A sector of equal bytes; its length is proved by a lemma rather than by counting. -/
def Sample.sector (b : UInt8) : List UInt8 := List.replicate (2 ^ 22) b

theorem Sample.sector_length (b : UInt8) : (Sample.sector b).length = 2 ^ 22 := List.length_replicate

example : (Sample.sector 7).length = 2 ^ 22 := Sample.sector_length 7

/-- C34: `sector_root` panics exactly for slices that are not 4 MiB long. -/
theorem C34_panics_iff (H : Hasher) (sector : List UInt8) : sectorRoot H sector = .panic ↔ sector.length ≠ 2 ^ 22 := by
  constructor
  · intro h hl
    obtain ⟨r, hr⟩ := IsMerkleRoot.exists H 65536
      ((List.range 65536).map fun p => H ([0] ++ segment sector (p / 4 + p % 4)))
      (by rw [List.length_map, List.length_range]) (by omega)
    rw [(C34_exact H sector hl r).mpr hr] at h
    cases h
  · intro hl
    have : rootOf (fun i j => i + j) sectorSize H sector = none := by
      unfold rootOf
      have : guard (f := Option) (sector.length = sectorSize) = none := by
        rw [guard, if_neg (show ¬ sector.length = sectorSize from hl)]; rfl
      rw [this]
      rfl
    rw [sectorRoot, this]

theorem segment_replicate (b : UInt8) (p : Nat) (hp : p < 65536) : segment (Sample.sector b) p = List.replicate 64 b := by
  unfold segment Sample.sector
  rw [List.drop_replicate, List.take_replicate, Nat.min_eq_left]
  have : (2 : Nat) ^ 22 = 4194304 := rfl
  omega

theorem range_map_congr {α : Type} {n : Nat} {f g : Nat → α} (h : ∀ p < n, f p = g p) :
    (List.range n).map f = (List.range n).map g :=
  List.map_congr_left fun p hp => h p (List.mem_range.mp hp)

/-- C34, partial: the result is the sector root for sectors in which the segments that are hashed equal those that should be
(for instance sectors of equal segments).  Missing: all other sectors, for which it is false in general (`C34_not_root`). -/
theorem C34_root_partial (H : Hasher) (sector : List UInt8) (hl : sector.length = 2 ^ 22)
    (hs : ∀ p < 65536, segment sector (p / 4 + p % 4) = segment sector p) (r : Hash256) :
    sectorRoot H sector = .ok r ↔ IsSectorRoot H sector r := by
  rw [C34_exact H sector hl, IsSectorRoot, range_map_congr fun p hp => by rw [hs p hp]]

example : ∀ p < 65536, segment (Sample.sector 7) (p / 4 + p % 4) = segment (Sample.sector 7) p := by
  intro p hp
  rw [segment_replicate 7 p hp, segment_replicate 7 _ (by omega)]

/-- C34 is violated: nothing after the first 16387 segments, a quarter of the sector, has an influence on the result,
whatever the hash function. -/
theorem C34_rest_ignored (H : Hasher) (s s' : List UInt8) (hl : s.length = 2 ^ 22) (hl' : s'.length = 2 ^ 22)
    (h : s.take (64 * 16387) = s'.take (64 * 16387)) : sectorRoot H s = sectorRoot H s' := by
  have seg : ∀ p < 65536, segment s (p / 4 + p % 4) = segment s' (p / 4 + p % 4) := by
    intro p hp
    have : ∀ (s : List UInt8), segment s (p / 4 + p % 4) = segment (s.take (64 * 16387)) (p / 4 + p % 4) := by
      intro s
      unfold segment
      rw [List.drop_take, List.take_take, Nat.min_eq_left]
      omega
    rw [this s, this s', h]
  obtain ⟨r, hr⟩ := IsMerkleRoot.exists H 65536
    ((List.range 65536).map fun p => H ([0] ++ segment s (p / 4 + p % 4)))
    (by rw [List.length_map, List.length_range]) (by omega)
  have h2 := hr
  rw [range_map_congr fun p hp => by rw [seg p hp]] at h2
  rw [(C34_exact H s hl r).mpr hr, (C34_exact H s' hl' r).mpr h2]

/-- A sector of zeros but for the last byte. -/
def Sample.lastByte : List UInt8 := List.replicate (2 ^ 22 - 1) 0 ++ [1]

theorem Sample.lastByte_length : Sample.lastByte.length = 2 ^ 22 := by
  rw [Sample.lastByte, List.length_append, List.length_replicate]
  rfl

theorem lastByte_take : (Sample.sector 0).take (64 * 16387) = Sample.lastByte.take (64 * 16387) := by
  have : (2 : Nat) ^ 22 = 4194304 := rfl
  rw [Sample.sector, Sample.lastByte, List.take_append_of_le_length (by rw [List.length_replicate]; omega), List.take_replicate,
    List.take_replicate, Nat.min_eq_left (by omega), Nat.min_eq_left (by omega)]

example : (Sample.sector 0).take (64 * 16387) = Sample.lastByte.take (64 * 16387) ∧ Sample.sector 0 ≠ Sample.lastByte := by
  refine ⟨lastByte_take, fun h => ?_⟩
  have := congrArg List.getLast? h
  rw [Sample.sector, Sample.lastByte, List.getLast?_replicate, List.getLast?_append, if_neg (by decide)] at this
  cases this

/-- The sum of the bytes. -/
def byteTotal (l : List UInt8) : UInt8 := l.foldr (· + ·) 0

theorem byteTotal_append (a b : List UInt8) : byteTotal (a ++ b) = byteTotal a + byteTotal b := by
  induction a with
  | nil => simp [byteTotal]
  | cons x a ih =>
    show x + byteTotal (a ++ b) = x + byteTotal a + byteTotal b
    rw [ih, UInt8.add_assoc]

theorem byteTotal_zeros (n : Nat) : byteTotal (List.replicate n 0) = 0 := by
  induction n with
  | zero => rfl
  | succ n ih => rw [List.replicate_succ]; show 0 + byteTotal _ = 0; rw [ih]; rfl

theorem byteTotal_byteSum (l : List UInt8) : byteTotal (Sample.byteSum l).1 = byteTotal l := by
  have : ∀ (l : List UInt8) (a : UInt8), l.foldl (· + ·) a = a + byteTotal l := by
    intro l
    induction l with
    | nil => intro a; simp [byteTotal]
    | cons x l ih =>
      intro a
      rw [List.foldl_cons, ih]
      show _ = a + (x + byteTotal l)
      rw [UInt8.add_assoc]
  show l.foldl (· + ·) 0 + byteTotal (List.replicate 31 0) = _
  rw [this, byteTotal_zeros, UInt8.zero_add, UInt8.add_zero]

/-- The sum of the bytes of all leaves. -/
def leafTotal (l : List Hash256) : UInt8 := (l.map fun h => byteTotal h.1 + 1).foldr (· + ·) 0

theorem leafTotal_append (a b : List Hash256) : leafTotal (a ++ b) = leafTotal a + leafTotal b := by
  induction a with
  | nil => simp [leafTotal]
  | cons x a ih =>
    show byteTotal x.1 + 1 + leafTotal (a ++ b) = byteTotal x.1 + 1 + leafTotal a + leafTotal b
    rw [ih]
    exact (UInt8.add_assoc _ _ _).symm

theorem byteTotal_root {l : List Hash256} {r : Hash256} (h : IsMerkleRoot Sample.byteSum l r) :
    byteTotal r.1 + 1 = leafTotal l := by
  induction h with
  | leaf x => simp [leafTotal]
  | node j l r a b _ _ _ _ _ ha hb =>
    rw [leafTotal_append, ← ha, ← hb, byteTotal_byteSum, byteTotal_append, byteTotal_append]
    show 1 + byteTotal a.1 + byteTotal b.1 + 1 = _
    grind

/-- C34 is violated: a hash function and a sector for which the result is not the sector root. -/
theorem C34_not_root : ∃ (H : Hasher) (sector : List UInt8) (r : Hash256), sector.length = 2 ^ 22 ∧
    sectorRoot H sector = .ok r ∧ ¬ IsSectorRoot H sector r := by
  obtain ⟨r, hr⟩ := IsMerkleRoot.exists Sample.byteSum 65536
    ((List.range 65536).map fun p => Sample.byteSum ([0] ++ segment (Sample.sector 0) (p / 4 + p % 4)))
    (by rw [List.length_map, List.length_range]) (by omega)
  have h0 := (C34_exact Sample.byteSum _ (Sample.sector_length 0) r).mpr hr
  have h1 := C34_rest_ignored Sample.byteSum _ _ (Sample.sector_length 0) Sample.lastByte_length lastByte_take
  refine ⟨Sample.byteSum, Sample.lastByte, r, Sample.lastByte_length, by rw [← h1, h0], fun h2 => ?_⟩
  have t0 := byteTotal_root ((C34_root_partial Sample.byteSum _ (Sample.sector_length 0)
    (fun p hp => by rw [segment_replicate 0 p hp, segment_replicate 0 _ (by omega)]) r).mp h0)
  have t1 := byteTotal_root h2
  rw [t0] at t1
  have e : (2 : Nat) ^ 22 = 64 * 65535 + 64 := rfl
  have same : ∀ p < 65535, segment (Sample.sector 0) p = segment Sample.lastByte p := by
    intro p hp
    unfold segment
    have : (Sample.sector 0).take (64 * 65535) = Sample.lastByte.take (64 * 65535) := by
      rw [Sample.sector, Sample.lastByte, List.take_append_of_le_length (by rw [List.length_replicate]; omega),
        List.take_replicate, List.take_replicate, Nat.min_eq_left (by omega), Nat.min_eq_left (by omega)]
    have cut : ∀ (s : List UInt8), (s.drop (64 * p)).take 64 = ((s.take (64 * 65535)).drop (64 * p)).take 64 := by
      intro s
      rw [List.drop_take, List.take_take, Nat.min_eq_left]
      omega
    rw [cut, this, ← cut]
  have last0 : segment (Sample.sector 0) 65535 = List.replicate 64 0 := segment_replicate 0 65535 (by omega)
  have last1 : segment Sample.lastByte 65535 = List.replicate 63 0 ++ [1] := by
    unfold segment Sample.lastByte
    rw [List.drop_append_of_le_length (by rw [List.length_replicate]; omega), List.drop_replicate,
      show 2 ^ 22 - 1 - 64 * 65535 = 63 from rfl]
    rfl
  rw [show (65536 : Nat) = 65535 + 1 from rfl, List.range_succ, List.map_append, List.map_append, leafTotal_append,
    leafTotal_append, range_map_congr fun p hp => by rw [same p hp]] at t1
  have := (UInt8.add_right_inj _).mp t1
  simp only [List.map_cons, List.map_nil, leafTotal, last0, last1, byteTotal_byteSum] at this
  revert this
  decide +kernel

/-- The repaired program, hashing segment `4 * i + j`, computes the sector root of every sector. -/
theorem C34_repaired (H : Hasher) (sector : List UInt8) (hl : sector.length = 2 ^ 22) (r : Hash256) :
    rootOf (fun i j => 4 * i + j) sectorSize H sector = some r ↔ IsSectorRoot H sector r := by
  have hb : ∀ i < 2 ^ (16 - 2), ∀ j < 4, 4 * i + j < 2 ^ 16 := by
    intro i hi j hj
    have : (2 : Nat) ^ (16 - 2) = 16384 := rfl
    have : (2 : Nat) ^ 16 = 65536 := rfl
    omega
  obtain ⟨r', h1, h2⟩ := rootOf_eq (fun i j => 4 * i + j) H sector 16 (by omega) hl hb
  have h1 : rootOf (fun i j => 4 * i + j) sectorSize H sector = some r' := h1
  have h2 : IsMerkleRoot H ((List.range 65536).map fun p => H ([0] ++ segment sector (4 * (p / 4) + p % 4))) r' := h2
  rw [range_map_congr fun p hp => by rw [Nat.div_add_mod p 4]] at h2
  rw [h1, Option.some.injEq]
  exact ⟨fun e => e ▸ h2, fun h => h2.unique h⟩

/-! ## C35 -/

/-- C35, one loop: whatever the order in which the tasks make their steps, when all have finished the array is the one that
results from running each task alone. -/
theorem C35_loop (sched : List Nat) (ts : List (Task Local)) (h : ∀ t ∈ interleave sched ts, t.2 = []) :
    (interleave sched ts).map Prod.fst = ts.map Task.run := interleave_finished sched ts h

/-- C35, such a schedule exists for any tasks. -/
theorem C35_schedule_exists (ts : List (Task Local)) : ∃ sched, ∀ t ∈ interleave sched ts, t.2 = [] :=
  ⟨inOrder 0 ts, inOrder_finishes ts [] (by simp)⟩

theorem sectorRun_iff (H : Hasher) (sector : List UInt8) (k : Nat) (hk : 2 ≤ k) (hl : sector.length = 64 * 2 ^ k)
    (r : Res Hash256) : SectorRun H (2 ^ k) sector r ↔
      (match rootOf (fun i j => i + j) (64 * 2 ^ k) H sector with | some r => .ok r | none => .panic) = r := by
  have e : 2 ^ k = 2 ^ (k - 2) * 4 := by
    rw [show 4 = 2 ^ 2 from rfl, ← Nat.pow_add]; congr 1; omega
  have h1 := leaves_get (H := H) (fun i j => i + j) sector (List.replicate (2 ^ k) (Arr.zero 32)) (2 ^ (k - 2))
    (by rw [List.length_replicate, e]) (by intro i hi j hj; omega)
  rw [← e] at h1
  generalize hL : (List.range (2 ^ k)).map (fun p => H ([0] ++ segment sector (p / 4 + p % 4))) = L at h1
  have hLl : L.length = 2 ^ k := by rw [← hL]; simp
  have hp := Nat.lt_two_pow_self (n := k)
  obtain ⟨tree', h2, h3, h4, h5⟩ := levels_reduced (H := H) k L hLl (64 * 2 ^ k) 0 L (by omega) (by omega) (reduced_start L)
  rw [show 2 ^ (0 + 2) = 4 from rfl] at h2 h3 h4
  obtain ⟨a, b, h6, h7, -⟩ := final k L tree' (by omega) hLl h5
  have hs : rootOf (fun i j => i + j) (64 * 2 ^ k) H sector = some (H ([1] ++ a.1 ++ b.1)) := by
    unfold rootOf segmentSize
    rw [Nat.mul_div_cancel_left _ (by omega), h1]
    simp only [hl, guard, if_true, Option.pure_def, Option.bind_eq_bind, Option.bind_some, h2, h6, h7, sumNode_eq]
  rw [h5.1, hLl] at h7
  have l1 := (loopRun_iff _ _).mpr h1
  rw [hs]
  constructor
  · intro h
    cases h with
    | panic1 g => rw [(loopRun_iff _ _).mp g] at h1; cases h1
    | panic2 t g g' =>
      rw [(loopRun_iff _ _).mp g, Option.some.injEq] at h1
      subst h1
      cases h4 _ g'
    | done t t' a' b' g g' ga gb =>
      rw [(loopRun_iff _ _).mp g, Option.some.injEq] at h1
      subst h1
      cases h4 _ g'
      rw [h6] at ga
      rw [h7] at gb
      cases ga
      cases gb
      rfl
  · rintro rfl
    exact .done L tree' a b l1 h3 h6 h7

/-- C35.  Every interleaving of the steps of the tasks, in every loop, gives the result of `sectorRoot`. -/
theorem C35_schedule_independent (H : Hasher) (sector : List UInt8) (hl : sector.length = 2 ^ 22) (r : Res Hash256) :
    SectorRun H 65536 sector r ↔ sectorRoot H sector = r := sectorRun_iff H sector 16 (by omega) hl r

/-- Two tasks whose steps are interleaved in two different ways. -/
example (H : Hasher) (c d : List Hash256) :
    interleave [0, 1, 1, 0, 0, 1, 0, 1, 0, 1] [nodeTask H 4 c, nodeTask H 4 d] =
    interleave [1, 0, 1, 0, 1, 0, 1, 0, 1, 0] [nodeTask H 4 c, nodeTask H 4 d] := rfl

end Verif
