import Verif.Lemmas.JsonText
import Verif.Lemmas.Exact

/-!
# What the documents of the types look like: numbers and nesting
-/

namespace Verif

namespace Json

theorem depthList_le (l : List Json) (n : Nat) : depthList l ≤ n ↔ ∀ j ∈ l, j.depth ≤ n := by
  induction l with
  | nil => simp [depthList]
  | cons j l ih => simp only [depthList, List.mem_cons, forall_eq_or_imp, ← ih]; omega

theorem depthMembers_le (m : List (String × Json)) (n : Nat) : depthMembers m ≤ n ↔ ∀ p ∈ m, p.2.depth ≤ n := by
  induction m with
  | nil => simp [depthMembers]
  | cons p m ih => obtain ⟨k, v⟩ := p; simp only [depthMembers, List.mem_cons, forall_eq_or_imp, ← ih]; omega

theorem whole_norm {j : Json} (h : j.Whole) : j.norm.Whole := by
  induction h with
  | arr h ih =>
    simp only [norm, normList_eq]
    exact .arr fun j hj => by obtain ⟨i, hi, rfl⟩ := List.mem_map.mp hj; exact ih i hi
  | obj h ih =>
    simp only [norm]
    refine .obj fun p hp => ?_
    obtain ⟨v, h1, h2⟩ := mem_normMembers hp
    rw [h2]
    exact ih _ h1
  | null => exact .null
  | bool b => exact .bool b
  | nat n => exact .nat n
  | neg k => exact .neg k
  | str s => exact .str s

theorem depth_norm_le (j : Json) : ∀ n, j.depth ≤ n → j.norm.depth ≤ n := by
  induction j using induct with
  | harr l ih =>
    intro n hn
    simp only [depth] at hn
    simp only [norm, normList_eq, depth]
    have := (depthList_le (l.map norm) (n - 1)).mpr fun j hj => by
      obtain ⟨i, hi, rfl⟩ := List.mem_map.mp hj
      exact ih i hi _ ((depthList_le l (n - 1)).mp (by omega) i hi)
    omega
  | hobj m ih =>
    intro n hn
    simp only [depth] at hn
    simp only [norm, depth]
    have := (depthMembers_le (normMembers m) (n - 1)).mpr fun p hp => by
      obtain ⟨v, h1, h2⟩ := mem_normMembers hp
      rw [h2]
      exact ih _ h1 _ ((depthMembers_le m (n - 1)).mp (by omega) _ h1)
    omega
  | _ => intro n h; exact h

/-- Whole numbers only, and nested at most `n` deep. -/
def Flat (n : Nat) (j : Json) : Prop := j.Whole ∧ j.depth ≤ n

theorem flat_norm {n : Nat} {j : Json} (h : j.Flat n) : j.norm.Flat n := ⟨whole_norm h.1, depth_norm_le j n h.2⟩

theorem flat_arr {n : Nat} {l : List Json} (h : ∀ j ∈ l, j.Flat n) : (Json.arr l).Flat (n + 1) :=
  ⟨.arr fun j hj => (h j hj).1, by simp only [depth]; have := (depthList_le l n).mpr fun j hj => (h j hj).2; omega⟩

theorem flat_obj {n : Nat} {m : List (String × Json)} (h : ∀ p ∈ m, p.2.Flat n) : (Json.obj m).Flat (n + 1) :=
  ⟨.obj fun j hj => (h j hj).1, by simp only [depth]; have := (depthMembers_le m n).mpr fun j hj => (h j hj).2; omega⟩

theorem flat_str (n : Nat) (s : String) : (Json.str s).Flat n := ⟨.str s, Nat.zero_le n⟩
theorem flat_nat (n : Nat) (x : U64) : (Json.nat x).Flat n := ⟨.nat x, Nat.zero_le n⟩

theorem Flat.mono {n k : Nat} {j : Json} (h : j.Flat n) (hk : n ≤ k) : j.Flat k := ⟨h.1, Nat.le_trans h.2 hk⟩

theorem Reordered.depth_eq {j j' : Json} (h : j.Reordered j') : j'.depth = j.depth := by
  induction h with
  | refl => rfl
  | trans _ _ h1 h2 => rw [h2, h1]
  | swap k l v w m _ => simp only [depth, depthMembers]; omega
  | member k _ _ h1 h2 => simp only [depth, depthMembers] at *; omega
  | element _ _ h1 h2 => simp only [depth, depthList] at *; omega

end Json

namespace Serde

/-- All documents of a type are flat. -/
class Flat {α : Type} (s : Serde α) (n : Nat) : Prop where
  flat : ∀ a j, s.ser a = .ok j → j.Flat n

/-- The same for the fields of a struct. -/
class FlatShape {β : Type} (s : Shape β) (n : Nat) : Prop where
  flat : ∀ b m, s.ser b = .ok m → ∀ p ∈ m, p.2.Flat n

theorem flat_field {α : Type} {f : JField α} {n : Nat} (h : f.type.Flat n) {a : α} {m : List (String × Json)} (hm : f.ser a = .ok m) : ∀ p ∈ m, p.2.Flat n := by
  unfold JField.ser at hm
  split at hm
  · split at hm
    · cases hm; simp
    · obtain ⟨j, h1, h2⟩ := bind_ok_iff.mp hm
      cases h2; simpa using h.flat a j h1
  · obtain ⟨j, h1, h2⟩ := bind_ok_iff.mp hm
    cases h2; simpa using h.flat a j h1

instance {α : Type} {f : JField α} {n : Nat} [h : f.type.Flat n] : FlatShape (.one f) n := ⟨fun _ _ hm => flat_field h hm⟩

instance {α β : Type} {f : JField α} {s : Shape β} {n : Nat} [h : f.type.Flat n] [hs : FlatShape s n] : FlatShape (.cons f s) n where
  flat b m hm := by
    obtain ⟨x, h1, hm⟩ := bind_ok_iff.mp hm
    obtain ⟨y, h2, hm⟩ := bind_ok_iff.mp hm
    cases hm
    intro p hp
    rcases List.mem_append.mp hp with hp | hp
    · exact flat_field h h1 p hp
    · exact hs.flat _ _ h2 p hp

instance {α β : Type} {s : Shape β} {n : Nat} [h : FlatShape s n] (fields : α → β) (build : β → α) : Flat (record s fields build) (n + 1) where
  flat a j hj := by
    obtain ⟨m, h1, h2⟩ := bind_ok_iff.mp hj
    cases h2
    exact Json.flat_obj (h.flat _ _ h1)

instance {α : Type} {n : Nat} (write : α → Res String) (read : String → Res α) : Flat (text write read) n where
  flat a j hj := by
    obtain ⟨s, h1, h2⟩ := bind_ok_iff.mp hj
    cases h2
    exact Json.flat_str n s

theorem each_mem {α β : Type} {f : α → Res β} : ∀ {l : List α} {r : List β}, each f l = .ok r → ∀ b ∈ r, ∃ a ∈ l, f a = .ok b
  | [], _, h => by cases h; simp
  | a :: l, r, h => by
    obtain ⟨b, h1, h⟩ := bind_ok_iff.mp h
    obtain ⟨r', h2, h⟩ := bind_ok_iff.mp h
    cases h
    intro c hc
    rcases List.mem_cons.mp hc with rfl | hc
    · exact ⟨a, List.mem_cons_self, h1⟩
    · obtain ⟨d, hd, e⟩ := each_mem h2 c hc
      exact ⟨d, List.mem_cons_of_mem _ hd, e⟩

instance {α : Type} {s : Serde α} {n : Nat} [h : Flat s n] : Flat (list s) (n + 1) where
  flat l j hj := by
    obtain ⟨js, h1, h2⟩ := bind_ok_iff.mp hj
    cases h2
    refine Json.flat_arr fun j hj => ?_
    obtain ⟨a, -, h3⟩ := each_mem h1 j hj
    exact h.flat a j h3

instance {α : Type} {s : Serde α} {n : Nat} [h : Flat s n] : Flat (option s) n where
  flat a j hj := by
    cases a with
    | none => cases hj; exact ⟨.null, Nat.zero_le n⟩
    | some a => exact h.flat a j hj

instance {α : Type} {s : Serde α} {n : Nat} {k : String} [h : Flat s n] : Flat (JField.req k s).type n := h
instance {α : Type} {s : Serde (List α)} {n : Nat} {k : String} [h : Flat s n] : Flat (JField.vec k s).type n := h
instance {α : Type} {s : Serde (Option α)} {n : Nat} {k : String} [h : Flat s n] : Flat (JField.opt? k s).type n := h

instance {n : Nat} : Flat u64 n := ⟨fun _ _ h => by cases h; exact Json.flat_nat n _⟩
instance {n : Nat} : Flat u8 n := ⟨fun _ _ h => by cases h; exact Json.flat_nat n _⟩
instance {n : Nat} : Flat bool n := ⟨fun _ _ h => by cases h; exact ⟨.bool _, Nat.zero_le n⟩⟩
instance {n : Nat} : Flat duration n := ⟨fun _ _ h => by cases h; exact Json.flat_nat n _⟩

variable {E : Env} {n : Nat}

instance : Flat (currency E) n := ⟨fun _ _ h => by cases h; exact Json.flat_str n _⟩
instance : Flat string n := by unfold string; infer_instance
instance : Flat id n := by unfold id; infer_instance
instance : Flat (address E) n := by unfold address; infer_instance
instance : Flat key n := by unfold key; infer_instance
instance : Flat signature n := by unfold signature; infer_instance
instance : Flat leaf n := by unfold leaf; infer_instance
instance : Flat unlockKey n := by unfold unlockKey; infer_instance
instance : Flat work n := by unfold work; infer_instance
instance : Flat base64 n := by unfold base64; infer_instance
instance : Flat (time E) n := by unfold time; infer_instance

instance : Flat (times E) (n + 1) where
  flat l j hj := by
    obtain ⟨js, h1, h2⟩ := bind_ok_iff.mp hj
    cases h2
    refine Json.flat_arr fun j hj => ?_
    obtain ⟨a, -, h3⟩ := each_mem h1 j hj
    exact Flat.flat (s := time E) a j h3

instance : Flat chainIndex (n + 1) := by unfold chainIndex; infer_instance
instance : Flat (siacoinOutput E) (n + 1) := by unfold siacoinOutput; infer_instance
instance : Flat (siafundOutput E) (n + 1) := by unfold siafundOutput; infer_instance
instance : Flat stateElement (n + 2) := by unfold stateElement; infer_instance
instance : Flat unlockConditions (n + 2) := by unfold unlockConditions; infer_instance
instance : Flat v1SiacoinInput (n + 3) := by unfold v1SiacoinInput; infer_instance
instance : Flat (v1SiafundInput E) (n + 3) := by unfold v1SiafundInput; infer_instance
instance : Flat (v1FileContract E) (n + 3) := by unfold v1FileContract; infer_instance
instance : Flat (v1FileContractRevision E) (n + 3) := by unfold v1FileContractRevision; infer_instance
instance : Flat v1StorageProof (n + 2) := by unfold v1StorageProof; infer_instance
instance : Flat coveredFields (n + 2) := by unfold coveredFields; infer_instance
instance : Flat transactionSignature (n + 3) := by unfold transactionSignature; infer_instance
instance : Flat (v1Transaction E) (n + 5) := by unfold v1Transaction; infer_instance
instance : Flat (block E) (n + 7) := by unfold block; infer_instance
instance : Flat attestation (n + 1) := by unfold attestation; infer_instance
instance : Flat (v2FileContract E) (n + 2) := by unfold v2FileContract; infer_instance
instance : Flat (siacoinElement E) (n + 3) := by unfold siacoinElement; infer_instance
instance : Flat (siafundElement E) (n + 3) := by unfold siafundElement; infer_instance
instance : Flat (fileContractElement E) (n + 3) := by unfold fileContractElement; infer_instance
instance : Flat chainIndexElement (n + 3) := by unfold chainIndexElement; infer_instance
instance : Flat (v2FileContractRevision E) (n + 4) := by unfold v2FileContractRevision; infer_instance
instance : Flat (renewal E) (n + 3) := by unfold renewal; infer_instance
instance : Flat v2StorageProof (n + 4) := by unfold v2StorageProof; infer_instance

instance : Flat (resolution E) (n + 5) where
  flat x j hj := by
    obtain ⟨p, h1, hj⟩ := bind_ok_iff.mp hj
    obtain ⟨⟨t, r⟩, h2, hj⟩ := bind_ok_iff.mp hj
    cases hj
    have hr : r.Flat (n + 4) := by
      split at h2
      · obtain ⟨y, h3, h2⟩ := bind_ok_iff.mp h2
        cases h2
        exact Json.flat_norm (Flat.flat (s := renewal E) (n := n + 4) _ _ h3)
      · obtain ⟨y, h3, h2⟩ := bind_ok_iff.mp h2
        cases h2
        exact Json.flat_norm (Flat.flat (s := v2StorageProof) (n := n + 4) _ _ h3)
      · cases h2
        exact (Json.flat_obj (n := 0) (by simp)).mono (by omega)
    refine Json.flat_obj fun q hq => ?_
    simp only [List.mem_cons, List.not_mem_nil, or_false] at hq
    rcases hq with rfl | rfl | rfl
    · exact Flat.flat (s := fileContractElement E) (n := n + 4) _ _ h1
    · exact Json.flat_str _ _
    · exact hr

instance : Flat accumulator (n + 2) where
  flat x j hj := by
    obtain ⟨p, h1, hj⟩ := bind_ok_iff.mp hj
    obtain ⟨t, h2, hj⟩ := bind_ok_iff.mp hj
    cases hj
    refine Json.flat_obj fun q hq => ?_
    simp only [List.mem_cons, List.not_mem_nil, or_false] at hq
    rcases hq with rfl | rfl
    · exact Flat.flat (s := u64) _ _ h1
    · exact Flat.flat (s := list id) (n := n + 1) _ _ h2

instance : Flat (state E) (n + 3) := by unfold state; infer_instance
instance : Flat (hardforkDevAddr E) (n + 1) := by unfold hardforkDevAddr; infer_instance
instance : Flat hardforkHeight (n + 1) := by unfold hardforkHeight; infer_instance
instance : Flat (hardforkOak E) (n + 1) := by unfold hardforkOak; infer_instance
instance : Flat hardforkASIC (n + 1) := by unfold hardforkASIC; infer_instance
instance : Flat (hardforkFoundation E) (n + 1) := by unfold hardforkFoundation; infer_instance
instance : Flat hardforkV2 (n + 1) := by unfold hardforkV2; infer_instance
instance : Flat (network E) (n + 2) := by unfold network; infer_instance
instance : Flat (chainState E) (n + 4) := by unfold chainState; infer_instance

/-! ## Types with policies -/

theorem unwrap_ok {α : Type} {r : Res α} {a : α} (h : unwrap r = .ok a) : r = .ok a := by
  cases r with
  | ok b => exact congrArg Res.ok (Res.ok.inj h)
  | err e => cases h
  | panic => cases h

theorem whole_pair {t : String} {j : Json} (h : j.Whole) : (Json.obj [("type", .str t), ("policy", j)]).Whole := by
  refine .obj fun p hp => ?_
  simp only [List.mem_cons, List.not_mem_nil, or_false] at hp
  rcases hp with rfl | rfl
  · exact .str _
  · exact h

mutual

theorem whole_policy : ∀ (p : SpendPolicy) (j : Json), serPolicy E p = .ok j → j.Whole
  | .above x, j, h => by
    rw [serPolicy] at h
    obtain ⟨i, h1, e⟩ := bind_ok_iff.mp h; cases e
    exact whole_pair (Flat.flat (s := u64) (n := 0) _ _ h1).1
  | .after x, j, h => by
    rw [serPolicy] at h
    obtain ⟨i, h1, e⟩ := bind_ok_iff.mp h; cases e
    exact whole_pair (Flat.flat (s := u64) (n := 0) _ _ h1).1
  | .publicKey x, j, h => by
    rw [serPolicy] at h
    obtain ⟨i, h1, e⟩ := bind_ok_iff.mp h; cases e
    exact whole_pair (Flat.flat (s := key) (n := 0) _ _ h1).1
  | .hash x, j, h => by
    rw [serPolicy] at h
    obtain ⟨i, h1, e⟩ := bind_ok_iff.mp h; cases e
    exact whole_pair (Flat.flat (s := id) (n := 0) _ _ h1).1
  | .opaqueAddr x, j, h => by
    rw [serPolicy] at h
    obtain ⟨i, h1, e⟩ := bind_ok_iff.mp h; cases e
    exact whole_pair (Flat.flat (s := address E) (n := 0) _ _ h1).1
  | .unlockConditions x, j, h => by
    rw [serPolicy] at h
    obtain ⟨i, h1, e⟩ := bind_ok_iff.mp h; cases e
    exact whole_pair (Flat.flat (s := unlockConditions) (n := 2) _ _ h1).1
  | .threshold n of, j, h => by
    rw [serPolicy] at h
    obtain ⟨x, hx, h3⟩ := bind_ok_iff.mp h
    obtain ⟨js, hjs, e⟩ := bind_ok_iff.mp h3
    cases e
    refine whole_pair (Json.whole_norm (.obj fun p hp => ?_))
    simp only [List.mem_cons, List.not_mem_nil, or_false] at hp
    rcases hp with rfl | rfl
    · exact (Flat.flat (s := u8) (n := 0) _ _ (unwrap_ok hx)).1
    · exact .arr (whole_policies of js (unwrap_ok hjs))
termination_by p => sizeOf p

theorem whole_policies : ∀ (of : List SpendPolicy) (js : List Json), serPolicies E of = .ok js → ∀ j ∈ js, j.Whole
  | [], js, h => by rw [serPolicies] at h; cases h; simp
  | p :: ps, js, h => by
    rw [serPolicies] at h
    obtain ⟨j, h1, h2⟩ := bind_ok_iff.mp h
    obtain ⟨r, h3, h4⟩ := bind_ok_iff.mp h2
    cases h4
    simp only [List.mem_cons, forall_eq_or_imp]
    exact ⟨whole_policy p j h1, whole_policies ps r h3⟩
termination_by of => sizeOf of

end

/-- Documents have whole numbers, and are nested at most `n` deep exactly for the values with `P`. -/
def Within {α : Type} (s : Serde α) (n : Nat) (P : α → Prop) : Prop := ∀ a j, s.ser a = .ok j → j.Whole ∧ (j.depth ≤ n ↔ P a)

/-- The same for fields. -/
def WithinShape {β : Type} (s : Shape β) (n : Nat) (P : β → Prop) : Prop :=
  ∀ b m, s.ser b = .ok m → (∀ p ∈ m, p.2.Whole) ∧ ((∀ p ∈ m, p.2.depth ≤ n) ↔ P b)

theorem Flat.within {α : Type} {s : Serde α} (n : Nat) [h : Flat s n] : Within s n fun _ => True :=
  fun a j hj => ⟨(h.flat a j hj).1, by simpa using (h.flat a j hj).2⟩

theorem Within.imp {α : Type} {s : Serde α} {n : Nat} {P Q : α → Prop} (h : Within s n P) (hpq : ∀ a, P a ↔ Q a) : Within s n Q :=
  fun a j hj => ⟨(h a j hj).1, (h a j hj).2.trans (hpq a)⟩

theorem FlatShape.within {β : Type} {s : Shape β} (n : Nat) [h : FlatShape s n] : WithinShape s n fun _ => True :=
  fun b m hm => ⟨fun p hp => (h.flat b m hm p hp).1, by simpa using fun k v hp => (h.flat b m hm (k, v) hp).2⟩

theorem within_policy (n : Nat) : Within (policy E) n fun p => p.jsonDepth ≤ n :=
  fun p j hj => ⟨whole_policy p j hj, by rw [(depth_policy p j hj).1]⟩

theorem each_all {α : Type} {s : Serde α} {n : Nat} {P : α → Prop} (h : Within s n P) : ∀ {l : List α} {js : List Json}, each s.ser l = .ok js →
    (∀ j ∈ js, j.Whole) ∧ ((∀ j ∈ js, j.depth ≤ n) ↔ ∀ a ∈ l, P a)
  | [], _, he => by cases he; simp
  | a :: l, js, he => by
    obtain ⟨b, h1, he⟩ := bind_ok_iff.mp he
    obtain ⟨r, h2, he⟩ := bind_ok_iff.mp he
    cases he
    obtain ⟨i1, i2⟩ := each_all h h2
    obtain ⟨i3, i4⟩ := h a b h1
    simp only [List.mem_cons, forall_eq_or_imp, i2, i4]
    exact ⟨⟨i3, i1⟩, trivial⟩

theorem within_list {α : Type} {s : Serde α} {n : Nat} {P : α → Prop} (h : Within s n P) : Within (list s) (n + 1) fun l => ∀ a ∈ l, P a := by
  intro l j hj
  obtain ⟨js, h1, h2⟩ := bind_ok_iff.mp hj
  cases h2
  obtain ⟨i1, i2⟩ := each_all h h1
  refine ⟨.arr i1, ?_⟩
  show _ ↔ ∀ a ∈ l, P a
  rw [← i2, ← Json.depthList_le]
  simp only [Json.depth]
  omega

theorem within_req {α : Type} {s : Serde α} {n : Nat} {P : α → Prop} (k : String) (h : Within s n P) {a : α} {m : List (String × Json)}
    (hm : (JField.req k s).ser a = .ok m) : (∀ p ∈ m, p.2.Whole) ∧ ((∀ p ∈ m, p.2.depth ≤ n) ↔ P a) := by
  obtain ⟨j, h1, h2⟩ := bind_ok_iff.mp (show (s.ser a >>= fun j => pure [(k, j)]) = .ok m from hm)
  cases h2
  simpa using h a j h1

theorem within_vec {α : Type} {s : Serde α} {n : Nat} {P : α → Prop} (k : String) (h : Within s n P) {l : List α} {m : List (String × Json)}
    (hm : (JField.vec k (list s)).ser l = .ok m) : (∀ p ∈ m, p.2.Whole) ∧ ((∀ p ∈ m, p.2.depth ≤ n + 1) ↔ ∀ a ∈ l, P a) := by
  cases l with
  | nil => cases hm; simp
  | cons a l =>
    obtain ⟨j, h1, h2⟩ := bind_ok_iff.mp (show ((list s).ser (a :: l) >>= fun j => pure [(k, j)]) = .ok m from hm)
    cases h2
    simpa using within_list h _ j h1

theorem within_cons {α β : Type} {f : JField α} {s : Shape β} {n : Nat} {P : α → Prop} {Q : β → Prop}
    (h : ∀ {a : α} {m : List (String × Json)}, f.ser a = .ok m → (∀ p ∈ m, p.2.Whole) ∧ ((∀ p ∈ m, p.2.depth ≤ n) ↔ P a))
    (hs : WithinShape s n Q) : WithinShape (.cons f s) n fun x => P x.1 ∧ Q x.2 := by
  intro b m hm
  obtain ⟨x, h1, hm⟩ := bind_ok_iff.mp hm
  obtain ⟨y, h2, hm⟩ := bind_ok_iff.mp hm
  cases hm
  obtain ⟨i1, i2⟩ := h h1
  obtain ⟨i3, i4⟩ := hs _ _ h2
  simp only [List.mem_append, or_imp, forall_and, i2, i4]
  exact ⟨⟨i1, i3⟩, trivial⟩

theorem within_one {α : Type} {f : JField α} {n : Nat} {P : α → Prop}
    (h : ∀ {a : α} {m : List (String × Json)}, f.ser a = .ok m → (∀ p ∈ m, p.2.Whole) ∧ ((∀ p ∈ m, p.2.depth ≤ n) ↔ P a)) :
    WithinShape (.one f) n P := fun _ _ hm => h hm

theorem within_field {α : Type} {f : JField α} {n : Nat} [hf : f.type.Flat n] {a : α} {m : List (String × Json)} (hm : f.ser a = .ok m) :
    (∀ p ∈ m, p.2.Whole) ∧ ((∀ p ∈ m, p.2.depth ≤ n) ↔ True) :=
  ⟨fun p hp => (flat_field hf hm p hp).1, by simpa using fun k v hp => (flat_field hf hm (k, v) hp).2⟩

theorem within_record {α β : Type} {s : Shape β} {n : Nat} {P : β → Prop} (h : WithinShape s n P) (fields : α → β) (build : β → α) :
    Within (record s fields build) (n + 1) fun a => P (fields a) := by
  intro a j hj
  obtain ⟨m, h1, h2⟩ := bind_ok_iff.mp hj
  cases h2
  obtain ⟨i1, i2⟩ := h _ _ h1
  refine ⟨.obj i1, ?_⟩
  show _ ↔ P (fields a)
  rw [← i2, ← Json.depthMembers_le]
  simp only [Json.depth]
  omega

theorem within_satisfiedPolicy (n : Nat) : Within (satisfiedPolicy E) (n + 2) fun x => x.policy.jsonDepth ≤ n + 1 := by
  refine (within_record (within_cons (within_req _ (within_policy _)) (FlatShape.within _)) _ _).imp fun x => ?_
  simp [Struct.fields]

theorem within_v2SiacoinInput (n : Nat) : Within (v2SiacoinInput E) (n + 4) fun x => x.satisfiedPolicy.policy.jsonDepth ≤ n + 2 := by
  refine (within_record (within_cons within_field (within_one (within_req _ (within_satisfiedPolicy (n + 1))))) _ _).imp fun x => ?_
  simp [Struct.fields]

theorem within_v2SiafundInput (n : Nat) : Within (v2SiafundInput E) (n + 4) fun x => x.satisfiedPolicy.policy.jsonDepth ≤ n + 2 := by
  refine (within_record (within_cons within_field (within_cons within_field (within_one (within_req _ (within_satisfiedPolicy (n + 1)))))) _ _).imp fun x => ?_
  simp [Struct.fields]

theorem within_v2Transaction (n : Nat) : Within (v2Transaction E) (n + 7) fun t =>
    (∀ i ∈ t.siacoinInputs, i.satisfiedPolicy.policy.jsonDepth ≤ n + 3) ∧ (∀ i ∈ t.siafundInputs, i.satisfiedPolicy.policy.jsonDepth ≤ n + 3) := by
  refine (within_record (within_cons (within_vec _ (within_v2SiacoinInput (n + 1))) (within_cons within_field
    (within_cons (within_vec _ (within_v2SiafundInput (n + 1))) (FlatShape.within _)))) _ _).imp fun x => ?_
  simp

end Serde

end Verif
