import Verif.Lemmas.Serde

/-!
# When values survive JSON, when reading panics
-/

namespace Verif.Serde

variable {E : Env}

/-- Writing and reading back the canonical form gives the value. -/
def Trip {α : Type} (s : Serde α) (a : α) : Prop := ∃ j, s.ser a = .ok j ∧ s.de j.norm = .ok a

theorem each_ok {α β : Type} {f : α → Res β} {l : List α} {r : List β} (h : each f l = .ok r) :
    l.length = r.length ∧ ∀ p ∈ l.zip r, f p.1 = .ok p.2 := by
  induction l generalizing r with
  | nil => rw [each] at h; cases h; simp
  | cons a l ih =>
    rw [each] at h
    cases ha : f a with
    | ok b =>
      cases hl : each f l with
      | ok r' =>
        simp only [ha, hl, Res.ok_bind, Res.pure_eq, Res.ok.injEq] at h
        subst h
        obtain ⟨h1, h2⟩ := ih hl
        refine ⟨by simp [h1], ?_⟩
        simp only [List.zip_cons_cons, List.mem_cons, forall_eq_or_imp]
        exact ⟨ha, h2⟩
      | err e => simp [ha, hl] at h
      | panic => simp [ha, hl] at h
    | err e => simp [ha] at h
    | panic => simp [ha] at h

theorem each_trip {α : Type} {s : Serde α} {l : List α} {js : List Json} (h1 : each s.ser l = .ok js) (h2 : each s.de (js.map Json.norm) = .ok l) :
    ∀ a ∈ l, Trip s a := by
  induction l generalizing js with
  | nil => simp
  | cons a l ih =>
    rw [each] at h1
    cases ha : s.ser a with
    | ok j =>
      cases hl : each s.ser l with
      | ok js' =>
        simp only [ha, hl, Res.ok_bind, Res.pure_eq, Res.ok.injEq] at h1
        subst h1
        rw [List.map_cons, each] at h2
        cases hd : s.de j.norm with
        | ok b =>
          cases hm : each s.de (js'.map Json.norm) with
          | ok l' =>
            simp only [hd, hm, Res.ok_bind, Res.pure_eq, Res.ok.injEq, List.cons.injEq] at h2
            obtain ⟨rfl, rfl⟩ := h2
            simp only [List.mem_cons, forall_eq_or_imp]
            exact ⟨⟨j, ha, hd⟩, ih hl hm⟩
          | err e => simp [hd, hm] at h2
          | panic => simp [hd, hm] at h2
        | err e => simp [hd] at h2
        | panic => simp [hd] at h2
      | err e => simp [ha, hl] at h1
      | panic => simp [ha, hl] at h1
    | err e => simp [ha] at h1
    | panic => simp [ha] at h1

theorem trip_unlockKey {k : UnlockKey} (h : Trip unlockKey k) : k.Textual := by
  obtain ⟨j, h1, h2⟩ := h
  simp only [unlockKey, text] at h1
  cases hs : showUnlockKey k with
  | none => simp [hs] at h1
  | some s =>
    simp only [hs, Res.ok_bind, Res.pure_eq, Res.ok.injEq] at h1
    subst h1
    obtain ⟨t, u, h3, h4, h5, h6, rfl⟩ := (C20_display k s).mp hs
    simp only [Json.norm, unlockKey, text] at h2
    have ht : IsText (t ++ [58] ++ u) := (h3.append (isText_ascii (by simp))).append (isText_ascii fun b hb => (by decide +kernel : ∀ c ∈ ascii "0123456789abcdef", c < 128) b (h6 b hb))
    rw [strBytes_textOf ht] at h2
    cases hp : parseUnlockKey (t ++ [58] ++ u) with
    | error e => rw [hp] at h2; cases h2
    | ok k' =>
      rw [hp] at h2
      cases h2
      obtain ⟨pre, t', e, h7, h8, h9⟩ := (C20_accepts _ _).mp hp
      refine ⟨t, h3, h4, ?_⟩
      have c1 := List.count_eq_zero.mpr h5.noColon
      have c2 := List.count_eq_zero.mpr h7
      have c3 := List.count_eq_zero.mpr h9.noColon
      have := congrArg (List.count (58 : UInt8)) e
      simp only [List.count_append, c1, c2, c3] at this
      exact List.count_eq_zero.mp (by omega)

theorem trip_unlockConditions {uc : UnlockConditions} (h : Trip unlockConditions uc) : uc.Textual := by
  obtain ⟨j, h1, h2⟩ := h
  obtain ⟨a, ks, b⟩ := uc
  cases hk' : each unlockKey.ser ks with
  | err e => simp [unlockConditions, record, Shape.ser, JField.ser, JField.req, list, u64, hk', Struct.fields] at h1
  | panic => simp [unlockConditions, record, Shape.ser, JField.ser, JField.req, list, u64, hk', Struct.fields] at h1
  | ok js =>
    simp [unlockConditions, record, Shape.ser, JField.ser, JField.req, list, u64, hk', Struct.fields] at h1
    subst h1
    simp only [Json.norm, Json.normMembers, Json.normList_eq] at h2
    rw [show ∀ x y z, Json.insertKey "timelock" x (Json.insertKey "publicKeys" y (Json.insertKey "signaturesRequired" z [])) =
      [("publicKeys", y), ("signaturesRequired", z), ("timelock", x)] from fun _ _ _ => by simp [Json.insertKey]] at h2
    simp only [unlockConditions, record] at h2
    cases hd : (Shape.cons (JField.req "timelock" u64) (.cons (.req "publicKeys" (list unlockKey)) (.one (.req "signaturesRequired" u64)))).de
        (.obj [("publicKeys", .arr (js.map Json.norm)), ("signaturesRequired", .nat b), ("timelock", .nat a)]) with
    | err e => rw [hd] at h2; cases h2
    | panic => rw [hd] at h2; cases h2
    | ok x =>
      rw [hd] at h2
      obtain ⟨x1, x2, x3⟩ := x
      cases h2
      obtain ⟨-, hr, -⟩ := (Shape.de_obj _ (by decide) _ _).mp hd
      simp [JField.Reads, JField.req, Json.valuesOf_cons, Json.valuesOf_nil (m := []), list] at hr
      exact fun k hk => trip_unlockKey (each_trip hk' hr k hk)

/-! ## Policies -/

theorem threshold_de (sub : Serde SpendPolicy) (v : Json) (n : UInt8) (of : List SpendPolicy) :
    (Shape.cons (.req "n" u8) (.one (.req "of" (list sub)))).de v = .ok (n, of) ↔ (SpendPolicy.threshold n of).SaidBy E sub v := by
  cases v with
  | obj m =>
    rw [Shape.de_obj _ (by simp [Shape.names, JField.req])]
    simp only [Shape.Reads, JField.Reads, JField.req, SpendPolicy.SaidBy]
    constructor
    · rintro ⟨⟨x, h1, h2⟩ | ⟨-, skip, h⟩, ⟨y, h3, h4⟩ | ⟨-, skip, h'⟩⟩
      · exact ⟨x, y, h1, h2, h3, h4⟩
      · cases h'
      · cases h
      · cases h
    · rintro ⟨x, y, h1, h2, h3, h4⟩
      exact ⟨.inl ⟨x, h1, h2⟩, .inl ⟨y, h3, h4⟩⟩
  | arr l =>
    rw [Shape.de_arr]
    simp only [Shape.ReadsSeq, SpendPolicy.SaidBy]
    constructor
    · rintro ⟨h1, h2, h3⟩
      rcases l with _ | ⟨x, _ | ⟨y, l⟩⟩
      · obtain ⟨skip, h⟩ := h1; cases h
      · obtain ⟨skip, h⟩ := h3; cases h
      · refine ⟨x, y, ?_, h1, h3⟩
        simp only [List.tail_cons, List.length_cons] at h2
        rw [List.eq_nil_of_length_eq_zero (l := l) (by omega)]
    · rintro ⟨x, y, rfl, h1, h2⟩
      exact ⟨h1, by simp, h2⟩
  | _ => exact ⟨fun h => (by cases h), fun h => (by cases h)⟩

theorem bind_ok_iff {α β : Type} {r : Res α} {f : α → Res β} {b : β} : (r >>= f) = .ok b ↔ ∃ a, r = .ok a ∧ f a = .ok b := by
  cases r <;> simp

theorem u64_de (v : Json) (n : U64) : u64.de v = .ok n ↔ v = .nat n := by
  cases v <;> simp [u64, Res.fail]

theorem dePolicy_iff (d : Nat) (j : Json) (p : SpendPolicy) : dePolicy E (d + 1) j = .ok p ↔
    ∃ m v, j = .obj m ∧ policyMembers (none, none) m = .ok (some p.kind, some v) ∧ p.SaidBy E ⟨serPolicy E, dePolicy E d, Take.whole (dePolicy E d)⟩ v := by
  cases j with
  | obj m =>
    simp only [dePolicy, Json.obj.injEq, exists_and_left, exists_eq_left']
    cases hm : policyMembers (none, none) m with
    | err e => simp
    | panic => simp
    | ok x =>
      obtain ⟨type, value⟩ := x
      simp only [Res.ok_bind, Res.ok.injEq, Prod.mk.injEq]
      cases type with
      | none => simp [Res.fail]
      | some type =>
        cases value with
        | none => simp [Res.fail]
        | some v =>
          simp only [Option.some.injEq, and_assoc]
          have goal : ∀ P : Prop, (P ↔ type = p.kind ∧ p.SaidBy E ⟨serPolicy E, dePolicy E d, Take.whole (dePolicy E d)⟩ v) →
              (P ↔ ∃ x, type = p.kind ∧ v = x ∧ p.SaidBy E ⟨serPolicy E, dePolicy E d, Take.whole (dePolicy E d)⟩ x) :=
            fun P h => h.trans ⟨fun h => ⟨v, h.1, rfl, h.2⟩, fun ⟨x, h1, h2, h3⟩ => ⟨h1, h2 ▸ h3⟩⟩
          apply goal
          by_cases h1 : type = "above"
          · subst h1
            simp only [if_pos trivial, bind_ok_iff, u64_de, Res.pure_eq, Res.ok.injEq]
            cases p <;> simp [SpendPolicy.kind, SpendPolicy.SaidBy]
          rw [if_neg h1]
          by_cases h2 : type = "after"
          · subst h2
            rw [if_pos rfl, bind_ok_iff]
            have hin : ∀ n : U64, -377705116800 ≤ n.toInt ∧ n.toInt ≤ 253402300799 → DateTime.fromUnix n.toInt = some ⟨n.toInt, 0⟩ := fun n h => if_pos h
            have hout : ∀ n : U64, ¬ (-377705116800 ≤ n.toInt ∧ n.toInt ≤ 253402300799) → DateTime.fromUnix n.toInt = none := fun n h => if_neg h
            constructor
            · rintro ⟨n, ha, hb⟩
              by_cases h : -377705116800 ≤ n.toInt ∧ n.toInt ≤ 253402300799
              · simp only [hin n h, Res.pure_eq, Res.ok.injEq] at hb
                subst hb
                exact ⟨rfl, n, (u64_de _ _).mp ha, rfl, rfl, h.1, h.2⟩
              · simp only [hout n h] at hb
                cases hb
            · rintro ⟨hk, hs⟩
              cases p with
              | after t =>
                obtain ⟨n, rfl, f1, f2, f3, f4⟩ := hs
                obtain ⟨s, k⟩ := t
                simp only at f1 f2 f3 f4
                subst f1 f2
                exact ⟨n, rfl, by simp only [hin n ⟨f3, f4⟩, Res.pure_eq]⟩
              | _ => simp [SpendPolicy.kind] at hk
          rw [if_neg h2]
          by_cases h3 : type = "pk"
          · subst h3
            simp only [if_pos trivial, bind_ok_iff, Res.pure_eq, Res.ok.injEq]
            cases p <;> simp [SpendPolicy.kind, SpendPolicy.SaidBy]
          rw [if_neg h3]
          by_cases h4 : type = "h"
          · subst h4
            simp only [if_pos trivial, bind_ok_iff, Res.pure_eq, Res.ok.injEq]
            cases p <;> simp [SpendPolicy.kind, SpendPolicy.SaidBy]
          rw [if_neg h4]
          by_cases h5 : type = "thresh"
          · subst h5
            rw [if_pos rfl, bind_ok_iff]
            cases p with
            | threshold n of =>
              rw [← threshold_de]
              simp only [SpendPolicy.kind, true_and, Res.pure_eq, Res.ok.injEq, SpendPolicy.threshold.injEq]
              exact ⟨fun ⟨a, ha, h1, h2⟩ => by rw [← h1, ← h2]; exact ha, fun h => ⟨(n, of), h, rfl, rfl⟩⟩
            | _ => simp [SpendPolicy.kind]
          rw [if_neg h5]
          by_cases h6 : type = "opaque"
          · subst h6
            simp only [if_pos trivial, bind_ok_iff, Res.pure_eq, Res.ok.injEq]
            cases p <;> simp [SpendPolicy.kind, SpendPolicy.SaidBy]
          rw [if_neg h6]
          by_cases h7 : type = "uc"
          · subst h7
            simp only [if_pos trivial, bind_ok_iff, Res.pure_eq, Res.ok.injEq]
            cases p <;> simp [SpendPolicy.kind, SpendPolicy.SaidBy]
          rw [if_neg h7]
          cases p <;> simp [SpendPolicy.kind, h1, h2, h3, h4, h5, h6, h7, Res.fail]
  | _ => simp [dePolicy, Res.fail]

theorem members_norm (type : String) (v : Json) (j : Json) (h : j = .obj [("type", .str type), ("policy", v)]) : ∃ m, j.norm = .obj m ∧
    policyMembers (none, none) m = .ok (some type, some v.norm) := by
  subst h
  have : (Json.obj [("type", .str type), ("policy", v)]).norm = .obj [("policy", v.norm), ("type", .str type)] := by
    simp [Json.norm, Json.normMembers, Json.insertKey]
  exact ⟨_, this, by simp [policyMembers, Json.norm_norm, string, text]⟩

/-- Every policy that survives writing and reading fits. -/
theorem trip_policyAt : ∀ (d : Nat) (p : SpendPolicy), Trip ⟨serPolicy E, dePolicy E d, Take.whole (dePolicy E d)⟩ p → p.JsonFits d
  | 0, p, h => by obtain ⟨j, -, h⟩ := h; cases h
  | d + 1, p, h => by
    obtain ⟨j, h1, h2⟩ := h
    simp only at h1 h2
    obtain ⟨m, v, hj, hm, hs⟩ := (dePolicy_iff d _ _).mp h2
    cases p with
    | above x => simp [SpendPolicy.JsonFits]
    | publicKey x => simp [SpendPolicy.JsonFits]
    | hash x => simp [SpendPolicy.JsonFits]
    | opaqueAddr x => simp [SpendPolicy.JsonFits]
    | after t =>
      obtain ⟨n, -, h3, -, h4, h5⟩ := hs
      rw [SpendPolicy.JsonFits]
      exact ⟨h3, h4, h5⟩
    | unlockConditions uc =>
      rw [serPolicy] at h1
      obtain ⟨x, hx, e⟩ := bind_ok_iff.mp h1
      obtain ⟨m', e1, e2⟩ := members_norm "uc" x j (Res.ok.inj e).symm
      rw [e1] at hj
      cases hj
      rw [e2] at hm
      cases hm
      rw [SpendPolicy.JsonFits]
      exact trip_unlockConditions ⟨x, hx, hs⟩
    | threshold n of =>
      rw [serPolicy] at h1
      obtain ⟨x, hx, h3⟩ := bind_ok_iff.mp h1
      obtain ⟨js, hjs, e⟩ := bind_ok_iff.mp h3
      obtain ⟨m', e1, e2⟩ := members_norm "thresh" _ j (Res.ok.inj e).symm
      rw [e1] at hj
      cases hj
      rw [e2] at hm
      cases hm
      rw [Json.norm_norm, show (Json.obj [("n", x), ("of", Json.arr js)]).norm = .obj [("n", x.norm), ("of", .arr (js.map Json.norm))] by
        simp [Json.norm, Json.normMembers, Json.insertKey, Json.normList_eq]] at hs
      obtain ⟨a, b, -, -, h4, h5⟩ := hs
      simp [Json.valuesOf_cons, Json.valuesOf_nil (m := [])] at h4
      subst h4
      rw [SpendPolicy.JsonFits]
      intro q hq
      have hser : each (serPolicy E) of = .ok js := by
        rw [serPolicies_eq] at hjs
        cases he : each (serPolicy E) of with
        | ok y => rw [he] at hjs; exact congrArg Res.ok (Res.ok.inj hjs)
        | err e => rw [he] at hjs; cases hjs
        | panic => rw [he] at hjs; cases hjs
      exact trip_policyAt d q (each_trip (s := ⟨serPolicy E, dePolicy E d, Take.whole (dePolicy E d)⟩) hser h5 q hq)

/-- The reader does not see the order of the members of the written document. -/
theorem dePolicy_norm {d : Nat} {p : SpendPolicy} {j : Json} (hs : serPolicy E p = .ok j) : dePolicy E d j.norm = dePolicy E d j := by
  cases d with
  | zero => rfl
  | succ d =>
    obtain ⟨type, v, rfl⟩ : ∃ type v, j = .obj [("type", .str type), ("policy", v)] := by
      cases p <;> rw [serPolicy] at hs
      case threshold n of =>
        obtain ⟨x, hx, h3⟩ := bind_ok_iff.mp hs
        obtain ⟨js, hjs, e⟩ := bind_ok_iff.mp h3
        exact ⟨_, _, (Res.ok.inj e).symm⟩
      all_goals
        obtain ⟨x, hx, e⟩ := bind_ok_iff.mp hs
        exact ⟨_, _, (Res.ok.inj e).symm⟩
    obtain ⟨m', e1, e2⟩ := members_norm type v _ rfl
    rw [e1]
    have : policyMembers (none, none) [("type", .str type), ("policy", v)] = .ok (some type, some v.norm) := by
      simp [policyMembers, string, text]
    simp only [dePolicy, e2, this]

theorem unlockKeys_strings {ks : List UnlockKey} {js : List Json} (h : each unlockKey.ser ks = .ok js) : ∀ j ∈ js, ∃ s, j = .str s := by
  induction ks generalizing js with
  | nil => rw [each] at h; cases h; simp
  | cons k ks ih =>
    rw [each] at h
    obtain ⟨j, h1, h2⟩ := bind_ok_iff.mp h
    obtain ⟨r, h3, h4⟩ := bind_ok_iff.mp h2
    cases h4
    simp only [unlockKey, text] at h1
    obtain ⟨s, -, h5⟩ := bind_ok_iff.mp h1
    cases h5
    simp only [List.mem_cons, forall_eq_or_imp]
    exact ⟨⟨s, rfl⟩, ih h3⟩

theorem depthList_strings {js : List Json} (h : ∀ j ∈ js, ∃ s, j = .str s) : Json.depthList js = 0 ∧ js.map Json.norm = js := by
  induction js with
  | nil => exact ⟨rfl, rfl⟩
  | cons j js ih =>
    simp only [List.mem_cons, forall_eq_or_imp] at h
    obtain ⟨⟨s, rfl⟩, h2⟩ := h
    obtain ⟨i1, i2⟩ := ih h2
    exact ⟨by simp [Json.depthList, Json.depth, i1], by simp [Json.norm, i2]⟩

/-- How deep the written documents are. -/
theorem depth_policy : ∀ (p : SpendPolicy) (j : Json), serPolicy E p = .ok j → j.depth = p.jsonDepth ∧ j.norm.depth = p.jsonDepth
  | .above x, j, h => by
    rw [serPolicy] at h; cases h
    simp [Json.depth, Json.depthMembers, Json.norm, Json.normMembers, Json.insertKey, SpendPolicy.jsonDepth]
  | .after x, j, h => by
    rw [serPolicy] at h; cases h
    simp [Json.depth, Json.depthMembers, Json.norm, Json.normMembers, Json.insertKey, SpendPolicy.jsonDepth]
  | .publicKey x, j, h => by
    rw [serPolicy] at h; cases h
    simp [Json.depth, Json.depthMembers, Json.norm, Json.normMembers, Json.insertKey, SpendPolicy.jsonDepth]
  | .hash x, j, h => by
    rw [serPolicy] at h; cases h
    simp [Json.depth, Json.depthMembers, Json.norm, Json.normMembers, Json.insertKey, SpendPolicy.jsonDepth]
  | .opaqueAddr x, j, h => by
    rw [serPolicy] at h; cases h
    simp [Json.depth, Json.depthMembers, Json.norm, Json.normMembers, Json.insertKey, SpendPolicy.jsonDepth]
  | .unlockConditions ⟨a, ks, b⟩, j, h => by
    rw [serPolicy] at h
    obtain ⟨x, hx, e⟩ := bind_ok_iff.mp h
    cases e
    cases hk : each unlockKey.ser ks with
    | err e => simp [unlockConditions, record, Shape.ser, JField.ser, JField.req, list, u64, hk, Struct.fields] at hx
    | panic => simp [unlockConditions, record, Shape.ser, JField.ser, JField.req, list, u64, hk, Struct.fields] at hx
    | ok js =>
      simp [unlockConditions, record, Shape.ser, JField.ser, JField.req, list, u64, hk, Struct.fields] at hx
      subst hx
      obtain ⟨d1, d2⟩ := depthList_strings (unlockKeys_strings hk)
      simp [Json.depth, Json.depthMembers, Json.norm, Json.normMembers, Json.insertKey, SpendPolicy.jsonDepth, d1, d2, Json.normList_eq]
  | .threshold n of, j, h => by
    rw [serPolicy] at h
    obtain ⟨x, hx, h3⟩ := bind_ok_iff.mp h
    obtain ⟨js, hjs, e⟩ := bind_ok_iff.mp h3
    cases e
    cases hx
    have hser : serPolicies E of = .ok js := by
      cases he : serPolicies E of with
      | ok y => rw [he] at hjs; exact congrArg Res.ok (Res.ok.inj hjs)
      | err e => rw [he] at hjs; cases hjs
      | panic => rw [he] at hjs; cases hjs
    obtain ⟨d1, d2⟩ := depth_policies of js hser
    simp [Json.depth, Json.depthMembers, Json.norm, Json.normMembers, Json.insertKey, SpendPolicy.jsonDepth, d2, Json.normList_eq,
      show Json.norm ∘ Json.norm = Json.norm from funext Json.norm_norm]
where
  depth_policies : ∀ (of : List SpendPolicy) (js : List Json), serPolicies E of = .ok js →
      Json.depthList js = SpendPolicy.jsonDepth.deepest of ∧ Json.depthList (js.map Json.norm) = SpendPolicy.jsonDepth.deepest of
    | [], js, h => by rw [serPolicies] at h; cases h; simp [Json.depthList, SpendPolicy.jsonDepth.deepest]
    | p :: ps, js, h => by
      rw [serPolicies] at h
      obtain ⟨j, h1, h2⟩ := bind_ok_iff.mp h
      obtain ⟨r, h3, h4⟩ := bind_ok_iff.mp h2
      cases h4
      obtain ⟨i1, i2⟩ := depth_policy p j h1
      obtain ⟨i3, i4⟩ := depth_policies ps r h3
      simp [Json.depthList, SpendPolicy.jsonDepth.deepest, i1, i2, i3, i4]

/-! ## Panics -/

/-- Reading documents nested at most `d` deep does not panic. -/
def Calm {α : Type} (s : Serde α) (d : Nat) : Prop := ∀ j, j.depth ≤ d → s.de j ≠ .panic

theorem calm_text {α : Type} {write : α → Res String} {read : String → Res α} (h : ∀ s, read s ≠ .panic) (d : Nat) : Calm (text write read) d := by
  intro j _
  cases j <;> simp [text, Res.fail, h]

theorem ofExcept_ne {ε α : Type} (x : Except ε α) : ofExcept x ≠ .panic := by cases x <;> simp [ofExcept, Res.fail]
theorem ofOption_ne {α : Type} (x : Option α) : ofOption x ≠ .panic := by cases x <;> simp [ofOption, Res.fail]

theorem calm_id (d : Nat) : Calm id d := calm_text (fun _ => ofExcept_ne _) d
theorem calm_address (d : Nat) : Calm (address E) d := calm_text (fun _ => ofExcept_ne _) d
theorem calm_key (d : Nat) : Calm key d := calm_text (fun _ => ofOption_ne _) d
theorem calm_signature (d : Nat) : Calm signature d := calm_text (fun _ => ofOption_ne _) d
theorem calm_leaf (d : Nat) : Calm leaf d := calm_text (fun _ => ofOption_ne _) d
theorem calm_unlockKey (d : Nat) : Calm unlockKey d := calm_text (fun _ => ofExcept_ne _) d
theorem calm_work (d : Nat) : Calm work d := calm_text (fun _ => ofExcept_ne _) d
theorem calm_base64 (d : Nat) : Calm base64 d := calm_text (fun _ => ofOption_ne _) d
theorem calm_time (d : Nat) : Calm (time E) d := calm_text (fun _ => ofOption_ne _) d
theorem calm_string (d : Nat) : Calm string d := calm_text (by simp) d
theorem calm_u64 (d : Nat) : Calm u64 d := by intro j _; cases j <;> simp [u64, Res.fail]
theorem calm_bool (d : Nat) : Calm bool d := by intro j _; cases j <;> simp [bool, Res.fail]
theorem calm_duration (d : Nat) : Calm duration d := by intro j _; cases j <;> simp [duration, Res.fail]
theorem calm_u8 (d : Nat) : Calm u8 d := by
  intro j _
  cases j with
  | nat n => simp only [u8]; split <;> simp [Res.fail]
  | _ => simp [u8, Res.fail]

theorem scaledAmount_ok (a b : U128) (x y : BitVec 32) : ∃ c, scaledAmount .unchecked a b x y = .ok c :=
  ⟨_, by simp only [scaledAmount, addS, subS, mulU, addU, pow10_unchecked, Res.ok_bind]; rfl⟩

theorem parseCurrency_ne (s : List Char) : parseCurrency .unchecked s ≠ .panic := by
  have lift_ne : ∀ (a b : U128) (x y : BitVec 32), (Out.lift (scaledAmount .unchecked a b x y) .ok : Out CurrencyErr Currency) ≠ .panic := by
    intro a b x y h
    obtain ⟨c, hc⟩ := scaledAmount_ok a b x y
    rw [hc] at h
    cases h
  unfold parseCurrency
  simp only
  split
  · split <;> simp
  · split
    · simp
    · split
      · simp
      · split
        · simp
        · split
          · split
            · simp
            · exact lift_ne _ _ _ _
          · exact lift_ne _ _ _ _

theorem calm_currency (h : E.mode = .unchecked) (d : Nat) : Calm (currency E) d := by
  intro j _
  have key : ∀ t, deserializeCurrency E.mode t ≠ .panic := by
    rw [h]
    intro t
    cases t with
    | str s =>
      simp only [deserializeCurrency]
      split <;> simp
      exact parseCurrency_ne s (by assumption)
    | i32 v => simp only [deserializeCurrency, castSigned]; split <;> simp
    | i64 v => simp only [deserializeCurrency, castSigned]; split <;> simp
    | i128 v => simp only [deserializeCurrency, castSigned]; split <;> simp
    | _ => simp [deserializeCurrency]
  have : ∀ t, ofOut (deserializeCurrency E.mode t) ≠ .panic := by
    intro t
    have := key t
    cases hx : deserializeCurrency E.mode t with
    | ok c => simp [ofOut]
    | err e => simp [ofOut, Res.fail]
    | panic => exact absurd hx this
  exact this _

theorem depth_mem {j : Json} {l : List Json} (h : j ∈ l) : j.depth ≤ Json.depthList l := by
  induction l with
  | nil => cases h
  | cons a l ih =>
    rw [Json.depthList]
    rcases List.mem_cons.mp h with rfl | h
    · omega
    · have := ih h; omega

theorem depth_member {p : String × Json} {m : List (String × Json)} (h : p ∈ m) : p.2.depth ≤ Json.depthMembers m := by
  induction m with
  | nil => cases h
  | cons a m ih =>
    rw [Json.depthMembers]
    rcases List.mem_cons.mp h with rfl | h
    · omega
    · have := ih h; omega

theorem bind_ne {α β : Type} {r : Res α} {f : α → Res β} (h : r ≠ .panic) (h' : ∀ a, r = .ok a → f a ≠ .panic) : (r >>= f) ≠ .panic := by
  cases r with
  | ok a => exact h' a rfl
  | err e => simp
  | panic => exact absurd rfl h

theorem calm_each {α : Type} {s : Serde α} {l : List Json} (h : ∀ j ∈ l, s.de j ≠ .panic) : each s.de l ≠ .panic := by
  induction l with
  | nil => simp [each]
  | cons j l ih =>
    simp only [List.mem_cons, forall_eq_or_imp] at h
    rw [each]
    exact bind_ne h.1 fun _ _ => bind_ne (ih h.2) fun _ _ => by simp

/-- Elements one level down. -/
theorem calm_list' {α : Type} {s : Serde α} {d : Nat} (h : Calm s d) : Calm (list s) (d + 1) := by
  intro j hj
  cases j with
  | arr l =>
    rw [Json.depth] at hj
    exact calm_each fun j hm => h j (by have := depth_mem hm; omega)
  | _ => simp [list, Res.fail]

theorem Calm.mono {α : Type} {s : Serde α} {d d' : Nat} (h : Calm s d) (hd : d' ≤ d) : Calm s d' := fun j hj => h j (by omega)

theorem calm_list {α : Type} {s : Serde α} {d : Nat} (h : Calm s d) : Calm (list s) d := (calm_list' h).mono (by omega)

theorem calm_option {α : Type} {s : Serde α} {d : Nat} (h : Calm s d) : Calm (option s) d := by
  intro j hj
  cases j with
  | null => simp [option]
  | _ => exact bind_ne (h _ hj) fun _ _ => by simp

/-- All fields. -/
def _root_.Verif.Shape.Calm : {β : Type} → Shape β → Nat → Prop
  | _, .one f, d => f.type.Calm d
  | _, .cons f s, d => f.type.Calm d ∧ s.Calm d

theorem missing_ne {α : Type} (f : JField α) : f.missing ≠ .panic := by
  unfold JField.missing
  split <;> simp [Res.fail]

theorem get_ne {α : Type} (f : JField α) (x : Option α) : f.get x ≠ .panic := by
  cases x with
  | none => exact missing_ne f
  | some a => simp [JField.get]

theorem finish_ne {β : Type} (s : Shape β) (x : s.Slots) : s.finish x ≠ .panic := by
  induction s with
  | one f => exact get_ne f x
  | cons f s ih => exact bind_ne (get_ne f _) fun _ _ => bind_ne (ih _) fun _ _ => by simp

theorem put_ne {α : Type} (f : JField α) (x : Option α) (v : Json) (h : f.type.de v ≠ .panic) : f.put x v ≠ .panic := by
  cases x with
  | none => exact bind_ne h fun _ _ => by simp
  | some a => simp [JField.put, Res.fail]

theorem step_ne {β : Type} (s : Shape β) {d : Nat} (h : s.Calm d) (x : s.Slots) (k : String) (v : Json) (hv : v.depth ≤ d) : s.step x k v ≠ .panic := by
  induction s with
  | one f =>
    have key : ∀ x : Option _, (if k = f.name then f.put x v else .ok x) ≠ .panic := by
      intro x
      split
      · exact put_ne f x v (h v hv)
      · simp
    exact key x
  | cons f s ih =>
    have key : ∀ x : Option _ × s.Slots, (if k = f.name then (do let a ← f.put x.1 v; pure (a, x.2)) else do let y ← s.step x.2 k v; pure (x.1, y))
        ≠ .panic := by
      intro x
      split
      · exact bind_ne (put_ne f _ v (h.1 v hv)) fun _ _ => by simp
      · exact bind_ne (ih h.2 _) fun _ _ => by simp
    exact key x

theorem run_ne {β : Type} (s : Shape β) {d : Nat} (h : s.Calm d) (m : List (String × Json)) (hm : ∀ p ∈ m, p.2.depth ≤ d) (x : s.Slots) :
    s.run x m ≠ .panic := by
  induction m generalizing x with
  | nil => simp [Shape.run]
  | cons p m ih =>
    simp only [List.mem_cons, forall_eq_or_imp] at hm
    exact bind_ne (step_ne s h x p.1 p.2 hm.1) fun _ _ => ih hm.2 _

theorem seq_ne {β : Type} (s : Shape β) {d : Nat} (h : s.Calm d) (l : List Json) (hl : ∀ j ∈ l, j.depth ≤ d) : s.seq l ≠ .panic := by
  induction s generalizing l with
  | one f =>
    cases l with
    | nil => exact missing_ne f
    | cons j l => exact bind_ne (h j (hl j (by simp))) fun _ _ => by split <;> simp [Res.fail]
  | cons f s ih =>
    cases l with
    | nil => exact bind_ne (missing_ne f) fun _ _ => bind_ne (ih h.2 [] (by simp)) fun _ _ => by simp
    | cons j l => exact bind_ne (h.1 j (hl j (by simp))) fun _ _ => bind_ne (ih h.2 l fun j hj => hl j (by simp [hj])) fun _ _ => by simp

/-- Fields one level down. -/
theorem calm_shape {β : Type} (s : Shape β) {d : Nat} (h : s.Calm d) (j : Json) (hj : j.depth ≤ d + 1) : s.de j ≠ .panic := by
  cases j with
  | obj m =>
    rw [Json.depth] at hj
    exact bind_ne (run_ne s h m (fun p hp => by have := depth_member hp; omega) _) fun _ _ => finish_ne s _
  | arr l =>
    rw [Json.depth] at hj
    exact seq_ne s h l fun j hm => by have := depth_mem hm; omega
  | _ => simp [Shape.de, Res.fail]

theorem calm_record {α β : Type} {s : Shape β} {fields : α → β} {build : β → α} {d : Nat} (h : s.Calm d) : Calm (record s fields build) d := by
  intro j hj
  exact bind_ne (calm_shape s h j (by omega)) fun _ _ => by simp

theorem readTimes_length : ∀ (l : List Json) (done : List DateTime), done.length ≤ 11 → ∀ ts, readTimes E done l = .ok ts → ts.length = 11
  | [], done, hd, ts, h => by
    rw [readTimes] at h
    cases h
    rw [List.length_append, List.length_replicate]
    omega
  | .str s :: l, done, hd, ts, h => by
    rw [readTimes] at h
    by_cases hl : 11 ≤ done.length
    · rw [if_pos hl] at h; cases h
    · rw [if_neg hl] at h
      cases ht : E.timeRead s with
      | none => simp only [ht] at h; cases h
      | some t =>
        simp only [ht] at h
        exact readTimes_length l (done ++ [t]) (by simp; omega) ts h
  | .null :: l, done, hd, ts, h => by cases h
  | .bool _ :: l, done, hd, ts, h => by cases h
  | .nat _ :: l, done, hd, ts, h => by cases h
  | .neg _ :: l, done, hd, ts, h => by cases h
  | .float :: l, done, hd, ts, h => by cases h
  | .arr _ :: l, done, hd, ts, h => by cases h
  | .obj _ :: l, done, hd, ts, h => by cases h

theorem readTimes_ne : ∀ (l : List Json) (done : List DateTime), readTimes E done l ≠ .panic
  | [], done => by simp [readTimes]
  | .str s :: l, done => by
    rw [readTimes]
    by_cases hl : 11 ≤ done.length
    · rw [if_pos hl]; simp [Res.fail]
    · rw [if_neg hl]
      cases ht : E.timeRead s with
      | none => simp [Res.fail]
      | some t => exact readTimes_ne l _
  | .null :: l, done => by simp [readTimes, Res.fail]
  | .bool _ :: l, done => by simp [readTimes, Res.fail]
  | .nat _ :: l, done => by simp [readTimes, Res.fail]
  | .neg _ :: l, done => by simp [readTimes, Res.fail]
  | .float :: l, done => by simp [readTimes, Res.fail]
  | .arr _ :: l, done => by simp [readTimes, Res.fail]
  | .obj _ :: l, done => by simp [readTimes, Res.fail]

theorem calm_times (d : Nat) : Calm (times E) d := by
  intro j _
  cases j with
  | arr l =>
    refine bind_ne (readTimes_ne l []) fun ts h => ?_
    rw [dif_pos (readTimes_length l [] (by simp) ts h)]
    simp
  | _ => simp [times, Res.fail]

theorem depthMembers_insertKey (k : String) (v : Json) (m : List (String × Json)) : Json.depthMembers (Json.insertKey k v m) ≤ max v.depth (Json.depthMembers m) := by
  induction m with
  | nil => simp [Json.insertKey, Json.depthMembers]
  | cons p m ih =>
    obtain ⟨k', v'⟩ := p
    rw [Json.insertKey]
    split
    · simp only [Json.depthMembers]; omega
    · split
      · simp only [Json.depthMembers]; omega
      · simp only [Json.depthMembers]; omega

theorem depth_norm (j : Json) : j.norm.depth ≤ j.depth := by
  refine Json.induct (P := fun j => j.norm.depth ≤ j.depth) (by simp [Json.norm]) (by simp [Json.norm]) (by simp [Json.norm]) (by simp [Json.norm])
    (by simp [Json.norm]) (by simp [Json.norm]) ?_ ?_ j
  · intro l ih
    rw [Json.norm, Json.depth, Json.depth, Json.normList_eq]
    have : Json.depthList (l.map Json.norm) ≤ Json.depthList l := by
      induction l with
      | nil => simp
      | cons a l ih' =>
        simp only [List.mem_cons, forall_eq_or_imp] at ih
        have := ih' ih.2
        simp only [List.map_cons, Json.depthList]
        omega
    omega
  · intro m ih
    rw [Json.norm, Json.depth, Json.depth]
    have : Json.depthMembers (Json.normMembers m) ≤ Json.depthMembers m := by
      induction m with
      | nil => simp [Json.normMembers]
      | cons p m ih' =>
        simp only [List.mem_cons, forall_eq_or_imp] at ih
        have := ih' ih.2
        have h2 := depthMembers_insertKey p.1 p.2.norm (Json.normMembers m)
        simp only [Json.normMembers, Json.depthMembers]
        omega
    omega

theorem depth_valuesOf {k : String} {v : Json} {m : List (String × Json)} (h : v ∈ valuesOf k m) : v.depth ≤ Json.depthMembers m := by
  simp only [valuesOf, List.mem_filterMap] at h
  obtain ⟨p, hp, e⟩ := h
  split at e
  · cases e; exact depth_member hp
  · cases e

theorem policyMembers_ne (m : List (String × Json)) : ∀ x, policyMembers x m ≠ .panic := by
  induction m with
  | nil => intro x; simp [policyMembers]
  | cons p m ih =>
    intro x
    obtain ⟨k, v⟩ := p
    rw [policyMembers]
    split
    · exact bind_ne (calm_string _ v (Nat.le_refl _)) fun _ _ => ih _
    · split
      · exact ih _
      · simp [Res.fail]

theorem calm_unlockConditions (d : Nat) : Calm unlockConditions d :=
  calm_record ⟨calm_u64 d, calm_list (calm_unlockKey d), calm_u64 d⟩

theorem calm_policyAt : ∀ (n d : Nat), d < 3 * n → Calm ⟨serPolicy E, dePolicy E n, Take.whole (dePolicy E n)⟩ d
  | 0, d, h => by omega
  | n + 1, d, h => by
    intro j hj
    cases j with
    | obj m =>
      rw [Json.depth] at hj
      refine bind_ne (policyMembers_ne m _) fun x hx => ?_
      obtain ⟨type, value⟩ := x
      have hv : ∀ v, value = some v → v.depth ≤ 3 * n + 1 := by
        rintro v rfl
        have := ((policyMembers_ok m _ _).mp hx).2.2.2
        simp only [Option.or_none] at this
        obtain ⟨w, h1, rfl⟩ := Option.map_eq_some_iff.mp this.symm
        have := depth_valuesOf (List.mem_of_getLast? h1)
        have := depth_norm w
        omega
      have hlist : Calm (list ⟨serPolicy E, dePolicy E n, Take.whole (dePolicy E n)⟩) (3 * n) := by
        cases n with
        | zero =>
          intro j hj
          cases j with
          | arr l => rw [Json.depth] at hj; omega
          | _ => simp [list, Res.fail]
        | succ n => exact calm_list' (calm_policyAt (n + 1) (3 * n + 2) (by omega))
      cases type with
      | none => simp [Res.fail]
      | some type =>
        cases value with
        | none => simp [Res.fail]
        | some v =>
          have hv := hv v rfl
          simp only
          split
          · exact bind_ne (calm_u64 _ v hv) fun _ _ => by simp
          split
          · refine bind_ne (calm_u64 _ v hv) fun n _ => ?_
            cases DateTime.fromUnix n.toInt <;> simp [Res.fail]
          split
          · exact bind_ne (calm_key _ v hv) fun _ _ => by simp
          split
          · exact bind_ne (calm_id _ v hv) fun _ _ => by simp
          split
          · exact bind_ne (calm_shape (d := 3 * n) (.cons (.req "n" u8) (.one (.req "of" (list ⟨serPolicy E, dePolicy E n, Take.whole (dePolicy E n)⟩)))) ⟨calm_u8 _, hlist⟩ v hv) fun _ _ => by simp
          split
          · exact bind_ne (calm_address _ v hv) fun _ _ => by simp
          split
          · exact bind_ne (calm_unlockConditions _ v hv) fun _ _ => by simp
          simp [Res.fail]
    | _ => simp [dePolicy, Res.fail]

theorem calm_policy {d : Nat} (h : d < 3 * E.stack) : Calm (policy E) d := calm_policyAt _ _ h

theorem calm_chainIndex (d : Nat) : Calm chainIndex d := calm_record ⟨calm_u64 d, calm_id d⟩
theorem calm_stateElement (d : Nat) : Calm stateElement d := calm_record ⟨calm_u64 d, calm_list (calm_id d)⟩
theorem calm_siafundOutput (d : Nat) : Calm (siafundOutput E) d := calm_record ⟨calm_u64 d, calm_address d⟩
theorem calm_v1SiacoinInput (d : Nat) : Calm v1SiacoinInput d := calm_record ⟨calm_id d, calm_unlockConditions d⟩
theorem calm_v1SiafundInput (d : Nat) : Calm (v1SiafundInput E) d := calm_record ⟨calm_id d, calm_unlockConditions d, calm_address d⟩
theorem calm_v1StorageProof (d : Nat) : Calm v1StorageProof d := calm_record ⟨calm_id d, calm_leaf d, calm_list (calm_id d)⟩
theorem calm_coveredFields (d : Nat) : Calm coveredFields d :=
  calm_record ⟨calm_bool d, calm_list (calm_u64 d), calm_list (calm_u64 d), calm_list (calm_u64 d), calm_list (calm_u64 d), calm_list (calm_u64 d),
    calm_list (calm_u64 d), calm_list (calm_u64 d), calm_list (calm_u64 d), calm_list (calm_u64 d), calm_list (calm_u64 d)⟩
theorem calm_transactionSignature (d : Nat) : Calm transactionSignature d :=
  calm_record ⟨calm_id d, calm_u64 d, calm_u64 d, calm_coveredFields d, calm_base64 d⟩
theorem calm_attestation (d : Nat) : Calm attestation d := calm_record ⟨calm_key d, calm_string d, calm_base64 d, calm_signature d⟩
theorem calm_chainIndexElement (d : Nat) : Calm chainIndexElement d := calm_record ⟨calm_stateElement d, calm_id d, calm_chainIndex d⟩
theorem calm_v2StorageProof (d : Nat) : Calm v2StorageProof d := calm_record ⟨calm_chainIndexElement d, calm_leaf d, calm_list (calm_id d)⟩
theorem calm_satisfiedPolicy {d : Nat} (h : d < 3 * E.stack) : Calm (satisfiedPolicy E) d :=
  calm_record ⟨calm_policy h, calm_list (calm_signature d), calm_list (calm_id d)⟩

theorem calm_accumulator (d : Nat) : Calm accumulator d := by
  intro j hj
  refine bind_ne (calm_shape (d := d) (.cons (.req "numLeaves" u64) (.one (.req "trees" (list id)))) ⟨calm_u64 d, calm_list (calm_id d)⟩ j
    (by omega)) fun x _ => ?_
  unfold accumulatorOf
  split
  · simp [Res.fail]
  · cases placeTrees (hasTreeAtHeight x.1) 0 64 x.2 <;> simp [Res.fail]

section

variable (hm : E.mode = .unchecked)
include hm

theorem calm_siacoinOutput (d : Nat) : Calm (siacoinOutput E) d := calm_record ⟨calm_currency hm d, calm_address d⟩

theorem calm_v1FileContract (d : Nat) : Calm (v1FileContract E) d :=
  calm_record ⟨calm_u64 d, calm_id d, calm_u64 d, calm_u64 d, calm_currency hm d, calm_list (calm_siacoinOutput hm d), calm_list (calm_siacoinOutput hm d),
    calm_address d, calm_u64 d⟩

theorem calm_v1FileContractRevision (d : Nat) : Calm (v1FileContractRevision E) d :=
  calm_record ⟨calm_id d, calm_unlockConditions d, calm_u64 d, calm_u64 d, calm_id d, calm_u64 d, calm_u64 d, calm_list (calm_siacoinOutput hm d),
    calm_list (calm_siacoinOutput hm d), calm_address d⟩

theorem calm_v1Transaction (d : Nat) : Calm (v1Transaction E) d :=
  calm_record ⟨calm_list (calm_v1SiacoinInput d), calm_list (calm_siacoinOutput hm d), calm_list (calm_v1FileContract hm d),
    calm_list (calm_v1FileContractRevision hm d), calm_list (calm_v1StorageProof d), calm_list (calm_v1SiafundInput d),
    calm_list (calm_siafundOutput d), calm_list (calm_currency hm d), calm_list (calm_base64 d), calm_list (calm_transactionSignature d)⟩

theorem calm_block (d : Nat) : Calm (block E) d :=
  calm_record ⟨calm_id d, calm_u64 d, calm_time d, calm_list (calm_siacoinOutput hm d), calm_list (calm_v1Transaction hm d)⟩

theorem calm_v2FileContract (d : Nat) : Calm (v2FileContract E) d :=
  calm_record ⟨calm_u64 d, calm_u64 d, calm_id d, calm_u64 d, calm_u64 d, calm_siacoinOutput hm d, calm_siacoinOutput hm d, calm_currency hm d,
    calm_currency hm d, calm_key d, calm_key d, calm_u64 d, calm_signature d, calm_signature d⟩

theorem calm_siacoinElement (d : Nat) : Calm (siacoinElement E) d :=
  calm_record ⟨calm_stateElement d, calm_id d, calm_siacoinOutput hm d, calm_u64 d⟩

theorem calm_siafundElement (d : Nat) : Calm (siafundElement E) d :=
  calm_record ⟨calm_stateElement d, calm_id d, calm_siafundOutput d, calm_currency hm d⟩

theorem calm_fileContractElement (d : Nat) : Calm (fileContractElement E) d :=
  calm_record ⟨calm_stateElement d, calm_id d, calm_v2FileContract hm d⟩

theorem calm_renewal (d : Nat) : Calm (renewal E) d :=
  calm_record ⟨calm_v2FileContract hm d, calm_v2FileContract hm d, calm_currency hm d, calm_currency hm d, calm_signature d, calm_signature d⟩

theorem resolutionMembers_ne (m : List (String × Json)) : ∀ x, resolutionMembers E x m ≠ .panic := by
  induction m with
  | nil => intro x; simp [resolutionMembers]
  | cons p m ih =>
    intro x
    obtain ⟨k, v⟩ := p
    rw [resolutionMembers]
    split
    · exact bind_ne (calm_fileContractElement hm _ v (Nat.le_refl _)) fun _ _ => ih _
    · split
      · exact bind_ne (calm_string _ v (Nat.le_refl _)) fun _ _ => ih _
      · split
        · exact ih _
        · simp [Res.fail]

theorem calm_resolution (d : Nat) : Calm (resolution E) d := by
  intro j _
  cases j with
  | obj m =>
    refine bind_ne (resolutionMembers_ne hm m _) fun x _ => ?_
    obtain ⟨p, t, r⟩ := x
    cases p with
    | none => simp [resolutionOf, Res.fail]
    | some p =>
      cases t with
      | none => simp [resolutionOf, Res.fail]
      | some t =>
        cases r with
        | none => simp [resolutionOf, Res.fail]
        | some r =>
          simp only [resolutionOf]
          split
          · exact bind_ne (calm_renewal hm _ r (Nat.le_refl _)) fun _ _ => by simp
          split
          · exact bind_ne (calm_v2StorageProof _ r (Nat.le_refl _)) fun _ _ => by simp
          split <;> simp [Res.fail]
  | _ => simp [resolution, Res.fail]

theorem calm_v2Transaction {d : Nat} (h : d < 3 * E.stack) : Calm (v2Transaction E) d :=
  calm_record ⟨calm_list (calm_record ⟨calm_siacoinElement hm d, calm_satisfiedPolicy h⟩), calm_list (calm_siacoinOutput hm d),
    calm_list (calm_record ⟨calm_siafundElement hm d, calm_address d, calm_satisfiedPolicy h⟩), calm_list (calm_siafundOutput d),
    calm_list (calm_v2FileContract hm d), calm_list (calm_record ⟨calm_fileContractElement hm d, calm_v2FileContract hm d⟩),
    calm_list (calm_resolution hm d), calm_list (calm_attestation d), calm_base64 d, calm_option (calm_address d), calm_currency hm d⟩

theorem calm_state (d : Nat) : Calm (state E) d :=
  calm_record ⟨calm_chainIndex d, calm_times d, calm_id d, calm_id d, calm_currency hm d, calm_duration d, calm_id d, calm_address d, calm_address d,
    calm_work d, calm_work d, calm_work d, calm_accumulator d, calm_u64 d⟩

theorem calm_network (d : Nat) : Calm (network E) d :=
  calm_record ⟨calm_string d, calm_currency hm d, calm_currency hm d, calm_id d, calm_duration d, calm_u64 d,
    calm_record ⟨calm_u64 d, calm_address d, calm_address d⟩, calm_record (calm_u64 d), calm_record (calm_u64 d),
    calm_record ⟨calm_u64 d, calm_u64 d, calm_time d⟩, calm_record ⟨calm_u64 d, calm_duration d, calm_id d⟩,
    calm_record ⟨calm_u64 d, calm_address d, calm_address d⟩, calm_record ⟨calm_u64 d, calm_u64 d⟩⟩

theorem calm_chainState (d : Nat) : Calm (chainState E) d := calm_record ⟨calm_network hm d, calm_state hm d⟩

end

end Verif.Serde
