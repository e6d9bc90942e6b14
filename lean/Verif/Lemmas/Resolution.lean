import Verif.Lemmas.Bound
import Verif.Lemmas.Complete
import Verif.Model.Resolution

/-! # Reading a contract resolution on its own: lemmas -/

namespace Verif.Serde

open Json Json.Grammar

variable {E : Env}

instance : Complete (v2FileContract E) := complete_record Struct.fields_build
instance : Complete (renewal E) := complete_record Struct.fields_build
instance : Complete chainIndexElement := complete_record Struct.fields_build
instance : Complete v2StorageProof := complete_record Struct.fields_build

/-- The content of a variant in a document. -/
def variantOf (E : Env) (k : String) (v : Json) : Res V2.ContractResolution :=
  if k = "renewal" then do let r ← (renewal E).de v; pure (.renewal r)
  else if k = "storageProof" then do let s ← v2StorageProof.de v; pure (.storageProof s)
  else if k = "expiration" then
    match v with
    | .arr [] => .ok .expiration
    | _ => .fail
  else .fail

theorem contractResolution_one (k : String) (v : Json) : (contractResolution E).de (.obj [(k, v)]) = variantOf E k v := rfl

theorem takeVariant_sound {finite : List Char → Bool} {d : Nat} {k : String} {t : List Char} {a : V2.ContractResolution} {r : List Char}
    (h : takeVariant E finite d k t = .ok (a, r)) :
    ∃ w u J, Space w ∧ t = w ++ (u ++ r) ∧ Grammar.Blank finite u J ∧ (J .null).depth ≤ d ∧ ∀ x, variantOf E k (J x) = .ok a := by
  unfold takeVariant at h
  split at h
  · next hk =>
    obtain ⟨⟨s, t1⟩, h1, h⟩ := bind_ok_iff.mp h
    cases h
    obtain ⟨w, u, J, hw, e, hu, hd, hJ⟩ := Sound.ok _ _ _ _ _ h1
    exact ⟨w, u, J, hw, e, hu, hd, fun x => by unfold variantOf; rw [if_pos hk, hJ]; rfl⟩
  split at h
  · next hk0 hk =>
    obtain ⟨⟨s, t1⟩, h1, h⟩ := bind_ok_iff.mp h
    cases h
    obtain ⟨w, u, J, hw, e, hu, hd, hJ⟩ := Sound.ok _ _ _ _ _ h1
    exact ⟨w, u, J, hw, e, hu, hd, fun x => by unfold variantOf; rw [if_neg hk0, if_pos hk, hJ]; rfl⟩
  split at h
  · next hk0 hk1 hk =>
    unfold takeExpiration at h
    obtain ⟨w, hw, hs⟩ := skip_split t
    split at h
    · cases h
    next c t' e =>
    rw [e] at hw
    split at h
    · next hc =>
      subst hc
      split at h
      · cases h
      split at h
      · next hd hc =>
        cases h
        obtain ⟨w', hw', hs'⟩ := skip_split t'
        refine ⟨w, '[' :: (w' ++ [']']), fun _ => .arr [], hs, ?_, .value (.noElements hs'), by simp [depth, depthList]; omega, fun x => ?_⟩
        · rw [hw]
          congr 1
          conv => lhs; rw [hw', head_tail hc]
          simp
        · rw [variantOf, if_neg hk0, if_neg hk1, if_pos hk]
      · cases h
    · cases h
  · cases h

theorem takeVariant_complete {finite : List Char → Bool} {d : Nat} {k : String} {w u : List Char} {J : Json → Json} {a : V2.ContractResolution}
    {r : List Char} (hw : Space w) (hu : Grammar.Blank finite u J) (hd : (J .null).depth ≤ d) (hr : Stops r) (hJ : ∀ x, variantOf E k (J x) = .ok a) :
    takeVariant E finite d k (w ++ (u ++ r)) = .ok (a, r) := by
  unfold takeVariant
  simp only [variantOf] at hJ
  split
  · next hk =>
    simp only [if_pos hk] at hJ
    obtain ⟨b, -, e⟩ := bind_ok_iff.mp (hJ .null)
    cases e
    have hJ' : ∀ x, (renewal E).de (J x) = .ok b := by
      intro x
      obtain ⟨c, h, e⟩ := bind_ok_iff.mp (hJ x)
      cases e
      exact h
    rw [Complete.complete finite d w u J b r hw hu hd hr hJ']
    rfl
  split
  · next hk0 hk =>
    simp only [if_neg hk0, if_pos hk] at hJ
    obtain ⟨b, -, e⟩ := bind_ok_iff.mp (hJ .null)
    cases e
    have hJ' : ∀ x, v2StorageProof.de (J x) = .ok b := by
      intro x
      obtain ⟨c, h, e⟩ := bind_ok_iff.mp (hJ x)
      cases e
      exact h
    rw [Complete.complete finite d w u J b r hw hu hd hr hJ']
    rfl
  split
  · next hk0 hk1 hk =>
    simp only [if_neg hk0, if_neg hk1, if_pos hk] at hJ
    have h0 := hJ .null
    have empty : ∃ w', Space w' ∧ u = '[' :: (w' ++ [']']) ∧ a = .expiration ∧ J .null = .arr [] := by
      split at h0
      · next e =>
        cases h0
        cases hu with
        | value hv =>
          subst e
          cases hv with
          | noElements h => exact ⟨_, h, rfl, rfl, rfl⟩
          | elements h => exact (elements_ne h).elim
          | number h =>
            rcases number_kind h with ⟨n, h⟩ | ⟨n, h⟩ | h <;> cases h
        | elements h =>
          simp only [Json.arr.injEq] at e
          cases h <;> cases e
        | members h => cases e
      · cases h0
    obtain ⟨w', hw', rfl, rfl, e⟩ := empty
    rw [e] at hd
    simp only [depth, depthList] at hd
    have e2 : skip (w' ++ ']' :: r) = ']' :: r := by rw [skip_append hw', skip_cons (by decide)]
    unfold takeExpiration
    rw [skip_append hw, List.cons_append, skip_cons (by decide)]
    simp only [List.append_assoc, List.cons_append, List.nil_append]
    rw [if_pos trivial, if_neg (by omega), e2]
    simp
  · next hk0 hk1 hk2 =>
    have := hJ .null
    simp only [if_neg hk0, if_neg hk1, if_neg hk2] at this
    cases this

theorem contractResolution_sound {finite : List Char → Bool} {d : Nat} {t : List Char} {a : V2.ContractResolution} {r : List Char}
    (ht : (contractResolution E).take finite d t = .ok (a, r)) :
    ∃ w u J, Space w ∧ t = w ++ (u ++ r) ∧ Grammar.Blank finite u J ∧ (J .null).depth ≤ d ∧ ∀ x, (contractResolution E).de (J x) = .ok a := by
  simp only [contractResolution] at ht
  obtain ⟨w, hw, hs⟩ := skip_split t
  split at ht
  · cases ht
  next c t' e =>
  rw [e] at hw
  split at ht
  · next hc =>
    subst hc
    split at ht
    · cases ht
    obtain ⟨⟨k, t1⟩, h1, ht⟩ := bind_ok_iff.mp ht
    obtain ⟨⟨b, t2⟩, h2, ht⟩ := bind_ok_iff.mp ht
    simp only at ht
    split at ht
    · next hd hc =>
      cases ht
      cases hk : readKey (t'.length + 1) t' with
      | none => rw [hk] at h1; cases h1
      | some p =>
        rw [hk] at h1
        cases h1
        obtain ⟨w0, k0, w1, hw0, hk0, hw1, e0⟩ := readKey_sound hk
        obtain ⟨w2, u, J, hw2, e2, hu, hd2, hJ⟩ := takeVariant_sound h2
        simp only at e2
        obtain ⟨w3, e3, hw3⟩ := skip_split t2
        refine ⟨w, '{' :: (w0 ++ (k0 ++ (w1 ++ ':' :: (w2 ++ (u ++ w3)))) ++ ['}']), fun x => .obj [(k, J x)], hs, ?_,
          .members (.one hw0 hk0 hw1 hw2 hu hw3), by simp only [depth, depthMembers]; omega, fun x => hJ x⟩
        rw [hw, e0]
        congr 2
        rw [e2]
        conv => lhs; rw [e3, head_tail hc]
        simp
    · cases ht
  · cases ht

theorem contractResolution_complete {finite : List Char → Bool} {d : Nat} {w u : List Char} {J : Json → Json} {a : V2.ContractResolution} {r : List Char}
    (hw : Space w) (hu : Grammar.Blank finite u J) (hd : (J .null).depth ≤ d) (hJ : ∀ x, (contractResolution E).de (J x) = .ok a) :
    (contractResolution E).take finite d (w ++ (u ++ r)) = .ok (a, r) := by
  have key : ∃ w0 k0 w1 w2 v w3 k I, Space w0 ∧ Text k0 k ∧ Space w1 ∧ Space w2 ∧ Grammar.Blank finite v I ∧ Space w3 ∧
      u = '{' :: (w0 ++ (k0 ++ (w1 ++ ':' :: (w2 ++ (v ++ w3)))) ++ ['}']) ∧ (∀ x, J x = .obj [(k, I x)]) := by
    have h0 := hJ .null
    cases hu with
    | value hv =>
      cases hv with
      | members h =>
        cases h with
        | one h1 h2 h3 h4 h5 h6 => exact ⟨_, _, _, _, _, _, _, _, h1, h2, h3, h4, .value h5, h6, rfl, fun _ => rfl⟩
        | cons h1 h2 h3 h4 h5 h6 h7 =>
          cases h7 <;> cases h0
      | number h => rcases number_kind h with ⟨n, rfl⟩ | ⟨n, rfl⟩ | rfl <;> cases h0
      | null => cases h0
      | true => cases h0
      | false => cases h0
      | text => cases h0
      | noElements => cases h0
      | elements => cases h0
      | noMembers => cases h0
    | elements h => cases h0
    | members h =>
      cases h with
      | one h1 h2 h3 h4 h5 h6 => exact ⟨_, _, _, _, _, _, _, _, h1, h2, h3, h4, h5, h6, rfl, fun _ => rfl⟩
      | cons h1 h2 h3 h4 h5 h6 h7 => cases h7 <;> cases h0
      | blankOne h1 h2 h3 h4 h5 h6 =>
        have hx := hJ .float
        rw [contractResolution_one] at hx
        simp only [variantOf] at hx
        split at hx
        · cases hx
        split at hx
        · cases hx
        split at hx <;> cases hx
      | blankCons h1 h2 h3 h4 h5 h6 h7 => cases h7 <;> cases h0
  obtain ⟨w0, k0, w1, w2, v, w3, k, I, h1, h2, h3, h4, h5, h6, rfl, e⟩ := key
  simp only [e, contractResolution_one] at hJ
  rw [e] at hd
  simp only [depth, depthMembers] at hd
  simp only [contractResolution]
  rw [skip_append hw, List.cons_append, skip_cons (by decide)]
  simp only [List.append_assoc, List.cons_append, List.nil_append]
  rw [if_pos trivial, if_neg (by omega), readKey_complete h1 h2 h3 _ _ (by simp; omega)]
  have := takeVariant_complete (E := E) (d := d - 1) (r := w3 ++ '}' :: r) h4 h5 (by omega) (stops_space h6 (stops_cons (by decide) _)) hJ
  simp only [ofOption, Res.ok_bind, this]
  have e2 : skip (w3 ++ '}' :: r) = '}' :: r := by rw [skip_append h6, skip_cons (by decide)]
  rw [e2]
  simp

theorem contractResolution_ofText (finite : List Char → Bool) (t : List Char) (a : V2.ContractResolution) : (contractResolution E).ofText finite t = .ok a ↔
    ∃ J, BlankDocument finite t J ∧ (J .null).depth < 128 ∧ ∀ x, (contractResolution E).de (J x) = .ok a := by
  constructor
  · intro h
    obtain ⟨⟨b, r⟩, h1, h⟩ := bind_ok_iff.mp h
    simp only at h
    split at h
    · next hr =>
      cases h
      obtain ⟨w, u, J, hw, e, hu, hd, hJ⟩ := contractResolution_sound h1
      exact ⟨J, ⟨w, u, r, e, hw, hu, (skip_nil_iff r).mp hr⟩, by omega, hJ⟩
    · cases h
  · rintro ⟨J, ⟨w, u, r, rfl, hw, hu, hr⟩, hd, hJ⟩
    rw [Serde.ofText, contractResolution_complete hw hu (by omega) hJ]
    simp [(skip_nil_iff r).mpr hr]

instance {n : Nat} : Flat (contractResolution E) (n + 5) where
  flat a j hj := by
    cases a with
    | renewal r =>
      obtain ⟨i, h1, h2⟩ := bind_ok_iff.mp hj
      cases h2
      exact Json.flat_obj (n := n + 4) (by simpa using Flat.flat (n := n + 1 + 3) _ _ h1)
    | storageProof s =>
      obtain ⟨i, h1, h2⟩ := bind_ok_iff.mp hj
      cases h2
      exact Json.flat_obj (n := n + 4) (by simpa using Flat.flat (n := n + 4) _ _ h1)
    | expiration =>
      cases hj
      exact Json.flat_obj (n := n + 4) (by simpa using Json.flat_arr (n := n + 3) (l := []) (by simp))

end Verif.Serde
