import Verif.Model.Mended
import Verif.Spec.Mended
import Verif.Lemmas.Serde
import Verif.Lemmas.Reader
import Verif.Lemmas.Width

/-!
# Lemmas on the other repairs
-/

namespace Verif

/-! ## Unlock keys -/

theorem hexText_no_colon {s bs : List UInt8} (h : HexText s bs) : (58 : UInt8) ∉ s := by
  induction h with
  | nil => simp
  | cons c d b x y s bs h1 h2 _ _ ih =>
    have hd : ∀ {v : Nat}, ¬ IsHexDigit 58 v := fun {v} => (hexVal_none_iff 58).mp (by decide) v
    intro hm
    rcases List.mem_cons.mp hm with rfl | hm
    · exact hd h1
    rcases List.mem_cons.mp hm with rfl | hm
    · exact hd h2
    · exact ih hm

theorem parseUnlockKeyFully_text {a : List UInt8} (key : List UInt8) (hc : (58 : UInt8) ∉ a) (hl : a.length ≠ 32) :
    parseUnlockKeyFully (a ++ [58] ++ hexEncode key) = .ok ⟨specifierOf a, key⟩ := by
  unfold parseUnlockKeyFully
  rw [(splitColon_some _ _ _).mpr ⟨hc, rfl⟩]
  simp only [(hexDecode_ok _ _).mpr (hexEncode_text key).1, if_neg hl]

theorem parseUnlockKeyFully_hex (a : Specifier) (key : List UInt8) :
    parseUnlockKeyFully (hexEncode a.1 ++ [58] ++ hexEncode key) = .ok ⟨a, key⟩ := by
  have hl : (hexEncode a.1).length = 32 := by rw [(hexEncode_text a.1).1.length, a.2]
  unfold parseUnlockKeyFully
  rw [(splitColon_some _ _ _).mpr ⟨hexText_no_colon (hexEncode_text a.1).1, rfl⟩]
  simp only [(hexDecode_ok _ _).mpr (hexEncode_text key).1, (hexDecode_ok _ _).mpr (hexEncode_text a.1).1, if_pos hl]
  rw [(toArr_iff a.2 a).mpr rfl]

theorem parse_show_fully (k : UnlockKey) : parseUnlockKeyFully (showUnlockKeyFully k) = .ok k := by
  unfold showUnlockKeyFully
  cases h : showSpecifier k.algorithm with
  | none => exact parseUnlockKeyFully_hex _ _
  | some a =>
    simp only
    split
    · exact parseUnlockKeyFully_hex _ _
    · next hc =>
      have hn := ((showSpecifier_some _ _).mp h).2
      have hl := names_length hn
      rw [parseUnlockKeyFully_text _ hc (by omega), specifierOf_names hn]

theorem isText_showFully (k : UnlockKey) : IsText (showUnlockKeyFully k) := by
  have hx : ∀ a, IsText a → IsText (a ++ [58] ++ hexEncode k.key) := fun a ha => (ha.append (isText_ascii (by decide))).append (isText_hex _)
  unfold showUnlockKeyFully
  cases h : showSpecifier k.algorithm with
  | none => exact hx _ (isText_hex _)
  | some a =>
    simp only
    split
    · exact hx _ (isText_hex _)
    · exact hx _ ((showSpecifier_some _ _).mp h).1

theorem show_fully_textual {k : UnlockKey} (h : k.Textual) : showUnlockKey k = some (showUnlockKeyFully k) := by
  obtain ⟨t, h1, h2, h3⟩ := h
  rw [showUnlockKey, showUnlockKeyFully, (showSpecifier_some k.algorithm t).mpr ⟨h1, h2⟩]
  simp only [if_neg h3]

namespace Serde

variable {E : Env}

theorem gives_unlockKeyFully (k : UnlockKey) : unlockKeyFully.Gives k :=
  gives_bytes (isText_showFully k) fun s e => by rw [e, parse_show_fully]; rfl

theorem gives_unlockConditionsFully (uc : UnlockConditions) : unlockConditionsFully.Gives uc :=
  gives_record (by decide) rfl ⟨⟨JField.ok_req _ _, gives_u64 _⟩, ⟨JField.ok_req _ _, gives_list fun k _ => gives_unlockKeyFully k⟩,
    JField.ok_req _ _, gives_u64 _⟩

theorem gives_leafFully {α : Type} {d : Nat} {p : SpendPolicy} {type : String} {s : Serde α} {a : α} (h : s.Gives a)
    (hs : serPolicyFully E p = (do let j ← s.ser a; pure (.obj [("type", .str type), ("policy", j)])))
    (hr : ∀ m v, policyMembers (none, none) m = .ok (some type, some v) → s.de v = .ok a → dePolicyFully E (d + 1) (.obj m) = .ok p) :
    Serde.Gives { ser := serPolicyFully E, de := dePolicyFully E (d + 1) } p := by
  obtain ⟨j, h1, h2, h3⟩ := h
  refine ⟨.obj [("type", .str type), ("policy", j)], by simp [hs, h1], by simp [Json.Distinct, Json.DistinctMembers, h2], fun j' hd e => ?_⟩
  simp only [Json.norm] at e
  obtain ⟨m, rfl, e'⟩ := Json.norm_obj e
  exact hr m j.norm (gives_members h2 hd e') (h3 _ (Json.distinct_norm j) (Json.norm_norm j))

theorem serPoliciesFully_eq (of : List SpendPolicy) : serPoliciesFully E of = each (serPolicyFully E) of := by
  induction of with
  | nil => rw [serPoliciesFully, each]
  | cons p ps ih => rw [serPoliciesFully, each, ih]

theorem gives_policyFullyAt : ∀ (d : Nat) (p : SpendPolicy), p.Timely d → Serde.Gives { ser := serPolicyFully E, de := dePolicyFully E d } p
  | 0, _, h => by simp [SpendPolicy.Timely] at h
  | d + 1, .above x, _ => by
    refine gives_leafFully (gives_u64 x) (by rw [serPolicyFully]) fun m v h h' => ?_
    simp [dePolicyFully, h, h']
  | d + 1, .after t, hf => by
    rw [SpendPolicy.Timely] at hf
    obtain ⟨f1, f2, f3⟩ := hf
    refine gives_leafFully (gives_u64 (BitVec.ofInt 64 t.secs)) (by rw [serPolicyFully]) fun m v h h' => ?_
    have : (BitVec.ofInt 64 t.secs).toInt = t.secs := by
      rw [BitVec.toInt_ofInt, Int.bmod_def]; omega
    have hu : DateTime.fromUnix t.secs = some t := by
      rw [DateTime.fromUnix, if_pos ⟨f2, f3⟩, ← f1]
    simp [dePolicyFully, h, h', this, hu]
  | d + 1, .publicKey x, _ => by
    refine gives_leafFully (gives_key x) (by rw [serPolicyFully]) fun m v h h' => ?_
    simp [dePolicyFully, h, h']
  | d + 1, .hash x, _ => by
    refine gives_leafFully (gives_id x) (by rw [serPolicyFully]) fun m v h h' => ?_
    simp [dePolicyFully, h, h']
  | d + 1, .opaqueAddr x, _ => by
    refine gives_leafFully (gives_address (E := E) x) (by rw [serPolicyFully]) fun m v h h' => ?_
    simp [dePolicyFully, h, h']
  | d + 1, .unlockConditions uc, _ => by
    refine gives_leafFully (gives_unlockConditionsFully uc) (by rw [serPolicyFully]) fun m v h h' => ?_
    simp [dePolicyFully, h, h']
  | d + 1, .threshold n of, hf => by
    rw [SpendPolicy.Timely] at hf
    have hof : (list { ser := serPolicyFully E, de := dePolicyFully E d }).Gives of := gives_list fun p hp => gives_policyFullyAt d p (hf p hp)
    let s : Serde (UInt8 × List SpendPolicy) :=
      record (Shape.cons (.req "n" u8) (.one (.req "of" (list { ser := serPolicyFully E, de := dePolicyFully E d })))) (fun x => x) (fun x => x)
    have hs : s.Gives (n, of) := gives_record (by simp [Shape.names, JField.req]) rfl
      ⟨⟨JField.ok_req _ _, gives_u8 n⟩, JField.ok_req _ _, hof⟩
    have hs' : Serde.Gives { ser := fun x => (do let j ← s.ser x; pure j.norm), de := s.de } (n, of) := by
      obtain ⟨j, h1, h2, h3⟩ := hs
      exact ⟨j.norm, by simp [h1], Json.distinct_norm j, fun j' hd e => h3 j' hd (by rw [e, Json.norm_norm])⟩
    refine gives_leafFully (type := "thresh") hs' ?_ fun m v h h' => ?_
    · obtain ⟨js, h1, -⟩ := gives_each (s := { ser := serPolicyFully E, de := dePolicyFully E d }) fun p hp => gives_policyFullyAt d p (hf p hp)
      simp only at h1
      simp [serPolicyFully, serPoliciesFully_eq, h1, unwrap, u8, s, record, Shape.ser, JField.ser, JField.req, list]
    · simp only [s, record] at h'
      cases hx : (Shape.cons (JField.req "n" u8) (Shape.one (JField.req "of" (list { ser := serPolicyFully E, de := dePolicyFully E d })))).de v with
      | ok b => rw [hx] at h'; cases h'; simp [dePolicyFully, h, hx]
      | err e => rw [hx] at h'; cases h'
      | panic => rw [hx] at h'; cases h'

theorem each_congr {α : Type} {f g : α → Res Json} : ∀ {l : List α}, (∀ a ∈ l, f a = g a) → each f l = each g l
  | [], _ => by rw [each, each]
  | a :: l, h => by rw [each, each, h a (by simp), each_congr fun b hb => h b (by simp [hb])]

theorem ser_unlockConditionsFully {uc : UnlockConditions} (h : uc.Textual) : unlockConditionsFully.ser uc = unlockConditions.ser uc := by
  have e : each unlockKeyFully.ser uc.publicKeys = each unlockKey.ser uc.publicKeys := each_congr fun k hk => by
    simp only [unlockKey, unlockKeyFully, text, show_fully_textual (h k hk)]
  obtain ⟨a, ks, b⟩ := uc
  simp only at e
  simp [unlockConditions, unlockConditionsFully, record, Shape.ser, JField.ser, JField.req, list, u64, e, Struct.fields]

theorem ser_policyFully : ∀ (d : Nat) (p : SpendPolicy), p.JsonFits d → serPolicyFully E p = serPolicy E p
  | 0, _, h => by simp [SpendPolicy.JsonFits] at h
  | d + 1, .above _, _ => by rw [serPolicyFully, serPolicy]
  | d + 1, .after _, _ => by rw [serPolicyFully, serPolicy]
  | d + 1, .publicKey _, _ => by rw [serPolicyFully, serPolicy]
  | d + 1, .hash _, _ => by rw [serPolicyFully, serPolicy]
  | d + 1, .opaqueAddr _, _ => by rw [serPolicyFully, serPolicy]
  | d + 1, .unlockConditions uc, h => by
    rw [SpendPolicy.JsonFits] at h
    rw [serPolicyFully, serPolicy, ser_unlockConditionsFully h]
  | d + 1, .threshold n of, h => by
    rw [SpendPolicy.JsonFits] at h
    rw [serPolicyFully, serPolicy, serPoliciesFully_eq, serPolicies_eq, each_congr fun p hp => ser_policyFully d p (h p hp)]

end Serde

/-! ## States -/

open Dec

variable {α β : Type}

theorem Dec.mapErr_bind (d : Dec α) (f : α → Dec β) (e : Err) : (d >>= f).mapErr e = (d.mapErr e >>= fun a => (f a).mapErr e) := by
  funext lim bs
  show (Dec.bind d f).mapErr e lim bs = Dec.bind (d.mapErr e) (fun a => (f a).mapErr e) lim bs
  simp only [Dec.mapErr, Dec.bind]
  cases d lim bs <;> rfl

theorem Dec.mapErr_pure (a : α) (e : Err) : (pure a : Dec α).mapErr e = pure a := rfl

theorem mapErr_work : (dec .v1 : Dec Work).mapErr .custom = dec .v2 := by
  show ((readExact 32 >>= fun b => pure ⟨BitVec.ofNat 256 (beVal b.1)⟩ : Dec Work)).mapErr .custom = _
  rw [Dec.mapErr_bind]
  rfl

theorem mapErr_work' : (dec .v2 : Dec Work).mapErr .custom = dec .v2 := by
  rw [← mapErr_work]
  funext lim bs
  unfold Dec.mapErr
  cases (dec .v1 : Dec Work) lim bs <;> rfl

/-- The state decoder of the code, field by field. -/
theorem State.decode_fields (m : Mode) : State.decode m = ((dec .v2 : Dec ChainIndex) >>= fun index =>
    Dec.lift (State.timestampsCount m index) >>= fun count =>
    decodeSlots (fun i => decide (i < count)) (dec .v2) DateTime.epoch 0 11 >>= fun ts =>
    dec .v2 >>= fun a => dec .v2 >>= fun b => dec .v2 >>= fun c => dec .v2 >>= fun d => dec .v2 >>= fun e => dec .v2 >>= fun f => dec .v2 >>= fun g =>
    (dec .v2 : Dec Work) >>= fun h => (dec .v2 : Dec Work) >>= fun i => (dec .v2 : Dec Work) >>= fun j => dec .v2 >>= fun k => dec .v2 >>= fun l =>
    (pure ⟨index, ts, a, b, c, d, e, f, g, h, i, j, k, l⟩ : Dec State)) := by
  rw [State.decode_def]
  simp only [dec_prod, Dec.bind_assoc, Dec.pure_bind]

theorem State.decodeKeeping_fields (m : Mode) : State.decodeKeeping m = ((dec .v2 : Dec ChainIndex) >>= fun index =>
    Dec.lift (State.timestampsCount m index) >>= fun count =>
    decodeSlots (fun i => decide (i < count)) (dec .v2) DateTime.epoch 0 11 >>= fun ts =>
    dec .v2 >>= fun a => dec .v2 >>= fun b => dec .v2 >>= fun c => dec .v2 >>= fun d => dec .v2 >>= fun e => dec .v2 >>= fun f => dec .v2 >>= fun g =>
    (dec .v1 : Dec Work) >>= fun h => (dec .v1 : Dec Work) >>= fun i => (dec .v1 : Dec Work) >>= fun j => dec .v2 >>= fun k => dec .v2 >>= fun l =>
    (pure ⟨index, ts, a, b, c, d, e, f, g, h, i, j, k, l⟩ : Dec State)) := by
  have e : State.decodeKeeping m = ((dec .v2 : Dec ChainIndex) >>= fun index =>
    Dec.lift (State.timestampsCount m index) >>= fun count =>
    decodeSlots (fun i => decide (i < count)) (dec .v2) DateTime.epoch 0 11 >>= fun ts =>
    (dec .v2 : Dec State.Before) >>= fun (a, b, c, d, e, f, g) =>
    (dec .v1 : Dec State.Works) >>= fun (h, i, j) =>
    (dec .v2 : Dec (ElementAccumulator × U64)) >>= fun (k, l) =>
    pure ⟨index, ts, a, b, c, d, e, f, g, h, i, j, k, l⟩) := rfl
  rw [e]
  simp only [dec_prod, Dec.bind_assoc, Dec.pure_bind]

theorem State.mapErr_decodeKeeping (m : Mode) : (State.decodeKeeping m).mapErr .custom = (State.decode m).mapErr .custom := by
  rw [State.decode_fields, State.decodeKeeping_fields]
  simp only [Dec.mapErr_bind, mapErr_work, mapErr_work']

theorem follows_keeping {σ ε : Type} {S : Source σ ε} (m : Mode) : Follows S (fun _ => false) (State.getKeeping m S) (State.decodeKeeping m) := by
  refine (follows (v := .v2) (α := ChainIndex)).bind fun index => Follows.bind (follows_lift ?_) fun count => ?_
  · unfold State.timestampsCount ChainIndex.childHeight addU
    cases m
    · simp only
      split <;> nofun
    · nofun
  · exact (follows_slots follows _ _ _).bind fun ts => (follows (v := .v2) (α := State.Before)).bind fun _ =>
      (follows (v := .v1) (α := State.Works)).bind fun _ => (follows (v := .v2) (α := ElementAccumulator × U64)).bind fun _ => follows_pure _

end Verif
