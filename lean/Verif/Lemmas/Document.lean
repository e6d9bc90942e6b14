import Verif.Spec.Document
import Verif.Lemmas.Serde

/-!
# The writers write the specified documents
-/

namespace Verif

/-! ## Texts -/

theorem strBytes_ofList {l : List Char} (h : ∀ c ∈ l, c.toNat < 128) : strBytes (String.ofList l) = l.map fun c => UInt8.ofNat c.toNat := by
  have key : ∀ n : Fin 128, strBytes (String.singleton (Char.ofNat n.1)) = [UInt8.ofNat n.1] := by decide +kernel
  induction l with
  | nil => decide +kernel
  | cons c l ih =>
    have hc := h c (by simp)
    have e : String.ofList (c :: l) = String.singleton c ++ String.ofList l := by
      apply String.ext
      simp
    have k := key ⟨c.toNat, hc⟩
    rw [Char.ofNat_toNat] at k
    rw [e, strBytes_append, ih fun d hd => h d (by simp [hd]), k]
    rfl

theorem textOf_ofList {l : List Char} {bs : List UInt8} (h : ∀ c ∈ l, c.toNat < 128) (e : (l.map fun c => UInt8.ofNat c.toNat) = bs) :
    textOf bs = String.ofList l := by
  rw [← e, ← strBytes_ofList h, textOf, strOfBytes_strBytes]
  rfl

theorem digitChar_ascii : ∀ n : Fin 16, (Nat.digitChar n.1).toNat < 128 ∧ UInt8.ofNat (Nat.digitChar n.1).toNat = hexDigit (UInt8.ofNat n.1) := by
  decide +kernel

theorem hexChars_ascii (bs : List UInt8) :
    ∀ c ∈ bs.flatMap fun b => [Nat.digitChar (b.toNat / 16), Nat.digitChar (b.toNat % 16)], c.toNat < 128 := by
  intro c hc
  rw [List.mem_flatMap] at hc
  obtain ⟨b, _, hc⟩ := hc
  have hb := b.toNat_lt
  simp only [List.mem_cons, List.not_mem_nil, or_false] at hc
  rcases hc with rfl | rfl
  · exact (digitChar_ascii ⟨b.toNat / 16, by omega⟩).1
  · exact (digitChar_ascii ⟨b.toNat % 16, by omega⟩).1

theorem hexChars_bytes (bs : List UInt8) :
    ((bs.flatMap fun b => [Nat.digitChar (b.toNat / 16), Nat.digitChar (b.toNat % 16)]).map fun c => UInt8.ofNat c.toNat) = hexEncode bs := by
  rw [List.map_flatMap, hexEncode]
  congr 1
  funext b
  have hb := b.toNat_lt
  have e1 : UInt8.ofNat (b.toNat / 16) = b >>> 4 := by
    apply UInt8.toNat_inj.mp
    simp [Nat.shiftRight_eq_div_pow]
    omega
  have e2 : UInt8.ofNat (b.toNat % 16) = b &&& 15 := by
    apply UInt8.toNat_inj.mp
    rw [UInt8.toNat_and, show (15 : UInt8).toNat = 2 ^ 4 - 1 from rfl, Nat.and_two_pow_sub_one_eq_mod]
    simp
    omega
  simp only [List.map_cons, List.map_nil]
  rw [(digitChar_ascii ⟨b.toNat / 16, by omega⟩).2, (digitChar_ascii ⟨b.toNat % 16, by omega⟩).2, e1, e2]

theorem textOf_hex (bs : List UInt8) : textOf (hexEncode bs) = Document.hex bs := textOf_ofList (hexChars_ascii bs) (hexChars_bytes bs)

theorem strBytes_hex (bs : List UInt8) : strBytes (Document.hex bs) = hexEncode bs := by
  rw [Document.hex, strBytes_ofList (hexChars_ascii bs), hexChars_bytes]

theorem strBytes_inj {a b : String} (h : strBytes a = strBytes b) : a = b := by
  have := congrArg strOfBytes h
  rw [strOfBytes_strBytes, strOfBytes_strBytes] at this
  exact Option.some.inj this

theorem textOf_append {s : String} {bs : List UInt8} (e : strBytes s = bs) : textOf bs = s := by
  rw [← e, textOf, strOfBytes_strBytes]
  rfl

theorem symbol_ascii : ∀ n : Fin 64, (Document.symbol n.1).toNat < 128 ∧ b64Symbol n.1 = UInt8.ofNat (Document.symbol n.1).toNat := by decide +kernel

theorem textOf_base64 (bs : List UInt8) : textOf (b64Encode bs) = Document.base64 bs := by
  have h := b64Encode_base64 bs
  refine textOf_ofList ?_ ?_
  · intro c hc
    rw [List.mem_map] at hc
    obtain ⟨i, _, rfl⟩ := hc
    split
    · exact (symbol_ascii ⟨_, sixBits_lt bs i⟩).1
    · decide
  · apply List.ext_getElem?
    intro i
    by_cases hi : i < (bs.length + 2) / 3 * 4
    · rw [h.2 i (by rw [h.1]; exact hi), List.map_map, List.getElem?_map, List.getElem?_range hi, Option.map_some, Function.comp]
      split
      · rw [b64Symbol_alphabet (sixBits_lt bs i)]
        exact congrArg some (symbol_ascii ⟨_, sixBits_lt bs i⟩).2.symm
      · rfl
    · rw [List.getElem?_eq_none (by rw [List.length_map, List.length_map, List.length_range]; omega),
        List.getElem?_eq_none (by rw [h.1]; omega)]

theorem showNat_digits (n : Nat) : showNat n = Nat.toDigits 10 n := by
  have key : ∀ k : Fin 10, Char.ofNat (48 + k.1) = Nat.digitChar k.1 := by decide
  induction n using Nat.strongRecOn with
  | ind n ih =>
    rw [showNat]
    split
    · next h =>
      rw [Nat.toDigits_of_lt_base h, key ⟨n, h⟩]
    · next h =>
      rw [ih (n / 10) (by omega), key ⟨n % 10, Nat.mod_lt _ (by decide)⟩, Nat.toDigits_of_base_le (n := n) (by decide) (by omega)]

/-! ## Reordering -/

namespace Json

theorem Reordered.symm {j j' : Json} (h : Reordered j j') : Reordered j' j := by
  induction h with
  | refl j => exact .refl j
  | trans _ _ ih1 ih2 => exact ih2.trans ih1
  | swap k l v w m hk => exact .swap l k w v m (Ne.symm hk)
  | member k _ _ ih1 ih2 => exact .member k ih1 ih2
  | element _ _ ih1 ih2 => exact .element ih1 ih2

theorem Reordered.rest {k : String} {v : Json} {m m' : List (String × Json)} (h : Reordered (.obj m) (.obj m')) :
    Reordered (.obj ((k, v) :: m)) (.obj ((k, v) :: m')) := .member k (.refl v) h

theorem reordered_insert {k : String} {v : Json} {m : List (String × Json)} (h : ∀ p ∈ m, p.1 ≠ k) :
    Reordered (.obj ((k, v) :: m)) (.obj (insertKey k v m)) := by
  induction m with
  | nil => exact .refl _
  | cons p m ih =>
    obtain ⟨k', v'⟩ := p
    have hk : k ≠ k' := Ne.symm (h (k', v') (by simp))
    rw [insertKey]
    by_cases hlt : k < k'
    · rw [if_pos hlt]; exact .refl _
    · rw [if_neg hlt, if_neg hk]
      exact .trans (.swap k k' v v' m hk) (.rest (ih fun p hp => h p (by simp [hp])))

theorem reordered_norm (j : Json) (h : Distinct j) : Reordered j (norm j) := by
  induction j using induct with
  | harr l ih =>
    rw [norm, normList_eq]
    have hd := (distinctList_iff l).mp h
    clear h
    induction l with
    | nil => exact .refl _
    | cons a l ihl =>
      exact .element (ih a (by simp) (hd a (by simp))) (ihl (fun j hj => ih j (by simp [hj])) fun j hj => hd j (by simp [hj]))
  | hobj m ih =>
    rw [norm]
    have hd : DistinctMembers m := h
    clear h
    induction m with
    | nil => exact .refl _
    | cons p m ihm =>
      obtain ⟨k, v⟩ := p
      obtain ⟨h1, h2, h3⟩ := hd
      rw [normMembers]
      refine .trans (.member k (ih (k, v) (by simp) h2) (ihm (fun p hp => ih p (by simp [hp])) h3)) (reordered_insert fun p hp => ?_)
      obtain ⟨w, hq, _⟩ := mem_normMembers hp
      exact h1 (p.1, w) hq
  | _ => exact .refl _

end Json

/-! ## Told documents -/

/-- A result is the document up to reordering, and neither exists without the other. -/
def Told (r : Res Json) (d : Option Json) : Prop :=
  (∃ j d', r = .ok j ∧ d = some d' ∧ d'.Reordered j ∧ j.Distinct) ∨ ((∀ j, r ≠ .ok j) ∧ d = none)

def ToldList (r : Res (List Json)) (d : Option (List Json)) : Prop :=
  (∃ js ds, r = .ok js ∧ d = some ds ∧ (Json.arr ds).Reordered (.arr js) ∧ ∀ j ∈ js, j.Distinct) ∨ ((∀ j, r ≠ .ok j) ∧ d = none)

def ToldMembers (r : Res (List (String × Json))) (l : List (String × Option Json)) : Prop :=
  (∃ m ds, r = .ok m ∧ Document.members l = some ds ∧ (Json.obj ds).Reordered (.obj m) ∧ ∀ p ∈ m, p.2.Distinct) ∨
  ((∀ m, r ≠ .ok m) ∧ Document.members l = none)

namespace Serde

def Docs {α : Type} (s : Serde α) (f : α → Option Json) : Prop := ∀ a, Told (s.ser a) (f a)

theorem Docs.hasDocument {α : Type} {s : Serde α} {f : α → Option Json} (h : s.Docs f) : s.HasDocument f := by
  intro a
  rcases h a with ⟨j, d', h1, h2, h3, _⟩ | ⟨h1, h2⟩
  · refine ⟨fun d hd => ⟨j, h1, ?_⟩, fun hn => ?_⟩
    · rw [h2] at hd; cases hd; exact h3
    · rw [h2] at hn; cases hn
  · refine ⟨fun d hd => ?_, fun _ => h1⟩
    rw [h2] at hd; cases hd

theorem told_str (s : String) : Told (.ok (.str s)) (some (.str s)) := .inl ⟨_, _, rfl, rfl, .refl _, trivial⟩

theorem docs_u64 : u64.Docs Document.number := fun _ => .inl ⟨_, _, rfl, rfl, .refl _, trivial⟩

theorem docs_string : string.Docs Document.string := fun x => told_str x

theorem docs_id : id.Docs Document.hash := fun x => by
  show Told (.ok (.str (textOf (hexEncode x.1)))) _
  rw [textOf_hex]; exact told_str _

theorem docs_leaf : leaf.Docs Document.hash := fun x => by
  show Told (.ok (.str (textOf (hexEncode x.1)))) _
  rw [textOf_hex]; exact told_str _

theorem docs_signature : signature.Docs Document.hash := fun x => by
  show Told (.ok (.str (textOf (hexEncode x.1)))) _
  rw [textOf_hex]; exact told_str _

theorem docs_address (E : Env) : (address E).Docs (Document.address E) := fun x => by
  show Told (.ok (.str (textOf (hexEncode (x.1 ++ (E.hash x.1).1.take 6))))) _
  rw [textOf_hex]; exact told_str _

theorem docs_key : key.Docs Document.key := fun x => by
  show Told (.ok (.str (textOf (keyPrefix ++ hexEncode x.1)))) _
  rw [textOf_append (s := "ed25519:" ++ Document.hex x.1)]
  · exact told_str _
  · rw [strBytes_append, strBytes_hex]
    rfl

theorem docs_base64 : base64.Docs Document.bytes := fun x => by
  show Told (.ok (.str (textOf (b64Encode x)))) _
  rw [textOf_base64]; exact told_str _

theorem docs_currency (E : Env) : (currency E).Docs (fun c => Document.amount c.val.toNat) := fun x => by
  show Told (.ok (.str (String.ofList (showNat x.val.toNat)))) _
  rw [showNat_digits]; exact told_str _

theorem docs_work : work.Docs (fun c => Document.amount c.val.toNat) := fun x => by
  show Told (.ok (.str (String.ofList (showNat x.val.toNat)))) _
  rw [showNat_digits]; exact told_str _

theorem docs_time (E : Env) : (time E).Docs (Document.time E) := fun t => by
  show Told (Res.bind (ofOption (E.timeText t)) _) ((E.timeText t).map _)
  cases E.timeText t with
  | none => exact .inr ⟨fun j h => (by cases h), rfl⟩
  | some s => exact told_str s

theorem ofInt_mod (n : Int) : BitVec.ofInt 64 n = BitVec.ofNat 64 (n % 2 ^ 64).toNat := by
  apply BitVec.eq_of_toNat_eq
  rw [BitVec.toNat_ofInt, BitVec.toNat_ofNat]
  have h1 := Int.emod_nonneg n (show (2 : Int) ^ 64 ≠ 0 by decide)
  have h2 := Int.emod_lt_of_pos n (show (0 : Int) < 2 ^ 64 by decide)
  rw [Nat.mod_eq_of_lt]
  · rfl
  · omega

theorem docs_duration : duration.Docs Document.duration := fun d => by
  show Told (.ok (.nat (BitVec.ofInt 64 d.ns))) _
  rw [ofInt_mod]
  exact .inl ⟨_, _, rfl, rfl, .refl _, trivial⟩

theorem trim_names {t : List UInt8} {x : Specifier} (h : Names t x) : (x.1.reverse.dropWhile (· = 0)).reverse = t := by
  obtain ⟨h1, h2⟩ := h
  have key : ∀ k, ((List.replicate k (0 : UInt8) ++ t.reverse).dropWhile (· = 0)) = t.reverse := by
    intro k
    induction k with
    | zero =>
      rw [List.replicate_zero, List.nil_append]
      cases ht : t.reverse with
      | nil => rfl
      | cons a l =>
        rw [List.dropWhile_cons_of_neg]
        have : t.getLast? = some a := by rw [← List.head?_reverse, ht]; rfl
        rw [this] at h1
        simpa using h1
    | succ k ih =>
      rw [List.replicate_succ, List.cons_append, List.dropWhile_cons_of_pos (by simp), ih]
  rw [h2, List.reverse_append, List.reverse_replicate, key, List.reverse_reverse]

theorem docs_unlockKey : unlockKey.Docs Document.unlockKey := fun k => by
  obtain ⟨t, hn, e⟩ := showSpecifier_names k.algorithm
  show Told (Res.bind (match showUnlockKey k with | some s => .ok (textOf s) | none => .panic) _) ((Document.name k.algorithm.1).map _)
  rw [Document.name, trim_names hn, showUnlockKey, e]
  show Told _ (Option.map _ (strOfBytes t))
  cases hs : strOfBytes t with
  | none => exact .inr ⟨fun j h => (by cases h), rfl⟩
  | some s =>
    have es : strBytes s = t := strBytes_of_strOfBytes hs
    show Told (.ok (.str (textOf (t ++ [58] ++ hexEncode k.key)))) _
    rw [textOf_append (s := s ++ ":" ++ Document.hex k.key)]
    · exact told_str _
    · rw [strBytes_append, strBytes_append, strBytes_hex, es]
      rfl

theorem told_each {α : Type} {s : Serde α} {f : α → Option Json} (h : s.Docs f) (l : List α) : ToldList (each s.ser l) (Document.every f l) := by
  induction l with
  | nil => exact .inl ⟨[], [], rfl, rfl, .refl _, by simp⟩
  | cons a l ih =>
    rw [each, Document.every]
    rcases h a with ⟨j, d, h1, h2, h3, h4⟩ | ⟨h1, h2⟩
    · rw [h1, h2]
      rcases ih with ⟨js, ds, g1, g2, g3, g4⟩ | ⟨g1, g2⟩
      · rw [g1, g2]
        refine .inl ⟨_, _, rfl, rfl, .element h3 g3, ?_⟩
        intro x hx
        rcases List.mem_cons.mp hx with rfl | hx
        · exact h4
        · exact g4 x hx
      · rw [g2]
        refine .inr ⟨fun js e => ?_, rfl⟩
        cases hr : each s.ser l with
        | ok r => exact g1 r hr
        | err e' => rw [hr] at e; cases e
        | panic => rw [hr] at e; cases e
    · rw [h2]
      refine .inr ⟨fun js e => ?_, rfl⟩
      cases hr : s.ser a with
      | ok r => exact h1 r hr
      | err e' => rw [hr] at e; cases e
      | panic => rw [hr] at e; cases e

theorem told_arr {r : Res (List Json)} {d : Option (List Json)} (h : ToldList r d) : Told (r >>= fun js => pure (.arr js)) (d.map Json.arr) := by
  rcases h with ⟨js, ds, rfl, rfl, h3, h4⟩ | ⟨h1, rfl⟩
  · exact .inl ⟨_, _, rfl, rfl, h3, (Json.distinctList_iff js).mpr h4⟩
  · refine .inr ⟨fun j e => ?_, rfl⟩
    cases r with
    | ok r => exact h1 r rfl
    | err e' => cases e
    | panic => cases e

theorem docs_list {α : Type} {s : Serde α} {f : α → Option Json} (h : s.Docs f) : (list s).Docs (Document.array f) := fun l => told_arr (told_each h l)

theorem field_keys {α : Type} (f : JField α) (a : α) (m : List (String × Json)) (h : f.ser a = .ok m) : (m.map (·.1)).Sublist [f.name] := by
  rw [JField.ser] at h
  have key : ∀ r : Res Json, (r >>= fun j => pure [(f.name, j)]) = Res.ok m → (m.map (·.1)).Sublist [f.name] := by
    intro r e
    cases r with
    | ok j => cases e; exact .refl _
    | err _ => cases e
    | panic => cases e
  cases ho : f.opt with
  | none => rw [ho] at h; exact key _ h
  | some p =>
    rw [ho] at h
    by_cases hs : p.2 a = true
    · simp only [hs, if_true] at h; cases h; simp
    · simp only [hs] at h; exact key _ h

theorem ser_keys : ∀ {β : Type} (s : Shape β) (b : β) (m : List (String × Json)), s.ser b = .ok m → (m.map (·.1)).Sublist s.names
  | _, .one f, a, m, h => field_keys f a m h
  | _, .cons f s, p, m, h => by
    rw [Shape.ser] at h
    rw [Shape.names]
    cases hx : f.ser p.1 with
    | err _ => rw [hx] at h; cases h
    | panic => rw [hx] at h; cases h
    | ok x =>
      cases hy : s.ser p.2 with
      | err _ => rw [hx, hy] at h; cases h
      | panic => rw [hx, hy] at h; cases h
      | ok y =>
        rw [hx, hy] at h
        cases h
        rw [List.map_append]
        exact List.Sublist.append (field_keys f p.1 x hx) (ser_keys s p.2 y hy)

theorem distinct_keys {m : List (String × Json)} (h : (m.map (·.1)).Nodup) (hd : ∀ p ∈ m, p.2.Distinct) : Json.DistinctMembers m := by
  rw [Json.distinctMembers_iff]
  refine ⟨?_, hd⟩
  rw [List.nodup_iff_pairwise_ne, List.pairwise_map] at h
  exact h.imp fun hne => Ne.symm hne

theorem told_record {α β : Type} {s : Shape β} {fields : α → β} {build : β → α} {a : α} {l : List (String × Option Json)} (hn : s.names.Nodup)
    (h : ToldMembers (s.ser (fields a)) l) : Told ((record s fields build).ser a) (Document.object l) := by
  show Told (s.ser (fields a) >>= fun m => pure (.obj m)) _
  rw [Document.object]
  rcases h with ⟨m, ds, h1, h2, h3, h4⟩ | ⟨h1, h2⟩
  · rw [h1, h2]
    exact .inl ⟨_, _, rfl, rfl, h3, distinct_keys ((ser_keys s _ m h1).nodup hn) h4⟩
  · rw [h2]
    refine .inr ⟨fun j e => ?_, rfl⟩
    cases hr : s.ser (fields a) with
    | ok r => exact h1 r hr
    | err e' => rw [hr] at e; cases e
    | panic => rw [hr] at e; cases e

theorem told_member {n : String} {r : Res Json} {d : Option Json} {r' : Res (List (String × Json))} {l : List (String × Option Json)} (h : Told r d)
    (h' : ToldMembers r' l) : ToldMembers ((r >>= fun j => pure [(n, j)]) >>= fun x => r' >>= fun y => pure (x ++ y)) ((n, d) :: l) := by
  rw [ToldMembers, Document.members]
  rcases h with ⟨j, d', rfl, rfl, h3, h4⟩ | ⟨h1, rfl⟩
  · rcases h' with ⟨m, ds, rfl, g2, g3, g4⟩ | ⟨g1, g2⟩
    · refine .inl ⟨_, _, rfl, by rw [g2]; rfl, .member n h3 g3, ?_⟩
      intro p hp
      rcases List.mem_cons.mp hp with rfl | hp
      · exact h4
      · exact g4 p hp
    · refine .inr ⟨fun m e => ?_, by rw [g2]; rfl⟩
      cases r' with
      | ok y => exact g1 y rfl
      | err _ => cases e
      | panic => cases e
  · refine .inr ⟨fun m e => ?_, rfl⟩
    cases r with
    | ok y => exact h1 y rfl
    | err _ => cases e
    | panic => cases e

theorem told_single {n : String} {r : Res Json} {d : Option Json} (h : Told r d) : ToldMembers (r >>= fun j => pure [(n, j)]) [(n, d)] := by
  have := told_member (n := n) (r' := .ok []) (l := []) h (.inl ⟨[], [], rfl, rfl, .refl _, by simp⟩)
  cases r with
  | ok j => exact this
  | err _ => exact this
  | panic => exact this

theorem told_nothing {r : Res (List (String × Json))} {l : List (String × Option Json)} (h : ToldMembers r l) :
    ToldMembers ((Res.ok []) >>= fun x => r >>= fun y => pure (x ++ y)) l := by
  cases r with
  | ok j => exact h
  | err _ => exact h
  | panic => exact h

theorem told_req {α β : Type} {n : String} {t : Serde α} {s : Shape β} {p : α × β} {d : Option Json} {l : List (String × Option Json)}
    (h : Told (t.ser p.1) d) (h' : ToldMembers (s.ser p.2) l) : ToldMembers ((Shape.cons (.req n t) s).ser p) ((n, d) :: l) := told_member h h'

theorem told_last {α : Type} {n : String} {t : Serde α} {a : α} {d : Option Json} (h : Told (t.ser a) d) :
    ToldMembers ((Shape.one (.req n t)).ser a) [(n, d)] := told_single h

theorem told_vec {α β : Type} {n : String} {t : Serde (List α)} {f : List α → Option Json} {s : Shape β} {p : List α × β} {l : List (String × Option Json)}
    (h : t.Docs f) (h' : ToldMembers (s.ser p.2) l) : ToldMembers ((Shape.cons (.vec n t) s).ser p) (Document.unlessEmpty n f p.1 ++ l) := by
  obtain ⟨a, b⟩ := p
  cases a with
  | nil => exact told_nothing h'
  | cons x a => exact told_member (h (x :: a)) h'

theorem told_vecLast {α : Type} {n : String} {t : Serde (List α)} {f : List α → Option Json} {a : List α} (h : t.Docs f) :
    ToldMembers ((Shape.one (.vec n t)).ser a) (Document.unlessEmpty n f a) := by
  cases a with
  | nil => exact .inl ⟨[], [], rfl, rfl, .refl _, by simp⟩
  | cons x a => exact told_single (h (x :: a))

/-! ## The types -/

local macro "names" : tactic => `(tactic| simp [Shape.names, JField.req, JField.vec, JField.opt?])

variable (E : Env)

theorem docs_chainIndex : chainIndex.Docs Document.chainIndex := fun x =>
  told_record (by names) (told_req (docs_u64 x.height) (told_last (docs_id x.id)))

theorem docs_siacoinOutput : (siacoinOutput E).Docs (Document.siacoinOutput E) := fun x =>
  told_record (by names) (told_req (docs_currency E x.value) (told_last (docs_address E x.address)))

theorem docs_siafundOutput : (siafundOutput E).Docs (Document.siafundOutput E) := fun x =>
  told_record (by names) (told_req (docs_u64 x.value) (told_last (docs_address E x.address)))

theorem docs_outputs : (list (siacoinOutput E)).Docs (Document.array (Document.siacoinOutput E)) := docs_list (docs_siacoinOutput E)

theorem docs_ids : (list id).Docs (Document.array Document.hash) := docs_list docs_id

theorem docs_stateElement : stateElement.Docs Document.stateElement := fun x =>
  told_record (by names) (told_req (docs_u64 x.leafIndex) (told_last (docs_ids x.merkleProof)))

theorem docs_unlockConditions : unlockConditions.Docs Document.unlockConditions := fun x =>
  told_record (by names) (told_req (docs_u64 x.timelock) (told_req (docs_list docs_unlockKey x.publicKeys) (told_last (docs_u64 x.signaturesRequired))))

theorem docs_v1SiacoinInput : v1SiacoinInput.Docs Document.v1SiacoinInput := fun x =>
  told_record (by names) (told_req (docs_id x.parentId) (told_last (docs_unlockConditions x.unlockConditions)))

theorem docs_v1SiafundInput : (v1SiafundInput E).Docs (Document.v1SiafundInput E) := fun x =>
  told_record (by names) (told_req (docs_id x.parentId) (told_req (docs_unlockConditions x.unlockConditions) (told_last (docs_address E x.claimAddress))))

theorem docs_v1FileContract : (v1FileContract E).Docs (Document.v1FileContract E) := fun x =>
  told_record (by names) (told_req (docs_u64 x.fileSize) (told_req (docs_id x.fileMerkleRoot) (told_req (docs_u64 x.windowStart)
    (told_req (docs_u64 x.windowEnd) (told_req (docs_currency E x.payout) (told_req (docs_outputs E x.validProofOutputs)
    (told_req (docs_outputs E x.missedProofOutputs) (told_req (docs_address E x.unlockHash) (told_last (docs_u64 x.revisionNumber))))))))))

theorem docs_v1FileContractRevision : (v1FileContractRevision E).Docs (Document.v1FileContractRevision E) := fun x =>
  told_record (by names) (told_req (docs_id x.parentId) (told_req (docs_unlockConditions x.unlockConditions) (told_req (docs_u64 x.revisionNumber)
    (told_req (docs_u64 x.fileSize) (told_req (docs_id x.fileMerkleRoot) (told_req (docs_u64 x.windowStart)
    (told_req (docs_u64 x.windowEnd) (told_req (docs_outputs E x.validProofOutputs)
    (told_req (docs_outputs E x.missedProofOutputs) (told_last (docs_address E x.unlockHash)))))))))))

theorem docs_v1StorageProof : v1StorageProof.Docs Document.v1StorageProof := fun x =>
  told_record (by names) (told_req (docs_id x.parentId) (told_req (docs_leaf x.leaf) (told_last (docs_ids x.proof))))

theorem docs_u64s : (list u64).Docs (Document.array Document.number) := docs_list docs_u64

theorem docs_bool (b : Bool) : Told (bool.ser b) (some (.bool b)) := .inl ⟨_, _, rfl, rfl, .refl _, trivial⟩

theorem docs_coveredFields : coveredFields.Docs Document.coveredFields := fun x => by
  rw [Document.coveredFields]
  simp only [List.append_assoc]
  exact told_record (by names) (told_req (docs_bool x.wholeTransaction) (told_vec docs_u64s (told_vec docs_u64s (told_vec docs_u64s (told_vec docs_u64s
    (told_vec docs_u64s (told_vec docs_u64s (told_vec docs_u64s (told_vec docs_u64s (told_vec docs_u64s (told_vecLast docs_u64s)))))))))))

theorem docs_transactionSignature : transactionSignature.Docs Document.transactionSignature := fun x =>
  told_record (by names) (told_req (docs_id x.parentId) (told_req (docs_u64 x.publicKeyIndex) (told_req (docs_u64 x.timelock)
    (told_req (docs_coveredFields x.coveredFields) (told_last (docs_base64 x.signature))))))

theorem docs_v1Transaction : (v1Transaction E).Docs (Document.v1Transaction E) := fun x => by
  rw [Document.v1Transaction]
  simp only [List.append_assoc]
  exact told_record (by names) (told_vec (docs_list docs_v1SiacoinInput) (told_vec (docs_outputs E) (told_vec (docs_list (docs_v1FileContract E))
    (told_vec (docs_list (docs_v1FileContractRevision E)) (told_vec (docs_list docs_v1StorageProof) (told_vec (docs_list (docs_v1SiafundInput E))
    (told_vec (docs_list (docs_siafundOutput E)) (told_vec (docs_list (docs_currency E)) (told_vec (docs_list docs_base64)
    (told_vecLast (docs_list docs_transactionSignature)))))))))))

theorem docs_block : (block E).Docs (Document.block E) := fun x =>
  told_record (by names) (told_req (docs_id x.parentId) (told_req (docs_u64 x.nonce) (told_req (docs_time E x.timestamp)
    (told_req (docs_outputs E x.minerPayouts) (told_last (docs_list (docs_v1Transaction E) x.transactions))))))

/-! ## Policies -/

theorem told_tagged {type : String} {r : Res Json} {d : Option Json} (h : Told r d) :
    Told (r >>= fun j => pure (.obj [("type", .str type), ("policy", j)])) (Document.tagged type d) := by
  rcases h with ⟨j, d', rfl, rfl, h3, h4⟩ | ⟨h1, rfl⟩
  · refine .inl ⟨_, _, rfl, rfl, .member _ (.refl _) (.member _ h3 (.refl _)), ?_⟩
    simp [Json.Distinct, Json.DistinctMembers, h4]
  · refine .inr ⟨fun j e => ?_, rfl⟩
    cases r with
    | ok y => exact h1 y rfl
    | err _ => cases e
    | panic => cases e

theorem told_thresh {n : UInt8} {r : Res (List Json)} {d : Option (List Json)} (h : ToldList r d) :
    Told (unwrap (u8.ser n) >>= fun x => unwrap r >>= fun js => pure (.obj [("type", .str "thresh"), ("policy", (Json.obj [("n", x), ("of", .arr js)]).norm)]))
      (Document.tagged "thresh" (Document.object [("n", some (.nat (BitVec.ofNat 64 n.toNat))), ("of", d.map Json.arr)])) := by
  rcases h with ⟨js, ds, rfl, rfl, h3, h4⟩ | ⟨h1, rfl⟩
  · have hd : (Json.obj [("n", .nat (BitVec.ofNat 64 n.toNat)), ("of", .arr js)]).Distinct := by
      simp [Json.Distinct, Json.DistinctMembers, (Json.distinctList_iff js).mpr h4]
    have hr : (Json.obj [("n", .nat (BitVec.ofNat 64 n.toNat)), ("of", .arr ds)]).Reordered (Json.obj [("n", .nat (BitVec.ofNat 64 n.toNat)), ("of", .arr js)]) :=
      .member _ (.refl _) (.member _ h3 (.refl _))
    refine .inl ⟨_, _, rfl, rfl, .member _ (.refl _) (.member _ (hr.trans (Json.reordered_norm _ hd)) (.refl _)), ?_⟩
    have := Json.distinct_norm (Json.obj [("n", .nat (BitVec.ofNat 64 n.toNat)), ("of", .arr js)])
    exact ⟨by simp, trivial, by simp, this, trivial⟩
  · refine .inr ⟨fun j e => ?_, rfl⟩
    cases r with
    | ok y => exact h1 y rfl
    | err _ => cases e
    | panic => cases e

theorem told_join {rj : Res Json} {dj : Option Json} {r : Res (List Json)} {d : Option (List Json)} (h : Told rj dj) (ih : ToldList r d) :
    ToldList (rj >>= fun j => r >>= fun js => pure (j :: js)) (dj.bind fun j => d.map fun js => j :: js) := by
  rcases h with ⟨j, d, rfl, rfl, h3, h4⟩ | ⟨h1, rfl⟩
  · rcases ih with ⟨js, ds, rfl, rfl, g3, g4⟩ | ⟨g1, rfl⟩
    · refine .inl ⟨_, _, rfl, rfl, .element h3 g3, ?_⟩
      intro x hx
      rcases List.mem_cons.mp hx with rfl | hx
      · exact h4
      · exact g4 x hx
    · refine .inr ⟨fun js e => ?_, rfl⟩
      cases r with
      | ok r => exact g1 r rfl
      | err e' => cases e
      | panic => cases e
  · refine .inr ⟨fun js e => ?_, rfl⟩
    cases rj with
    | ok r => exact h1 r rfl
    | err e' => cases e
    | panic => cases e

mutual

theorem told_policy : ∀ p : SpendPolicy, Told (serPolicy E p) (Document.policy E p)
  | .above h => by rw [serPolicy, Document.policy]; exact told_tagged (docs_u64 h)
  | .after t => by
    rw [serPolicy, Document.policy, ← ofInt_mod]
    exact told_tagged (docs_u64 _)
  | .publicKey k => by rw [serPolicy, Document.policy]; exact told_tagged (docs_key k)
  | .hash h => by rw [serPolicy, Document.policy]; exact told_tagged (docs_id h)
  | .opaqueAddr a => by rw [serPolicy, Document.policy]; exact told_tagged (docs_address E a)
  | .unlockConditions uc => by rw [serPolicy, Document.policy]; exact told_tagged (docs_unlockConditions uc)
  | .threshold n of => by rw [serPolicy, Document.policy]; exact told_thresh (told_policies of)

theorem told_policies : ∀ ps : List SpendPolicy, ToldList (serPolicies E ps) (Document.policies E ps)
  | [] => by rw [serPolicies, Document.policies]; exact .inl ⟨[], [], rfl, rfl, .refl _, by simp⟩
  | p :: ps => by rw [serPolicies, Document.policies]; exact told_join (told_policy p) (told_policies ps)

end

theorem docs_policy : (policy E).Docs (Document.policy E) := told_policy E

theorem docs_signatures : (list signature).Docs (Document.array Document.hash) := docs_list docs_signature

theorem docs_satisfiedPolicy : (satisfiedPolicy E).Docs (Document.satisfiedPolicy E) := fun x => by
  rw [Document.satisfiedPolicy]
  simp only [List.append_assoc]
  exact told_record (by names) (told_req (docs_policy E x.policy) (told_vec docs_signatures (told_vecLast docs_ids)))

/-! ## v2 -/

theorem docs_attestation : attestation.Docs Document.attestation := fun x =>
  told_record (by names) (told_req (docs_key x.publicKey) (told_req (docs_string x.key) (told_req (docs_base64 x.value) (told_last (docs_signature x.signature)))))

theorem docs_v2FileContract : (v2FileContract E).Docs (Document.v2FileContract E) := fun x =>
  told_record (by names) (told_req (docs_u64 x.capacity) (told_req (docs_u64 x.filesize) (told_req (docs_id x.fileMerkleRoot) (told_req (docs_u64 x.proofHeight)
    (told_req (docs_u64 x.expirationHeight) (told_req (docs_siacoinOutput E x.renterOutput) (told_req (docs_siacoinOutput E x.hostOutput)
    (told_req (docs_currency E x.missedHostValue) (told_req (docs_currency E x.totalCollateral) (told_req (docs_key x.renterPublicKey)
    (told_req (docs_key x.hostPublicKey) (told_req (docs_u64 x.revisionNumber) (told_req (docs_signature x.renterSignature)
    (told_last (docs_signature x.hostSignature)))))))))))))))

theorem docs_siacoinElement : (siacoinElement E).Docs (Document.siacoinElement E) := fun x =>
  told_record (by names) (told_req (docs_stateElement x.stateElement) (told_req (docs_id x.id) (told_req (docs_siacoinOutput E x.siacoinOutput)
    (told_last (docs_u64 x.maturityHeight)))))

theorem docs_siafundElement : (siafundElement E).Docs (Document.siafundElement E) := fun x =>
  told_record (by names) (told_req (docs_stateElement x.stateElement) (told_req (docs_id x.id) (told_req (docs_siafundOutput E x.siafundOutput)
    (told_last (docs_currency E x.claimStart)))))

theorem docs_fileContractElement : (fileContractElement E).Docs (Document.fileContractElement E) := fun x =>
  told_record (by names) (told_req (docs_stateElement x.stateElement) (told_req (docs_id x.id) (told_last (docs_v2FileContract E x.fileContract))))

theorem docs_chainIndexElement : chainIndexElement.Docs Document.chainIndexElement := fun x =>
  told_record (by names) (told_req (docs_stateElement x.stateElement) (told_req (docs_id x.id) (told_last (docs_chainIndex x.chainIndex))))

theorem docs_v2SiacoinInput : (v2SiacoinInput E).Docs (Document.v2SiacoinInput E) := fun x =>
  told_record (by names) (told_req (docs_siacoinElement E x.parent) (told_last (docs_satisfiedPolicy E x.satisfiedPolicy)))

theorem docs_v2SiafundInput : (v2SiafundInput E).Docs (Document.v2SiafundInput E) := fun x =>
  told_record (by names) (told_req (docs_siafundElement E x.parent) (told_req (docs_address E x.claimAddress) (told_last (docs_satisfiedPolicy E x.satisfiedPolicy))))

theorem docs_v2FileContractRevision : (v2FileContractRevision E).Docs (Document.v2FileContractRevision E) := fun x =>
  told_record (by names) (told_req (docs_fileContractElement E x.parent) (told_last (docs_v2FileContract E x.revision)))

theorem docs_renewal : (renewal E).Docs (Document.renewal E) := fun x =>
  told_record (by names) (told_req (docs_v2FileContract E x.finalRevision) (told_req (docs_v2FileContract E x.newContract)
    (told_req (docs_currency E x.renterRollover) (told_req (docs_currency E x.hostRollover) (told_req (docs_signature x.renterSignature)
    (told_last (docs_signature x.hostSignature)))))))

theorem docs_v2StorageProof : v2StorageProof.Docs Document.v2StorageProof := fun x =>
  told_record (by names) (told_req (docs_chainIndexElement x.proofIndex) (told_req (docs_leaf x.leaf) (told_last (docs_ids x.proof))))

theorem told_triple {type : String} {rp r : Res Json} {dp d : Option Json} (hp : Told rp dp) (h : Told r d) :
    Told (rp >>= fun p => (r >>= fun j => pure (type, j.norm)) >>= fun x => pure (.obj [("parent", p), ("type", .str x.1), ("resolution", x.2)]))
      (Document.object [("parent", dp), ("type", Document.string type), ("resolution", d)]) := by
  rcases hp with ⟨p, dp', rfl, rfl, hp3, hp4⟩ | ⟨hp1, rfl⟩
  · rcases h with ⟨j, d', rfl, rfl, h3, h4⟩ | ⟨h1, rfl⟩
    · refine .inl ⟨_, _, rfl, rfl, .member _ hp3 (.member _ (.refl _) (.member _ (h3.trans (Json.reordered_norm j h4)) (.refl _))), ?_⟩
      exact ⟨by simp, hp4, by simp, trivial, by simp, Json.distinct_norm j, trivial⟩
    · refine .inr ⟨fun j e => ?_, rfl⟩
      cases r with
      | ok y => exact h1 y rfl
      | err _ => cases e
      | panic => cases e
  · refine .inr ⟨fun j e => ?_, rfl⟩
    cases rp with
    | ok y => exact hp1 y rfl
    | err _ => cases e
    | panic => cases e

theorem docs_resolution : (resolution E).Docs (Document.resolution E) := fun x => by
  obtain ⟨parent, r⟩ := x
  cases r with
  | renewal r => exact told_triple (docs_fileContractElement E parent) (docs_renewal E r)
  | storageProof p => exact told_triple (docs_fileContractElement E parent) (docs_v2StorageProof p)
  | expiration => exact told_triple (r := .ok (.obj [])) (docs_fileContractElement E parent) (.inl ⟨_, _, rfl, rfl, .refl _, trivial⟩)

theorem told_opt {α β : Type} {n : String} {t : Serde α} {f : α → Option Json} {s : Shape β} {p : Option α × β} {l : List (String × Option Json)}
    (h : t.Docs f) (h' : ToldMembers (s.ser p.2) l) : ToldMembers ((Shape.cons (.opt? n (option t)) s).ser p)
      (Document.unlessNone n f p.1 ++ l) := by
  obtain ⟨a, b⟩ := p
  cases a with
  | none => exact told_nothing h'
  | some a => exact told_member (h a) h'

theorem docs_v2Transaction : (v2Transaction E).Docs (Document.v2Transaction E) := fun x => by
  rw [Document.v2Transaction]
  simp only [List.append_assoc]
  exact told_record (by names) (told_vec (docs_list (docs_v2SiacoinInput E)) (told_vec (docs_outputs E) (told_vec (docs_list (docs_v2SiafundInput E))
    (told_vec (docs_list (docs_siafundOutput E)) (told_vec (docs_list (docs_v2FileContract E)) (told_vec (docs_list (docs_v2FileContractRevision E))
    (told_vec (docs_list (docs_resolution E)) (told_vec (docs_list docs_attestation) (told_vec docs_base64 (told_opt (docs_address E)
    (told_last (docs_currency E x.minerFee))))))))))))

/-! ## Consensus -/

theorem docs_accumulator : accumulator.Docs Document.accumulator := fun a => by
  have h := docs_ids (keepTrees (hasTreeAtHeight a.numLeaves) 0 a.trees.1)
  rw [Document.accumulator, ← keepTrees_roots]
  show Told ((list id).ser (keepTrees (hasTreeAtHeight a.numLeaves) 0 a.trees.1) >>= fun t => pure (.obj [("numLeaves", .nat a.numLeaves), ("trees", t)])) _
  rcases h with ⟨j, d, h1, h2, h3, h4⟩ | ⟨h1, h2⟩
  · rw [h1, h2]
    exact .inl ⟨_, _, rfl, rfl, .member _ (.refl _) (.member _ h3 (.refl _)), by simp, trivial, by simp, h4, trivial⟩
  · rw [h2]
    refine .inr ⟨fun j e => ?_, rfl⟩
    cases hr : (list id).ser (keepTrees (hasTreeAtHeight a.numLeaves) 0 a.trees.1) with
    | ok y => exact h1 y hr
    | err _ => rw [hr] at e; cases e
    | panic => rw [hr] at e; cases e

theorem docs_state : (state E).Docs (Document.state E) := fun x =>
  told_record (by names) (told_req (docs_chainIndex x.index) (told_req (docs_list (docs_time E) x.prevTimestamps.1) (told_req (docs_id x.depth)
    (told_req (docs_id x.childTarget) (told_req (docs_currency E x.siafundPool) (told_req (docs_duration x.oakTime) (told_req (docs_id x.oakTarget)
    (told_req (docs_address E x.foundationPrimaryAddress) (told_req (docs_address E x.foundationFailsafeAddress) (told_req (docs_work x.totalWork)
    (told_req (docs_work x.difficulty) (told_req (docs_work x.oakWork) (told_req (docs_accumulator x.elements) (told_last (docs_u64 x.attestations)))))))))))))))

theorem docs_network : (network E).Docs (Document.network E) := fun x =>
  told_record (by names) (told_req (docs_string x.name) (told_req (docs_currency E x.initialCoinbase) (told_req (docs_currency E x.minimumCoinbase)
    (told_req (docs_id x.initialTarget) (told_req (docs_duration x.blockInterval) (told_req (docs_u64 x.maturityDelay)
    (told_req (told_record (by names) (told_req (docs_u64 x.hardforkDevAddr.height) (told_req (docs_address E x.hardforkDevAddr.oldAddress)
      (told_last (docs_address E x.hardforkDevAddr.newAddress)))))
    (told_req (told_record (by names) (told_last (docs_u64 x.hardforkTax))) (told_req (told_record (by names) (told_last (docs_u64 x.hardforkStorageProof)))
    (told_req (told_record (by names) (told_req (docs_u64 x.hardforkOak.height) (told_req (docs_u64 x.hardforkOak.fixHeight)
      (told_last (docs_time E x.hardforkOak.genesisTimestamp)))))
    (told_req (told_record (by names) (told_req (docs_u64 x.hardforkASIC.height) (told_req (docs_duration x.hardforkASIC.oakTime)
      (told_last (docs_id x.hardforkASIC.oakTarget)))))
    (told_req (told_record (by names) (told_req (docs_u64 x.hardforkFoundation.height) (told_req (docs_address E x.hardforkFoundation.primaryAddress)
      (told_last (docs_address E x.hardforkFoundation.failsafeAddress)))))
    (told_last (told_record (by names) (told_req (docs_u64 x.hardforkV2.allowHeight) (told_last (docs_u64 x.hardforkV2.requireHeight)))))))))))))))))

theorem docs_chainState : (chainState E).Docs (Document.chainState E) := fun x =>
  told_record (by names) (told_req (docs_network E x.network) (told_last (docs_state E x.state)))

end Serde

end Verif
