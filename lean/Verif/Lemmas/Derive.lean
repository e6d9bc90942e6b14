import Verif.Spec.Derive

/-! # The derive macros: lemmas -/

namespace Verif.Derive

variable {τ : Type} {v : Ver} (sem : τ → Ty v)

/-- The encodings of the fields. -/
def fieldBytes : (ts : List τ) → Value sem ts → List (List UInt8)
  | [], _ => []
  | _ :: ts, x => enc v x.1 :: fieldBytes ts x.2

def keep : List Bool → List (List UInt8) → List UInt8
  | b :: bs, y :: ys => (if b then y else []) ++ keep bs ys
  | _, _ => []

theorem layout_eq : ∀ (bs : List Bool) (ts : List τ) (x : Value sem ts),
    layout sem bs ts x = keep bs (fieldBytes sem ts x)
  | [], ts, x => by cases ts <;> rfl
  | _ :: _, [], _ => rfl
  | b :: bs, t :: ts, x => by simp [layout, keep, fieldBytes, layout_eq bs ts x.2]

theorem encodeAt_eq : ∀ (ts : List τ) (x : Value sem ts) (i : Nat), encodeAt sem ts x i = (fieldBytes sem ts x)[i]?
  | [], _, _ => by simp [encodeAt, fieldBytes]
  | _ :: _, _, 0 => by simp [encodeAt, fieldBytes]
  | _ :: ts, x, i + 1 => by simp [encodeAt, fieldBytes, encodeAt_eq ts x.2 i]

theorem fieldBytes_length : ∀ (ts : List τ) (x : Value sem ts), (fieldBytes sem ts x).length = ts.length
  | [], _ => rfl
  | _ :: ts, x => by simp [fieldBytes, fieldBytes_length ts x.2]

/-- A name is found where its field is declared. -/
theorem find_named {α : Type} (name : α → String) (pre : List α) (f : α) (suf : List α)
    (h : ((pre ++ f :: suf).map name).Nodup) :
    (pre ++ f :: suf).findIdx? (fun g => name g == name f) = some pre.length := by
  rw [List.findIdx?_append]
  have hn : pre.findIdx? (fun g => name g == name f) = none := by
    rw [List.findIdx?_eq_none_iff]
    intro g hg
    rw [List.map_append, List.nodup_append] at h
    have := h.2.2 (name g) (List.mem_map_of_mem hg) (name f) (by simp)
    simpa using this
  rw [hn]
  simp [List.findIdx?_cons]

theorem drop_getElem {α : Type} (l : List α) (i : Nat) (h : i < l.length) :
    ∃ a, l[i]? = some a ∧ l.drop i = a :: l.drop (i + 1) :=
  ⟨l[i], by simp [h], by rw [List.drop_eq_getElem_cons h]⟩

theorem run_named (l : List (Named τ)) (hd : (l.map fun f => f.name).Nodup)
    (x : Value sem (Fields.named l).types) (q : Named τ → Bool) :
    ∀ pre suf, l = pre ++ suf →
      (Fields.named l).runEncoder sem x (suf.filterMap fun f => if q f then some (.name f.name) else none) =
        some (keep (suf.map q) ((fieldBytes sem _ x).drop pre.length))
  | pre, [], h => by
    simp [Fields.runEncoder, keep]
  | pre, f :: suf, h => by
    have ih := run_named l hd x q (pre ++ [f]) suf (by simp [h])
    have hlen : pre.length < (fieldBytes sem _ x).length := by
      rw [fieldBytes_length]; simp [Fields.types, h]
    obtain ⟨a, ha, hdrop⟩ := drop_getElem _ _ hlen
    have hl : (pre ++ [f]).length = pre.length + 1 := by simp
    rw [hl] at ih
    rw [hdrop]
    cases hq : q f
    · simp [hq, ih, keep]
    · have hres : (Fields.named l).resolve (.name f.name) = some pre.length := by
        simp only [Fields.resolve]
        rw [h] at hd ⊢
        exact find_named (fun g => g.name) pre f suf hd
      simp [hq, Fields.runEncoder, hres, encodeAt_eq, ha, ih, keep]

theorem run_unnamed (l : List (Vis × τ)) (x : Value sem (Fields.unnamed l).types) :
    ∀ pre suf, l = pre ++ suf →
      (Fields.unnamed l).runEncoder sem x ((suf.zipIdx pre.length).map fun p => .index p.2) =
        some (keep (suf.map fun _ => true) ((fieldBytes sem _ x).drop pre.length))
  | pre, [], h => by
    simp [Fields.runEncoder, keep]
  | pre, f :: suf, h => by
    have ih := run_unnamed l x (pre ++ [f]) suf (by simp [h])
    have hlen : pre.length < (fieldBytes sem _ x).length := by
      rw [fieldBytes_length]; simp [Fields.types, h]
    obtain ⟨a, ha, hdrop⟩ := drop_getElem _ _ hlen
    have hl : (pre ++ [f]).length = pre.length + 1 := by simp
    rw [hl] at ih
    rw [hdrop]
    have hres : (Fields.unnamed l).resolve (.index pre.length) = some pre.length := by
      simp [Fields.resolve, h]
    simp [List.zipIdx_cons, Fields.runEncoder, hres, encodeAt_eq, ha, ih, keep]

theorem encoder_eq (F : Fields τ) (hd : F.Distinct) (x : Value sem F.types) :
    encoderOf sem F x = some (layout sem (F.covered v) F.types x) := by
  rw [layout_eq]
  cases F with
  | named l =>
    have key := fun q => run_named sem l hd x q [] l rfl
    have key := key fun f => decide (v = .v1 ∨ f.vis = .pub)
    cases v with
    | v1 => simpa [encoderOf, deriveEncode, v1SiaEncode, Fields.covered] using key
    | v2 =>
      refine Eq.trans (congrArg (Fields.runEncoder sem (.named l) x) ?_) key
      congr 1
      funext f
      cases h : f.vis <;> simp
  | unnamed l =>
    have := run_unnamed sem l x [] l rfl
    cases v <;> simpa [encoderOf, deriveEncode, siaEncode, v1SiaEncode, Fields.covered] using this
  | unit =>
    cases v <;> simp [encoderOf, deriveEncode, siaEncode, v1SiaEncode, Fields.covered, Fields.runEncoder, keep]

/-! ## Decoders -/

variable [DecidableEq τ]

/-- The initialisers for all fields. -/
def inits (l : List (Named τ)) : List (String × τ) := l.map fun f => (f.name, f.ty)

/-- The pairs of declared fields and values that a struct expression gives. -/
def Given (P : (f : Named τ) → (sem f.ty).carrier → Prop) :
    (l : List (Named τ)) → Value sem ((inits l).map fun p => p.2) → Prop
  | [], _ => True
  | f :: l, x => P f x.1 ∧ Given P l x.2

omit [DecidableEq τ] in
theorem given_mono {P Q : (f : Named τ) → (sem f.ty).carrier → Prop} :
    ∀ (l : List (Named τ)) (x : Value sem ((inits l).map fun p => p.2)),
      (∀ f a, f ∈ l → P f a → Q f a) → Given sem P l x → Given sem Q l x
  | [], _, _, _ => trivial
  | f :: l, x, h, hp => ⟨h f x.1 (by simp) hp.1,
      given_mono l x.2 (fun g a hg => h g a (by simp [hg])) hp.2⟩

theorem given_pick : ∀ (l : List (Named τ)) (x : Value sem ((inits l).map fun p => p.2)),
    (l.map fun f => f.name).Nodup → Given sem (fun f a => pick sem (inits l) x f.name f.ty = some a) l x
  | [], _, _ => trivial
  | f :: l, x, h => by
    rw [List.map_cons, List.nodup_cons] at h
    refine ⟨?_, ?_⟩
    · show pick sem ((f.name, f.ty) :: inits l) x f.name f.ty = some x.1
      simp [pick]
    refine given_mono sem l x.2 ?_ (given_pick l x.2 h.2)
    intro g a hg hp
    have hne : f.name ≠ g.name := fun e => h.1 (by rw [e]; exact List.mem_map_of_mem hg)
    show pick sem ((f.name, f.ty) :: inits l) x g.name g.ty = some a
    simpa [pick, hne] using hp

/-- A value read in the order of the initialisers as a value of the struct. -/
def asValue : (l : List (Named τ)) → Value sem ((inits l).map fun p => p.2) → Value sem (l.map fun f => f.ty)
  | [], _ => ()
  | _ :: l, x => (x.1, asValue l x.2)

theorem arrange_given (L : List (String × τ)) (y : Value sem (L.map fun p => p.2)) :
    ∀ (l : List (Named τ)) (x : Value sem ((inits l).map fun p => p.2)),
      Given sem (fun f a => pick sem L y f.name f.ty = some a) l x → arrange sem L y l = some (asValue sem l x)
  | [], _, _ => rfl
  | f :: l, x, h => by
    have ih := arrange_given L y l x.2 h.2
    have h1 := h.1
    simp only [arrange, asValue]
    rw [h1, ih]
    rfl

omit [DecidableEq τ] in
theorem decodeAll_asValue : ∀ (l : List (Named τ)) (lim : Lim) (bs : List UInt8),
    (do let x ← decodeAll sem ((inits l).map fun p => p.2)
        pure (asValue sem l x) : Dec (Value sem (l.map fun f => f.ty))) lim bs =
      decodeAll sem (l.map fun f => f.ty) lim bs
  | [], _, _ => rfl
  | f :: l, lim, bs => by
    have ih := decodeAll_asValue l lim
    show Dec.bind (decodeAll sem (f.ty :: (inits l).map (fun p => p.2)))
        (fun x => Dec.pure ((x.1, asValue sem l x.2) : (sem f.ty).carrier × Value sem (l.map fun f => f.ty))) lim bs =
      decodeAll sem (f.ty :: l.map fun f => f.ty) lim bs
    simp only [decodeAll, bind, Dec.bind] at ih ⊢
    cases h : (dec v : Dec (sem f.ty).carrier) lim bs with
    | err e => rfl
    | panic => rfl
    | ok p =>
      obtain ⟨a, r⟩ := p
      have ih := ih r
      simp only
      cases h2 : decodeAll sem ((inits l).map fun p => p.2) lim r with
      | err e => rw [h2] at ih; simp only at ih; rw [← ih]; rfl
      | panic => rw [h2] at ih; simp only at ih; rw [← ih]; rfl
      | ok q =>
        rw [h2] at ih; simp only [pure, Dec.pure] at ih ⊢; rw [← ih]; rfl

theorem accepts_inits (l : List (Named τ)) (h : (l.map fun f => f.name).Nodup) : accepts l (inits l) = true := by
  simp only [accepts, Bool.and_eq_true, decide_eq_true_eq, List.all_eq_true, List.any_eq_true]
  refine ⟨⟨by simpa [inits, Function.comp_def] using h, ?_⟩, ?_⟩
  · intro p hp
    simp only [inits, List.mem_map] at hp
    obtain ⟨f, hf, rfl⟩ := hp
    exact ⟨f, hf, by simp⟩
  · intro f hf
    exact ⟨(f.name, f.ty), by simp only [inits, List.mem_map]; exact ⟨f, hf, rfl⟩, by simp⟩

theorem decoder_named (l : List (Named τ)) (h : (l.map fun f => f.name).Nodup) :
    (Fields.named l).runDecoder sem (.named (inits l)) = some (decodeAll sem (l.map fun f => f.ty)) := by
  simp only [Fields.runDecoder, accepts_inits l h, if_true]
  congr 1
  funext lim bs
  rw [← decodeAll_asValue sem l lim bs]
  simp only [bind, Dec.bind]
  cases h2 : decodeAll sem ((inits l).map fun p => p.2) lim bs with
  | err e => rfl
  | panic => rfl
  | ok q =>
    simp only
    rw [arrange_given sem (inits l) q.1 l q.1 (given_pick sem l q.1 h)]
    rfl

theorem decoder_eq (F : Fields τ) (hd : F.Distinct) (hc : F.Covered v) :
    decoderOf sem F = some (decodeAll sem F.types) := by
  cases F with
  | named l =>
    have key := decoder_named sem l hd
    cases v with
    | v1 => exact key
    | v2 =>
      have hpub : l.filterMap (fun f => match f.vis with | .pub => some (f.name, f.ty) | .other => none) = inits l := by
        clear key hd
        induction l with
        | nil => rfl
        | cons f l ih =>
          have hf : f.vis = .pub := by
            have := hc _ (by simp only [Fields.covered, List.map_cons]; exact List.mem_cons_self)
            simpa using this
          have := ih fun b hb => hc b (by
            simp only [Fields.covered, List.map_cons] at hb ⊢
            exact List.mem_cons_of_mem _ hb)
          rw [List.filterMap_cons, this]
          simp [hf, inits]
      exact (congrArg (fun z => Fields.runDecoder sem (.named l) (.named z)) hpub).trans key
  | unnamed l => cases v <;> simp [decoderOf, deriveDecode, siaDecode, v1SiaDecode, Fields.runDecoder, Fields.types]
  | unit => cases v <;> rfl

/-- A field that is not `pub` is missing in the generated struct expression. -/
theorem decoder_private (F : Fields τ) (hd : F.Distinct) (hc : ¬ F.Covered v) : decoderOf sem F = none := by
  cases F with
  | unnamed l => exact absurd (by simp [Fields.Covered, Fields.covered]) hc
  | unit => exact absurd (by simp [Fields.Covered, Fields.covered]) hc
  | named l =>
    cases v with
    | v1 => exact absurd (by simp [Fields.Covered, Fields.covered]) hc
    | v2 =>
      simp only [decoderOf, deriveDecode, siaDecode, Option.bind_eq_bind, Option.bind_some, Fields.runDecoder]
      rw [if_neg]
      intro ha
      apply hc
      simp only [accepts, Bool.and_eq_true, decide_eq_true_eq, List.all_eq_true, List.any_eq_true] at ha
      intro b hb
      simp only [Fields.covered, List.mem_map] at hb
      obtain ⟨f, hf, rfl⟩ := hb
      obtain ⟨p, hp, hpn⟩ := ha.2 f hf
      simp only [List.mem_filterMap] at hp
      obtain ⟨g, hg, hgp⟩ := hp
      have hgf : g = f := by
        have hname : g.name = f.name := by
          have : p.1 = f.name := by simpa using hpn.1
          rw [← this]
          cases hv : g.vis <;> simp [hv] at hgp
          rw [← hgp]
        simp only [Fields.Distinct] at hd
        clear ha hgp hc
        induction l with
        | nil => simp at hf
        | cons c l ih =>
          rw [List.map_cons, List.nodup_cons] at hd
          rcases List.mem_cons.1 hf with rfl | hf'
          · rcases List.mem_cons.1 hg with rfl | hg'
            · rfl
            · exact absurd (by rw [← hname]; exact List.mem_map_of_mem hg') hd.1
          · rcases List.mem_cons.1 hg with rfl | hg'
            · exact absurd (by rw [hname]; exact List.mem_map_of_mem hf') hd.1
            · exact ih hd.2 hf' hg'
      subst hgf
      cases hv : g.vis
      · rfl
      · simp [hv] at hgp

theorem ok_iff {α : Type} (a b : α) (r s : List UInt8) :
    (Res.ok (a, r) : Res (α × List UInt8)) = .ok (b, s) ↔ a = b ∧ r = s := by simp

omit [DecidableEq τ] in
theorem decodeAll_ok (lim : Lim) : ∀ (ts : List τ) (bs : List UInt8) (x : Value sem ts) (rest : List UInt8),
    decodeAll sem ts lim bs = .ok (x, rest) ↔ Reads sem lim ts bs x rest
  | [], bs, x, rest => by
    exact (ok_iff (α := Unit) () x bs rest).trans ⟨fun h => h.2, fun h => ⟨rfl, h⟩⟩
  | t :: ts, bs, x, rest => by
    simp only [decodeAll, bind, Dec.bind, Reads]
    cases h : (dec v : Dec (sem t).carrier) lim bs with
    | err e => simp
    | panic => simp
    | ok p =>
      obtain ⟨a, mid⟩ := p
      have ih := decodeAll_ok lim ts mid
      simp only [Res.ok.injEq, Prod.mk.injEq]
      cases h2 : decodeAll sem ts lim mid with
      | err e =>
        have : ¬ Reads sem lim ts mid x.2 rest := fun hr => by simp [(ih _ _).2 hr] at h2
        simp only [reduceCtorEq, false_iff]
        rintro ⟨m, ⟨-, rfl⟩, hr⟩
        exact this hr
      | panic =>
        have : ¬ Reads sem lim ts mid x.2 rest := fun hr => by simp [(ih _ _).2 hr] at h2
        simp only [reduceCtorEq, false_iff]
        rintro ⟨m, ⟨-, rfl⟩, hr⟩
        exact this hr
      | ok q =>
        obtain ⟨as, r⟩ := q
        refine (ok_iff (α := (sem t).carrier × Value sem ts) (a, as) x r rest).trans ?_
        constructor
        · rintro ⟨rfl, rfl⟩
          exact ⟨mid, ⟨rfl, rfl⟩, (ih _ _).1 h2⟩
        · rintro ⟨m, ⟨ha, rfl⟩, hr⟩
          have := (ih _ _).2 hr
          rw [h2] at this
          simp only [Res.ok.injEq, Prod.mk.injEq] at this
          exact ⟨by rw [ha, this.1]; rfl, this.2⟩

omit [DecidableEq τ] in
theorem decodeAll_err (lim : Lim) (e : Err) : ∀ (ts : List τ) (bs : List UInt8),
    decodeAll sem ts lim bs = .err e ↔ Fails sem lim e ts bs
  | [], bs => by simp [decodeAll, pure, Dec.pure, Fails]
  | t :: ts, bs => by
    simp only [decodeAll, bind, Dec.bind, Fails]
    cases h : (dec v : Dec (sem t).carrier) lim bs with
    | err e => simp
    | panic => simp
    | ok p =>
      obtain ⟨a, mid⟩ := p
      have ih := decodeAll_err lim e ts mid
      simp only [reduceCtorEq, Res.ok.injEq, Prod.mk.injEq, false_or]
      have he : (∃ a' mid', (a = a' ∧ mid = mid') ∧ Fails sem lim e ts mid') ↔ Fails sem lim e ts mid :=
        ⟨fun ⟨_, _, ⟨_, h⟩, h'⟩ => h ▸ h', fun h => ⟨a, mid, ⟨rfl, rfl⟩, h⟩⟩
      rw [he, ← ih]
      cases decodeAll sem ts lim mid <;> simp [pure, Dec.pure]

omit [DecidableEq τ] in
theorem decodeAll_panic (lim : Lim) : ∀ (ts : List τ) (bs : List UInt8),
    decodeAll sem ts lim bs = .panic ↔ Panics sem lim ts bs
  | [], bs => by simp [decodeAll, pure, Dec.pure, Panics]
  | t :: ts, bs => by
    simp only [decodeAll, bind, Dec.bind, Panics]
    cases h : (dec v : Dec (sem t).carrier) lim bs with
    | err e => simp
    | panic => simp
    | ok p =>
      obtain ⟨a, mid⟩ := p
      have ih := decodeAll_panic lim ts mid
      simp only [reduceCtorEq, Res.ok.injEq, Prod.mk.injEq, false_or]
      have he : (∃ a' mid', (a = a' ∧ mid = mid') ∧ Panics sem lim ts mid') ↔ Panics sem lim ts mid :=
        ⟨fun ⟨_, _, ⟨_, h⟩, h'⟩ => h ▸ h', fun h => ⟨a, mid, ⟨rfl, rfl⟩, h⟩⟩
      rw [he, ← ih]
      cases decodeAll sem ts lim mid <;> simp [pure, Dec.pure]

omit [DecidableEq τ] in
theorem reads_back (lim : Lim) : ∀ (bs : List Bool) (ts : List τ) (x : Value sem ts) (rest : List UInt8),
    bs.length = ts.length → (∀ b ∈ bs, b = true) → FieldsReadBack sem lim ts x →
      Reads sem lim ts (layout sem bs ts x ++ rest) x rest
  | [], [], _, _, _, _, _ => rfl
  | [], _ :: _, _, _, h, _, _ => by simp at h
  | _ :: _, [], _, _, h, _, _ => by simp at h
  | b :: bs, t :: ts, x, rest, hl, hb, hf => by
    have hb0 : b = true := hb b (by simp)
    subst hb0
    simp only [Reads, layout, if_true, List.append_assoc]
    exact ⟨_, hf.1 _, reads_back lim bs ts x.2 rest (by simpa using hl) (fun c hc => hb c (by simp [hc])) hf.2⟩

omit [DecidableEq τ] in
theorem covered_length (F : Fields τ) : (F.covered v).length = F.types.length := by
  cases F <;> simp [Fields.covered, Fields.types]

omit [DecidableEq τ] in
theorem layout_alike : ∀ (bs : List Bool) (ts : List τ) (x y : Value sem ts),
    Alike sem bs ts x y → layout sem bs ts x = layout sem bs ts y
  | [], ts, _, _, _ => by cases ts <;> rfl
  | _ :: _, [], _, _, _ => rfl
  | b :: bs, t :: ts, x, y, h => by
    simp only [layout]
    rw [layout_alike bs ts x.2 y.2 h.2]
    cases b
    · rfl
    · simp only [if_true]; rw [h.1 rfl]

/-! ## The nested tuples of the model -/

/-- The values of `β` are the values of a struct with the types `ts`, and its codec is theirs, one after the
other. -/
structure Flat (sem : τ → Ty v) (ts : List τ) (β : Type) [Codec v β] (f : β → Value sem ts) : Prop where
  inj : ∀ a b, f a = f b → a = b
  surj : ∀ x, ∃ a, f a = x
  enc : ∀ bs : List Bool, bs.length = ts.length → (∀ b ∈ bs, b = true) → ∀ a, layout sem bs ts (f a) = enc v a
  dec : ∀ lim bs, decodeAll sem ts lim bs = (do let a ← (dec v : Dec β); pure (f a)) lim bs

omit [DecidableEq τ] in
theorem Flat.one (t : τ) : Flat sem [t] (sem t).carrier (fun a => ((a, ()) : (sem t).carrier × Unit)) where
  inj a b h := congrArg Prod.fst h
  surj x := ⟨x.1, rfl⟩
  enc bs hl hb a := by
    match bs, hl with
    | [b], _ =>
      have : b = true := hb b (by simp)
      subst this
      simp [layout]
  dec lim bs := by
    simp only [decodeAll, bind, Dec.bind]
    cases (Verif.dec v : Dec (sem t).carrier) lim bs <;> rfl

omit [DecidableEq τ] in
theorem Flat.cons {β : Type} [Codec v β] (t : τ) {ts : List τ} {f : β → Value sem ts} (h : Flat sem ts β f) :
    Flat sem (t :: ts) ((sem t).carrier × β) (fun p => ((p.1, f p.2) : (sem t).carrier × Value sem ts)) where
  inj a b hab := by
    have hab : ((a.1, f a.2) : (sem t).carrier × Value sem ts) = (b.1, f b.2) := hab
    simp only [Prod.mk.injEq] at hab
    exact Prod.ext hab.1 (h.inj _ _ hab.2)
  surj x := by
    obtain ⟨b, hb⟩ := h.surj x.2
    exact ⟨(x.1, b), by rw [hb]; rfl⟩
  enc bs hl hb a := by
    match bs, hl with
    | b :: bs, hl =>
      have : b = true := hb b (by simp)
      subst this
      have := h.enc bs (by simpa using hl) (fun c hc => hb c (by simp [hc])) a.2
      simp only [layout, if_true]
      rw [this]
      rfl
  dec lim bs := by
    have h1 := h.dec lim
    have hd : (Verif.dec v : Dec ((sem t).carrier × β)) lim bs = (do
        let a ← (Verif.dec v : Dec (sem t).carrier)
        let b ← (Verif.dec v : Dec β)
        pure (a, b)) lim bs := rfl
    simp only [decodeAll, bind, Dec.bind] at h1 hd ⊢
    rw [hd]
    cases (Verif.dec v : Dec (sem t).carrier) lim bs with
    | err e => rfl
    | panic => rfl
    | ok p =>
      obtain ⟨a, r⟩ := p
      simp only [h1 r]
      cases (Verif.dec v : Dec β) lim r <;> rfl

omit [DecidableEq τ] in
theorem Flat.struct {S β : Type} [Struct S β] [Codec v β] {ts : List τ} {f : β → Value sem ts}
    (h : Flat sem ts β f) : Flat sem ts S (fun a => f (Struct.fields a)) where
  inj a b hab := by
    have := h.inj _ _ hab
    rw [← Struct.build_fields a, ← Struct.build_fields b, this]
  surj x := by
    obtain ⟨b, hb⟩ := h.surj x
    exact ⟨Struct.build b, by rw [Struct.fields_build]; exact hb⟩
  enc bs hl hb a := h.enc bs hl hb _
  dec lim bs := by
    rw [h.dec lim bs]
    have hd : (Verif.dec v : Dec S) lim bs = (do
        let b ← (Verif.dec v : Dec β)
        pure (Struct.build b)) lim bs := rfl
    simp only [bind, Dec.bind] at hd ⊢
    rw [hd]
    cases (Verif.dec v : Dec β) lim bs with
    | err e => rfl
    | panic => rfl
    | ok p => simp [pure, Dec.pure, Struct.fields_build]

theorem Derives.of (F : Fields τ) {S : Type} [Codec v S] {f : S → Value sem F.types} (hd : F.Distinct)
    (hc : F.Covered v) (h : Flat sem F.types S f) : Derives v sem F S f where
  distinct := hd
  injective := h.inj
  surjective := h.surj
  encoder a := by
    rw [encoder_eq sem F hd, h.enc _ (covered_length F) hc]
  decoder := by
    rw [decoder_eq sem F hd hc]
    congr 1
    funext lim bs
    exact h.dec lim bs

end Verif.Derive
