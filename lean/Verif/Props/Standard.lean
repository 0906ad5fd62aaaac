import Verif.Lemmas.Standard
import Verif.Props.ParseMany

/-!
# Serialised objects and the STIX 2.1 standard

Properties C58 and C59.
-/

namespace Stix
open Spec StixObject Stix.Canon Stix.Props.Canon

variable {F : Canon.FloatFmt}

/-! ### The tables -/

/-- The struct fields are the properties; `ex` lists those that only the library requires. -/
def rowsFit (rows : List FieldInfo) (ps : Props) (ex : List Str) : Bool :=
  (rows.all fun r => match amLookup r.key ps with
    | some p => fits r.ty p.2
    | none => false) &&
  (ps.all fun p => rows.any fun r => r.key == p.1 && p.2.1 == (!r.omitE && !ex.contains r.key)) &&
  (rows.all fun r => r.omitE || ex.contains r.key || (ps.any fun p => r.key == p.1 && p.2.1))

/-- The names that only the library requires of that type. -/
def exOf (t : Str) : List Str := (amLookup t overRequired).getD []

theorem rows_common :
    rowsFit fieldsSTIXDomainObject.toList commonObject [] = true ∧
    rowsFit fieldsSTIXRelationshipObject.toList commonObject [] = true ∧
    rowsFit fieldsSTIXCyberObservableObject.toList commonObservable [] = true := by
  decide +kernel

theorem rows_domain : ∀ e ∈ domainProps, ∀ g ∈ goTypes, g.1 = e.1 →
    baseOf g.2 = .sdo ∧ rowsFit (ownFields g.2).toList e.2 (exOf e.1) = true := by
  decide +kernel

theorem rows_relationship : ∀ e ∈ relationshipProps, ∀ g ∈ goTypes, g.1 = e.1 →
    baseOf g.2 = .sro ∧ rowsFit (ownFields g.2).toList e.2 (exOf e.1) = true := by
  decide +kernel

theorem rows_observable : ∀ e ∈ observableProps, ∀ g ∈ goTypes, g.1 = e.1 →
    baseOf g.2 = .sco ∧ rowsFit (ownFields g.2).toList e.2 (exOf e.1) = true := by
  decide +kernel

theorem rows_meta : ∀ e ∈ metaProps, ∀ g ∈ goTypes, g.1 = e.1 →
    baseOf g.2 = .none ∧ rowsFit (ownFields g.2).toList e.2 (exOf e.1) = true := by
  decide +kernel

/-- The struct fields of a kind of object are the properties of its type. -/
structure Fitting (X : Str → Prop) (rows : List FieldInfo) (ps : Props) : Prop where
  known : ∀ r ∈ rows, ∃ q u, (r.key, q, u) ∈ ps ∧ fits r.ty u = true
  all : ∀ p ∈ ps, ∃ r ∈ rows, r.key = p.1 ∧ (p.2.1 = true ↔ r.omitE = false ∧ ¬ X r.key)
  required : ∀ r ∈ rows, r.omitE = false → X r.key ∨ ∃ u, (r.key, true, u) ∈ ps

theorem exOf_iff (t k : Str) : k ∈ exOf t ↔ OverRequired t k := by
  have hn : (amKeys overRequired).Nodup := by decide +kernel
  unfold exOf OverRequired
  constructor
  · intro h
    cases hl : amLookup t overRequired with
    | none => rw [hl] at h; cases h
    | some l =>
      rw [hl] at h
      exact ⟨(t, l), mem_of_amLookup _ _ _ hl, rfl, h⟩
  · rintro ⟨⟨t', l⟩, he, rfl, h⟩
    rw [amLookup_eq_some_of_mem _ _ _ hn he]
    exact h

theorem rowsFit_fitting {ex : List Str} {rows : List FieldInfo} {ps : Props}
    (h : rowsFit rows ps ex = true) : Fitting (· ∈ ex) rows ps := by
  simp only [rowsFit, Bool.and_eq_true, List.all_eq_true, List.any_eq_true, beq_iff_eq,
    Bool.or_eq_true, List.contains_iff_mem] at h
  obtain ⟨⟨h1, h2⟩, h3⟩ := h
  refine ⟨fun r hr => ?_, fun p hp => ?_, fun r hr ho => ?_⟩
  · have := h1 r hr
    split at this
    · next p hp => exact ⟨p.1, p.2, mem_of_amLookup _ _ _ hp, this⟩
    · cases this
  · obtain ⟨r, hr, hk, he⟩ := h2 p hp
    refine ⟨r, hr, hk, ?_⟩
    rw [he, Bool.and_eq_true, Bool.not_eq_true', Bool.not_eq_true', List.contains_eq_mem,
      decide_eq_false_iff_not]
  · rcases h3 r hr with (h | h) | ⟨p, hp, hk, hq⟩
    · rw [ho] at h; cases h
    · exact .inl h
    · exact .inr ⟨p.2.2, by rw [hk, ← hq]; exact hp⟩

theorem Fitting.append {X : Str → Prop} {rows rows' : List FieldInfo} {ps ps' : Props}
    (h : Fitting X rows ps) (h' : Fitting X rows' ps') : Fitting X (rows ++ rows') (ps ++ ps') where
  known r hr := by
    rcases List.mem_append.1 hr with hr | hr
    · obtain ⟨q, u, h1, h2⟩ := h.known r hr
      exact ⟨q, u, List.mem_append_left _ h1, h2⟩
    · obtain ⟨q, u, h1, h2⟩ := h'.known r hr
      exact ⟨q, u, List.mem_append_right _ h1, h2⟩
  all p hp := by
    rcases List.mem_append.1 hp with hp | hp
    · obtain ⟨r, h1, h2⟩ := h.all p hp
      exact ⟨r, List.mem_append_left _ h1, h2⟩
    · obtain ⟨r, h1, h2⟩ := h'.all p hp
      exact ⟨r, List.mem_append_right _ h1, h2⟩
  required r hr ho := by
    rcases List.mem_append.1 hr with hr | hr
    · rcases h.required r hr ho with h | ⟨u, h⟩
      · exact .inl h
      · exact .inr ⟨u, List.mem_append_left _ h⟩
    · rcases h'.required r hr ho with h | ⟨u, h⟩
      · exact .inl h
      · exact .inr ⟨u, List.mem_append_right _ h⟩

theorem Fitting.change {X Y : Str → Prop} {rows : List FieldInfo} {ps : Props} (h : Fitting X rows ps)
    (hx : ∀ r ∈ rows, X r.key ↔ Y r.key) : Fitting Y rows ps where
  known := h.known
  all p hp := by
    obtain ⟨r, h1, h2, h3⟩ := h.all p hp
    exact ⟨r, h1, h2, by rw [h3, hx r h1]⟩
  required r hr ho := by rw [← hx r hr]; exact h.required r hr ho

theorem own_fitting {t : Str} {rows : List FieldInfo} {ps : Props}
    (h : rowsFit rows ps (exOf t) = true) : Fitting (OverRequired t) rows ps :=
  (rowsFit_fitting h).change fun r _ => exOf_iff t r.key

theorem common_fitting (t : Str) {rows : List FieldInfo} {ps : Props} (h : rowsFit rows ps [] = true)
    (hx : ∀ r ∈ rows, r.key ∉ overRequired.flatMap (·.2)) : Fitting (OverRequired t) rows ps := by
  refine (rowsFit_fitting h).change fun r hr => ?_
  simp only [List.not_mem_nil, false_iff]
  rintro ⟨e, he, -, hk⟩
  exact hx r hr (List.mem_flatMap.2 ⟨e, he, hk⟩)

/-- Each kind of object has the properties of its type. -/
theorem standard_fitting {t : Str} {s : SId} {ps : Props} (ht : (t, s) ∈ goTypes)
    (hps : (t, ps) ∈ standard) : Fitting (OverRequired t) (objFields s) ps := by
  have hx : (∀ r ∈ fieldsSTIXDomainObject.toList, r.key ∉ overRequired.flatMap (·.2)) ∧
      (∀ r ∈ fieldsSTIXRelationshipObject.toList, r.key ∉ overRequired.flatMap (·.2)) ∧
      (∀ r ∈ fieldsSTIXCyberObservableObject.toList, r.key ∉ overRequired.flatMap (·.2)) := by
    decide +kernel
  obtain ⟨c1, c2, c3⟩ := rows_common
  simp only [standard, List.mem_append, List.mem_map, Prod.mk.injEq] at hps
  rcases hps with ((⟨⟨t, ps⟩, h, rfl, rfl⟩ | ⟨⟨t, ps⟩, h, rfl, rfl⟩) | ⟨⟨t, ps⟩, h, rfl, rfl⟩) | h
  · obtain ⟨hb, hr⟩ := rows_domain _ h _ ht rfl
    unfold objFields
    rw [hb]
    exact (common_fitting t c1 hx.1).append (own_fitting hr)
  · obtain ⟨hb, hr⟩ := rows_relationship _ h _ ht rfl
    unfold objFields
    rw [hb]
    exact (common_fitting t c2 hx.2.1).append (own_fitting hr)
  · obtain ⟨hb, hr⟩ := rows_observable _ h _ ht rfl
    unfold objFields
    rw [hb]
    exact (common_fitting t c3 hx.2.2).append (own_fitting hr)
  · obtain ⟨hb, hr⟩ := rows_meta _ h _ ht rfl
    rw [objFields_none hb]
    exact own_fitting hr

/-! ### C58 -/

/-- **C58** (names).  Every type of the library is a type of the standard, and the JSON properties of
its objects are those of the standard. -/
theorem c58_names (t : Str) (s : SId) (ht : (t, s) ∈ goTypes) :
    ∃ ps, (t, ps) ∈ standard ∧ ∀ k, k ∈ properties s ↔ k ∈ amKeys ps := by
  have h : ∀ g ∈ goTypes, g.1 ∈ amKeys standard := by decide +kernel
  obtain ⟨⟨t', ps⟩, hps, e⟩ := List.mem_map.1 (h _ ht)
  simp only at e
  subst e
  refine ⟨ps, hps, fun k => ?_⟩
  have hf := standard_fitting ht hps
  constructor
  · intro hk
    obtain ⟨r, hr, rfl⟩ := List.mem_map.1 hk
    obtain ⟨q, u, h, -⟩ := hf.known r hr
    exact List.mem_map.2 ⟨_, h, rfl⟩
  · intro hk
    obtain ⟨p, hp, rfl⟩ := List.mem_map.1 hk
    obtain ⟨r, hr, e, -⟩ := hf.all p hp
    exact List.mem_map.2 ⟨r, hr, e⟩

/-- The types of the fields of objects. -/
def Ty.topLevel : Ty → Bool
  | .ptr .time => true
  | .ptr _ => false
  | .raw => false
  | _ => true

theorem topLevel_table (s : SId) : ∀ r ∈ objFields s, r.ty.topLevel = true := by
  have : ∀ s ∈ allSIds, ∀ r ∈ objFields s, r.ty.topLevel = true := by decide +kernel
  exact this s (mem_allSIds s)

theorem encDyn_null {d : Dyn} (h : encDyn F d = some .null) : d = .nil := by
  cases d with
  | nil => rfl
  | bool _ => simp [encDyn] at h
  | num f => simp only [encDyn] at h; split at h <;> simp at h
  | int _ => simp [encDyn] at h
  | str _ => simp [encDyn, Json.ofStr] at h
  | strs _ => simp [encDyn] at h
  | arr l => simp [encDyn] at h
  | obj m => simp [encDyn] at h

theorem enc_null {P : Leaves} {t : Ty} {v : GV} (ht : t.topLevel = true) (hv : Val P t v)
    (h : enc F t v = some .null) : Unset t v := by
  cases t with
  | str _ => obtain ⟨x, rfl, -⟩ := hv; simp [enc, Json.ofStr] at h
  | bool => obtain ⟨x, rfl⟩ := hv; simp [enc] at h
  | int _ => obtain ⟨x, rfl, -⟩ := hv; simp [enc] at h
  | flt => obtain ⟨x, rfl, -⟩ := hv; simp only [enc] at h; split at h <;> simp at h
  | enum _ => obtain ⟨x, rfl, -⟩ := hv; simp [enc, enumMarshal, Json.ofStr] at h
  | bin =>
    obtain ⟨x, rfl⟩ := hv
    cases x with
    | none => rfl
    | some _ => simp [enc, binaryMarshal] at h
  | time => obtain ⟨x, rfl, -⟩ := hv; simp [enc, timestampMarshal] at h
  | slice _ =>
    rcases hv with rfl | ⟨l, rfl, -⟩
    · rfl
    · simp [enc] at h
  | map _ _ _ =>
    rcases hv with rfl | ⟨l, rfl, -⟩
    · rfl
    · simp [enc] at h
  | ptr t =>
    rcases hv with rfl | ⟨x, rfl, hv⟩
    · rfl
    · cases t <;> simp only [Ty.topLevel, Bool.false_eq_true] at ht
      obtain ⟨x, rfl, -⟩ := hv
      simp [enc, timestampMarshal] at h
  | struct _ _ => obtain ⟨f, rfl, -⟩ := hv; simp [enc] at h
  | dyn =>
    obtain ⟨d, rfl, -⟩ := hv
    rw [enc] at h
    rw [encDyn_null h]
    rfl
  | ext _ =>
    rcases hv with rfl | ⟨l, rfl, -⟩
    · rfl
    · simp [enc] at h
  | raw => simp [Ty.topLevel] at ht

/-- **C58.** The JSON of an object has a member for every property the standard requires of its type;
every member is either a property of the type, with the JSON of the data type of the standard, or an
extended property of the object.  (`null` occurs for nil inside of values, and, for extension
definitions, for a nil property.) -/
theorem c58_shape (o : Obj) (ho : TypedObj o)
    (hp : ∀ r ∈ objFields o.sid, Val placed r.ty (o.val r.name)) (t : Str) (ps : Props)
    (ht : (t, o.sid) ∈ goTypes) (hps : (t, ps) ∈ standard) (j : Json)
    (h : marshalObj F o = some j) :
    ∃ ms, j = .obj ms ∧
      (∀ k v, (k, v) ∈ ms →
        (∃ q u, (k, q, u) ∈ ps ∧ Conforms u v ∧ (o.sid ≠ .ExtensionDefinition → v ≠ .null)) ∨
        ∃ k0 d, (k0, d) ∈ extras o ∧ k = sanitize k0 ∧ encDyn F d = some v) ∧
      ∀ p ∈ ps, p.2.1 = true → p.1 ∈ amKeys ms := by
  have hf := standard_fitting ht hps
  by_cases hs : o.sid = .ExtensionDefinition
  · obtain ⟨ms, h1, -, h3⟩ := c27_extensionDefinition_partial (F := F) o ho hs
    rw [h, Option.some.injEq] at h1
    subst h1
    refine ⟨ms, rfl, fun k v hk => .inl ?_, fun p hp' hq => ?_⟩
    · obtain ⟨r, hr, rfl, -, he⟩ := (h3 k v).1 hk
      obtain ⟨q, u, h1, h2⟩ := hf.known r hr
      exact ⟨q, u, h1, fits_conforms h2 (hp r hr) he, fun hn => absurd hs hn⟩
    · obtain ⟨r, hr, hk, he⟩ := hf.all p hp'
      obtain ⟨ho', -⟩ := he.1 hq
      obtain ⟨v, hv⟩ := Option.isSome_iff_exists.1 (enc_isSome (F := F) (ho.fields r hr))
      exact List.mem_map.2 ⟨(p.1, v), (h3 _ _).2 ⟨r, hr, hk, by simp [ho'], hv⟩, rfl⟩
  · obtain ⟨ms, rfl, h2, -⟩ := c27_members_partial o ho hs j h
    have hreq := (c27_required_partial (F := F) o ho hs).1 (by rw [h]; rfl)
    refine ⟨ms, rfl, fun k v hk => ?_, fun p hp' hq => ?_⟩
    · rcases (h2 k v).1 hk with ⟨r, hr, rfl, hu, -, he⟩ | ⟨k0, d, hd, e, -, he⟩
      · obtain ⟨q, u, h1, h2⟩ := hf.known r hr
        refine .inl ⟨q, u, h1, fits_conforms h2 (hp r hr) he, fun _ hn => ?_⟩
        subst hn
        exact hu (enc_null (topLevel_table _ r hr) (hp r hr) he)
      · exact .inr ⟨k0, d, hd, e, he⟩
    · obtain ⟨r, hr, hk, he⟩ := hf.all p hp'
      obtain ⟨ho', -⟩ := he.1 hq
      have hu := hreq r hr ho'
      by_cases hx : Strong o.sid r ∨ r.key ∉ amKeys (extras o)
      · obtain ⟨v, hv⟩ := Option.isSome_iff_exists.1 (enc_isSome (F := F) (ho.fields r hr))
        exact List.mem_map.2 ⟨(p.1, v), (h2 _ _).2 (.field r hr hk hu (hk ▸ hx) hv), rfl⟩
      · push Not at hx
        obtain ⟨⟨k0, d⟩, hd, e⟩ := List.mem_map.1 hx.2
        simp only at e
        subst e
        obtain ⟨v, hv⟩ := Option.isSome_iff_exists.1 (encDyn_isSome (F := F) (ho.extra _ hd))
        refine List.mem_map.2 ⟨(p.1, v), (h2 _ _).2 (.extra r.key d hd ?_ ?_ hv), rfl⟩
        · rw [← hk, sanitize_key hr]
        · intro r' hr' hst hk'
          have := List.inj_on_of_nodup_map (objFields_keys_nodup o.sid) hr' hr hk'
          exact absurd (this ▸ hst) hx.1

/-- C58: a malware with an extended property. -/
example : TypedObj exSample ∧ (∀ r ∈ objFields exSample.sid, Val placed r.ty (exSample.val r.name)) ∧
    (b!"malware", exSample.sid) ∈ goTypes ∧ (b!"malware") ∈ amKeys standard ∧
    (marshalObj F exSample).isSome = true := by
  have hz : ZeroOk placed := ⟨⟨[], rfl⟩, trivial, by simp only [placed, typed]; decide, fun _ => trivial⟩
  refine ⟨exSample_typed, ?_, by decide, by decide +kernel, ?_⟩
  · refine lit_fields hz .Malware exSampleFields fun e he t ht => ?_
    simp only [exSampleFields, List.mem_cons, List.not_mem_nil, or_false] at he
    rcases he with rfl | rfl | rfl | rfl | rfl | rfl
    · obtain rfl : _ = t := Option.some.inj ht; exact ⟨_, rfl, unicode_ascii _ (by decide)⟩
    · obtain rfl : _ = t := Option.some.inj ht; exact ⟨_, rfl, unicode_ascii _ (by decide)⟩
    · obtain rfl : _ = t := Option.some.inj ht; exact ⟨_, rfl, unicode_ascii _ (by decide)⟩
    · obtain rfl : _ = t := Option.some.inj ht
      exact .inr ⟨_, rfl, _, rfl, by simp only [placed, carriable]; decide⟩
    · obtain rfl : _ = t := Option.some.inj ht
      exact .inr ⟨_, rfl, _, rfl, by simp only [placed, carriable]; decide⟩
    · obtain rfl : _ = t := Option.some.inj ht
      exact .inr ⟨_, rfl, fun x hx => ⟨_, List.mem_singleton.1 hx, unicode_ascii _ (by decide)⟩⟩
  · refine (c27_required_partial _ exSample_typed (by decide)).2 fun r hr h hu => ?_
    have := (isUnset_iff (objFields_plain _ r hr) (exSample_typed.fields r hr)).2 hu
    have hall : (objFields exSample.sid).all
        (fun r => r.omitE || !isUnset r.ty (exSample.val r.name)) = true := by decide +kernel
    have := List.all_eq_true.1 hall r hr
    simp_all

/-! ### C59 -/

/-- **C59** (all types but extension definitions).  An object can be written as JSON exactly if the
properties that the standard requires of its type are set, and the three that the library requires.

Missing: identities without a class and marking definitions without a definition cannot be written;
extension definitions are always written. -/
theorem c59_required_partial (o : Obj) (ho : TypedObj o) (hs : o.sid ≠ .ExtensionDefinition) (t : Str)
    (ps : Props) (ht : (t, o.sid) ∈ goTypes) (hps : (t, ps) ∈ standard) :
    (marshalObj F o).isSome = true ↔
      (∀ p ∈ ps, p.2.1 = true → IsSet o p.1) ∧ ∀ k, OverRequired t k → IsSet o k := by
  have hf := standard_fitting ht hps
  rw [c27_required_partial o ho hs]
  constructor
  · intro h
    constructor
    · intro p hp hq
      obtain ⟨r, hr, hk, he⟩ := hf.all p hp
      exact ⟨r, hr, hk, h r hr (he.1 hq).1⟩
    · rintro k ⟨e, he, rfl, hk⟩
      have hx : ∀ e ∈ overRequired, ∀ g ∈ goTypes, g.1 = e.1 → ∀ k ∈ e.2,
          ∃ r ∈ objFields g.2, r.key = k ∧ r.omitE = false := by decide +kernel
      obtain ⟨r, hr, hk, ho'⟩ := hx e he _ ht rfl k hk
      exact ⟨r, hr, hk, h r hr ho'⟩
  · rintro ⟨h1, h2⟩ r hr ho'
    have : IsSet o r.key := by
      rcases hf.required r hr ho' with h | ⟨u, h⟩
      · exact h2 _ h
      · exact h1 _ h rfl
    obtain ⟨r', hr', hk, hu⟩ := this
    have := List.inj_on_of_nodup_map (objFields_keys_nodup o.sid) hr' hr hk
    exact this ▸ hu

/-- C59: the malware of C58, and a malware of which nothing is set. -/
example : (exSample.sid ≠ .ExtensionDefinition ∧ (b!"malware", exSample.sid) ∈ goTypes ∧
      (b!"malware") ∈ amKeys standard) ∧ (marshalObj toy exSample).isSome = true ∧
    marshalObj toy (zeroObj .Malware) = none :=
  ⟨⟨by decide, by decide, by decide +kernel⟩, by decide +kernel,
    Option.isNone_iff_eq_none.1 (by decide +kernel)⟩

/-- A marking definition as in TLP 2.0: no definition but an extension. -/
def exMarking : Json := .obj
  [(b!"type", exText (b!"marking-definition")), (b!"id", exText (exId (b!"marking-definition"))),
   (b!"spec_version", exText (b!"2.1")), (b!"created", exText (b!"2022-10-01T00:00:00.000Z")),
   (b!"name", exText (b!"TLP:CLEAR")),
   (b!"extensions", .obj [(exId (b!"extension-definition"), .obj
     [(b!"extension_type", exText (b!"property-extension")), (b!"tlp_2_0", exText (b!"clear"))])])]

theorem not_unset_of_isUnset {t : Ty} {v : GV} (ht : t.kind = .string ∨ t.kind = .ptr)
    (h : isUnset t v = false) : ¬ Unset t v := by
  rintro hu
  cases t <;> simp [Ty.kind] at ht <;> (try split at ht) <;>
    simp_all [Unset, isUnset, Ty.kind, isZeroOf, isZeroValue, zero]

def exMarkingCheck (c : Coll (Any Empty)) : Bool :=
  match c.get (exId (b!"marking-definition")) with
  | some (.lib o) => (marshalObj toy o).isNone && o.sid == .MarkingDefinition &&
      (standard.all fun e => e.1 != b!"marking-definition" || e.2.all fun p => !p.2.1 ||
        (objFields .MarkingDefinition).any fun r => r.key == p.1 &&
          !isUnset r.ty (o.val r.name) && (r.ty.kind == .string || r.ty.kind == .ptr))
  | _ => false

/-- **C59 is false of the code**: a marking definition with an extension instead of a definition is
read, but cannot be written. -/
theorem c59_marking : ∃ (c : Coll (Any Empty)) (o : Obj),
    fromJSON toy [] (some (.arr [exMarking])) = .ok c ∧
      c.get (exId (b!"marking-definition")) = some (.lib o) ∧ o.sid = .MarkingDefinition ∧
      (∀ ps, (b!"marking-definition", ps) ∈ standard → ∀ p ∈ ps, p.2.1 = true → IsSet o p.1) ∧
      marshalObj toy o = none := by
  have h : (fromJSON (U := Empty) toy [] (some (.arr [exMarking]))).okWith exMarkingCheck = true := by
    decide +kernel
  obtain ⟨c, h1, h2⟩ := Res.okWith_iff.1 h
  unfold exMarkingCheck at h2
  split at h2
  · next o ho =>
    simp only [Bool.and_eq_true, Option.isNone_iff_eq_none, beq_iff_eq] at h2
    refine ⟨c, o, h1, ho, h2.1.2, fun ps hps p hp hq => ?_, h2.1.1⟩
    have := List.all_eq_true.1 h2.2 _ hps
    simp only [bne_self_eq_false, Bool.false_or] at this
    have := List.all_eq_true.1 this p hp
    simp only [hq, Bool.not_true, Bool.false_or] at this
    obtain ⟨r, hr, h3⟩ := List.any_eq_true.1 this
    simp only [Bool.and_eq_true, beq_iff_eq, Bool.not_eq_true'] at h3
    exact ⟨r, h2.1.2 ▸ hr, h3.1.1, not_unset_of_isUnset (by simpa using h3.2) h3.1.2⟩
  · simp at h2

/-- **C59 is false of the code**: an identity without a class, which the standard does not require,
cannot be written. -/
theorem c59_identity (o : Obj) (ho : TypedObj o) (hs : o.sid = .Identity)
    (hc : o.val (b!"Class") = .str []) : marshalObj F o = none := by
  have h := (c27_required_partial (F := F) o ho (by rw [hs]; decide))
  have hx : ∃ r ∈ objFields .Identity, r.name = b!"Class" ∧ r.omitE = false ∧ r.ty.kind = .string := by
    decide +kernel
  obtain ⟨r, hr, hn, ho', ht⟩ := hx
  by_contra hm
  refine h.1 (Option.isSome_iff_ne_none.2 hm) r (hs ▸ hr) ho' ?_
  rw [hn, hc]
  generalize r.ty = u at ht
  cases u <;> simp [Ty.kind] at ht <;> (try split at ht) <;> simp_all [Unset, zero]

end Stix
