import Verif.Lemmas.Process
import Verif.Props.Canon

/-!
# Parsing documents (C06, C31, C32, C49)
-/

namespace Stix
open Spec StixObject Stix.Canon Stix.Props.Canon

variable {F : Canon.FloatFmt} {U : Type} [UserType U]

/-! ## C31 -/

/-- **C31.** A bundle and the bare array of its objects are parsed alike, whatever the options. -/
theorem c31_bundle_array (opts : List (CollOption U)) (doc : Json) (l : List Json)
    (h : IsBundle doc l) : fromJSON F opts (some doc) = fromJSON F opts (some (.arr l)) := by
  rw [fromJSON_bundle opts h, fromJSON_arr]

/-- **C31.** A bundle without objects is an empty array. -/
theorem c31_no_objects (opts : List (CollOption U)) (ms : List (Str × Json))
    (hn : ∀ k ∈ amKeys ms, ¬ SameUpToCase k (b!"objects"))
    (ht : ∀ k v, (k, v) ∈ ms → SameUpToCase k (b!"type") ∨ SameUpToCase k (b!"id") →
      ∃ s, IsText v s) :
    fromJSON F opts (some (.obj ms)) = fromJSON F opts (some (.arr [])) := by
  rw [fromJSON_arr]
  have hrow : ∀ {r : FieldInfo}, r ∈ fieldsBundle.toList → ∀ cur j,
      decField F fieldsBundle r.name cur j = dec F r.ty cur j :=
    fun hr cur j => decField_row bundle_nodup.1 hr cur j
  have hf : fieldsBundle.toList = [⟨b!"Type", b!"type", false, .str (b!"STIXType")⟩,
      ⟨b!"ID", b!"id", false, .str (b!"Identifier")⟩,
      ⟨b!"Objects", b!"objects", true, .slice .raw⟩] := rfl
  have key : ∀ (ms : List (Str × Json)) (cur : Str → GV), cur (b!"Objects") = .slice none →
      (∀ k ∈ amKeys ms, ¬ SameUpToCase k (b!"objects")) →
      (∀ k v, (k, v) ∈ ms → SameUpToCase k (b!"type") ∨ SameUpToCase k (b!"id") → ∃ s, IsText v s) →
      ∃ g, decStruct fieldsBundle.toList (decField F fieldsBundle) cur ms = .ok g false ∧
        g (b!"Objects") = .slice none := by
    intro ms
    induction ms with
    | nil => intro cur hc _ _; exact ⟨cur, rfl, hc⟩
    | cons e ms ih =>
      obtain ⟨k, j⟩ := e
      intro cur hc hn ht
      have hn' : ∀ k ∈ amKeys ms, ¬ SameUpToCase k (b!"objects") :=
        fun k hk => hn k (List.mem_cons_of_mem _ hk)
      have ht' := fun k v (hk : (k, v) ∈ ms) => ht k v (List.mem_cons_of_mem _ hk)
      simp only [decStruct]
      cases hm : matchKey fieldsBundle.toList k with
      | none => exact ih cur hc hn' ht'
      | some r =>
        have hfold := matchKey_fold hm
        have hr := matchKey_mem hm
        have hr' := hr
        rw [hf] at hr'
        simp only [List.mem_cons, List.not_mem_nil, or_false] at hr'
        have hno := hn k (by simp [amKeys])
        have htx : ∃ s, IsText j s := by
          refine ht k j (by simp) ?_
          rcases hr' with rfl | rfl | rfl
          · exact .inl hfold
          · exact .inr hfold
          · exact absurd hfold hno
        obtain ⟨s, raw, rfl⟩ := htx
        have hname : r.name ≠ b!"Objects" ∧ dec F r.ty (cur r.name) (.str raw s) = .ok (.str s) false := by
          rcases hr' with rfl | rfl | rfl
          · exact ⟨by decide, by simp only [dec]⟩
          · exact ⟨by decide, by simp only [dec]⟩
          · exact absurd hfold hno
        simp only
        rw [hrow hr, hname.2]
        obtain ⟨g, g1, g2⟩ := ih (fun x => if x = r.name then .str s else cur x)
          (by simp [hname.1.symm, hc]) hn' ht'
        exact ⟨g, by simp [D.bind, g1], g2⟩
  obtain ⟨g, g1, g2⟩ := key ms (zeroFields fieldsBundle) (by rfl) hn ht
  have h1 : dec F tyBundle (zero tyBundle) (.obj ms) = .ok (.struct g) false := by
    simp only [tyBundle, dec, zero, g1, D.bind]
    rfl
  simp only [fromJSON, h1, D.res]
  rw [g2]
  rfl

/-! ## C49 and C06: which Go type an object has -/

theorem dynOf_str {j : Json} {s : Str} (h : dynOf F j = .str s) : IsText j s := by
  cases j with
  | str raw s' => simp [dynOf, decDyn] at h; exact ⟨raw, by rw [h]⟩
  | null => simp [dynOf, decDyn] at h
  | bool b => simp [dynOf, decDyn] at h
  | num l => simp only [dynOf, decDyn] at h; split at h <;> simp_all; split at * <;> simp_all
  | arr l =>
    obtain ⟨d, s, hd⟩ := decDynArr_total (F := F) l
    simp [dynOf, decDyn, hd, D.bind] at h
  | obj l =>
    obtain ⟨d, s, hd⟩ := decDynObj_total (F := F) l []
    simp [dynOf, decDyn, hd, D.bind] at h

theorem not_acceptable_of_empty {a : Any U} (h : getType a = []) : ¬ Acceptable a := by
  intro ha
  exact ha.1 h

/-- What is made of an element, if it ends up in the collection. -/
theorem parseOne_type {cfg : Config U} {p p' : Peak} {j : Json} {a : Any U}
    (h : parseOne F cfg p j = .ok (p', some a)) (ha : Acceptable a)
    (hn : ∀ t, cfg.handlers t = none) (hv : NoVariant j (b!"type")) :
    Text j (b!"type") (getType a) ∧
    ((∃ o, a = .lib o ∧ (getType a, o.sid) ∈ goTypes) ∨
      (cfg.dropCustom = false ∧ ∃ m, a = .custom m ∧ ∀ s, (getType a, s) ∉ goTypes)) := by
  obtain ⟨ms, typ, rfl, ht, hk⟩ := parseOne_builtin h
  rw [amLookup_dynMerge] at ht
  rcases hk (hn typ) with ⟨s, o, h1, h2, h3, _⟩ | ⟨h1, h2, rfl⟩
  · obtain ⟨o', rfl⟩ := core_lib h3
    simp only [core, Any.lib.injEq] at h3
    have hgt : getType (.lib o' : Any U) = o.getStr (b!"Type") := by rw [← h3]; rfl
    have hsid : o'.sid = s := by
      have := (decObj_ok h2).1
      rw [← h3] at this
      exact this
    obtain ⟨_, r, hr, hn1, hk1, hty⟩ := id_type_rows s
    obtain ⟨t1, t2⟩ := decObj_text h2 hr hty (by rw [hk1]; exact hv)
    rw [hk1, hn1] at t1 t2
    cases hm : member (b!"type") ms with
    | none =>
      refine absurd ha (not_acceptable_of_empty ?_)
      rw [hgt, Obj.getStr, t2 hm]
      have : ∀ s ∈ allSIds, (match (zeroObj s).val (b!"Type") with
        | .str s => s
        | _ => []) = [] := by decide +kernel
      exact this s (mem_allSIds s)
    | some v =>
      rw [hm] at ht
      simp only [Option.some.injEq] at ht
      obtain ⟨raw, rfl⟩ := dynOf_str ht
      have : getType (.lib o' : Any U) = typ := by rw [hgt, Obj.getStr, t1 raw typ hm]
      rw [this, ]
      exact ⟨⟨_, ⟨ms, rfl, hm⟩, raw, rfl⟩, .inl ⟨o', rfl, by rw [hsid]; exact (dispatch_mem _ _).1 h1⟩⟩
  · have hl := amLookup_dynMerge (F := F) (b!"type") [] ms
    cases hm : member (b!"type") ms with
    | none =>
      rw [hm] at hl
      refine absurd ha (not_acceptable_of_empty ?_)
      simp [getType, customText, hl, amLookup]
    | some v =>
      rw [hm] at hl ht
      simp only [Option.some.injEq] at ht hl
      rw [ht] at hl
      obtain ⟨raw, rfl⟩ := dynOf_str ht
      have : getType (.custom (some (dynMerge F [] ms)) : Any U) = typ := by
        simp [getType, customText, hl]
      rw [this]
      exact ⟨⟨_, ⟨ms, rfl, hm⟩, raw, rfl⟩, .inr ⟨h2, _, rfl, (dispatch_none typ).1 h1⟩⟩

/-- **C49.** An object the parser has made of a document has the Go type that belongs to its type
property, or is a `CustomObject` if none does; and its type property is the `type` member of an
element of the document. -/
theorem c49_go_type (opts : List (CollOption U)) (hn : NoParsers opts) (doc : Json) (l : List Json)
    (hl : Lists doc l) (hv : ∀ j ∈ l, NoVariant j (b!"type")) (c : Coll (Any U))
    (h : fromJSON F opts (some doc) = .ok c) (id : Str) (a : Any U) (ha : c.get id = some a) :
    (∃ j ∈ l, Text j (b!"type") (getType a)) ∧
    (∀ s, (getType a, s) ∈ goTypes → ∃ o, a = .lib o ∧ o.sid = s) ∧
    ((∀ s, (getType a, s) ∉ goTypes) → ∃ m, a = .custom m) := by
  rw [fromJSON_lists opts hl] at h
  obtain ⟨h1, h2, j, hj, p1, p2, h3⟩ := processObjects_mem h ha
  obtain ⟨ht, hk⟩ := parseOne_type h3 h1 (handlers_none hn) (hv j hj)
  refine ⟨⟨j, hj, ht⟩, ?_, ?_⟩
  · intro s hs
    rcases hk with ⟨o, rfl, ho⟩ | ⟨_, m, rfl, hm⟩
    · refine ⟨o, rfl, ?_⟩
      have a1 := amLookup_eq_some_of_mem _ _ _ goTypes_nodup.1 hs
      have a2 := amLookup_eq_some_of_mem _ _ _ goTypes_nodup.1 ho
      rw [a1] at a2
      exact (Option.some.inj a2).symm
    · exact absurd hs (hm s)
  · intro hs
    rcases hk with ⟨o, rfl, ho⟩ | ⟨_, m, rfl, hm⟩
    · exact absurd ho (hs _)
    · exact ⟨m, rfl⟩

/-- **C49.** Different types have different Go types, and every Go type of the library has a
type. -/
theorem c49_bijective : (amKeys goTypes).Nodup ∧ (goTypes.map Prod.snd).Nodup ∧
    ∀ s : SId, ∃ t, (t, s) ∈ goTypes := by
  refine ⟨goTypes_nodup.1, goTypes_nodup.2, fun s => ?_⟩
  have : ∀ s ∈ allSIds, s ∈ goTypes.map Prod.snd := by decide +kernel
  obtain ⟨⟨t, s'⟩, h1, rfl⟩ := List.mem_map.1 (this s (mem_allSIds s))
  exact ⟨t, h1⟩

/-- **C49.** An element with a type of its own is not overlooked: if a document of one element is
accepted, the collection has an object of that type, unless the element is custom and dropped. -/
theorem c49_present (opts : List (CollOption U)) (hn : NoParsers opts) (j : Json) (t : Str)
    (ht : Text j (b!"type") t) (hv : NoVariant j (b!"type")) (c : Coll (Any U))
    (h : fromJSON F opts (some (.arr [j])) = .ok c)
    (hk : (∃ s, (t, s) ∈ goTypes) ∨ CollOption.dropCustom ∉ opts) :
    ∃ id a, c.get id = some a ∧ getType a = t ∧ ∀ id' a', c.get id' = some a' → a' = a := by
  obtain ⟨p, a, h1, h2, h3⟩ := fromJSON_single.1 h
  cases a with
  | none =>
    exfalso
    obtain ⟨v, ⟨ms, rfl, hm⟩, raw, rfl⟩ := ht
    unfold parseOne at h1
    obtain ⟨q, h4, h5⟩ := Res.bind_ok_iff.1 h1
    rw [D.res_ok_iff, decCustom_obj] at h4
    simp only [D.ok.injEq] at h4
    obtain ⟨rfl, _⟩ := h4
    have hlook : amLookup (b!"type") ((some (dynMerge F (Option.getD none []) ms)).getD []) = some (.str t) := by
      simp [amLookup_dynMerge, hm, dynOf, decDyn]
    rw [hlook] at h5
    simp only at h5
    obtain ⟨a', h6, h7⟩ := Res.bind_ok_iff.1 h5
    have hnone := handlers_none hn t
    simp only [newObject, hnone] at h6
    cases hd : amLookup t dispatchTable with
    | some s =>
      rw [hd] at h6
      simp only [Res.ok.injEq] at h6
      subst h6
      simp only at h7
      obtain ⟨a2, h8, h9⟩ := Res.bind_ok_iff.1 h7
      split at h9 <;> simp at h9
    | none =>
      rw [hd] at h6
      have : (Config.new opts).dropCustom = false := by
        rcases hk with ⟨s, hs⟩ | hk
        · exact absurd hs ((dispatch_none t).1 hd s)
        · rw [← Bool.not_eq_true, dropCustom_iff]; exact hk
      rw [this] at h6
      simp only [Bool.false_eq_true, if_false, Res.ok.injEq] at h6
      subst h6
      simp only at h7
      obtain ⟨a2, h8, h9⟩ := Res.bind_ok_iff.1 h7
      split at h9 <;> simp at h9
  | some a =>
    obtain ⟨hp, hacc⟩ := h2 a rfl
    obtain ⟨ht', _⟩ := parseOne_type h1 hacc (handlers_none hn) hv
    subst h3
    refine ⟨getID a, a, (c01_get_latest _ _ _ _).2 ⟨[], [], rfl, hacc, rfl, by simp⟩, ?_, ?_⟩
    · obtain ⟨v, ⟨ms, rfl, hm⟩, raw, rfl⟩ := ht
      obtain ⟨v', ⟨ms', e, hm'⟩, raw', rfl⟩ := ht'
      simp only [Json.obj.injEq] at e
      subst e
      rw [hm] at hm'
      simp only [Option.some.injEq, Json.str.injEq] at hm'
      exact hm'.2.symm
    · intro id' a' hg
      have := (latest_acceptable ((c01_get_latest _ _ _ _).1 hg)).2.2
      simpa using this

/-! ## C32 -/

/-- **C32.** With `DropCustomOption`, whatever is in the collection is an object of a type of the
library, without extended top-level properties, or comes from the user's parser for a type. -/
theorem c32_drop_custom (opts : List (CollOption U)) (hd : CollOption.dropCustom ∈ opts)
    (doc : Option Json) (c : Coll (Any U)) (h : fromJSON F opts doc = .ok c) (id : Str) (a : Any U)
    (ha : c.get id = some a) :
    (∃ o t, a = .lib o ∧ o.extra = none ∧ (t, o.sid) ∈ goTypes ∧ NoParser opts t) ∨
    (∃ t f j a₀, ParserFor opts t f ∧ f j = .ok (some a₀) ∧
      decAny F j (some a₀) = .ok (some a) false) := by
  obtain ⟨l, h⟩ := fromJSON_ok h
  obtain ⟨h1, h2, j, hj, p1, p2, h3⟩ := processObjects_mem h ha
  have hdr := (dropCustom_iff opts).2 hd
  obtain ⟨ms, typ, a0, a1, rfl, hs, ht, h4, h5, h6⟩ := parseOne_some h3
  rw [if_pos hdr] at h6
  simp only [Prod.mk.injEq, Option.some.injEq] at h6
  obtain ⟨_, rfl⟩ := h6
  cases hh : (Config.new opts).handlers typ with
  | some f =>
    refine .inr ⟨typ, f, .obj ms, a0, (handlers_iff _ _ _).1 hh, ?_, h5⟩
    simp only [newObject, hh] at h4
    obtain ⟨x, h7, h8⟩ := Res.bind_ok_iff.1 h4
    simp only [Res.ok.injEq, Option.some.injEq] at h8
    rw [h7, h8]
  | none =>
    left
    simp only [newObject, hh, hdr, if_true] at h4
    cases hd : amLookup typ dispatchTable with
    | none => rw [hd] at h4; simp at h4
    | some s =>
      rw [hd] at h4
      simp only [Res.ok.injEq, Option.some.injEq] at h4
      subst h4
      simp only [decAny, D.bind_ok_iff, D.ok.injEq, Option.some.injEq, and_true] at h5
      obtain ⟨o, h7, rfl⟩ := h5
      obtain ⟨e1, e2⟩ := decObj_ok h7
      refine ⟨o, typ, rfl, e2, ?_, (noParser_iff _ _).2 hh⟩
      rw [e1]
      exact (dispatch_mem _ _).1 hd

/-! ## C06 -/

/-- **C06** (singular getters; objects whose `type` has no case variant).  The getter does not
panic and returns what `Get` returns, if that has the getter's type, else nil. -/
theorem c06_singular_partial (opts : List (CollOption U)) (hn : NoParsers opts) (doc : Json)
    (l : List Json) (hl : Lists doc l) (hv : ∀ j ∈ l, NoVariant j (b!"type")) (c : Coll (Any U))
    (h : fromJSON F opts (some doc) = .ok c) (name typ : Str) (s : SId)
    (hg : (name, typ, s) ∈ singularGetters) (id : Str) :
    ∃ r, getTyped c typ s id = .ok r ∧
      ∀ o, r = some o ↔ ∃ a, c.get id = some a ∧ getType a = typ ∧ a = .lib o := by
  have htab : ∀ e ∈ singularGetters, (e.2.1, e.2.2) ∈ goTypes := by decide +kernel
  have hgo : (typ, s) ∈ goTypes := htab _ hg
  obtain ⟨as, _, hst, rfl⟩ := processObjects_ok.1 ((fromJSON_lists opts hl) ▸ h)
  have inv := collInv_addAll (Config.new opts).noSort (as.filterMap _root_.id)
  have hget := fun x => inv.get id x
  simp only [getTyped]
  cases hobj : Coll.getObject ((Coll.new (Config.new opts).noSort).addAll (as.filterMap _root_.id)) typ id with
  | none =>
    refine ⟨none, rfl, fun o => ⟨by simp, ?_⟩⟩
    rintro ⟨a, h1, h2, h3⟩
    have := (inv.lookup typ id a).2 ⟨(hget a).1 h1, h2⟩
    rw [hobj] at this
    simp at this
  | some a =>
    obtain ⟨hlat, hty⟩ := (inv.lookup typ id a).1 hobj
    obtain ⟨_, hkind, _⟩ := c49_go_type opts hn doc l hl hv _ h id a ((hget a).2 hlat)
    obtain ⟨o, rfl, ho⟩ := hkind s (by rw [hty]; exact hgo)
    refine ⟨some o, by simp [assertLib, ho, Res.bind], fun o' => ?_⟩
    constructor
    · rintro e
      simp only [Option.some.injEq] at e
      subst e
      exact ⟨_, (hget _).2 hlat, hty, rfl⟩
    · rintro ⟨a, h1, h2, rfl⟩
      have := latest_unique hlat ((hget _).1 h1)
      simpa using this

omit [UserType U] in
theorem assertAll_lib {s : SId} {l : List (Any U)} (h : ∀ a ∈ l, ∃ o, a = .lib o ∧ o.sid = s) :
    ∃ os, assertAll s l = .ok os ∧ os.map Any.lib = l := by
  induction l with
  | nil => exact ⟨[], rfl, rfl⟩
  | cons a l ih =>
    obtain ⟨o, rfl, ho⟩ := h a (by simp)
    obtain ⟨os, h1, h2⟩ := ih (fun a ha => h a (by simp [ha]))
    exact ⟨o :: os, by simp [assertAll, assertLib, ho, Res.bind, h1], by simp [h2]⟩

/-- **C06** (plural getters; objects whose `type` has no case variant).  The getter does not panic
and its results are those of `GetAll`, in some order. -/
theorem c06_plural_partial (opts : List (CollOption U)) (hn : NoParsers opts) (doc : Json)
    (l : List Json) (hl : Lists doc l) (hv : ∀ j ∈ l, NoVariant j (b!"type")) (c : Coll (Any U))
    (h : fromJSON F opts (some doc) = .ok c) (name typ : Str) (s : SId)
    (hg : (name, typ, s) ∈ pluralGetters) (r : Res (List Obj)) (hr : GetAllTyped c typ s r) :
    ∃ os, r = .ok os ∧ ∀ all, c.GetAll typ all → (os.map Any.lib).Perm (all.getD []) := by
  have htab : ∀ e ∈ pluralGetters, (e.2.1, e.2.2) ∈ goTypes := by decide +kernel
  have hgo : (typ, s) ∈ goTypes := htab _ hg
  obtain ⟨as, _, hst, hc⟩ := processObjects_ok.1 ((fromJSON_lists opts hl) ▸ h)
  have inv := collInv_addAll (Config.new opts).noSort (as.filterMap _root_.id)
  rw [← hc] at inv
  obtain ⟨vs, hvs, rfl⟩ := hr
  have hall : ∃ all, c.GetAll typ all ∧ (vs.map Prod.snd) = all.getD [] := by
    unfold Coll.GetAll
    cases hb : amLookup typ c.objects with
    | none =>
      rw [hb] at hvs
      have : vs = [] := by simpa [Coll.Iter] using hvs
      exact ⟨none, rfl, by simp [this]⟩
    | some b => rw [hb] at hvs; exact ⟨_, ⟨vs, hvs, rfl⟩, rfl⟩
  obtain ⟨all, hall, hvall⟩ := hall
  rw [hvall]
  obtain ⟨os, h1, h2⟩ := assertAll_lib (s := s) (l := all.getD []) (by
    intro a ha
    cases all with
    | none => simp at ha
    | some lst =>
      have hg5 := ((c05_getAll _ _ typ _ (hc ▸ hall)).2 lst rfl).2 a
      obtain ⟨hlat, hty⟩ := hg5.1 ha
      have := (inv.get (getID a) a).2 hlat
      obtain ⟨_, hkind, _⟩ := c49_go_type opts hn doc l hl hv _ h _ a this
      exact hkind s (by rw [hty]; exact hgo))
  refine ⟨os, h1, fun all' hall' => ?_⟩
  rw [h2]
  have := c03_getAll _ _ _ typ all all' (hc ▸ hall) (hc ▸ hall')
  cases all with
  | none => rw [this.1.1 rfl]
  | some x =>
    cases all' with
    | none => exact absurd (this.1.2 rfl) (by simp)
    | some y => exact this.2 x y rfl rfl

/-- A text. -/
def exText (s : Str) : Json := .str s s

/-- A UUID. -/
def exId (t : Str) : Str := t ++ b!"--00abedb4-aa42-466c-9c01-fed23315a9b7"

/-- `{"type": "malware", "Type": "tool", "id": "tool--…"}` -/
def exVariant : Json := .obj [(b!"type", exText (b!"malware")), (b!"Type", exText (b!"tool")),
  (b!"id", exText (exId (b!"tool")))]

/-- **C06 is false** when a member differs from `type` in case only: the document is accepted, and
`Tool(id)` panics. -/
theorem c06_variant_panics : ∃ c : Coll (Any Empty),
    fromJSON toy [] (some (.arr [exVariant])) = .ok c ∧
      getTyped c TypeTool .Tool (exId (b!"tool")) = .panic := by
  have h : (fromJSON (U := Empty) toy [] (some (.arr [exVariant]))).okWith
      (fun c => (getTyped c TypeTool .Tool (exId (b!"tool"))).isPanic) = true := by decide +kernel
  obtain ⟨c, h1, h2⟩ := Res.okWith_iff.1 h
  exact ⟨c, h1, Res.isPanic_iff.1 h2⟩

/-! ## The hypotheses can be met -/

/-- A malware object, an object of an unknown type and one without a type. -/
def exObjects : List Json :=
  [.obj [(b!"type", exText (b!"malware")), (b!"id", exText (exId (b!"malware"))),
      (b!"is_family", .bool true), (b!"x_note", exText (b!"hello"))],
   .obj [(b!"type", exText (b!"x-thing")), (b!"id", exText (exId (b!"x-thing")))],
   .null]

/-- A bundle of them. -/
def exBundle : Json := .obj [(b!"type", exText (b!"bundle")), (b!"id", exText (exId (b!"bundle"))),
  (b!"spec_version", exText (b!"2.0")), (b!"objects", .arr exObjects)]

theorem noVariant_of {ms : List (Str × Json)} {k : Str}
    (h : ∀ x ∈ amKeys ms, foldName x = foldName k → x = k) : NoVariant (.obj ms) k := by
  intro ms' e
  simp only [Json.obj.injEq] at e
  exact e ▸ h

theorem exBundle_isBundle : IsBundle exBundle exObjects where
  distinct := by
    intro ms e
    simp only [exBundle, Json.obj.injEq] at e
    subst e
    decide
  objects := ⟨_, rfl, rfl⟩
  typ := by
    rintro v ⟨ms, e, h⟩
    simp only [exBundle, Json.obj.injEq] at e
    subst e
    exact ⟨_, _, (Option.some.inj h).symm⟩
  id := by
    rintro v ⟨ms, e, h⟩
    simp only [exBundle, Json.obj.injEq] at e
    subst e
    exact ⟨_, _, (Option.some.inj h).symm⟩
  noVariant := ⟨noVariant_of (by decide), noVariant_of (by decide), noVariant_of (by decide)⟩

theorem exObjects_noVariant : ∀ j ∈ exObjects, NoVariant j (b!"type") := by
  intro j hj
  simp only [exObjects, List.mem_cons, List.not_mem_nil, or_false] at hj
  rcases hj with rfl | rfl | rfl
  · exact noVariant_of (by decide)
  · exact noVariant_of (by decide)
  · intro ms e; simp at e

/-- C31, C49, C06: a bundle with three objects, one of them of an unknown type, that is accepted;
`Malware` finds its object. -/
example : IsBundle exBundle exObjects ∧ (∀ j ∈ exObjects, NoVariant j (b!"type")) ∧
    (fromJSON (U := Empty) toy [.noSort] (some exBundle)).okWith (fun c =>
      (getTyped c TypeMalware .Malware (exId (b!"malware"))).okWith Option.isSome) = true :=
  ⟨exBundle_isBundle, exObjects_noVariant, by decide +kernel⟩

/-- C32: the same with `DropCustomOption`: the object of unknown type is gone. -/
example : (fromJSON (U := Empty) toy [.dropCustom] (some exBundle)).okWith (fun c =>
      (c.get (exId (b!"malware"))).isSome && (c.get (exId (b!"x-thing"))).isNone) = true ∧
    (fromJSON (U := Empty) toy [] (some exBundle)).okWith (fun c =>
      (c.get (exId (b!"malware"))).isSome && (c.get (exId (b!"x-thing"))).isSome) = true :=
  ⟨by decide +kernel, by decide +kernel⟩

end Stix
