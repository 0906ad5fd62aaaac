import Verif.Lemmas.Relay
import Verif.Props.Numbers
import Verif.Props.Text

/-!
# What is received and passed on arrives (C86)
-/

namespace Stix
open Spec StixObject Stix.Canon Stix.Props.Canon
open Spec.Text (WritesNumbers height)

variable {F : Canon.FloatFmt} {U : Type} [UserType U]

theorem properties_named (s : SId) {r : FieldInfo} (hr : r ∈ objFields s) : ∀ c ∈ r.key, NameChar c := by
  have : ∀ s ∈ allSIds, ∀ r ∈ objFields s, ∀ c ∈ r.key, NameChar c := by decide +kernel
  exact this s (mem_allSIds s) r hr

/-- The types of extensions are a list. -/
theorem standard_types_given {ps : List (Str × Bool × STy)} (h : (b!"extension-definition", ps) ∈ standard) :
    ∃ b t, amLookup (b!"extension_types") ps = some (b, .list t) := by
  have : ∀ e ∈ standard, e.1 = b!"extension-definition" → (match amLookup (b!"extension_types") e.2 with
    | some (_, .list _) => true
    | _ => false) = true := by decide +kernel
  have h := this _ h rfl
  split at h
  · next b t e => exact ⟨b, t, e⟩
  · cases h

/-- What is needed of an element of a type of the standard. -/
theorem element_named {T : Str → Str → Prop} {t id : Str} {j : Json} (hk : t ∈ amKeys standard) (h : StixElement T t id j) :
    ∃ ms, j = .obj ms ∧ (∀ e ∈ ms, ∀ c ∈ e.1, NameChar c) ∧ (amKeys ms).Nodup ∧ Text (.obj ms) (b!"type") t ∧
      Text (.obj ms) (b!"id") id ∧ Identifies t id ∧ (t = b!"extension-definition" → ByteFree j) := by
  cases h with
  | custom h => exact absurd hk h
  | @known ps ms u hps hst hnd hty hid hu e' =>
    cases hst with
    | object _ _ k1 k2 k3 =>
      obtain ⟨i1, i2, -⟩ := standard_types _ hps
      refine ⟨ms, rfl, k1, hnd, hty, hid, ⟨i1, i2, _, .inl hu, e'⟩, ?_⟩
      rintro rfl _ e0 e he hf raw s hstr
      cases e0
      have e1 : e.1 = b!"extension_types" := same_plain (k1 e he) (by decide) hf
      obtain ⟨b, t', hl⟩ := standard_types_given hps
      have := k2 e he _ (by rw [e1]; exact hl)
      rw [hstr] at this
      cases this

/-- The type of an extension definition. -/
theorem goTypes_definition {t : Str} (h : (t, SId.ExtensionDefinition) ∈ goTypes) : t = b!"extension-definition" := by
  have : ∀ g ∈ goTypes, g.2 = .ExtensionDefinition → g.1 = b!"extension-definition" := by decide +kernel
  exact this _ h rfl

/-- Leftover names are names of members. -/
theorem leftOver_name {drop : Prop} {l : List Json} {k : Str} {v : Json} (h : LeftOver drop l k v) :
    ∃ ms, Json.obj ms ∈ l ∧ ∃ e ∈ ms, e.1 = k := by
  induction h with
  | here hm _ => exact ⟨_, by simp, _, mem_of_member hm, rfl⟩
  | past _ _ _ ih =>
    obtain ⟨ms, h1, h2⟩ := ih
    exact ⟨ms, by simp [h1], h2⟩

/-- **C86** (objects).  Every object in a collection that was read from a document of STIX 2.1 with objects of
types of the standard is of a Go type of the library and, if it can be written at all, can be sent. -/
theorem c86_sound (hF : ReadsFinite F) (opts : List (CollOption U)) (hn : NoParsers opts) (text : Str) (doc : Json)
    (l : List Json) (ht : Spec.Text.IsText 10000 text doc) (hl : StixDocument doc l)
    (he : ∀ j ∈ l, (∃ t id, t ∈ amKeys standard ∧ StixElement Timestamp t id j) ∧ InYears j)
    (c : Coll (Any U)) (h : fromJSONText F opts text = .ok c) (id : Str) (a : Any U) (ha : c.get id = some a) :
    ∃ o, a = .lib o ∧ (Complete o → Sound o) := by
  have hl' := holds_of_stix hl
  have hw := written_held (written_text ht) hl'
  rw [c52_value opts ht, (c75_shape opts doc).1 l hl', fromJSON_arr, processObjects_ok] at h
  obtain ⟨as, p', hst, rfl⟩ := h
  obtain ⟨e1, e2⟩ := becomes_steps hn peakHas_none hst
  simp only [dropCustom_iff, List.nil_append] at e2
  have hlat := (c01_get_latest _ _ id a).1 ha
  obtain ⟨hacc, hid, hmem⟩ := latest_acceptable hlat
  have hmem : some a ∈ as := by simpa using hmem
  have hk := kept_steps (readOk_carriable hF) (handlers_none hn) hst (fun j hj => ⟨hw j hj, (he j hj).2⟩)
    (fun _ i j o hj ho hs => by
      obtain ⟨⟨t, id', hk, hx⟩, -⟩ := he j (List.mem_of_getElem? hj)
      obtain ⟨ms, rfl, -, -, hty, -, -, hbf⟩ := element_named hk hx
      have hb := (e2 i _ _ hj ho).1
      cases hb with
      | object h5 h6 =>
        rw [hs] at h6
        obtain rfl := goTypes_definition h6
        refine hbf (typedAs_unique_own hty h5).symm) dynMembers_nil a hmem
  obtain ⟨i, hi, ei⟩ := List.mem_iff_getElem.1 hmem
  have hi' : i < l.length := by omega
  have hb := (e2 i l[i] _ (List.getElem?_eq_getElem hi') (by rw [List.getElem?_eq_getElem hi, ei])).1
  obtain ⟨⟨t, id', hkn, hx⟩, -⟩ := he l[i] (List.getElem_mem hi')
  obtain ⟨ms, ej, hnm, hnd, hty, hidt, hident, -⟩ := element_named hkn hx
  rw [ej] at hb
  cases hb with
  | custom h5 h6 =>
    obtain rfl := typedAs_unique_own hty h5
    obtain ⟨e, he', rfl⟩ := List.mem_map.1 hkn
    obtain ⟨-, -, ⟨gt, gs⟩, hg, eg⟩ := standard_types e he'
    simp only at eg
    subst eg
    exact absurd hg (h6 gs)
  | @object _ _ o h5 h6 h7 h8 h9 h10 h11 =>
    obtain rfl := typedAs_unique_own hty h5
    refine ⟨o, rfl, fun hcomp => ?_⟩
    have hk : KeptObj carriable o := hk
    have hlo : ∀ e ∈ extras o, o.sid ≠ .ExtensionDefinition ∧ CollOption.dropCustom ∉ opts ∧
        ∃ v, LeftOver (CollOption.dropCustom ∈ opts) (l.take i ++ [.obj ms]) e.1 v := fun e hm => by
      have hs : o.sid ≠ .ExtensionDefinition := fun hs => by
        rw [hk.2.2 hs] at hm; cases hm
      have hex : Any.extended (U := U) (.lib o) = o.extra := if_neg hs
      have hd : CollOption.dropCustom ∉ opts := fun hd => by
        have := h9 hd
        rw [hex] at this
        simp [extras, this] at hm
      refine ⟨hs, hd, ?_⟩
      obtain ⟨v, hv, -⟩ := (h10 hd hs e.1 e.2).1 (by
        rw [hex]
        exact amLookup_eq_some_of_mem _ _ _ (SortedKeys.nodup hk.2.1.1) hm)
      exact ⟨v, hv⟩
    have htyped : TypedObj o :=
      ⟨fun r hr => carriable_typed (hk.1 r hr), hk.2.1.1, fun e he => carriable_dyn_typed (hk.2.1.2 e he).2⟩
    exact {
      type := by
        obtain ⟨v, ⟨_, e0, hv⟩, raw, rfl⟩ := hty
        cases e0
        rw [lastText_own (by decide) hnm hnd hv] at h8
        rw [show getType o = _ from h8]
        exact h6
      ident := hacc
      fields := hk.1
      required := fun hs => (c27_required_partial (F := F) o htyped hs).1 ((complete_iff htyped).2 hcomp)
      sorted := hk.2.1.1
      extra := hk.2.1.2
      apart := fun e hm => by
        obtain ⟨hs, hd, v, hv⟩ := hlo e hm
        have hta : ¬ TakesAway (CollOption.dropCustom ∈ opts) (l.take i) ms e.1 := by
          obtain ⟨_, e0, h0, -⟩ := leftOver_snoc.1 hv
          cases e0
          exact h0
        refine ⟨fun e0 => hta ⟨hd, _, _, h5, h6, .inr ⟨e0, hs⟩⟩, fun r hr hsame => ?_⟩
        obtain ⟨ms', hm', x, hx', ex⟩ := leftOver_name hv
        have hin : Json.obj ms' ∈ l := by
          rcases List.mem_append.1 hm' with h0 | h0
          · exact List.mem_of_mem_take h0
          · simp only [List.mem_singleton] at h0
            rw [h0, ← ej]
            exact List.getElem_mem hi'
        obtain ⟨⟨t'', id'', hkn', hx''⟩, -⟩ := he _ hin
        obtain ⟨_, e0, hnm', -⟩ := element_named hkn' hx''
        cases e0
        have : e.1 = r.key := same_plain (fun c hc => hnm' x hx' c (by rw [ex]; exact hc)) (properties_named _ hr) hsame
        exact hta ⟨hd, _, _, h5, h6, .inl (by rw [this]; exact List.mem_map_of_mem hr)⟩ }

theorem carriedAll_each {drop : Prop} {earlier os os' : List Obj} (h : CarriedAll drop earlier os os') :
    List.Forall₂ (fun o o' => ∃ before, Spec.Carried drop before o o') os os' := by
  induction h with
  | nil => exact .nil
  | cons h _ ih => exact .cons ⟨_, h⟩ ih

/-- **C86.** A JSON text of a bundle or a list of objects as STIX 2.1 allows them, of types of the standard, is
imported; the collection is bundled and written; and that is imported again.  The second import succeeds and
finds objects under the same identifiers, and only those; each is of the Go type and has the properties of the
one in the first collection, as far as JSON keeps them, and has all of its extended properties, if these are not
dropped; and they are returned in the order in which they were written, the one of the first collection. -/
theorem c86_relay (L : Canon.FloatLaws F) (W : WritesNumbers F) (hI : IntegersParse F) (hF : ReadsFinite F)
    (opts : List (CollOption U)) (hn : NoParsers opts) (text : Str) (doc : Json)
    (l : List Json) (ht : Spec.Text.IsText 10000 text doc) (hl : StixDocument doc l)
    (he : ∀ j ∈ l, (∃ t id, t ∈ amKeys standard ∧ StixElement Timestamp t id j) ∧ InYears j)
    (c : Coll (Any U)) (h : fromJSONText F opts text = .ok c)
    (rnd : List UInt8) (hr : rnd.length = 16) (v : GV) (hb : toBundle F rnd c (.ok v))
    (hh : ∀ out, enc F tyBundle v = some out → height out ≤ 10000)
    (opts' : List (CollOption U)) (hn' : NoParsers opts') :
    ∃ out c', enc F tyBundle v = some out ∧ Spec.Text.IsText 10000 out.raw out ∧ fromJSONText F opts' out.raw = .ok c' ∧
      (∀ id, (c'.get id).isSome = (c.get id).isSome) ∧
      (∀ id a, c.get id = some a → ∃ o o', a = .lib o ∧ c'.get id = some (.lib o') ∧ Survives o o' ∧
        (CollOption.dropCustom ∉ opts' → o.sid ≠ .ExtensionDefinition → ∀ e ∈ extras o, e ∈ extras o')) ∧
      ∃ os : List Obj, c.AllObjects (os.map fun o => some (.lib o)) ∧ (CollOption.noSort ∉ opts' →
        ∀ out', c'.AllObjects out' → ∃ os' : List Obj, out' = os'.map (fun o => some (.lib o)) ∧ os'.map getID = os.map getID) := by
  have hcomp : ∀ id o, c.get id = some (.lib o) → Complete o :=
    (c85_export_partial hF opts hn text c h rnd _ hb).2.1 (by
      obtain ⟨objs, -, e⟩ := hb
      rw [newBundle_eq] at e
      obtain ⟨js, -, hv⟩ := Res.bind_ok_iff.1 e.symm
      simp only [Res.ok.injEq] at hv
      subst hv
      exact ⟨_, _, rfl, enc_bundle rnd js⟩)
  have hsound : ∀ id a, c.get id = some a → ∃ o, a = .lib o ∧ Sound o := fun id a ha => by
    obtain ⟨o, rfl, hs⟩ := c86_sound hF opts hn text doc l ht hl he c h id a ha
    exact ⟨o, rfl, hs (hcomp id o ha)⟩
  obtain ⟨⟨as, rfl⟩, -⟩ := text_kept (readOk_typed hF) hn h fun _ _ h1 h2 => written_held (written_text h1) h2
  obtain ⟨v', out, c', os, os', e, g1, g2, g3, g4, g5, g6, g7, g8⟩ := c36_text_partial L W hI _ as hsound rnd hr _ hb
    (fun v' out e => by cases e; exact hh out) opts' hn'
  cases e
  obtain ⟨bs, hbs, -, hmem⟩ := allObjects_spec _ _ _ g4
  have hin : ∀ id a, ((Coll.new (Config.new opts).noSort).addAll as).get id = some a ↔ ∃ o ∈ os, a = .lib o ∧ getID o = id := by
    intro id a
    rw [hmem id a]
    have : a ∈ bs ↔ ∃ o ∈ os, a = .lib o := by
      have : some a ∈ bs.map some ↔ some a ∈ os.map fun o => some (Any.lib o) := by rw [hbs]
      simpa [eq_comm] using this
    rw [this]
    constructor
    · rintro ⟨⟨o, ho, rfl⟩, hid⟩; exact ⟨o, ho, rfl, hid⟩
    · rintro ⟨o, ho, rfl, hid⟩; exact ⟨⟨o, ho, rfl⟩, hid⟩
  have hmap : ∀ id, (∃ o' ∈ os', getID o' = id) ↔ ∃ o ∈ os, getID o = id := fun id => by
    have : id ∈ os'.map getID ↔ id ∈ os.map getID := by rw [g6]
    simpa using this
  refine ⟨out, c', g1, g2, g3, fun id => ?_, fun id a ha => ?_, os, g4, fun hs out' ho => ⟨os', (g8 hs out').1 ho, g6⟩⟩
  · rw [Bool.eq_iff_iff, Option.isSome_iff_exists, Option.isSome_iff_exists]
    simp only [g7, hin]
    constructor
    · rintro ⟨_, o', h1, -, h2⟩
      obtain ⟨o, h1, h2⟩ := (hmap id).1 ⟨o', h1, h2⟩
      exact ⟨_, o, h1, rfl, h2⟩
    · rintro ⟨_, o', h1, -, h2⟩
      obtain ⟨o, h1, h2⟩ := (hmap id).2 ⟨o', h1, h2⟩
      exact ⟨_, o, h1, rfl, h2⟩
  · obtain ⟨o, ho, rfl, hid⟩ := (hin id a).1 ha
    obtain ⟨i, hi, ei⟩ := List.mem_iff_getElem.1 ho
    have hf := carriedAll_each g5
    have hi' : i < os'.length := by rw [← hf.length_eq]; exact hi
    obtain ⟨before, hc⟩ := (List.forall₂_iff_get.1 hf).2 i hi hi'
    simp only [List.get_eq_getElem, ei] at hc
    have hid' : getID os'[i] = id := by
      have : (os'.map getID)[i]? = (os.map getID)[i]? := by rw [g6]
      simp only [List.getElem?_map, List.getElem?_eq_getElem hi, List.getElem?_eq_getElem hi', Option.map_some,
        Option.some.injEq, ei] at this
      rw [this, hid]
    refine ⟨o, os'[i], rfl, (g7 id _).2 ⟨_, List.getElem_mem hi', rfl, hid'⟩, hc.survives, fun hd hs e hm => ?_⟩
    exact (hc.exact hd hs e).2 (.inl ⟨hs, hm⟩)

/-- **C86** with nothing assumed of the reader and writer of numbers. -/
theorem c86_strconv (opts : List (CollOption U)) (hn : NoParsers opts) (text : Str) (doc : Json)
    (l : List Json) (ht : Spec.Text.IsText 10000 text doc) (hl : StixDocument doc l)
    (he : ∀ j ∈ l, (∃ t id, t ∈ amKeys standard ∧ StixElement Timestamp t id j) ∧ InYears j)
    (c : Coll (Any U)) (h : fromJSONText strconv opts text = .ok c)
    (rnd : List UInt8) (hr : rnd.length = 16) (v : GV) (hb : toBundle strconv rnd c (.ok v))
    (hh : ∀ out, enc strconv tyBundle v = some out → height out ≤ 10000)
    (opts' : List (CollOption U)) (hn' : NoParsers opts') :
    ∃ out c', enc strconv tyBundle v = some out ∧ Spec.Text.IsText 10000 out.raw out ∧
      fromJSONText strconv opts' out.raw = .ok c' ∧
      (∀ id, (c'.get id).isSome = (c.get id).isSome) ∧
      (∀ id a, c.get id = some a → ∃ o o', a = .lib o ∧ c'.get id = some (.lib o') ∧ Survives o o' ∧
        (CollOption.dropCustom ∉ opts' → o.sid ≠ .ExtensionDefinition → ∀ e ∈ extras o, e ∈ extras o')) ∧
      ∃ os : List Obj, c.AllObjects (os.map fun o => some (.lib o)) ∧ (CollOption.noSort ∉ opts' →
        ∀ out', c'.AllObjects out' → ∃ os' : List Obj, out' = os'.map (fun o => some (.lib o)) ∧ os'.map getID = os.map getID) :=
  c86_relay Strconv.strconv_laws Strconv.strconv_writes Strconv.strconv_integers (fun _ _ => strconv_finite) opts hn text doc l
    ht hl he c h rnd hr v hb hh opts' hn'

/-- A directory with the time it was made at. -/
def exMadeText : Str :=
  b!"[{\"type\":\"directory\",\"id\":\"directory--00000000-0000-4000-8000-000000000000\",\"path\":\"C\",\"ctime\":\"2016-12-31T23:59:59Z\"}]"

/-- It. -/
def exMade : Json := exDirectory (b!"2016-12-31T23:59:59Z") (b!"2016-12-31T23:59:59Z")

theorem inYears_strings {j : Json} (h : ∀ raw dec, Inside (.str raw dec) j →
    (match timestampUnmarshal (.str raw raw) with
      | .ok t => decide (0 ≤ t.ns ∧ t.ns < endOfYears)
      | _ => true) = true) : InYears j := by
  intro raw dec hi x h1 h2 h3
  have := h raw dec hi
  rw [((c55_exact raw raw).1 _).2 ⟨x, h1, h2, h3, rfl⟩] at this
  simpa using this

set_option maxRecDepth 20000 in
theorem exMade_inYears : InYears exMade := by
  refine inYears_strings fun raw dec hi => ?_
  have leaf : ∀ {a b}, Inside (.str raw dec) (.str a b) → raw = a := fun h => by cases h; rfl
  cases hi with
  | member he h =>
    simp only [List.mem_cons, List.not_mem_nil, or_false] at he
    rcases he with rfl | rfl | rfl | rfl <;> rw [leaf h] <;> decide +kernel

/-- The first sixteen random bytes. -/
def exSevens : List UInt8 := List.replicate 16 7

def exMadeCheck (c : Coll (Any Empty)) : Bool :=
  c.noSort == false && c.order.length != 0 &&
    (newBundle strconv exSevens (c.order.map c.get)).okWith fun v =>
      match enc strconv tyBundle v with
      | some out => decide (height out ≤ 10000) &&
        (fromJSONText (U := Empty) strconv [] out.raw).okWith fun c' =>
          match c'.get (b!"directory--00000000-0000-4000-8000-000000000000") with
          | some (.lib o) => o.getStr (b!"Path") == b!"C"
          | _ => false
      | none => false

set_option maxRecDepth 20000 in
/-- C86: the directory is received, and passed on. -/
example : ∃ (l : List Json) (c : Coll (Any Empty)) (v : GV), Spec.Text.IsText 10000 exMadeText (.arr l) ∧
    StixDocument (.arr l) l ∧
    (∀ j ∈ l, (∃ t id, t ∈ amKeys standard ∧ StixElement Timestamp t id j) ∧ InYears j) ∧
    fromJSONText strconv [] exMadeText = .ok c ∧ toBundle strconv exSevens c (.ok v) ∧
    ∀ out, enc strconv tyBundle v = some out → height out ≤ 10000 := by
  have h : (fromJSONText (U := Empty) strconv [] exMadeText).okWith exMadeCheck = true := by
    decide +kernel
  obtain ⟨c, h1, h2⟩ := Res.okWith_iff.1 h
  simp only [exMadeCheck, Bool.and_eq_true, beq_iff_eq, bne_iff_ne, Res.okWith_iff] at h2
  obtain ⟨⟨h3, h4⟩, v, h5, h6⟩ := h2
  refine ⟨[exMade], c, v, (Text.parse_iff _ _).1 rfl, .array _, ?_, h1, ⟨_, ?_, h5.symm⟩, fun out ho => ?_⟩
  · simp only [List.mem_singleton, forall_eq]
    refine ⟨⟨_, _, by decide +kernel, exDirectory_element _ _ _ ?_⟩, exMade_inYears⟩
    exact ⟨⟨2016, 12, 31, 23, 59, 59, [], .utc⟩, by constructor <;> first | rfl | decide, rfl⟩
  · rw [Coll.AllObjects, if_pos ⟨h3, h4⟩]
  · rw [ho] at h6
    simp only [Bool.and_eq_true, decide_eq_true_eq] at h6
    exact h6.1

end Stix
