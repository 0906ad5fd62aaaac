import Verif.Spec.Export
import Verif.Lemmas.HeldObj
import Verif.Props.Accept
import Verif.Props.Standard
import Verif.Props.Bundle

/-!
# What was received can be passed on (C85)
-/

namespace Stix
open Spec StixObject Stix.Canon Stix.Props.Canon

variable {F : Canon.FloatFmt} {U : Type} [UserType U]

theorem goTypes_sid (s : SId) : s ∈ goTypes.map Prod.snd := by
  have : ∀ s ∈ allSIds, s ∈ goTypes.map Prod.snd := by decide +kernel
  exact this s (mem_allSIds s)

/-- An object with values of the types of its properties is written exactly if it is complete. -/
theorem complete_iff {o : Obj} (ho : TypedObj o) : (marshalObj F o).isSome = true ↔ Complete o := by
  by_cases hs : o.sid = .ExtensionDefinition
  · obtain ⟨ms, h, -⟩ := c27_extensionDefinition_partial (F := F) o ho hs
    exact ⟨fun _ => .inl hs, fun _ => by rw [h]; rfl⟩
  · constructor
    · exact fun h => .inr fun t ps ht hps => (c59_required_partial o ho hs t ps ht hps).1 h
    · rintro (h | h)
      · exact absurd h hs
      · obtain ⟨⟨t, s⟩, hg, e⟩ := List.mem_map.1 (goTypes_sid o.sid)
        simp only at e
        subst e
        obtain ⟨⟨t', ps⟩, hp, e⟩ := List.mem_map.1 (goTypes_standard _ hg)
        simp only at e
        subst e
        exact (c59_required_partial o ho hs _ ps hg hp).2 (h _ ps hg hp)

theorem typedObj_of_kept {o : Obj} (h : KeptObj typed o) : TypedObj o where
  fields r hr := h.1 r hr
  sorted := h.2.1.1
  extra e he := (h.2.1.2 e he).2

/-- What is in a collection that was read from JSON text. -/
theorem text_kept {P : Leaves} {T : Json → Prop} (hF : ReadOk F false P T) {opts : List (CollOption U)}
    (hn : NoParsers opts) {text : Str} {c : Coll (Any U)} (h : fromJSONText F opts text = .ok c)
    (ht : ∀ doc l, Spec.Text.IsText 10000 text doc → Holds doc l → ∀ j ∈ l, T j) :
    (∃ as, c = (Coll.new (Config.new opts).noSort).addAll as) ∧
    ∀ id a, c.get id = some a → Acceptable a ∧ Kept P a := by
  obtain ⟨doc, l, h1, h2, h3⟩ := c75_text opts text c h
  rw [fromJSON_arr] at h3
  refine ⟨?_, fun id a ha => ⟨(processObjects_mem h3 ha).1, kept_get hF (handlers_none hn) (ht doc l h1 h2) h3 ha⟩⟩
  obtain ⟨as, p', -, e⟩ := processObjects_ok.1 h3
  exact ⟨_, e⟩

/-- **C85** (values).  Every property of an object that was read from JSON text has a value of its type. -/
theorem c85_values (hF : ReadsFinite F) (opts : List (CollOption U)) (hn : NoParsers opts) (text : Str) (c : Coll (Any U))
    (h : fromJSONText F opts text = .ok c) (id : Str) (o : Obj) (ho : c.get id = some (.lib o)) : TypedObj o :=
  typedObj_of_kept ((text_kept (readOk_typed hF) hn h fun _ _ h1 h2 => written_held (written_text h1) h2).2 id _ ho).2

/-- **C85**, as far as it holds: what was read from JSON text can be bundled and written exactly if the
objects in it are complete; and bundling does not crash.

Missing: that they are; see `c85_false`. -/
theorem c85_export_partial (hF : ReadsFinite F) (opts : List (CollOption U)) (hn : NoParsers opts) (text : Str)
    (c : Coll (Any U)) (h : fromJSONText F opts text = .ok c) (rnd : List UInt8) (b : Res GV) (hb : toBundle F rnd c b) :
    b ≠ .panic ∧ ((∃ v doc, b = .ok v ∧ enc F tyBundle v = some doc) ↔ ∀ id o, c.get id = some (.lib o) → Complete o) := by
  obtain ⟨⟨as, rfl⟩, hk⟩ := text_kept (readOk_typed hF) hn h fun _ _ h1 h2 => written_held (written_text h1) h2
  obtain ⟨objs, hobjs, rfl⟩ := hb
  obtain ⟨bs, rfl, -, h2⟩ := allObjects_spec _ _ objs hobjs
  have hmem : ∀ a, some a ∈ bs.map some → Kept typed a ∧ Acceptable a := fun a ha => by
    have ha : a ∈ bs := by simpa using ha
    obtain ⟨k1, k2⟩ := hk _ a ((h2 (getID a) a).2 ⟨ha, rfl⟩)
    exact ⟨k2, k1⟩
  rw [newBundle_eq]
  constructor
  · have := bundleObjects_noPanic (F := F) (bs.map some) fun a ha => by
      obtain ⟨k1, k2⟩ := hmem a ha
      cases a with
      | lib o => rfl
      | custom m =>
        simp only [Any.idPanics, decide_eq_false_iff_not]
        intro e
        obtain ⟨-, -, u, -, hid⟩ := k2
        simp [getID, e] at hid
      | user u x => exact absurd k1 id
    intro e
    cases hb : bundleObjects F (bs.map some) with
    | ok js => rw [hb] at e; cases e
    | err e' => rw [hb] at e; cases e
    | panic => exact this hb
  · constructor
    · rintro ⟨v, doc, e, -⟩ id o ho
      obtain ⟨js, hj, -⟩ := Res.bind_ok_iff.1 e
      have ho' := (h2 id _).1 ho
      refine (complete_iff (F := F) (typedObj_of_kept (hmem (.lib o) (by simpa using ho'.1)).1)).1 ?_
      have hE := (bundleObjects_ok _ _).1 hj
      unfold Encodings at hE
      rw [List.forall₂_map_left_iff] at hE
      obtain ⟨i, hi, e1⟩ := List.mem_iff_getElem.1 ho'.1
      have := (List.forall₂_iff_get.1 hE).2 i hi (by rw [← hE.length_eq]; exact hi)
      simp only [List.get_eq_getElem, e1] at this
      rcases this with ⟨e, -⟩ | ⟨a, e, hm⟩
      · cases e
      · cases e
        rw [show marshalObj F o = _ from hm]
        rfl
    · intro hall
      obtain ⟨js, hj⟩ := bundleObjects_total (F := F) (bs.map some) fun a ha => by
        obtain ⟨k1, -⟩ := hmem a ha
        cases a with
        | lib o => exact (complete_iff (typedObj_of_kept k1)).2 (hall _ o ((h2 _ _).2 ⟨by simpa using ha, rfl⟩))
        | custom m =>
          cases m with
          | none => rfl
          | some m => exact encDyn_isSome (dynMembers_iff.2 k1)
        | user u x => exact absurd k1 id
      exact ⟨_, _, by rw [hj]; rfl, enc_bundle rnd js⟩

/-- **C85** with nothing assumed; missing is what is missing in `c85_export_partial`. -/
theorem c85_strconv_partial (opts : List (CollOption U)) (hn : NoParsers opts) (text : Str)
    (c : Coll (Any U)) (h : fromJSONText strconv opts text = .ok c) (rnd : List UInt8) (b : Res GV)
    (hb : toBundle strconv rnd c b) :
    b ≠ .panic ∧ ((∃ v doc, b = .ok v ∧ enc strconv tyBundle v = some doc) ↔
      ∀ id o, c.get id = some (.lib o) → Complete o) :=
  c85_export_partial (fun _ _ => strconv_finite) opts hn text c h rnd b hb

/-- The text of an identity without a class. -/
def exNoClassText : Str :=
  b!"[{\"type\":\"identity\",\"spec_version\":\"2.1\",\"id\":\"identity--00000000-0000-4000-8000-000000000000\",\"created\":\"2016-12-31T23:59:59.000Z\",\"modified\":\"2016-12-31T23:59:59.000Z\",\"name\":\"A\"}]"

/-- The identity. -/
def exNoClass : Json :=
  .obj [(b!"type", exText (b!"identity")), (b!"spec_version", exText (b!"2.1")),
    (b!"id", exText (b!"identity--00000000-0000-4000-8000-000000000000")),
    (b!"created", exText (b!"2016-12-31T23:59:59.000Z")), (b!"modified", exText (b!"2016-12-31T23:59:59.000Z")),
    (b!"name", exText (b!"A"))]

set_option maxRecDepth 8000 in
theorem exNoClass_element :
    StixElement PlainTimestamp (b!"identity") (b!"identity--00000000-0000-4000-8000-000000000000") exNoClass := by
  obtain ⟨ps, hps, h1, h2, h3, h4, h5, h6, h7⟩ : ∃ ps, amLookup (b!"identity") standard = some ps ∧
      amLookup (b!"type") ps = some (true, .text) ∧ amLookup (b!"id") ps = some (true, .text) ∧
      amLookup (b!"spec_version") ps = some (true, .text) ∧ amLookup (b!"created") ps = some (true, .time) ∧
      amLookup (b!"modified") ps = some (true, .time) ∧ amLookup (b!"name") ps = some (true, .text) ∧
      ∀ p ∈ ps, p.2.1 = true → p.1 ∈ [b!"type", b!"spec_version", b!"id", b!"created", b!"modified", b!"name"] :=
    ⟨_, rfl, rfl, rfl, rfl, rfl, rfl, rfl, by decide⟩
  have ht : PlainTimestamp (b!"2016-12-31T23:59:59.000Z") (b!"2016-12-31T23:59:59.000Z") :=
    ⟨rfl, ⟨2016, 12, 31, 23, 59, 59, [0, 0, 0], .utc⟩, by constructor <;> first | rfl | decide, by decide, rfl⟩
  refine .known (u := b!"00000000-0000-4000-8000-000000000000") (mem_of_amLookup _ _ _ hps) (.object _ _ ?_ ?_ ?_) ?_
    ⟨_, ⟨_, rfl, rfl⟩, _, rfl⟩ ⟨_, ⟨_, rfl, rfl⟩, _, rfl⟩ canonZeros rfl
  · simp only [List.forall_mem_cons, List.not_mem_nil, false_imp_iff, implies_true, and_true]
    decide
  · simp only [List.forall_mem_cons, List.not_mem_nil, false_imp_iff, implies_true, and_true, h1, h2, h3, h4, h5, h6,
      Option.some.injEq, forall_eq']
    exact ⟨.text _ _, .text _ _, .text _ _, .time _ _ ht, .time _ _ ht, .text _ _⟩
  · intro p hp hr
    have := h7 p hp hr
    simp only [List.mem_cons, List.not_mem_nil, or_false] at this
    rcases this with e | e | e | e | e | e <;> simp [amKeys, e]
  · simp only [amKeys, List.map_cons, List.map_nil]
    decide

def exNoClassCheck (c : Coll (Any Empty)) : Bool :=
  match c.get (b!"identity--00000000-0000-4000-8000-000000000000") with
  | some (.lib o) => (marshalObj strconv o).isNone
  | _ => false

set_option maxRecDepth 20000 in
/-- **C85** is false: an identity as STIX 2.1 allows it, without a class, is imported and can never be
exported. -/
theorem c85_false : ∃ (text : Str) (l : List Json) (c : Coll (Any Empty)), Spec.Text.IsText 10000 text (.arr l) ∧
    StixDocument (.arr l) l ∧ (∀ j ∈ l, ∃ t id, StixElement PlainTimestamp t id j) ∧
    fromJSONText strconv [] text = .ok c ∧ ∀ rnd b, toBundle strconv rnd c b → ∃ e, b = .err e := by
  have h : (fromJSONText (U := Empty) strconv [] exNoClassText).okWith exNoClassCheck = true := by
    decide +kernel
  obtain ⟨c, h1, h2⟩ := Res.okWith_iff.1 h
  refine ⟨exNoClassText, [exNoClass], c, (Text.parse_iff _ _).1 rfl, .array _, ?_, h1, fun rnd b hb => ?_⟩
  · simp only [List.mem_singleton, forall_eq]
    exact ⟨_, _, exNoClass_element⟩
  · obtain ⟨g1, g2⟩ := c85_strconv_partial [] (by simp [NoParsers]) _ c h1 rnd b hb
    unfold exNoClassCheck at h2
    split at h2
    · next o ho =>
      have ht := c85_values (fun _ _ => strconv_finite) [] (by simp [NoParsers]) _ c h1 _ o ho
      have hno : ¬ Complete o := fun hc => by
        rw [← complete_iff (F := strconv) ht] at hc
        simp only [Option.isNone_iff_eq_none] at h2
        rw [h2] at hc
        cases hc
      cases b with
      | ok v =>
        refine absurd (g2.1 ⟨v, ?_⟩ _ o ho) hno
        obtain ⟨objs, -, e⟩ := hb
        rw [newBundle_eq] at e
        obtain ⟨js, -, hv⟩ := Res.bind_ok_iff.1 e.symm
        simp only [Res.ok.injEq] at hv
        subst hv
        exact ⟨_, rfl, enc_bundle rnd js⟩
      | err e => exact ⟨e, rfl⟩
      | panic => exact absurd rfl g1
    · simp at h2

def exBundleCheck (c : Coll (Any Empty)) : Bool :=
  (c.get (b!"directory--00000000-0000-4000-8000-000000000000")).isSome &&
    (c.get (b!"x-y--00000000-0000-4000-8000-000000000000")).isSome

/-- The bundle of `Props/Accept.lean` is read, with both objects. -/
example : ∃ c : Coll (Any Empty), fromJSONText strconv [] exBundleText = .ok c ∧ exBundleCheck c = true :=
  Res.okWith_iff.1 (by decide +kernel)

end Stix
