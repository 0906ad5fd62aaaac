import Verif.Lemmas.Marshal
import Verif.Lemmas.Literal

/-!
# What serialisation emits (C27)
-/

namespace Stix
open Spec

variable {F : Canon.FloatFmt}

/-- Types without one of the common structs. -/
theorem baseOf_none {s : SId} (h : baseOf s = .none) (hm : hasMarshalHelper s = true) :
    s = .MarkingDefinition ∨ s = .LanguageContent := by
  have : ∀ s ∈ allSIds, baseOf s = .none → hasMarshalHelper s = true →
    s = .MarkingDefinition ∨ s = .LanguageContent := by decide +kernel
  exact this s (mem_allSIds s) h hm

/-- Only extension definitions have no `MarshalJSON`. -/
theorem hasMarshalHelper_iff (s : SId) : hasMarshalHelper s = true ↔ s ≠ .ExtensionDefinition := by
  have : ∀ s ∈ allSIds, hasMarshalHelper s = true ↔ s ≠ .ExtensionDefinition := by decide +kernel
  exact this s (mem_allSIds s)

theorem objFields_none {s : SId} (h : baseOf s = .none) : objFields s = (ownFields s).toList := by
  simp [objFields, h, baseFields, Fields.toList]

theorem objectToMap_eq {o : Obj} (hb : baseOf o.sid ≠ .none) : objectToMap o =
    (fieldsToMap o.val (baseFields (baseOf o.sid)).toList []).bind fun m =>
      fieldsToMap o.val (ownFields o.sid).toList (addExtra o.extra m) := by
  unfold objectToMap
  cases h : baseOf o.sid <;> simp_all

theorem objectToMap_eq_none {o : Obj} (hb : baseOf o.sid = .none) (hm : hasMarshalHelper o.sid = true) :
    objectToMap o =
      (fieldsToMap o.val (objFields o.sid) []).map (addExtra o.extra) := by
  unfold objectToMap
  rw [hb, objFields_none hb]
  simp only [if_pos (baseOf_none hb hm)]

theorem objectToMap_fails {o : Obj} (hm : hasMarshalHelper o.sid = true) :
    objectToMap o = none ↔
      ∃ r ∈ objFields o.sid, r.omitE = false ∧ isUnset r.ty (o.val r.name) = true := by
  by_cases hb : baseOf o.sid = .none
  · rw [objectToMap_eq_none hb hm, Option.map_eq_none_iff, fieldsToMap_none]
  · rw [objectToMap_eq hb, objFields]
    simp only [List.mem_append, or_and_right, exists_or]
    rw [← fieldsToMap_none (m := [])]
    cases h : fieldsToMap o.val (baseFields (baseOf o.sid)).toList [] with
    | none => simp
    | some m => simp only [Option.bind_some, fieldsToMap_none]; simp

/-- What the map holds. -/
inductive InMap (o : Obj) (k : Str) : MV → Prop
  | field (r : FieldInfo) : r ∈ objFields o.sid → r.key = k → isUnset r.ty (o.val r.name) = false →
      (Strong o.sid r ∨ k ∉ amKeys (extras o)) → InMap o k (.typed r.ty (o.val r.name))
  | extra (d : Dyn) : (k, d) ∈ extras o →
      (∀ r ∈ objFields o.sid, Strong o.sid r → r.key = k → isUnset r.ty (o.val r.name) = true) →
      InMap o k (.extra d)

theorem objectToMap_lookup {o : Obj} (hm : hasMarshalHelper o.sid = true)
    (hx : SortedKeys (extras o)) {m : List (Str × MV)} (h : objectToMap o = some m) :
    SortedKeys m ∧ ∀ k mv, (k, mv) ∈ m ↔ InMap o k mv := by
  have hk := objFields_keys_nodup o.sid
  have main : SortedKeys m → (∀ k mv, amLookup k m = some mv ↔ InMap o k mv) →
      SortedKeys m ∧ ∀ k mv, (k, mv) ∈ m ↔ InMap o k mv := fun h1 h2 =>
    ⟨h1, fun k mv => by rw [← h2]; exact (amLookup_eq_some_iff _ _ _ h1.nodup).symm⟩
  by_cases hb : baseOf o.sid = .none
  · rw [objectToMap_eq_none hb hm, Option.map_eq_some_iff] at h
    obtain ⟨m0, h0, rfl⟩ := h
    obtain ⟨l1, l2⟩ := fieldsToMap_lookup hk h0
    refine main (addExtra_sorted (fieldsToMap_sorted h0 sortedKeys_nil)) fun k mv => ?_
    rw [addExtra_lookup hx]
    have hst : ∀ r, ¬ Strong o.sid r := fun r hr => hr.1 hb
    cases hd : amLookup k (o.extra.getD []) with
    | some d =>
      simp only [Option.some.injEq]
      constructor
      · rintro rfl
        exact .extra d (mem_of_amLookup _ _ _ hd) fun r _ hr => absurd hr (hst r)
      · intro hi
        cases hi with
        | field r h1 h2 h3 h4 =>
          rcases h4 with h4 | h4
          · exact absurd h4 (hst r)
          · exact absurd (List.mem_map_of_mem (f := Prod.fst) (mem_of_amLookup _ _ _ hd)) h4
        | extra d' h1 h2 =>
          have := amLookup_eq_some_of_mem _ _ _ hx.nodup h1
          rw [extras, hd] at this
          rw [Option.some.inj this]
    | none =>
      have hnk : k ∉ amKeys (extras o) := (amLookup_eq_none_iff _ _).1 hd
      constructor
      · intro hl
        by_cases hr : ∃ r ∈ objFields o.sid, r.key = k ∧ isUnset r.ty (o.val r.name) = false
        · obtain ⟨r, hr, rfl, hu⟩ := hr
          rw [l1 r hr hu] at hl
          rw [← Option.some.inj hl]
          exact .field r hr rfl hu (.inr hnk)
        · rw [l2 k fun r hr' e => by
            cases hu : isUnset r.ty (o.val r.name) with
            | true => rfl
            | false => exact absurd ⟨r, hr', e, hu⟩ hr] at hl
          simp [amLookup] at hl
      · intro hi
        cases hi with
        | field r h1 h2 h3 h4 => rw [← h2]; exact l1 r h1 h3
        | extra d' h1 h2 => exact absurd (List.mem_map_of_mem (f := Prod.fst) h1) hnk
  · rw [objectToMap_eq hb, Option.bind_eq_some_iff] at h
    obtain ⟨m0, h0, h1⟩ := h
    rw [objFields, List.map_append] at hk
    obtain ⟨kb, ko, kd⟩ := List.nodup_append.1 hk
    obtain ⟨b1, b2⟩ := fieldsToMap_lookup kb h0
    obtain ⟨o1, o2⟩ := fieldsToMap_lookup ko h1
    have hs0 := fieldsToMap_sorted h0 sortedKeys_nil
    refine main (fieldsToMap_sorted h1 (addExtra_sorted hs0)) fun k mv => ?_
    have hmem : ∀ r, r ∈ objFields o.sid ↔
        r ∈ (baseFields (baseOf o.sid)).toList ∨ r ∈ (ownFields o.sid).toList := by
      intro r; rw [objFields, List.mem_append]
    by_cases hr : ∃ r ∈ (ownFields o.sid).toList, r.key = k ∧ isUnset r.ty (o.val r.name) = false
    · obtain ⟨r, hr, rfl, hu⟩ := hr
      rw [o1 r hr hu]
      constructor
      · intro e
        rw [← Option.some.inj e]
        exact .field r ((hmem r).2 (.inr hr)) rfl hu (.inl ⟨hb, hr⟩)
      · intro hi
        cases hi with
        | field r' g1 g2 g3 g4 =>
          rcases (hmem r').1 g1 with g | g
          · exact absurd g2 (kd _ (List.mem_map_of_mem g) _ (List.mem_map_of_mem hr))
          · rw [inj_of_nodup ko g hr g2]
        | extra d g1 g2 =>
          have := g2 r ((hmem r).2 (.inr hr)) ⟨hb, hr⟩ rfl
          rw [hu] at this
          simp at this
    · have hun : ∀ r ∈ (ownFields o.sid).toList, r.key = k → isUnset r.ty (o.val r.name) = true := by
        intro r hr' e
        cases hu : isUnset r.ty (o.val r.name) with
        | true => rfl
        | false => exact absurd ⟨r, hr', e, hu⟩ hr
      rw [o2 k hun, addExtra_lookup hx]
      cases hd : amLookup k (o.extra.getD []) with
      | some d =>
        simp only [Option.some.injEq]
        constructor
        · rintro rfl
          exact .extra d (mem_of_amLookup _ _ _ hd) fun r _ hs e => hun r hs.2 e
        · intro hi
          cases hi with
          | field r g1 g2 g3 g4 =>
            rcases g4 with g4 | g4
            · rw [hun r g4.2 g2] at g3; simp at g3
            · exact absurd (List.mem_map_of_mem (f := Prod.fst) (mem_of_amLookup _ _ _ hd)) g4
          | extra d' g1 g2 =>
            have := amLookup_eq_some_of_mem _ _ _ hx.nodup g1
            rw [extras, hd] at this
            rw [Option.some.inj this]
      | none =>
        have hnk : k ∉ amKeys (extras o) := (amLookup_eq_none_iff _ _).1 hd
        constructor
        · intro hl
          clear hr
          by_cases hr : ∃ r ∈ (baseFields (baseOf o.sid)).toList, r.key = k ∧
              isUnset r.ty (o.val r.name) = false
          · obtain ⟨r, hr', rfl, hu⟩ := hr
            rw [b1 r hr' hu] at hl
            rw [← Option.some.inj hl]
            exact .field r ((hmem r).2 (.inl hr')) rfl hu (.inr hnk)
          · rw [b2 k fun r hr' e => by
              cases hu : isUnset r.ty (o.val r.name) with
              | true => rfl
              | false => exact absurd ⟨r, hr', e, hu⟩ hr] at hl
            simp [amLookup] at hl
        · intro hi
          cases hi with
          | field r g1 g2 g3 g4 =>
            rcases (hmem r).1 g1 with g | g
            · rw [← g2]; exact b1 r g g3
            · rw [hun r g g2] at g3; simp at g3
          | extra d' g1 g2 => exact absurd (List.mem_map_of_mem (f := Prod.fst) g1) hnk

/-- Names of fields are plain text. -/
theorem sanitize_key {s : SId} {r : FieldInfo} (h : r ∈ objFields s) : sanitize r.key = r.key := by
  have : ∀ s ∈ allSIds, ∀ r ∈ objFields s, sanitize r.key = r.key := by decide +kernel
  exact this s (mem_allSIds s) r h

/-- **C27.** An object of a type other than extension definition is marshalled exactly when each of
its required properties is set. -/
theorem c27_required_partial (o : Obj) (ho : TypedObj o) (hs : o.sid ≠ .ExtensionDefinition) :
    (marshalObj F o).isSome = true ↔
      ∀ r ∈ objFields o.sid, r.omitE = false → ¬ Unset r.ty (o.val r.name) := by
  have hm := (hasMarshalHelper_iff o.sid).2 hs
  simp only [marshalObj, hm, if_true]
  cases h : objectToMap o with
  | none =>
    obtain ⟨r, h1, h2, h3⟩ := (objectToMap_fails hm).1 h
    simp only [Option.bind_none, Option.isSome_none, Bool.false_eq_true, false_iff]
    intro hc
    exact hc r h1 h2 ((isUnset_iff (objFields_plain _ r h1) (ho.fields r h1)).1 h3)
  | some m =>
    obtain ⟨h1, h2⟩ := objectToMap_lookup hm ho.sorted h
    have : (encEntries (encMV F) m).isSome = true := by
      refine encEntries_isSome fun e he => ?_
      have := (h2 e.1 e.2).1 he
      obtain ⟨k, mv⟩ := e
      cases this with
      | field r g1 => exact enc_isSome (ho.fields r g1)
      | extra d g1 => exact encDyn_isSome (ho.extra _ g1)
    simp only [Option.bind_some, Option.isSome_map, this, true_iff]
    intro r hr ho' hu
    have : objectToMap o = none := (objectToMap_fails hm).2
      ⟨r, hr, ho', (isUnset_iff (objFields_plain _ r hr) (ho.fields r hr)).2 hu⟩
    rw [h] at this
    simp at this

/-- **C27.** The output has a member for each set property and each boolean one, under its name, and
one for each extended property, and nothing else.  An extended property takes precedence over a
common property of the same name, a property of the type over an extended one. -/
theorem c27_members_partial (o : Obj) (ho : TypedObj o) (hs : o.sid ≠ .ExtensionDefinition)
    (j : Json) (h : marshalObj F o = some j) :
    ∃ ms, j = .obj ms ∧ (∀ k v, (k, v) ∈ ms ↔ Shown F o k v) ∧
      ((∀ e ∈ extras o, Canon.Unicode e.1) → (amKeys ms).Nodup) := by
  have hm := (hasMarshalHelper_iff o.sid).2 hs
  simp only [marshalObj, hm, if_true, Option.bind_eq_some_iff, Option.map_eq_some_iff] at h
  obtain ⟨m, h0, ms, h1, rfl⟩ := h
  obtain ⟨h2, h3⟩ := objectToMap_lookup hm ho.sorted h0
  have h4 := encEntries_some h1
  refine ⟨ms, rfl, fun k v => ⟨fun hk => ?_, fun hk => ?_⟩, fun hu => ?_⟩
  · obtain ⟨⟨k0, mv⟩, he, e1, e2⟩ := forall₂_mem_right h4 hk
    simp only at e1 e2
    have hi := (h3 k0 mv).1 he
    cases hi with
    | field r g1 g2 g3 g4 =>
      subst g2
      rw [sanitize_key g1] at e1
      subst e1
      refine .field r g1 rfl (fun hu => ?_) g4 e2
      rw [(isUnset_iff (objFields_plain _ r g1) (ho.fields r g1)).2 hu] at g3
      simp at g3
    | extra d g1 g2 =>
      exact .extra k0 d g1 e1 (fun r hr hst e =>
        (isUnset_iff (objFields_plain _ r hr) (ho.fields r hr)).1 (g2 r hr hst e)) e2
  · cases hk with
    | field r g1 g2 g3 g4 g5 =>
      have hi : InMap o k (.typed r.ty (o.val r.name)) := .field r g1 g2 (by
        cases hu : isUnset r.ty (o.val r.name) with
        | false => rfl
        | true => exact absurd ((isUnset_iff (objFields_plain _ r g1) (ho.fields r g1)).1 hu) g3) g4
      obtain ⟨⟨k1, v1⟩, hx, e1, e2⟩ := forall₂_mem_left h4 ((h3 _ _).2 hi)
      simp only [encMV] at e1 e2
      rw [g5] at e2
      rw [← g2, sanitize_key g1, g2] at e1
      rw [Option.some.inj e2, ← e1]
      exact hx
    | extra k0 d g1 g2 g3 g4 =>
      have hi : InMap o k0 (.extra d) := .extra d g1 fun r hr hst e =>
        (isUnset_iff (objFields_plain _ r hr) (ho.fields r hr)).2 (g3 r hr hst e)
      obtain ⟨⟨k1, v1⟩, hx, e1, e2⟩ := forall₂_mem_left h4 ((h3 _ _).2 hi)
      simp only [encMV] at e1 e2
      rw [g4] at e2
      rw [Option.some.inj e2, g2, ← e1]
      exact hx
  · have hk : amKeys ms = amKeys m := by
      have hsan : ∀ e ∈ m, sanitize e.1 = e.1 := by
        rintro ⟨k, mv⟩ he
        have hi := (h3 k mv).1 he
        cases hi with
        | field r g1 g2 => rw [← g2]; exact sanitize_key g1
        | extra d g1 => exact sanitize_unicode (hu _ g1)
      clear h0 h1 h2 h3
      induction h4 with
      | nil => rfl
      | cons a b ih =>
        simp only [amKeys, List.map_cons]
        rw [a.1, hsan _ (by simp)]
        congr 1
        exact ih fun e he => hsan e (by simp [he])
    rw [hk]
    exact h2.nodup

/-- **C27.** An extension definition is always marshalled, whether or not its required properties are
set.  There is a member for each required property and for each optional one that is not blank,
and nothing else. -/
theorem c27_extensionDefinition_partial (o : Obj) (ho : TypedObj o)
    (hs : o.sid = .ExtensionDefinition) :
    ∃ ms, marshalObj F o = some (.obj ms) ∧ (amKeys ms).Nodup ∧ ∀ k j, (k, j) ∈ ms ↔
      ∃ r ∈ objFields o.sid, r.key = k ∧ (r.omitE && Blank (o.val r.name)) = false ∧
        enc F r.ty (o.val r.name) = some j := by
  have hb : baseOf o.sid = .none := by rw [hs]; rfl
  have hm : hasMarshalHelper o.sid = false := by rw [hs]; rfl
  have ho' := ho.fields
  have hk := objFields_keys_nodup o.sid
  rw [objFields_none hb] at ho' hk ⊢
  obtain ⟨js, h1, h2, h3⟩ := encFields_spec (F := F) (ownFields o.sid) o.val fun r hr _ =>
    Option.isSome_iff_exists.1 (enc_isSome (ho' r hr))
  refine ⟨js, by simp only [marshalObj, hm, Bool.false_eq_true, if_false, h1, Option.map_some],
    h2.nodup hk, fun k j => ?_⟩
  simpa only [isEmptyValue_eq] using h3 k j

/-- **C27 does not hold.** An extension definition with none of its required properties set is
marshalled. -/
theorem c27_false : ∃ o : Obj, TypedObj o ∧ (marshalObj F o).isSome = true ∧
    ∃ r ∈ objFields o.sid, r.omitE = false ∧ Unset r.ty (o.val r.name) := by
  have ht : TypedObj (zeroObj .ExtensionDefinition) :=
    ⟨lit_fields typed_zeroOk .ExtensionDefinition [] (by simp), sortedKeys_nil, by simp [extras, zeroObj]⟩
  refine ⟨zeroObj .ExtensionDefinition, ht, ?_, ⟨b!"Name", b!"name", false, .str (b!"string")⟩, ?_, rfl, ?_⟩
  · obtain ⟨ms, h, -⟩ := c27_extensionDefinition_partial (F := F) _ ht rfl
    rw [h]; rfl
  · rw [show (zeroObj .ExtensionDefinition).sid = .ExtensionDefinition from rfl,
      objFields_none (by rfl)]
    simp [ownFields, fieldsExtensionDefinition, mkFields_toList]
  · simp only [Unset]
    rfl

/-! ### Example -/

/-- Its listed fields. -/
def exSampleFields : List (Str × GV) :=
  [(b!"Type", .str (b!"malware")), (b!"ID", .str (b!"malware--31b940d4-6f7f-459a-80ea-9c1f17b5891b")),
   (b!"SpecVersion", .str (b!"2.1")), (b!"Created", gvTime ⟨63000000000000000000, 0⟩),
   (b!"Modified", gvTime ⟨63000000000000000000, 0⟩), (b!"Aliases", .slice (some [.str (b!"x")]))]

/-- A malware with a required string, a required false boolean and an optional list, and an extended
property. -/
def exSample : Obj :=
  { Obj.lit .Malware exSampleFields with extra := some [(b!"rank", .num 0)] }

theorem exSample_typed : TypedObj exSample where
  fields := by
    refine lit_fields typed_zeroOk .Malware exSampleFields fun e he t ht => ?_
    simp only [exSampleFields, List.mem_cons, List.not_mem_nil, or_false] at he
    rcases he with rfl | rfl | rfl | rfl | rfl | rfl
    · obtain rfl : _ = t := Option.some.inj ht; exact ⟨_, rfl, trivial⟩
    · obtain rfl : _ = t := Option.some.inj ht; exact ⟨_, rfl, trivial⟩
    · obtain rfl : _ = t := Option.some.inj ht; exact ⟨_, rfl, trivial⟩
    · obtain rfl : _ = t := Option.some.inj ht; exact .inr ⟨_, rfl, _, rfl, trivial⟩
    · obtain rfl : _ = t := Option.some.inj ht; exact .inr ⟨_, rfl, _, rfl, trivial⟩
    · obtain rfl : _ = t := Option.some.inj ht
      exact .inr ⟨_, rfl, fun x hx => ⟨_, List.mem_singleton.1 hx, trivial⟩⟩
  sorted := by simp [extras, exSample, SortedKeys]
  extra := by
    intro e he
    obtain rfl : e = (b!"rank", .num 0) := by simpa [extras, exSample] using he
    show F64Finite 0
    decide

/-- It meets the hypotheses, and its required properties are set. -/
example : exSample.sid ≠ .ExtensionDefinition ∧ (marshalObj F exSample).isSome = true := by
  refine ⟨by decide, (c27_required_partial _ exSample_typed (by decide)).2 fun r hr h hu => ?_⟩
  have := (isUnset_iff (objFields_plain _ r hr) (exSample_typed.fields r hr)).2 hu
  have hall : (objFields exSample.sid).all
      (fun r => r.omitE || !isUnset r.ty (exSample.val r.name)) = true := by decide +kernel
  have := List.all_eq_true.1 hall r hr
  simp_all

end Stix
