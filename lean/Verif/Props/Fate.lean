import Verif.Lemmas.Fate

/-!
# What becomes of a document (C76)
-/

namespace Stix
open Spec StixObject Stix.Canon Stix.Props.Canon

variable {F : Canon.FloatFmt} {U : Type} [UserType U]

theorem decObj_fate (s : SId) (ms : List (Str × Json)) (hw : Written (.obj ms)) :
    (decObj F (zeroObj s) (.obj ms)).fate = inOrder (ms.map fun e => fateMember F (mkFields (objFields s)) e.1 e.2) := by
  simp only [decObj, D.fate_map]
  have := decFields_fate (F := F) (fs := mkFields (objFields s)) (by rw [mkFields_toList]; exact objFields_names_nodup _)
    (objFields_apart s).2 ms (zeroObj s).val fun e he f hf c =>
      decRow_fate _ f e.2 (objFields_apart s).1 (hw.obj e he) hf c
  rw [mkFields_toList] at this
  exact this

/-- A property that is a text gets that of the last member for it. -/
theorem decStruct_lastText {fs : List FieldInfo} {d : Str → GV → Json → D GV} {f : FieldInfo}
    (hn : (fs.map FieldInfo.name).Nodup) (hk : (fs.map fun f => foldName f.key).Nodup) (hf : f ∈ fs)
    (hs : ∀ c raw x, d f.name c (.str raw x) = .ok (.str x) false) (hnull : ∀ c, d f.name c .null = .ok c false)
    (hoth : ∀ c j v, d f.name c j = .ok v false → j = .null ∨ ∃ raw x, j = .str raw x) :
    ∀ (ms : List (Str × Json)) (cur g : Str → GV) (x : Str), cur f.name = .str x →
      decStruct fs d cur ms = .ok g false → g f.name = .str ((lastText f.key ms).getD x)
  | [], cur, g, x, hc, h => by
    simp only [decStruct, D.ok.injEq, and_true] at h
    rw [← h, hc]
    rfl
  | (n, j) :: ms, cur, g, x, hc, h => by
    have ih := decStruct_lastText hn hk hf hs hnull hoth ms
    simp only [decStruct] at h
    have keep : ∀ (cur' : Str → GV), cur' f.name = .str x → decStruct fs d cur' ms = .ok g false →
        ¬ SameUpToCase n f.key → g f.name = .str ((lastText f.key ((n, j) :: ms)).getD x) := by
      intro cur' hc' h' hne
      rw [ih cur' g x hc' h', lastText]
      have : textFor f.key n j = none := by cases j <;> simp [textFor, hne]
      rw [this, Option.or_none]
    cases hm : matchKey fs n with
    | none =>
      rw [hm] at h
      exact keep cur hc h (matchKey_no hm f hf)
    | some f' =>
      rw [hm] at h
      obtain ⟨v, h1, h2⟩ := D.bind_ok_iff.1 h
      by_cases he : f' = f
      · subst he
        have hsame : SameUpToCase n f'.key := matchKey_fold hm
        rcases hoth _ _ _ h1 with rfl | ⟨raw, y, rfl⟩
        · rw [hnull] at h1
          simp only [D.ok.injEq, and_true] at h1
          rw [ih _ g x (by simp [← h1, hc]) h2, lastText]
          simp [textFor]
        · rw [hs] at h1
          simp only [D.ok.injEq, and_true] at h1
          rw [ih _ g y (by simp [← h1]) h2, lastText]
          cases lastText f'.key ms <;> simp [textFor, hsame]
      · have hname : f.name ≠ f'.name := fun e => he (inj_of_nodup hn (matchKey_mem hm) hf e.symm)
        refine keep _ (by simp [hname, hc]) h2 fun hh => he ?_
        have h3 : foldName f'.key = foldName f.key := by rw [← matchKey_fold hm]; exact hh
        exact inj_of_nodup hk (matchKey_mem hm) hf h3

theorem decObj_lastText {s : SId} {ms : List (Str × Json)} {o : Obj} (h : decObj F (zeroObj s) (.obj ms) = .ok o false)
    {r : FieldInfo} (hr : r ∈ objFields s) (hty : r.ty.isStr = true) :
    o.getStr r.name = (lastText r.key ms).getD [] := by
  simp only [decObj, D.bind_ok_iff, D.ok.injEq, and_true] at h
  obtain ⟨g, hg, rfl⟩ := h
  have hrow : decField F (mkFields (objFields s)) r.name = dec F r.ty := by
    funext c j
    exact decField_row (by rw [mkFields_toList]; exact objFields_names_nodup _) (by rw [mkFields_toList]; exact hr) c j
  obtain ⟨n, hstr⟩ : ∃ n, r.ty = .str n := by
    cases hrt : r.ty <;> rw [hrt] at hty <;> simp [Ty.isStr] at hty
    exact ⟨_, rfl⟩
  have hz : (zeroObj s).val r.name = .str [] := by
    have := zeroVal_row (objFields_names_nodup s) hr
    rw [hstr] at this
    exact this
  have ha := (objFields_apart s).2
  rw [mkFields_toList] at ha
  have hrs : r ∈ objFields (zeroObj s).sid := hr
  have := decStruct_lastText (objFields_names_nodup _) ha hrs (d := decField F (mkFields (objFields s)))
    (fun c raw x => by rw [hrow, hstr, dec]) (fun c => by rw [hrow, hstr, dec])
    (fun c j v => by
      rw [hrow, hstr]
      cases j <;> simp [dec]) ms _ _ [] hz hg
  simp only [Obj.getStr, this]

/-- One element: the state and the collection afterwards. -/
def stepOne (F : Canon.FloatFmt) (cfg : Config U) (p : Peak) (c : Coll (Any U)) (j : Json) : Res (Peak × Coll (Any U)) :=
  (parseOne F cfg p j).bind fun r => (addOne c r.2).bind fun c => .ok (r.1, c)

theorem processObjects_step (cfg : Config U) (p : Peak) (c : Coll (Any U)) (j : Json) (l : List Json) :
    processObjects F cfg p c (j :: l) = (stepOne F cfg p c j).bind fun r => processObjects F cfg r.1 r.2 l := by
  simp only [processObjects, stepOne]
  cases parseOne F cfg p j with
  | ok r => simp only [Res.bind]; cases addOne c r.2 <;> rfl
  | err e => rfl
  | panic => rfl

theorem addOne_fate (c : Coll (Any U)) (a : Any U) (hp : a.panics = false) :
    (Acceptable a → ∃ c', addOne c (some a) = .ok c') ∧ (¬ Acceptable a → addOne c (some a) = .err .other) := by
  have h := c04_accepts c a
  simp only [addOne, hp, Bool.false_eq_true, if_false]
  constructor
  · intro ha
    rw [h.2 ha]
    exact ⟨_, rfl⟩
  · intro ha
    cases hr : (c.add a).2 with
    | false => exact absurd (h.1 hr) ha
    | true => rfl


/-- The outcome of an element that is read as an object of the library. -/
theorem step_known {cfg : Config U} (hn : ∀ t, cfg.handlers t = none) (p : Peak) (c : Coll (Any U))
    {ms : List (Str × Json)} (hw : Written (.obj ms)) (hb : ¬ TooLargeMember F ms) {t : Str}
    (hlook : amLookup (b!"type") (dynMerge F (p.getD []) ms) = some (.str t)) {s : SId} (hs : (t, s) ∈ goTypes) :
    match inOrder (ms.map fun e => fateMember F (mkFields (objFields s)) e.1 e.2) with
    | .crash => stepOne F cfg p c (.obj ms) = .panic
    | .taken => ((∃ t' id, lastText (b!"type") ms = some t' ∧ lastText (b!"id") ms = some id ∧ Identifies t' id) →
          ∃ c', stepOne F cfg p c (.obj ms) = .ok (some (if cfg.dropCustom then dynMerge F (p.getD []) ms else
            deleteKeys (libKeys s) (dynMerge F (p.getD []) ms)), c')) ∧
        ((¬ ∃ t' id, lastText (b!"type") ms = some t' ∧ lastText (b!"id") ms = some id ∧ Identifies t' id) →
          stepOne F cfg p c (.obj ms) = .err .other)
    | _ => stepOne F cfg p c (.obj ms) = .err .other := by
  have hsoft : (ms.any fun e => dynSoft F e.2) = false := Bool.eq_false_iff.2 fun hh => hb ((tooLargeMember_iff ms).1 hh)
  have hf := decObj_fate (F := F) s ms hw
  have hone : parseOne F cfg p (.obj ms) = ((decObj F (zeroObj s) (.obj ms)).bind fun o => .ok (some (.lib o : Any U)) false).res.bind
      fun a => let r := if cfg.dropCustom then (some (dynMerge F (p.getD []) ms), a) else
          extend a (some (dynMerge F (p.getD []) ms))
        match r.2 with
        | none => .panic
        | some a => .ok (r.1, some a) := by
    simp only [parseOne, decCustom_obj, hsoft, D.res, Res.bind, Option.getD_some, hlook, newObject, hn,
      (dispatch_mem t s).2 hs, decAny]
    rfl
  rw [← hf]
  cases ho : decObj F (zeroObj s) (.obj ms) with
  | panic => simp only [D.fate, stepOne, hone, ho, D.bind, D.res, Res.bind]
  | hard => simp only [D.fate, stepOne, hone, ho, D.bind, D.res, Res.bind]
  | ok o soft =>
    cases soft with
    | true => simp only [D.fate, stepOne, hone, ho, D.bind, D.res, Res.bind, Bool.or_false]
    | false =>
      obtain ⟨⟨r, hr, hn1, hk1, hty⟩, r', hr', hn1', hk1', hty'⟩ := id_type_rows s
      have hid : getID o = (lastText (b!"id") ms).getD [] := by
        have := decObj_lastText ho hr hty
        rw [hn1, hk1] at this
        exact this
      have htype : getType o = (lastText (b!"type") ms).getD [] := by
        have := decObj_lastText ho hr' hty'
        rw [hn1', hk1'] at this
        exact this
      have hsid : o.sid = s := by
        simp only [decObj, D.bind_ok_iff, D.ok.injEq, and_true] at ho
        obtain ⟨g, -, rfl⟩ := ho
        rfl
      obtain ⟨a, hpa, ha⟩ : ∃ o', parseOne F cfg p (.obj ms) = .ok (some (if cfg.dropCustom then dynMerge F (p.getD []) ms else
            deleteKeys (libKeys s) (dynMerge F (p.getD []) ms)), some (.lib o' : Any U)) ∧
          getID o' = getID o ∧ getType o' = getType o := by
        rw [hone, ho]
        simp only [D.bind, Bool.or_self, D.res, Res.bind]
        cases cfg.dropCustom with
        | true => exact ⟨o, rfl, rfl, rfl⟩
        | false =>
          simp only [Bool.false_eq_true, if_false, extend, hsid, Option.map_some, Option.getD_some]
          refine ⟨_, rfl, ?_⟩
          split <;> exact ⟨rfl, rfl⟩
      obtain ⟨g1, g2⟩ := addOne_fate c (.lib a : Any U) rfl
      have hacc : Acceptable (.lib a : Any U) ↔
          ∃ t' id, lastText (b!"type") ms = some t' ∧ lastText (b!"id") ms = some id ∧ Identifies t' id := by
        have h0 : Acceptable (.lib a : Any U) ↔
            Identifies ((lastText (b!"type") ms).getD []) ((lastText (b!"id") ms).getD []) := by
          rw [← hid, ← htype, ← ha.1, ← ha.2]
          rfl
        rw [h0]
        constructor
        · intro hh
          cases h1 : lastText (b!"type") ms with
          | none => rw [h1] at hh; exact absurd rfl hh.1
          | some x =>
            cases h2 : lastText (b!"id") ms with
            | none => rw [h2] at hh; exact absurd rfl (identifies_ne_nil hh)
            | some y => rw [h1, h2] at hh; exact ⟨x, y, rfl, rfl, hh⟩
        · rintro ⟨x, y, h1, h2, h3⟩
          rw [h1, h2]
          exact h3
      rw [← hacc]
      simp only [D.fate, stepOne, hpa, Res.bind]
      constructor
      · intro hh
        obtain ⟨c', hc⟩ := g1 hh
        rw [hc]
        exact ⟨_, rfl⟩
      · intro hh
        rw [g2 hh]

/-- The outcome of an element that is read as a custom object. -/
theorem step_custom {cfg : Config U} (hn : ∀ t, cfg.handlers t = none) (p : Peak) (c : Coll (Any U))
    {ms : List (Str × Json)} (hb : ¬ TooLargeMember F ms)
    {t t0 : Str} (hlook : amLookup (b!"type") (dynMerge F (p.getD []) ms) = some (.str t)) (hs : ∀ s, (t, s) ∉ goTypes)
    (htype : customText (some (dynMerge F [] ms)) (b!"type") = .ok t0) :
    (cfg.dropCustom = true → ∃ c', stepOne F cfg p c (.obj ms) = .ok (some (dynMerge F (p.getD []) ms), c')) ∧
    (cfg.dropCustom = false →
      ((∃ v, member (b!"id") ms = some v ∧ ∀ i, ¬ IsText v i) → stepOne F cfg p c (.obj ms) = .panic) ∧
      ((∃ id, Text (.obj ms) (b!"id") id ∧ Identifies t0 id) →
        ∃ c', stepOne F cfg p c (.obj ms) = .ok (some (dynMerge F (p.getD []) ms), c')) ∧
      ((¬ ∃ v, member (b!"id") ms = some v ∧ ∀ i, ¬ IsText v i) → (¬ ∃ id, Text (.obj ms) (b!"id") id ∧ Identifies t0 id) →
        stepOne F cfg p c (.obj ms) = .err .other)) := by
  have hsoft : (ms.any fun e => dynSoft F e.2) = false := Bool.eq_false_iff.2 fun hh => hb ((tooLargeMember_iff ms).1 hh)
  have hone : parseOne F cfg p (.obj ms) = if cfg.dropCustom then .ok (some (dynMerge F (p.getD []) ms), none) else
      .ok (some (dynMerge F (p.getD []) ms), some (.custom (some (dynMerge F [] ms)) : Any U)) := by
    simp only [parseOne, decCustom_obj, hsoft, D.res, Res.bind, Option.getD_some, hlook, newObject, hn,
      (dispatch_none t).2 hs]
    cases cfg.dropCustom <;> simp [decAny, decCustom_obj, hsoft, D.bind, extend]
  constructor
  · intro hdr
    simp only [stepOne, hone, hdr, if_true, Res.bind, addOne]
    exact ⟨_, rfl⟩
  · intro hdr
    simp only [stepOne, hone, hdr, Bool.false_eq_true, if_false, Res.bind]
    have hmem : ∀ id, Text (.obj ms) (b!"id") id ↔ ∃ v, member (b!"id") ms = some v ∧ IsText v id := by
      intro id
      constructor
      · rintro ⟨v, ⟨ms', e, h1⟩, h2⟩
        simp only [Json.obj.injEq] at e
        subst e
        exact ⟨v, h1, h2⟩
      · rintro ⟨v, h1, h2⟩
        exact ⟨v, ⟨ms, rfl, h1⟩, h2⟩
    simp only [hmem]
    cases hi : member (b!"id") ms with
    | none =>
      have hid : customText (some (dynMerge F [] ms)) (b!"id") = .ok [] := by
        simp only [customText, Option.getD_some, amLookup_dynMerge, hi, amLookup]
      have hp : (Any.custom (some (dynMerge F [] ms)) : Any U).panics = false := by
        simp [Any.panics, hid, htype]
      refine ⟨by simp, by simp, fun _ _ => ?_⟩
      rw [(addOne_fate c _ hp).2 fun hh => ?_]
      have : Identifies _ _ := hh
      simp only [getID, hid] at this
      exact identifies_ne_nil this rfl
    | some w =>
      simp only [Option.some.injEq, exists_eq_left']
      by_cases hx : ∃ i, IsText w i
      · obtain ⟨i, hx⟩ := hx
        have hid : customText (some (dynMerge F [] ms)) (b!"id") = .ok i := by
          simp only [customText, Option.getD_some, amLookup_dynMerge, hi, dynOf_isText hx]
        have hp : (Any.custom (some (dynMerge F [] ms)) : Any U).panics = false := by
          simp [Any.panics, hid, htype]
        have hacc : Acceptable (.custom (some (dynMerge F [] ms)) : Any U) ↔ Identifies t0 i := by
          simp only [Acceptable, getID, getType, hid, htype]
        have huniq : ∀ id, IsText w id → id = i := by
          rintro id ⟨r, rfl⟩
          obtain ⟨r', e⟩ := hx
          simp only [Json.str.injEq] at e
          exact e.2
        refine ⟨fun h => absurd hx (h i), ?_, ?_⟩
        · rintro ⟨id, h1, h2⟩
          rw [huniq id h1] at h2
          obtain ⟨c', hc⟩ := (addOne_fate c _ hp).1 (hacc.2 h2)
          rw [hc]
          exact ⟨_, rfl⟩
        · intro _ h
          rw [(addOne_fate c _ hp).2 fun hh => h ⟨i, hx, hacc.1 hh⟩]
      · have hid : customText (some (dynMerge F [] ms)) (b!"id") = .panic := by
          simp only [customText, Option.getD_some, amLookup_dynMerge, hi]
          cases hw : dynOf F w with
          | str s => exact absurd ⟨s, dynOf_str hw⟩ hx
          | _ => rfl
        have hp : (Any.custom (some (dynMerge F [] ms)) : Any U).panics = true := by
          simp [Any.panics, hid]
        refine ⟨fun _ => by simp only [addOne, hp, if_true], ?_, fun h => absurd (fun i hh => hx ⟨i, hh⟩) h⟩
        rintro ⟨id, h1, -⟩
        exact absurd ⟨id, h1⟩ hx

theorem left_nil {drop : Prop} {t : Str} : ¬ TypeLeft drop [] t := by
  intro h
  generalize e : ([] : List Json) = l at h
  cases h <;> simp at e

theorem left_snoc {drop : Prop} {before : List Json} {j : Json} {t : Str} : TypeLeft drop (before ++ [j]) t ↔
    ∃ ms, j = .obj ms ∧ ((Text (.obj ms) (b!"type") t ∧ (drop ∨ ∀ s, (t, s) ∉ goTypes)) ∨
      (member (b!"type") ms = none ∧ TypeLeft drop before t)) := by
  constructor
  · intro h
    generalize e : before ++ [j] = l at h
    cases h with
    | here h1 h2 =>
      obtain ⟨-, e⟩ := List.append_inj' e rfl
      simp only [List.cons.injEq, and_true] at e
      exact ⟨_, e, .inl ⟨h1, h2⟩⟩
    | past h1 h2 =>
      obtain ⟨e1, e2⟩ := List.append_inj' e rfl
      simp only [List.cons.injEq, and_true] at e2
      subst e1
      exact ⟨_, e2, .inr ⟨h2, h1⟩⟩
  · rintro ⟨ms, rfl, ⟨h1, h2⟩ | ⟨h1, h2⟩⟩
    · exact .here h1 h2
    · exact .past h2 h1

/-- The type in `peak` is the one that is left over. -/
structure Carried (drop : Prop) (before : List Json) (p : Peak) : Prop where
  text : ∀ v, amLookup (b!"type") (p.getD []) = some v → ∃ t, v = .str t
  left : ∀ t, amLookup (b!"type") (p.getD []) = some (.str t) ↔ TypeLeft drop before t

theorem text_obj_iff {ms : List (Str × Json)} {k t : Str} :
    Text (.obj ms) k t ↔ ∃ v, member k ms = some v ∧ IsText v t := by
  constructor
  · rintro ⟨v, ⟨ms', e, h1⟩, h2⟩
    simp only [Json.obj.injEq] at e
    subst e
    exact ⟨v, h1, h2⟩
  · rintro ⟨v, h1, h2⟩
    exact ⟨v, ⟨ms, rfl, h1⟩, h2⟩

theorem isText_unique {v : Json} {t t' : Str} (h : IsText v t) (h' : IsText v t') : t' = t := by
  obtain ⟨r, rfl⟩ := h
  obtain ⟨r', e⟩ := h'
  simp only [Json.str.injEq] at e
  exact e.2.symm

theorem type_mem_libKeys (s : SId) : (b!"type") ∈ libKeys s := by
  obtain ⟨-, r, hr, -, hk, -⟩ := id_type_rows s
  rw [libKeys, List.mem_append, ← hk]
  exact .inl (List.mem_map_of_mem hr)

theorem step_fate {cfg : Config U} (hn : ∀ t, cfg.handlers t = none) {before : List Json} {p : Peak}
    (hp : Carried (cfg.dropCustom = true) before p) (c : Coll (Any U)) {j : Json} (hw : Written j) :
    (Taken F (cfg.dropCustom = true) before j → ∃ r, stepOne F cfg p c j = .ok r ∧
      Carried (cfg.dropCustom = true) (before ++ [j]) r.1) ∧
    (Crashing F (cfg.dropCustom = true) before j → stepOne F cfg p c j = .panic) ∧
    (¬ Taken F (cfg.dropCustom = true) before j → ¬ Crashing F (cfg.dropCustom = true) before j →
      stepOne F cfg p c j = .err .other) := by
  cases j with
  | null =>
    have : ∃ r, stepOne F cfg p c .null = .ok r ∧ Carried (cfg.dropCustom = true) (before ++ [.null]) r.1 := by
      refine ⟨_, rfl, ⟨fun v h => (by cases h), fun t => ⟨fun h => (by cases h), fun h => ?_⟩⟩⟩
      obtain ⟨ms, e, -⟩ := left_snoc.1 h
      cases e
    exact ⟨fun _ => this, fun h => (by cases h), fun h => absurd .null h⟩
  | obj ms =>
    by_cases hb : TooLargeMember F ms
    · have : stepOne F cfg p c (.obj ms) = .err .other := by
        simp only [stepOne, parseOne, decCustom_obj, (tooLargeMember_iff ms).2 hb, D.res, Res.bind]
      refine ⟨fun h => ?_, fun h => ?_, fun _ _ => this⟩
      · cases h <;> exact absurd hb ‹_›
      · cases h <;> exact absurd hb ‹_›
    have hsoft : (ms.any fun e => dynSoft F e.2) = false := Bool.eq_false_iff.2 fun hh => hb ((tooLargeMember_iff ms).1 hh)
    by_cases hbad : ∃ v, member (b!"type") ms = some v ∧ ∀ t, ¬ IsText v t
    · obtain ⟨v, hv, hbad⟩ := hbad
      have hpan : stepOne F cfg p c (.obj ms) = .panic := by
        simp only [stepOne, parseOne, decCustom_obj, hsoft, D.res, Res.bind, Option.getD_some, amLookup_dynMerge, hv]
        cases hw : dynOf F v with
        | str s => exact absurd (dynOf_str hw) (hbad s)
        | _ => rfl
      have hno : ∀ t, ¬ Text (.obj ms) (b!"type") t := fun t ht => by
        obtain ⟨v', h1, h2⟩ := text_obj_iff.1 ht
        rw [hv] at h1
        cases h1
        exact hbad t h2
      have hno' : ∀ t, ¬ TypedAs (cfg.dropCustom = true) before ms t := fun t ht => by
        cases ht with
        | own h => exact hno t h
        | left h => rw [hv] at h; cases h
      have hc : Crashing F (cfg.dropCustom = true) before (.obj ms) := .type hb hv hbad
      refine ⟨fun h => ?_, fun _ => hpan, fun _ h => absurd hc h⟩
      cases h with
      | untyped _ h => rw [hv] at h; cases h
      | known _ h => exact absurd h (hno' _)
      | dropped _ h => exact absurd h (hno' _)
      | custom _ h => exact absurd h (hno _)
    have hown : member (b!"type") ms = none ∨ ∃ v t, member (b!"type") ms = some v ∧ IsText v t := by
      cases hm : member (b!"type") ms with
      | none => exact .inl rfl
      | some v =>
        by_cases ht : ∃ t, IsText v t
        · obtain ⟨t, ht⟩ := ht
          exact .inr ⟨v, t, rfl, ht⟩
        · exact absurd ⟨v, hm, fun t h => ht ⟨t, h⟩⟩ hbad
    -- the type by which it is read is what is found in `peak`
    have hlook : ∀ t, amLookup (b!"type") (dynMerge F (p.getD []) ms) = some (.str t) ↔
        TypedAs (cfg.dropCustom = true) before ms t := by
      intro t
      rw [amLookup_dynMerge]
      rcases hown with hm | ⟨v, t0, hm, h0⟩
      · rw [hm]
        constructor
        · exact fun h => .left hm ((hp.left t).1 h)
        · intro h
          cases h with
          | own h => obtain ⟨v, h1, -⟩ := text_obj_iff.1 h; rw [hm] at h1; cases h1
          | left _ h => exact (hp.left t).2 h
      · rw [hm]
        simp only [dynOf_isText h0, Option.some.injEq, Dyn.str.injEq]
        constructor
        · rintro rfl
          exact .own (text_obj_iff.2 ⟨v, hm, h0⟩)
        · intro h
          cases h with
          | own h =>
            obtain ⟨v', h1, h2⟩ := text_obj_iff.1 h
            rw [hm] at h1
            cases h1
            exact (isText_unique h0 h2).symm
          | left h => rw [hm] at h; cases h
    have htext : ∀ v, amLookup (b!"type") (dynMerge F (p.getD []) ms) = some v → ∃ t, v = .str t := by
      intro v h
      rw [amLookup_dynMerge] at h
      rcases hown with hm | ⟨w, t0, hm, h0⟩
      · rw [hm] at h
        exact hp.text v h
      · rw [hm] at h
        simp only [dynOf_isText h0, Option.some.injEq] at h
        exact ⟨t0, h.symm⟩
    by_cases hty : ∃ t, TypedAs (cfg.dropCustom = true) before ms t
    · obtain ⟨t, ht⟩ := hty
      have hlt := (hlook t).2 ht
      have huniq : ∀ {t'}, TypedAs (cfg.dropCustom = true) before ms t' → t' = t := fun h => by
        have := (hlook _).2 h
        rw [hlt] at this
        simp only [Option.some.injEq, Dyn.str.injEq] at this
        exact this.symm
      have huntyped : member (b!"type") ms = none → ¬ ∀ t, ¬ TypeLeft (cfg.dropCustom = true) before t := fun hm h => by
        cases ht with
        | own h' => obtain ⟨v, h1, -⟩ := text_obj_iff.1 h'; rw [hm] at h1; cases h1
        | left _ h' => exact h t h'
      -- what is left over if `peak` stays
      have hstay : (cfg.dropCustom = true ∨ ∀ s, (t, s) ∉ goTypes) →
          Carried (cfg.dropCustom = true) (before ++ [.obj ms]) (some (dynMerge F (p.getD []) ms)) := by
        intro hd
        refine ⟨htext, fun t' => ?_⟩
        rw [Option.getD_some, hlook, left_snoc]
        constructor
        · intro h
          obtain rfl := huniq h
          refine ⟨ms, rfl, ?_⟩
          cases h with
          | own h => exact .inl ⟨h, hd⟩
          | left h1 h2 => exact .inr ⟨h1, h2⟩
        · rintro ⟨ms', e, h⟩
          simp only [Json.obj.injEq] at e
          subst e
          rcases h with ⟨h, -⟩ | ⟨h1, h2⟩
          · exact .own h
          · exact .left h1 h2
      by_cases hs : ∃ s, (t, s) ∈ goTypes
      · obtain ⟨s, hs⟩ := hs
        have hsu : ∀ {s'}, (t, s') ∈ goTypes → s' = s := fun h => by
          have h1 := (dispatch_mem t _).2 h
          rw [(dispatch_mem t s).2 hs] at h1
          exact (Option.some.inj h1).symm
        have key := step_known (F := F) (U := U) hn p c hw hb hlt hs
        have hT : Taken F (cfg.dropCustom = true) before (.obj ms) ↔
            inOrder (ms.map fun e => fateMember F (mkFields (objFields s)) e.1 e.2) = .taken ∧
              ∃ t' id, lastText (b!"type") ms = some t' ∧ lastText (b!"id") ms = some id ∧ Identifies t' id := by
          constructor
          · intro h
            cases h with
            | untyped _ h1 h2 => exact absurd h2 (huntyped h1)
            | known _ h2 h3 h4 h5 h6 h7 =>
              obtain rfl := huniq h2
              obtain rfl := hsu h3
              exact ⟨h4, _, _, h5, h6, h7⟩
            | dropped _ h2 h3 => obtain rfl := huniq h2; exact absurd hs (h3 s)
            | custom _ h2 h3 => obtain rfl := huniq (.own h2); exact absurd hs (h3 s)
          · rintro ⟨h4, t', id, h5, h6, h7⟩
            exact .known hb ht hs h4 h5 h6 h7
        have hC : Crashing F (cfg.dropCustom = true) before (.obj ms) ↔
            inOrder (ms.map fun e => fateMember F (mkFields (objFields s)) e.1 e.2) = .crash := by
          constructor
          · intro h
            cases h with
            | type _ h2 h3 => exact absurd ⟨_, h2, h3⟩ hbad
            | known _ h2 h3 h4 =>
              obtain rfl := huniq h2
              obtain rfl := hsu h3
              exact h4
            | custom _ h2 h3 => obtain rfl := huniq h2; exact absurd hs (h3 s)
          · exact fun h4 => .known hb ht hs h4
        rw [hT, hC]
        revert key
        cases inOrder (ms.map fun e => fateMember F (mkFields (objFields s)) e.1 e.2) with
        | taken =>
          rintro ⟨k1, k2⟩
          refine ⟨fun h => ?_, fun h => (by cases h), fun h _ => k2 fun h' => h ⟨rfl, h'⟩⟩
          obtain ⟨c', hc⟩ := k1 h.2
          refine ⟨_, hc, ?_⟩
          cases hdr : cfg.dropCustom with
          | true =>
            have := hstay (.inl hdr)
            rw [hdr] at this
            exact this
          | false =>
            have hnone : amLookup (b!"type") (deleteKeys (libKeys s) (dynMerge F (p.getD []) ms)) = none := by
              rw [amLookup_deleteKeys, if_pos (type_mem_libKeys s)]
            simp only [Bool.false_eq_true, if_false]
            refine ⟨fun v h => ?_, fun t' => ⟨fun h => ?_, fun h => ?_⟩⟩
            · rw [Option.getD_some, hnone] at h; cases h
            · rw [Option.getD_some, hnone] at h; cases h
            · obtain ⟨ms', e, h⟩ := left_snoc.1 h
              simp only [Json.obj.injEq] at e
              subst e
              have hleft : ∀ {b' x}, TypeLeft False b' x → ∀ s, (x, s) ∉ goTypes := by
                intro b' x hx
                induction hx with
                | here _ h => exact h.resolve_left id
                | past _ _ ih => exact ih
              simp only [hdr, Bool.false_eq_true] at huniq
              rcases h with ⟨h1, h2⟩ | ⟨h1, h2⟩
              · obtain rfl := huniq (.own h1)
                exact absurd hs (h2.resolve_left id s)
              · obtain rfl := huniq (.left h1 h2)
                exact absurd hs (hleft h2 s)
        | crash => exact fun k => ⟨fun h => (by cases h.1), fun _ => k, fun _ h => absurd rfl h⟩
        | _ => exact fun k => ⟨fun h => (by cases h.1), fun h => (by cases h), fun _ _ => k⟩
      · push Not at hs
        obtain ⟨t0, ht0, hself⟩ : ∃ t0, customText (some (dynMerge F [] ms)) (b!"type") = .ok t0 ∧
            (∀ {id}, Identifies t0 id → Text (.obj ms) (b!"type") t0) := by
          rcases hown with hm | ⟨v, t1, hm, h1⟩
          · refine ⟨[], ?_, fun h => absurd rfl h.1⟩
            simp only [customText, Option.getD_some, amLookup_dynMerge, hm, amLookup]
          · refine ⟨t1, ?_, fun _ => text_obj_iff.2 ⟨v, hm, h1⟩⟩
            simp only [customText, Option.getD_some, amLookup_dynMerge, hm, dynOf_isText h1]
        have hself' : ∀ {x}, Text (.obj ms) (b!"type") x → x = t0 := fun {x} h => by
          obtain ⟨v, h1, h2⟩ := text_obj_iff.1 h
          simp only [customText, Option.getD_some, amLookup_dynMerge, h1, dynOf_isText h2, Res.ok.injEq] at ht0
          exact ht0
        obtain ⟨k1, k2⟩ := step_custom (F := F) (U := U) hn p c hb hlt hs ht0
        have hT : Taken F (cfg.dropCustom = true) before (.obj ms) ↔
            cfg.dropCustom = true ∨ (cfg.dropCustom = false ∧ ∃ id, Text (.obj ms) (b!"id") id ∧ Identifies t0 id) := by
          constructor
          · intro h
            cases h with
            | untyped _ h1 h2 => exact absurd h2 (huntyped h1)
            | known _ h2 h3 => obtain rfl := huniq h2; exact absurd h3 (hs _)
            | dropped _ _ _ h => exact .inl h
            | custom _ h2 _ h4 h5 h6 => obtain rfl := hself' h2; exact .inr ⟨by simpa using h4, _, h5, h6⟩
          · rintro (h | ⟨h, id, h5, h6⟩)
            · exact .dropped hb ht hs h
            · have h7 := hself h6
              obtain rfl := huniq (.own h7)
              exact .custom hb h7 hs (by simp [h]) h5 h6
        have hC : Crashing F (cfg.dropCustom = true) before (.obj ms) ↔
            cfg.dropCustom = false ∧ ∃ v, member (b!"id") ms = some v ∧ ∀ i, ¬ IsText v i := by
          constructor
          · intro h
            cases h with
            | type _ h2 h3 => exact absurd ⟨_, h2, h3⟩ hbad
            | known _ h2 h3 => obtain rfl := huniq h2; exact absurd h3 (hs _)
            | custom _ _ _ h4 h5 h6 => exact ⟨by simpa using h4, _, h5, h6⟩
          · rintro ⟨h, v, h5, h6⟩
            exact .custom hb ht hs (by simp [h]) h5 h6
        rw [hT, hC]
        have hst := hstay (.inr hs)
        cases hdr : cfg.dropCustom with
        | true =>
          obtain ⟨c', hc⟩ := k1 hdr
          rw [hdr] at hst
          exact ⟨fun _ => ⟨_, hc, hst⟩, fun h => (by cases h.1), fun h => absurd (.inl rfl) h⟩
        | false =>
          obtain ⟨q1, q2, q3⟩ := k2 hdr
          rw [hdr] at hst
          refine ⟨fun h => ?_, fun h => q1 h.2, fun h1 h2 => q3 (fun h => h2 ⟨rfl, h⟩) fun h => h1 (.inr ⟨rfl, h⟩)⟩
          obtain ⟨c', hc⟩ := q2 (h.resolve_left (by simp)).2
          exact ⟨_, hc, hst⟩
    · have hno : amLookup (b!"type") (dynMerge F (p.getD []) ms) = none := by
        cases hm : amLookup (b!"type") (dynMerge F (p.getD []) ms) with
        | none => rfl
        | some v =>
          obtain ⟨t, rfl⟩ := htext v hm
          exact absurd ⟨t, (hlook t).1 hm⟩ hty
      have hm : member (b!"type") ms = none := by
        rcases hown with hm | ⟨v, t, hm, h0⟩
        · exact hm
        · exact absurd ⟨t, .own (text_obj_iff.2 ⟨v, hm, h0⟩)⟩ hty
      have hl : ∀ t, ¬ TypeLeft (cfg.dropCustom = true) before t := fun t h => hty ⟨t, .left hm h⟩
      have hstep : stepOne F cfg p c (.obj ms) = .ok (some (dynMerge F (p.getD []) ms), c) := by
        simp only [stepOne, parseOne, decCustom_obj, hsoft, D.res, Res.bind, Option.getD_some, hno, addOne]
      refine ⟨fun _ => ⟨_, hstep, ⟨fun v h => ?_, fun t => ⟨fun h => ?_, fun h => ?_⟩⟩⟩, fun h => ?_,
        fun h => absurd (.untyped hb hm hl) h⟩
      · rw [Option.getD_some, hno] at h; cases h
      · rw [Option.getD_some, hno] at h; cases h
      · obtain ⟨ms', e, h⟩ := left_snoc.1 h
        simp only [Json.obj.injEq] at e
        subst e
        rcases h with ⟨h, -⟩ | ⟨-, h⟩
        · exact absurd ⟨t, .own h⟩ hty
        · exact absurd h (hl t)
      · cases h with
        | type _ h => rw [hm] at h; cases h
        | known _ h => exact absurd ⟨_, h⟩ hty
        | custom _ h => exact absurd ⟨_, h⟩ hty
  | _ => exact ⟨fun h => (by cases h), fun h => (by cases h), fun _ _ => rfl⟩

/-- All elements are taken, after others. -/
def TakenAfter (F : Canon.FloatFmt) (drop : Prop) (first l : List Json) : Prop :=
  ∀ before j after, l = before ++ j :: after → Taken F drop (first ++ before) j

theorem takenAfter_nil {drop : Prop} {first : List Json} : TakenAfter F drop first [] := by
  intro b j a e
  simp at e

theorem takenAfter_cons {drop : Prop} {first : List Json} {j : Json} {l : List Json} :
    TakenAfter F drop first (j :: l) ↔ Taken F drop first j ∧ TakenAfter F drop (first ++ [j]) l := by
  constructor
  · intro h
    refine ⟨by simpa using h [] j l rfl, fun b x a e => ?_⟩
    have := h (j :: b) x a (by rw [e]; rfl)
    simpa using this
  · rintro ⟨h1, h2⟩ b x a e
    cases b with
    | nil =>
      simp only [List.nil_append, List.cons.injEq] at e
      rw [← e.1]
      simpa using h1
    | cons y b =>
      simp only [List.cons_append, List.cons.injEq] at e
      obtain ⟨rfl, e⟩ := e
      simpa using h2 b x a e

theorem process_fate {cfg : Config U} (hn : ∀ t, cfg.handlers t = none) (l : List Json)
    (hl : ∀ j ∈ l, Written j) : ∀ (first : List Json) (p : Peak) (c : Coll (Any U)),
    Carried (cfg.dropCustom = true) first p →
    (TakenAfter F (cfg.dropCustom = true) first l → ∃ c', processObjects F cfg p c l = .ok c') ∧
    ∀ before j after, l = before ++ j :: after → TakenAfter F (cfg.dropCustom = true) first before →
      (Crashing F (cfg.dropCustom = true) (first ++ before) j → processObjects F cfg p c l = .panic) ∧
      (¬ Taken F (cfg.dropCustom = true) (first ++ before) j → ¬ Crashing F (cfg.dropCustom = true) (first ++ before) j →
        processObjects F cfg p c l = .err .other) := by
  induction l with
  | nil =>
    intro first p c _
    exact ⟨fun _ => ⟨c, rfl⟩, fun b j a e => by simp at e⟩
  | cons j l ih =>
    intro first p c hp
    obtain ⟨h1, h2, h3⟩ := step_fate (F := F) (U := U) hn hp c (hl j (by simp))
    rw [processObjects_step]
    constructor
    · intro h
      obtain ⟨g1, g2⟩ := takenAfter_cons.1 h
      obtain ⟨r, hr, hc⟩ := h1 g1
      rw [hr]
      exact (ih (fun x hx => hl x (by simp [hx])) _ r.1 r.2 hc).1 g2
    · intro b x a e hb
      cases b with
      | nil =>
        simp only [List.nil_append, List.cons.injEq] at e
        obtain ⟨rfl, rfl⟩ := e
        rw [List.append_nil]
        exact ⟨fun h => by rw [h2 h]; rfl, fun h h' => by rw [h3 h h']; rfl⟩
      | cons y b =>
        simp only [List.cons_append, List.cons.injEq] at e
        obtain ⟨rfl, e⟩ := e
        obtain ⟨g1, g2⟩ := takenAfter_cons.1 hb
        obtain ⟨r, hr, hc⟩ := h1 g1
        rw [hr]
        have := (ih (fun x hx => hl x (by simp [hx])) _ r.1 r.2 hc).2 b x a e g2
        simpa only [Res.bind, List.append_assoc, List.singleton_append] using this

theorem written_held {doc : Json} {l : List Json} (hw : Written doc) (h : Holds doc l) : ∀ j ∈ l, Written j := by
  cases h with
  | array => exact hw.arr
  | null => simp
  | bundle ms _ _ _ h3 =>
    rcases h3 with ⟨-, rfl⟩ | ⟨b, n, v, a, rfl, -, -, h⟩
    · simp
    · rcases h with rfl | ⟨-, rfl⟩
      · exact (hw.obj (n, .arr l) (by simp)).arr
      · simp

theorem document_fate {opts : List (CollOption U)} (hn : NoParsers opts) {text : Str} {doc : Json} {l : List Json}
    (ht : Spec.Text.IsText 10000 text doc) (hl : Holds doc l) :
    (AllTaken F (CollOption.dropCustom ∈ opts) l → ∃ c, fromJSONText F opts text = .ok c) ∧
    ∀ before j after, l = before ++ j :: after → AllTaken F (CollOption.dropCustom ∈ opts) before →
      (Crashing F (CollOption.dropCustom ∈ opts) before j → fromJSONText F opts text = .panic) ∧
      (¬ Taken F (CollOption.dropCustom ∈ opts) before j → ¬ Crashing F (CollOption.dropCustom ∈ opts) before j →
        fromJSONText F opts text = .err .other) := by
  rw [c52_value opts ht, (c75_shape opts doc).1 l hl, fromJSON_arr]
  have := process_fate (F := F) (handlers_none hn) l (written_held (written_text ht) hl) [] none
    (Coll.new (Config.new opts).noSort) ⟨fun v h => (by cases h), fun t => ⟨fun h => (by cases h), fun h => absurd h left_nil⟩⟩
  simp only [dropCustom_iff, TakenAfter, List.nil_append] at this
  exact this

theorem first_not_taken {drop : Prop} {l : List Json} (h : ¬ AllTaken F drop l) :
    ∃ before j after, l = before ++ j :: after ∧ AllTaken F drop before ∧ ¬ Taken F drop before j := by
  have key : ∀ (l first : List Json), ¬ TakenAfter F drop first l → ∃ before j after, l = before ++ j :: after ∧
      TakenAfter F drop first before ∧ ¬ Taken F drop (first ++ before) j := by
    intro l
    induction l with
    | nil => exact fun first h => absurd takenAfter_nil h
    | cons j l ih =>
      intro first h
      rw [takenAfter_cons] at h
      by_cases hj : Taken F drop first j
      · obtain ⟨b, x, a, rfl, g1, g2⟩ := ih (first ++ [j]) fun hh => h ⟨hj, hh⟩
        exact ⟨j :: b, x, a, rfl, takenAfter_cons.2 ⟨hj, g1⟩, by simpa using g2⟩
      · exact ⟨[], j, l, rfl, takenAfter_nil, by simpa using hj⟩
  have := key l []
  simp only [TakenAfter, List.nil_append] at this
  exact this h

/-- **C76** (taken).  A document is imported exactly if each of its elements is taken. -/
theorem c76_accepted (opts : List (CollOption U)) (hn : NoParsers opts) (text : Str) (doc : Json) (l : List Json)
    (ht : Spec.Text.IsText 10000 text doc) (hl : Holds doc l) :
    (∃ c, fromJSONText F opts text = .ok c) ↔ AllTaken F (CollOption.dropCustom ∈ opts) l := by
  obtain ⟨h1, h2⟩ := document_fate (F := F) hn ht hl
  refine ⟨fun ⟨c, hc⟩ => ?_, h1⟩
  by_contra hno
  obtain ⟨b, j, a, e, g1, g2⟩ := first_not_taken hno
  obtain ⟨k1, k2⟩ := h2 b j a e g1
  by_cases hcr : Crashing F (CollOption.dropCustom ∈ opts) b j
  · rw [k1 hcr] at hc; cases hc
  · rw [k2 g2 hcr] at hc; cases hc

/-- **C76** (crash).  `FromJSON` panics exactly if the first element that is not taken is one that
crashes. -/
theorem c76_crashes (opts : List (CollOption U)) (hn : NoParsers opts) (text : Str) (doc : Json) (l : List Json)
    (ht : Spec.Text.IsText 10000 text doc) (hl : Holds doc l) :
    fromJSONText F opts text = .panic ↔ ∃ before j after, l = before ++ j :: after ∧
      AllTaken F (CollOption.dropCustom ∈ opts) before ∧ Crashing F (CollOption.dropCustom ∈ opts) before j := by
  obtain ⟨h1, h2⟩ := document_fate (F := F) hn ht hl
  constructor
  · intro hc
    obtain ⟨b, j, a, e, g1, g2⟩ := first_not_taken (F := F) (drop := CollOption.dropCustom ∈ opts) (l := l) fun h => by
      obtain ⟨c, h⟩ := h1 h
      rw [h] at hc
      cases hc
    refine ⟨b, j, a, e, g1, ?_⟩
    by_contra hcr
    rw [(h2 b j a e g1).2 g2 hcr] at hc
    cases hc
  · rintro ⟨b, j, a, e, g1, g2⟩
    exact (h2 b j a e g1).1 g2

/-- **C76** (refused).  It returns an error exactly if the first element that is not taken does not
crash. -/
theorem c76_refused (opts : List (CollOption U)) (hn : NoParsers opts) (text : Str) (doc : Json) (l : List Json)
    (ht : Spec.Text.IsText 10000 text doc) (hl : Holds doc l) :
    fromJSONText F opts text = .err .other ↔ ∃ before j after, l = before ++ j :: after ∧
      AllTaken F (CollOption.dropCustom ∈ opts) before ∧ ¬ Taken F (CollOption.dropCustom ∈ opts) before j ∧
        ¬ Crashing F (CollOption.dropCustom ∈ opts) before j := by
  obtain ⟨h1, h2⟩ := document_fate (F := F) hn ht hl
  constructor
  · intro hc
    obtain ⟨b, j, a, e, g1, g2⟩ := first_not_taken (F := F) (drop := CollOption.dropCustom ∈ opts) (l := l) fun h => by
      obtain ⟨c, h⟩ := h1 h
      rw [h] at hc
      cases hc
    refine ⟨b, j, a, e, g1, g2, fun hcr => ?_⟩
    rw [(h2 b j a e g1).1 hcr] at hc
    cases hc
  · rintro ⟨b, j, a, e, g1, g2, g3⟩
    exact (h2 b j a e g1).2 g2 g3

/-- **C76** (every document).  Every byte string is imported, is refused, or crashes by one of these. -/
theorem c76_every (opts : List (CollOption U)) (hn : NoParsers opts) (text : Str) :
    (fromJSONText F opts text = .panic ↔ ∃ doc l before j after, Spec.Text.IsText 10000 text doc ∧ Holds doc l ∧
      l = before ++ j :: after ∧ AllTaken F (CollOption.dropCustom ∈ opts) before ∧
      Crashing F (CollOption.dropCustom ∈ opts) before j) ∧
    ((∃ c, fromJSONText F opts text = .ok c) ↔ ∃ doc l, Spec.Text.IsText 10000 text doc ∧ Holds doc l ∧
      AllTaken F (CollOption.dropCustom ∈ opts) l) := by
  by_cases hd : ∃ doc, Spec.Text.IsText 10000 text doc
  · obtain ⟨doc, ht⟩ := hd
    by_cases hl : ∃ l, Holds doc l
    · obtain ⟨l, hl⟩ := hl
      have huniq : ∀ {doc' l'}, Spec.Text.IsText 10000 text doc' → Holds doc' l' → l' = l := by
        intro doc' l' h1 h2
        have e := (Text.parse_iff text doc').2 h1
        rw [(Text.parse_iff text doc).2 ht] at e
        cases e
        exact c75_unique _ _ _ h2 hl
      rw [c76_crashes opts hn text doc l ht hl, c76_accepted opts hn text doc l ht hl]
      constructor
      · constructor
        · rintro ⟨b, j, a, h⟩
          exact ⟨doc, l, b, j, a, ht, hl, h⟩
        · rintro ⟨doc', l', b, j, a, h1, h2, h⟩
          obtain rfl := huniq h1 h2
          exact ⟨b, j, a, h⟩
      · constructor
        · exact fun h => ⟨doc, l, ht, hl, h⟩
        · rintro ⟨doc', l', h1, h2, h⟩
          obtain rfl := huniq h1 h2
          exact h
    · have hr : fromJSONText F opts text = .err .other := by
        rw [c52_value opts ht]
        exact (c75_shape opts doc).2 fun l h => hl ⟨l, h⟩
      rw [hr]
      have huniq : ∀ {doc' l'}, Spec.Text.IsText 10000 text doc' → ¬ Holds doc' l' := by
        intro doc' l' h1 h2
        have e := (Text.parse_iff text doc').2 h1
        rw [(Text.parse_iff text doc).2 ht] at e
        cases e
        exact hl ⟨l', h2⟩
      refine ⟨⟨fun h => (by cases h), ?_⟩, ⟨fun ⟨_, h⟩ => (by cases h), ?_⟩⟩
      · rintro ⟨doc', l', b, j, a, h1, h2, h⟩
        exact absurd h2 (huniq h1)
      · rintro ⟨doc', l', h1, h2, h⟩
        exact absurd h2 (huniq h1)
  · rw [c53_refused opts hd]
    refine ⟨⟨fun h => (by cases h), ?_⟩, ⟨fun ⟨_, h⟩ => (by cases h), ?_⟩⟩
    · rintro ⟨doc', l', b, j, a, h1, h⟩
      exact absurd ⟨_, h1⟩ hd
    · rintro ⟨doc', l', h1, h⟩
      exact absurd ⟨_, h1⟩ hd

/-- The tool, an opinion that is the number `5`, and a tool that is revoked with a `1`. -/
def exFateTool : List (Str × Json) :=
  [(b!"type", exText (b!"tool")), (b!"id", exText (b!"tool--00000000-0000-4000-8000-000000000000"))]
def exFateCrash : List (Str × Json) :=
  [(b!"type", exText (b!"opinion")), (b!"opinion", .num (b!"5"))]
def exFateWrong : List (Str × Json) :=
  [(b!"type", exText (b!"tool")), (b!"revoked", .num (b!"1"))]

set_option maxRecDepth 100000 in
/-- C76: a document that is imported, one that crashes, and one that is refused. -/
example :
    Spec.Text.IsText 10000 (b!"[null,{\"type\":\"tool\",\"id\":\"tool--00000000-0000-4000-8000-000000000000\"}]")
      (.arr [.null, .obj exFateTool]) ∧
    Spec.Text.IsText 10000 (b!"[null,{\"type\":\"opinion\",\"opinion\":5}]") (.arr [.null, .obj exFateCrash]) ∧
    Spec.Text.IsText 10000 (b!"[null,{\"type\":\"tool\",\"revoked\":1}]") (.arr [.null, .obj exFateWrong]) ∧
    Taken toy False [.null] (.obj exFateTool) ∧ Crashing toy False [.null] (.obj exFateCrash) ∧
    ¬ Taken toy False [.null] (.obj exFateWrong) ∧ ¬ Crashing toy False [.null] (.obj exFateWrong) := by
  have h1 := (Text.parse_iff (b!"[null,{\"type\":\"tool\",\"id\":\"tool--00000000-0000-4000-8000-000000000000\"}]")
      (.arr [.null, .obj exFateTool])).1 rfl
  have h2 := (Text.parse_iff (b!"[null,{\"type\":\"opinion\",\"opinion\":5}]") (.arr [.null, .obj exFateCrash])).1 rfl
  have h3 := (Text.parse_iff (b!"[null,{\"type\":\"tool\",\"revoked\":1}]") (.arr [.null, .obj exFateWrong])).1 rfl
  have hn : NoParsers (U := Empty) [] := by simp [NoParsers]
  have drop : (CollOption.dropCustom ∈ ([] : List (CollOption Empty))) = False := by simp
  have small : ∀ {ms}, (ms.any fun e => dynSoft toy e.2) = false → ¬ TooLargeMember toy ms := fun h hh => by
    rw [(tooLargeMember_iff _).2 hh] at h
    cases h
  have nulls0 : AllTaken toy False [.null] := by
    have := takenAfter_cons (F := toy) (drop := False) (first := []) (j := .null) (l := [])
    exact this.2 ⟨.null, takenAfter_nil⟩
  have nulls : ∀ {j}, AllTaken toy False [.null, j] ↔ Taken toy False [.null] j := by
    intro j
    have := takenAfter_cons (F := toy) (drop := False) (first := []) (j := .null) (l := [j])
    exact this.trans ⟨fun h => (takenAfter_cons.1 h.2).1, fun h => ⟨.null, takenAfter_cons.2 ⟨h, takenAfter_nil⟩⟩⟩
  have names : SameUpToCase (b!"type") (b!"type") ∧ ¬ SameUpToCase (b!"id") (b!"type") ∧
      SameUpToCase (b!"id") (b!"id") ∧ ¬ SameUpToCase (b!"type") (b!"id") := by
    unfold SameUpToCase
    decide
  refine ⟨h1, h2, h3, ?_, ?_, ?_, ?_⟩
  · refine .known (t := b!"tool") (s := .Tool) (id := b!"tool--00000000-0000-4000-8000-000000000000")
      (small (by decide +kernel)) (.own ⟨_, ⟨_, rfl, rfl⟩, _, rfl⟩) (by decide) ?_ 
      (t' := b!"tool") (by simp only [lastText, textFor, exFateTool, exText, names, if_true, if_false]; rfl)
      (by simp only [lastText, textFor, exFateTool, exText, names, if_true, if_false]; rfl)
      ⟨by decide, (c08_typePart_iff _).2 ⟨not_hasDD_append_hex _ (by decide), by decide⟩, _, .inl ⟨b!"00000000", b!"0000", b!"4000", b!"8000", b!"000000000000",
        ⟨rfl, by decide⟩, ⟨rfl, by decide⟩, ⟨rfl, by decide⟩, ⟨rfl, by decide⟩, ⟨rfl, by decide⟩, rfl⟩, rfl⟩
    rw [← decObj_fate (F := toy) .Tool _ ((written_text h1).arr _ (by simp))]
    rfl
  · refine .known (t := b!"opinion") (s := .Opinion) (small (by decide +kernel)) (.own ⟨_, ⟨_, rfl, rfl⟩, _, rfl⟩) (by decide) ?_
    rw [← decObj_fate (F := toy) .Opinion _ ((written_text h2).arr _ (by simp))]
    rfl
  · intro h
    obtain ⟨c, hc⟩ := (c76_accepted (U := Empty) (F := toy) [] hn _ _ _ h3 (.array _)).2 (by
      rw [drop, nulls]
      exact h)
    cases hc
  · intro h
    have := (c76_crashes (U := Empty) (F := toy) [] hn _ _ _ h3 (.array _)).2 (by
      rw [drop]
      exact ⟨[.null], _, [], rfl, nulls0, h⟩)
    cases this

/-- C76: an empty object is skipped, but refused after an object of an unknown type, whose type it takes over. -/
example : Taken toy False [] (.obj []) ∧ TypeLeft False [.obj [(b!"type", exText (b!"x"))]] (b!"x") ∧
    ¬ Taken toy False [.obj [(b!"type", exText (b!"x"))]] (.obj []) := by
  have hl : TypeLeft False [.obj [(b!"type", exText (b!"x"))]] (b!"x") :=
    .here (before := []) ⟨_, ⟨_, rfl, rfl⟩, _, rfl⟩ (.inr fun s => by cases s <;> decide)
  refine ⟨.untyped id rfl fun t => left_nil, hl, fun h => ?_⟩
  cases h with
  | untyped _ _ h => exact h _ hl
  | known _ _ _ _ h => cases h
  | dropped _ _ _ h => exact h
  | custom _ h => obtain ⟨v, h, -⟩ := text_obj_iff.1 h; cases h

end Stix
