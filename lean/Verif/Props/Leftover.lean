import Verif.Spec.Leftover
import Verif.Props.Fate
import Verif.Props.Says
import Verif.Lemmas.Meaning

/-!
# What the elements of a document become (C77)
-/

namespace Stix
open Spec StixObject Stix.Canon Stix.Props.Canon

variable {F : Canon.FloatFmt} {U : Type} [UserType U]

theorem leftOver_nil {drop : Prop} {k : Str} {v : Json} : ¬ LeftOver drop [] k v := by
  intro h
  generalize e : ([] : List Json) = l at h
  cases h <;> simp at e

theorem leftOver_snoc {drop : Prop} {before : List Json} {j : Json} {k : Str} {v : Json} :
    LeftOver drop (before ++ [j]) k v ↔ ∃ ms, j = .obj ms ∧ ¬ TakesAway drop before ms k ∧
      (member k ms = some v ∨ (member k ms = none ∧ LeftOver drop before k v)) := by
  constructor
  · intro h
    generalize e : before ++ [j] = l at h
    cases h with
    | here h1 h2 =>
      obtain ⟨e1, e2⟩ := List.append_inj' e rfl
      simp only [List.cons.injEq, and_true] at e2
      subst e1
      exact ⟨_, e2, h2, .inl h1⟩
    | past h1 h2 h3 =>
      obtain ⟨e1, e2⟩ := List.append_inj' e rfl
      simp only [List.cons.injEq, and_true] at e2
      subst e1
      exact ⟨_, e2, h3, .inr ⟨h2, h1⟩⟩
  · rintro ⟨ms, rfl, h3, h1 | ⟨h1, h2⟩⟩
    · exact .here h1 h3
    · exact .past h2 h1 h3

theorem left_unknown {drop : Prop} {before : List Json} {t : Str} (h : TypeLeft drop before t) :
    drop ∨ ∀ s, (t, s) ∉ goTypes := by
  induction h with
  | here _ h => exact h
  | past _ _ ih => exact ih

theorem typedAs_unique_own {drop : Prop} {before : List Json} {ms : List (Str × Json)} {t t' : Str}
    (h : Text (.obj ms) (b!"type") t) (h' : TypedAs drop before ms t') : t' = t := by
  cases h' with
  | own h' => exact text_unique h' h
  | left h' =>
    obtain ⟨v, h1, -⟩ := text_obj_iff.1 h
    rw [h'] at h1
    cases h1

theorem left_unique {drop : Prop} {before : List Json} {t t' : Str} (h : TypeLeft drop before t)
    (h' : TypeLeft drop before t') : t' = t := by
  induction h with
  | here h1 _ =>
    obtain ⟨ms, e, h | ⟨h, -⟩⟩ := left_snoc.1 h'
    · simp only [Json.obj.injEq] at e
      subst e
      exact text_unique h.1 h1
    · simp only [Json.obj.injEq] at e
      subst e
      obtain ⟨v, h2, -⟩ := text_obj_iff.1 h1
      rw [h] at h2
      cases h2
  | past h1 h2 ih =>
    obtain ⟨ms, e, h | ⟨-, h⟩⟩ := left_snoc.1 h'
    · simp only [Json.obj.injEq] at e
      subst e
      obtain ⟨v, h3, -⟩ := text_obj_iff.1 h.1
      rw [h2] at h3
      cases h3
    · exact ih h

theorem type_properties (s : SId) : (b!"type") ∈ properties s := by
  obtain ⟨-, r, hr, -, hk, -⟩ := id_type_rows s
  rw [← hk]
  exact List.mem_map_of_mem hr

/-- The type that is left over is the member that is. -/
theorem typeLeft_iff {drop : Prop} {before : List Json} {t : Str} :
    TypeLeft drop before t ↔ ∃ v, LeftOver drop before (b!"type") v ∧ IsText v t := by
  induction before using List.reverseRecOn generalizing t with
  | nil => exact ⟨fun h => absurd h left_nil, fun ⟨v, h, _⟩ => absurd h leftOver_nil⟩
  | append_singleton before j ih =>
    rw [left_snoc]
    simp only [leftOver_snoc]
    constructor
    · rintro ⟨ms, rfl, ⟨h1, h2⟩ | ⟨h1, h2⟩⟩
      · obtain ⟨v, h3, h4⟩ := text_obj_iff.1 h1
        refine ⟨v, ⟨ms, rfl, ?_, .inl h3⟩, h4⟩
        rintro ⟨hd, t', s, h5, h6, -⟩
        obtain rfl := typedAs_unique_own h1 h5
        exact h2.resolve_left hd s h6
      · obtain ⟨v, h3, h4⟩ := ih.1 h2
        refine ⟨v, ⟨ms, rfl, ?_, .inr ⟨h1, h3⟩⟩, h4⟩
        rintro ⟨hd, t', s, h5, h6, -⟩
        cases h5 with
        | own h5 =>
          obtain ⟨v, h7, -⟩ := text_obj_iff.1 h5
          rw [h1] at h7
          cases h7
        | left _ h5 => exact (left_unknown h5).resolve_left hd s h6
    · rintro ⟨v, ⟨ms, rfl, h1, h2 | ⟨h2, h3⟩⟩, h4⟩
      · have ht := text_obj_iff.2 ⟨v, h2, h4⟩
        refine ⟨ms, rfl, .inl ⟨ht, ?_⟩⟩
        by_contra hn
        push Not at hn
        obtain ⟨hd, s, hs⟩ := hn
        exact h1 ⟨hd, t, s, .own ht, hs, .inl (type_properties s)⟩
      · exact ⟨ms, rfl, .inr ⟨h2, ih.2 ⟨v, h3, h4⟩⟩⟩

/-- `peak` has what is left over. -/
structure PeakHas (F : Canon.FloatFmt) (drop : Prop) (before : List Json) (p : Peak) : Prop where
  val : ∀ k d, amLookup k (p.getD []) = some d ↔ ∃ v, LeftOver drop before k v ∧ dynOf F v = d
  small : ∀ k v, LeftOver drop before k v → dynSoft F v = false
  text : ∀ v, LeftOver drop before (b!"type") v → ∃ t, IsText v t

theorem peakHas_none {drop : Prop} : PeakHas F drop [] none :=
  ⟨fun k d => ⟨fun h => (by cases h), fun ⟨v, h, _⟩ => absurd h leftOver_nil⟩,
    fun k v h => absurd h leftOver_nil, fun v h => absurd h leftOver_nil⟩

/-- The type by which an object is read is the one in `peak`. -/
theorem PeakHas.typed {drop : Prop} {before : List Json} {p : Peak} (hp : PeakHas F drop before p)
    (ms : List (Str × Json)) (t : Str) :
    amLookup (b!"type") (dynMerge F (p.getD []) ms) = some (.str t) ↔ TypedAs drop before ms t := by
  rw [amLookup_dynMerge]
  cases hm : member (b!"type") ms with
  | none =>
    simp only [hp.val]
    constructor
    · rintro ⟨v, h1, h2⟩
      exact .left hm (typeLeft_iff.2 ⟨v, h1, dynOf_str h2⟩)
    · intro h
      cases h with
      | own h => obtain ⟨v, h1, -⟩ := text_obj_iff.1 h; rw [hm] at h1; cases h1
      | left _ h =>
        obtain ⟨v, h1, h2⟩ := typeLeft_iff.1 h
        exact ⟨v, h1, dynOf_isText h2⟩
  | some v =>
    simp only [Option.some.injEq]
    constructor
    · exact fun h => .own (text_obj_iff.2 ⟨v, hm, dynOf_str h⟩)
    · intro h
      cases h with
      | own h =>
        obtain ⟨v', h1, h2⟩ := text_obj_iff.1 h
        rw [hm] at h1
        cases h1
        exact dynOf_isText h2
      | left h => rw [hm] at h; cases h

/-- `peak` after an object has been merged into it, of which `gone` has been taken away. -/
theorem PeakHas.merge {drop : Prop} {before : List Json} {p : Peak} (hp : PeakHas F drop before p)
    {ms : List (Str × Json)} (hsoft : (ms.any fun e => dynSoft F e.2) = false)
    (htext : ∀ d, amLookup (b!"type") (dynMerge F (p.getD []) ms) = some d → ∃ t, d = .str t) {m : List (Str × Dyn)}
    (hm : ∀ k, (TakesAway drop before ms k → amLookup k m = none) ∧
      (¬ TakesAway drop before ms k → amLookup k m = amLookup k (dynMerge F (p.getD []) ms))) :
    PeakHas F drop (before ++ [.obj ms]) (some m) := by
  have hsm : ∀ {k v}, member k ms = some v → dynSoft F v = false := fun h => by
    have := List.any_eq_false.1 hsoft _ (member_mem h)
    simpa using this
  have hval : ∀ k d, amLookup k m = some d ↔ ∃ v, LeftOver drop (before ++ [.obj ms]) k v ∧ dynOf F v = d := by
    intro k d
    simp only [leftOver_snoc, Json.obj.injEq, exists_eq_left']
    by_cases ht : TakesAway drop before ms k
    · rw [(hm k).1 ht]
      simp [ht]
    · rw [(hm k).2 ht, amLookup_dynMerge]
      simp only [ht, not_false_eq_true, true_and]
      cases hmk : member k ms with
      | some v => simp
      | none => simp [hp.val]
  refine ⟨hval, ?_, ?_⟩
  · intro k v h
    obtain ⟨ms', e, -, h | ⟨-, h⟩⟩ := leftOver_snoc.1 h
    · simp only [Json.obj.injEq] at e
      subst e
      exact hsm h
    · exact hp.small k v h
  · intro v h
    obtain ⟨ms', e, ht, h1⟩ := leftOver_snoc.1 h
    simp only [Json.obj.injEq] at e
    subst e
    have := (hval (b!"type") (dynOf F v)).2 ⟨v, h, rfl⟩
    rw [(hm _).2 ht] at this
    obtain ⟨t, ht⟩ := htext _ this
    exact ⟨t, dynOf_str ht⟩

theorem takesAway_libKeys {before : List Json} {ms : List (Str × Json)} {t : Str} {s : SId} {drop : Prop} (hd : ¬ drop)
    (ht : TypedAs drop before ms t) (hs : (t, s) ∈ goTypes)
    (hu : ∀ {t'}, TypedAs drop before ms t' → t' = t) (k : Str) :
    TakesAway drop before ms k ↔ k ∈ libKeys s := by
  have hk : k ∈ libKeys s ↔ k ∈ properties s ∨ (k = [] ∧ s ≠ .ExtensionDefinition) := by
    rw [libKeys, List.mem_append, ← canHave_iff]
    cases canHaveExtensions s <;> simp [properties]
  rw [hk]
  constructor
  · rintro ⟨-, t', s', h1, h2, h3⟩
    obtain rfl := hu h1
    have e := (dispatch_mem t' s').2 h2
    rw [(dispatch_mem t' s).2 hs] at e
    cases e
    exact h3
  · exact fun h => ⟨hd, t, s, ht, hs, h⟩

/-- What a value means that is not too large. -/
theorem meansDyn_small {v : Json} {d : Dyn} (h : dynSoft F v = false) : MeansDyn F v d ↔ dynOf F v = d := by
  have hm := decDyn_means v (dynOf F v) (by rw [decDyn_eq, h])
  exact ⟨fun h => meansDyn_one _ _ _ hm h, fun h => h ▸ hm⟩

theorem decObj_means {s : SId} {ms : List (Str × Json)} {o : Obj} (hw : Written (.obj ms))
    (h : decObj F (zeroObj s) (.obj ms) = .ok o false) : MeansObj F s ms o.val := by
  simp only [decObj, D.bind_fine, D.ok.injEq, and_true] at h
  obtain ⟨f, h, rfl⟩ := h
  have hn : ((mkFields (objFields s)).toList.map FieldInfo.name).Nodup := by rw [mkFields_toList]; exact objFields_names_nodup _
  have hz : (zeroObj s).val = zeroFields (mkFields (objFields s)) := by
    show zeroVal (objFields s) = _
    generalize objFields s = fs
    funext x
    induction fs with
    | nil => rfl
    | cons f fs ih =>
      simp only [zeroVal, mkFields, zeroFields, ih]
  obtain ⟨g1, g2⟩ := decFields_means (F := F) hn (objFields_apart s).2 hw.obj (by rw [mkFields_toList, ← hz]; exact h)
    fun r hr j v hw h => decRow_means _ r j v (objFields_apart s).1 hw hr h
  rw [mkFields_toList] at g1
  exact ⟨g1, g2⟩

theorem parseOne_means {cfg : Config U} (hn : ∀ t, cfg.handlers t = none) {p p' : Peak} {j : Json} {o : Obj}
    (hw : Written j) (h : parseOne F cfg p j = .ok (p', some (.lib o))) :
    ∃ ms, j = .obj ms ∧ MeansObj F o.sid ms o.val := by
  obtain ⟨ms, typ, rfl, -, hk⟩ := parseOne_builtin h
  refine ⟨ms, rfl, ?_⟩
  rcases hk (hn typ) with ⟨s, o', h1, h2, h3, -⟩ | ⟨-, -, h⟩
  · obtain ⟨e1, -⟩ := decObj_ok h2
    replace e1 : o'.sid = s := e1
    simp only [core, Any.lib.injEq] at h3
    have e2 : o.sid = s := by rw [← e1, ← h3]
    have e3 : o.val = o'.val := by rw [← h3]
    rw [e2, e3]
    exact decObj_means hw h2
  · cases h

theorem becomes_step {cfg : Config U} (hn : ∀ t, cfg.handlers t = none) {before : List Json} {p p' : Peak} {j : Json}
    {a : Option (Any U)} (hp : PeakHas F (cfg.dropCustom = true) before p) (h : parseOne F cfg p j = .ok (p', a)) :
    PeakHas F (cfg.dropCustom = true) (before ++ [j]) p' ∧ Becomes F (cfg.dropCustom = true) before j a := by
  cases j with
  | null =>
    simp only [parseOne, decCustom, D.res, Res.bind, Option.getD_none, amLookup, Res.ok.injEq, Prod.mk.injEq] at h
    obtain ⟨rfl, rfl⟩ := h
    have hno : ∀ {k v}, ¬ LeftOver (cfg.dropCustom = true) (before ++ [.null]) k v := fun h => by
      obtain ⟨ms, e, -⟩ := leftOver_snoc.1 h
      cases e
    exact ⟨⟨fun k d => ⟨fun h => (by cases h), fun ⟨v, h, _⟩ => absurd h hno⟩, fun k v h => absurd h hno,
      fun v h => absurd h hno⟩, .null⟩
  | obj ms =>
    cases hsoft : (ms.any fun e => dynSoft F e.2) with
    | true => simp [parseOne, decCustom_obj, hsoft, D.res, Res.bind] at h
    | false =>
    simp only [parseOne, decCustom_obj, hsoft, D.res, Res.bind, Option.getD_some] at h
    cases hl : amLookup (b!"type") (dynMerge F (p.getD []) ms) with
    | none =>
      rw [hl] at h
      simp only [Res.ok.injEq, Prod.mk.injEq] at h
      obtain ⟨rfl, rfl⟩ := h
      have hm : member (b!"type") ms = none := by
        rw [amLookup_dynMerge] at hl
        cases hm : member (b!"type") ms with
        | none => rfl
        | some v => rw [hm] at hl; cases hl
      have hleft : ∀ t, ¬ TypedAs (cfg.dropCustom = true) before ms t := fun t ht => by
        have := (hp.typed ms t).2 ht
        rw [hl] at this
        cases this
      refine ⟨hp.merge hsoft (fun d h => by rw [hl] at h; cases h) fun k => ⟨fun ⟨_, t, s, h, _⟩ => absurd h (hleft t),
        fun _ => rfl⟩, .untyped hm fun t h => hleft t (.left hm h)⟩
    | some d =>
      cases d with
      | str t =>
        have ht := (hp.typed ms t).1 hl
        have hu : ∀ {t'}, TypedAs (cfg.dropCustom = true) before ms t' → t' = t := fun h => by
          have := (hp.typed ms _).2 h
          rw [hl] at this
          simp only [Option.some.injEq, Dyn.str.injEq] at this
          exact this.symm
        have htext : ∀ d, amLookup (b!"type") (dynMerge F (p.getD []) ms) = some d → ∃ t, d = .str t := fun d h => by
          rw [hl] at h
          cases h
          exact ⟨t, rfl⟩
        rw [hl] at h
        simp only [newObject, hn] at h
        cases hd : amLookup t dispatchTable with
        | none =>
          have hs := (dispatch_none t).1 hd
          have hmerge : PeakHas F (cfg.dropCustom = true) (before ++ [.obj ms]) (some (dynMerge F (p.getD []) ms)) :=
            hp.merge hsoft htext fun k => ⟨fun ⟨_, t', s, h1, h2, _⟩ => by
              obtain rfl := hu h1
              exact absurd h2 (hs s), fun _ => rfl⟩
          rw [hd] at h
          cases hdr : cfg.dropCustom with
          | true =>
            simp only [hdr, if_true, Res.ok.injEq, Prod.mk.injEq] at h
            obtain ⟨rfl, rfl⟩ := h
            rw [hdr] at hmerge ht
            exact ⟨hmerge, .dropped ht hs rfl⟩
          | false =>
            simp only [hdr, Bool.false_eq_true, if_false, decAny, decCustom_obj, hsoft, D.bind, Bool.or_self, D.res,
              Res.bind, extend, Res.ok.injEq, Prod.mk.injEq, Option.getD_some] at h
            obtain ⟨rfl, rfl⟩ := h
            rw [hdr] at hmerge ht
            refine ⟨hmerge, .custom ht hs (by simp) fun k d => ?_⟩
            rw [amLookup_dynMerge]
            cases hmk : member k ms with
            | none => simp [amLookup]
            | some v =>
              have hsv : dynSoft F v = false := by
                have := List.any_eq_false.1 hsoft _ (member_mem hmk)
                simpa using this
              simp only [Option.some.injEq, exists_eq_left', meansDyn_small hsv]
        | some s =>
          have hs := (dispatch_mem t s).1 hd
          rw [hd] at h
          simp only [decAny] at h
          cases ho : decObj F (zeroObj s) (.obj ms) with
          | panic => rw [ho] at h; simp [D.bind, D.res, Res.bind] at h
          | hard => rw [ho] at h; simp [D.bind, D.res, Res.bind] at h
          | ok o soft =>
          cases soft with
          | true => rw [ho] at h; simp [D.bind, D.res, Res.bind] at h
          | false =>
          rw [ho] at h
          obtain ⟨e1, e2⟩ := decObj_ok ho
          replace e1 : o.sid = s := e1
          replace e2 : o.extra = none := e2
          obtain ⟨⟨r, hr, hn1, hk1, hty⟩, r', hr', hn1', hk1', hty'⟩ := id_type_rows s
          have hid : o.getStr (b!"ID") = (lastText (b!"id") ms).getD [] := by
            have := decObj_lastText ho hr hty
            rw [hn1, hk1] at this
            exact this
          have htype : o.getStr (b!"Type") = (lastText (b!"type") ms).getD [] := by
            have := decObj_lastText ho hr' hty'
            rw [hn1', hk1'] at this
            exact this
          simp only [D.bind, Bool.or_self, D.res, Res.bind] at h
          cases hdr : cfg.dropCustom with
          | true =>
            simp only [hdr, if_true, Res.ok.injEq, Prod.mk.injEq] at h
            obtain ⟨rfl, rfl⟩ := h
            have hmerge : PeakHas F (cfg.dropCustom = true) (before ++ [.obj ms]) (some (dynMerge F (p.getD []) ms)) :=
              hp.merge hsoft htext fun k => ⟨fun ⟨h, _⟩ => absurd hdr h, fun _ => rfl⟩
            rw [hdr] at hmerge ht
            refine ⟨hmerge, .object ht (by rw [e1]; exact hs) hid htype (fun _ => ?_) (fun h => absurd rfl h) fun h => absurd rfl h⟩
            simp [Any.extended, e2]
          | false =>
            have hnd : ¬ cfg.dropCustom = true := by simp [hdr]
            have hta := takesAway_libKeys hnd ht hs hu
            have hmerge : PeakHas F (cfg.dropCustom = true) (before ++ [.obj ms])
                (some (deleteKeys (libKeys s) (dynMerge F (p.getD []) ms))) :=
              hp.merge hsoft htext fun k => by
                rw [amLookup_deleteKeys, hta]
                exact ⟨fun h => if_pos h, fun h => if_neg h⟩
            simp only [hdr, Bool.false_eq_true, if_false, extend, e1, Option.getD_some, Option.map_some, Res.ok.injEq,
              Prod.mk.injEq] at h
            obtain ⟨rfl, rfl⟩ := h
            rw [hdr] at hmerge ht
            generalize hrest : deleteKeys (libKeys s) (dynMerge F (p.getD []) ms) = rest at hmerge
            have hext : ∀ o' : Obj, o' = (if rest ≠ [] ∧ canHaveExtensions s = true then { sid := s, val := o.val, extra := some rest } else o) →
                o'.sid = s ∧ o'.getStr (b!"ID") = o.getStr (b!"ID") ∧ o'.getStr (b!"Type") = o.getStr (b!"Type") ∧
                (s ≠ .ExtensionDefinition → o'.extra = if rest = [] then none else some rest) := by
              rintro o' rfl
              split
              · next hh => exact ⟨rfl, rfl, rfl, fun _ => by rw [if_neg hh.1]⟩
              · next hh =>
                refine ⟨e1, rfl, rfl, fun hx => ?_⟩
                rw [if_pos, e2]
                by_contra hne
                exact hh ⟨hne, (canHave_iff s).2 hx⟩
            obtain ⟨x1, x2, x3, x4⟩ := hext _ rfl
            refine ⟨hmerge, .object ht (by rw [x1]; exact hs) (by rw [x2, hid]) (by rw [x3, htype]) (fun h => by cases h) ?_ ?_⟩
            · intro _ hx k d
              rw [x1] at hx
              simp only [Any.extended, x1, if_neg hx, x4 hx]
              have : ((if rest = [] then none else some rest : Option (List (Str × Dyn))).getD []) = rest := by
                split
                · next h => rw [h]; rfl
                · rfl
              rw [this]
              have := hmerge.val k d
              rw [Option.getD_some] at this
              rw [this]
              constructor
              · rintro ⟨v, h1, h2⟩
                exact ⟨v, h1, (meansDyn_small (hmerge.small k v h1)).2 h2⟩
              · rintro ⟨v, h1, h2⟩
                exact ⟨v, h1, (meansDyn_small (hmerge.small k v h1)).1 h2⟩
            · intro _ hx
              rw [x1] at hx
              simp only [Any.extended, x1, if_neg hx, x4 hx]
              have hnil : rest = [] ↔ ∀ k v, ¬ LeftOver (false = true) (before ++ [.obj ms]) k v := by
                rw [eq_nil_iff_lookup]
                constructor
                · intro h k v hv
                  have := (hmerge.val k (dynOf F v)).2 ⟨v, hv, rfl⟩
                  rw [Option.getD_some, h k] at this
                  cases this
                · intro h k
                  cases hk : amLookup k rest with
                  | none => rfl
                  | some d =>
                    obtain ⟨v, hv, -⟩ := (hmerge.val k d).1 hk
                    exact absurd hv (h k v)
              rw [← hnil]
              by_cases hr : rest = [] <;> simp [hr]
      | _ => rw [hl] at h; simp at h
  | _ => simp [parseOne, decCustom, D.res, Res.bind] at h

/-- The steps, one after the other. -/
theorem becomes_steps {opts : List (CollOption U)} (hn : NoParsers opts) {l : List Json} {before : List Json}
    {p p' : Peak} {as : List (Option (Any U))} (hp : PeakHas F ((Config.new opts).dropCustom = true) before p)
    (h : Steps F (Config.new opts) p l as p') :
    as.length = l.length ∧ ∀ i j a, l[i]? = some j → as[i]? = some a →
      Becomes F ((Config.new opts).dropCustom = true) (before ++ l.take i) j a ∧
      (IntegersParse F → ∀ o, Describes F j o → ∃ o', a = some (.lib o') ∧ o'.sid = o.sid ∧ o'.val = o.val) ∧
      (Written j → ∀ o, a = some (.lib o) → ∃ ms, j = .obj ms ∧ MeansObj F o.sid ms o.val) := by
  induction l generalizing before p as with
  | nil =>
    cases h
    exact ⟨rfl, fun i j a h => by simp at h⟩
  | cons j l ih =>
    cases h with
    | cons h1 h2 h3 =>
      obtain ⟨g1, g2⟩ := becomes_step (handlers_none hn) hp h1
      obtain ⟨e, g3⟩ := ih g1 h3
      refine ⟨by simp [e], fun i j' a' hj ha => ?_⟩
      cases i with
      | zero =>
        simp only [List.getElem?_cons_zero, Option.some.injEq] at hj ha
        subst hj ha
        refine ⟨by simpa using g2, fun hI o ho => ?_, fun hw o ho => parseOne_means (handlers_none hn) hw (by rw [h1, ho])⟩
        obtain ⟨p1, o', k1, k2, k3, -⟩ := parseOne_says hI ho opts (fun h ⟨b, a, e, _⟩ =>
          hn (.parser (getType o) (some h)) (by rw [e]; simp) _ _ rfl) p
        rw [k1] at h1
        simp only [Res.ok.injEq, Prod.mk.injEq] at h1
        exact ⟨o', h1.2.symm, k2, k3⟩
      | succ i =>
        simp only [List.getElem?_cons_succ] at hj ha
        have := g3 i j' a' hj ha
        simpa only [List.append_assoc, List.singleton_append, List.take_succ_cons] using this

/-- **C77.** An import that succeeds adds, in the order of the document, what each element becomes by the
elements before it: nothing, a custom object with exactly the element's members, or an object of the Go
type of its type, with the id and type the element states, with the values of the properties, if the
element describes an object, and with exactly the leftovers as extended properties. -/
theorem c77_entries (opts : List (CollOption U)) (hn : NoParsers opts) (doc : Json) (l : List Json) (hl : Holds doc l)
    (c : Coll (Any U)) (hc : fromJSON F opts (some doc) = .ok c) :
    ∃ as : List (Option (Any U)), as.length = l.length ∧
      (∀ i j a, l[i]? = some j → as[i]? = some a →
        Becomes F (CollOption.dropCustom ∈ opts) (l.take i) j a ∧
        (IntegersParse F → ∀ o, Describes F j o → ∃ o', a = some (.lib o') ∧ o'.sid = o.sid ∧ o'.val = o.val)) ∧
      (∀ ident a, c.get ident = some a ↔ Latest (as.filterMap id) ident a) ∧
      ∀ x ∈ as.filterMap id, Acceptable x := by
  rw [(c75_shape opts doc).1 l hl, fromJSON_arr, processObjects_ok] at hc
  obtain ⟨as, p', hst, rfl⟩ := hc
  obtain ⟨h1, h2⟩ := becomes_steps hn peakHas_none hst
  simp only [dropCustom_iff, List.nil_append] at h2
  refine ⟨as, h1, fun i j a hj ha => ⟨(h2 i j a hj ha).1, (h2 i j a hj ha).2.1⟩, fun ident a => c01_get_latest _ _ _ _, ?_⟩
  intro x hx
  simp only [List.mem_filterMap, id_eq, exists_eq_right] at hx
  clear h1 h2 hl
  generalize (none : Peak) = p at hst
  induction hst with
  | nil => cases hx
  | cons _ h _ ih =>
    cases hx with
    | head => exact (h x rfl).2
    | tail _ hx => exact ih hx

/-- Two tools, of which the first has a member `x`, and nothing between them. -/
def exLeftFirst : List (Str × Json) :=
  [(b!"type", exText (b!"tool")), (b!"id", exText (b!"tool--00000000-0000-4000-8000-000000000000")), (b!"x", .bool true)]
def exLeftSecond : List (Str × Json) :=
  [(b!"type", exText (b!"tool")), (b!"id", exText (b!"tool--00000000-0000-4000-8000-000000000001"))]

set_option maxRecDepth 100000 in
/-- C77: the import succeeds; `x` is left over after both, and is no longer after a `null`. -/
example : (∃ c, fromJSON (U := Empty) toy [] (some (.arr [.obj exLeftFirst, .obj exLeftSecond])) = .ok c) ∧
    Holds (.arr [.obj exLeftFirst, .obj exLeftSecond]) [.obj exLeftFirst, .obj exLeftSecond] ∧
    LeftOver False [.obj exLeftFirst, .obj exLeftSecond] (b!"x") (.bool true) ∧
    ¬ LeftOver False [.obj exLeftFirst, .null, .obj exLeftSecond] (b!"x") (.bool true) := by
  have tool : ∀ {before ms}, member (b!"type") ms = some (exText (b!"tool")) → ¬ TakesAway False before ms (b!"x") := by
    rintro before ms hm ⟨-, t, s, h1, h2, h3⟩
    have ht : Text (.obj ms) (b!"type") (b!"tool") := text_obj_iff.2 ⟨_, hm, _, rfl⟩
    obtain rfl := typedAs_unique_own ht h1
    have : s = .Tool := by
      revert h2
      cases s <;> decide
    subst this
    revert h3
    decide
  refine ⟨⟨_, rfl⟩, .array _, ?_, ?_⟩
  · exact .past (before := [.obj exLeftFirst]) (.here (before := []) rfl (tool rfl)) rfl (tool rfl)
  · intro h
    obtain ⟨ms, e, -, h | ⟨-, h⟩⟩ := leftOver_snoc (before := [.obj exLeftFirst, .null]).1 h
    · simp only [Json.obj.injEq] at e
      subst e
      cases h
    · obtain ⟨ms, e, -⟩ := leftOver_snoc (before := [.obj exLeftFirst]).1 h
      cases e

end Stix
