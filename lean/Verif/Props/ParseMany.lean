import Verif.Props.Parse

/-!
# Several objects in a document (C28, C30, C34)
-/

namespace Stix
open Spec StixObject Stix.Canon Stix.Props.Canon

variable {F : Canon.FloatFmt} {U : Type} [UserType U]

/-! ## C28 -/

theorem amLookup_deleteKeys (ks : List Str) (m : List (Str × Dyn)) (k : Str) :
    amLookup k (deleteKeys ks m) = if k ∈ ks then none else amLookup k m := by
  unfold deleteKeys
  induction m with
  | nil => simp [amLookup]
  | cons e m ih =>
    obtain ⟨k', v⟩ := e
    simp only [List.contains_eq_mem] at ih ⊢
    by_cases hc : k' ∈ ks
    · rw [List.filter_cons_of_neg (by simpa using hc), ih]
      by_cases e : k' = k
      · subst e; simp [hc]
      · simp [amLookup, e]
    · rw [List.filter_cons_of_pos (by simpa using hc)]
      by_cases e : k' = k
      · subst e; simp [hc, amLookup]
      · rw [amLookup, if_neg e, ih, amLookup, if_neg e]

theorem eq_nil_iff_lookup {m : List (Str × Dyn)} : m = [] ↔ ∀ k, amLookup k m = none := by
  constructor
  · rintro rfl; simp [amLookup]
  · intro h
    cases m with
    | nil => rfl
    | cons e m => have := h e.1; simp [amLookup] at this

theorem canHave_iff (s : SId) : canHaveExtensions s = true ↔ s ≠ .ExtensionDefinition := by
  cases s <;> decide

/-- **C28** (members with a non-empty name; not for extension definitions).  The extended
top-level properties of a parsed object are exactly the members whose names are not properties of
its type, with their values, and there are none (nil) if there are no such members. -/
theorem c28_captured_partial (opts : List (CollOption U)) (hd : CollOption.dropCustom ∉ opts)
    (ms : List (Str × Json)) (t : Str) (s : SId) (ht : Text (.obj ms) (b!"type") t)
    (hs : (t, s) ∈ goTypes) (hne : s ≠ .ExtensionDefinition) (hp : NoParser opts t)
    (c : Coll (Any U)) (h : fromJSON F opts (some (.arr [.obj ms])) = .ok c) (id : Str) (a : Any U)
    (ha : c.get id = some a) :
    ∃ o, a = .lib o ∧ o.sid = s ∧
      (∀ k d, amLookup k (a.extended.getD []) = some d ↔
        k ∉ properties s ∧ k ≠ [] ∧ ∃ v, member k ms = some v ∧ decDyn F v = .ok d false) ∧
      (a.extended = none ↔ ∀ k ∈ amKeys ms, k ∈ properties s ∨ k = []) := by
  obtain ⟨p, a', h1, h2, h3⟩ := fromJSON_single.1 h
  subst h3
  have hmem := (latest_acceptable ((c01_get_latest _ _ _ _).1 ha)).2.2
  cases a' with
  | none => simp at hmem
  | some a' =>
  simp only [Option.toList, List.mem_singleton] at hmem
  subst hmem
  obtain ⟨ms', typ, a0, a1, e, hsoft, hl, h4, h5, h6⟩ := parseOne_some h1
  simp only [Json.obj.injEq] at e
  subst e
  obtain ⟨v, ⟨ms', e, hm⟩, raw, rfl⟩ := ht
  simp only [Json.obj.injEq] at e
  subst e
  have htyp : typ = t := by
    simp only [Option.getD_none, amLookup_dynMerge, hm, dynOf, decDyn, Option.some.injEq,
      Dyn.str.injEq] at hl
    exact hl.symm
  subst htyp
  have hdr : (Config.new opts).dropCustom = false := by
    rw [← Bool.not_eq_true, dropCustom_iff]; exact hd
  simp only [newObject, (noParser_iff opts typ).1 hp, (dispatch_mem typ s).2 hs, Res.ok.injEq,
    Option.some.injEq] at h4
  subst h4
  simp only [decAny, D.bind_ok_iff, D.ok.injEq, Option.some.injEq, and_true] at h5
  obtain ⟨o, h5, rfl⟩ := h5
  obtain ⟨e1, e2⟩ := decObj_ok h5
  replace e1 : o.sid = s := e1
  replace e2 : o.extra = none := e2
  simp only [hdr, Bool.false_eq_true, if_false, extend, Option.getD_some, Prod.mk.injEq,
    Option.some.injEq] at h6
  obtain ⟨_, rfl⟩ := h6
  have hcan : canHaveExtensions o.sid = true := by rw [e1]; exact (canHave_iff s).2 hne
  have hkeys : ∀ k, k ∈ libKeys o.sid ↔ k ∈ properties s ∨ k = [] := by
    intro k
    rw [e1] at hcan ⊢
    simp [libKeys, hcan, properties]
  have hlook : ∀ k d, amLookup k (deleteKeys (libKeys o.sid) (dynMerge F [] ms)) = some d ↔
      k ∉ properties s ∧ k ≠ [] ∧ ∃ v, member k ms = some v ∧ decDyn F v = .ok d false := by
    intro k d
    rw [amLookup_deleteKeys]
    by_cases hk : k ∈ libKeys o.sid
    · rw [if_pos hk]
      simp only [reduceCtorEq, false_iff]
      rintro ⟨g1, g2, _⟩
      rcases (hkeys k).1 hk with g | g
      · exact g1 g
      · exact g2 g
    · rw [if_neg hk, amLookup_dynMerge]
      rw [hkeys, not_or] at hk
      cases hmk : member k ms with
      | none => simp [amLookup]
      | some v =>
        have hsv : dynSoft F v = false := by
          have := List.any_eq_false.1 hsoft _ (member_mem hmk)
          simpa using this
        simp only [Option.some.injEq, exists_eq_left', hk.1, hk.2, not_false_eq_true, true_and, ne_eq]
        rw [decDyn_eq, hsv]
        simp
  simp only [Option.getD_none] at *
  refine ⟨_, rfl, by split <;> exact e1, ?_, ?_⟩
  all_goals
    simp only [Any.extended]
    rw [if_neg (by split <;> exact e1 ▸ hne)]
  · intro k d
    rw [← hlook]
    by_cases hr : deleteKeys (libKeys o.sid) (dynMerge F [] ms) = []
    · simp [hr, e2]
    · simp [hr, hcan]
  · have hnil : deleteKeys (libKeys o.sid) (dynMerge F [] ms) = [] ↔
        ∀ k ∈ amKeys ms, k ∈ properties s ∨ k = [] := by
      rw [eq_nil_iff_lookup]
      constructor
      · intro hk k hkm
        by_contra hc
        push Not at hc
        cases hmk : member k ms with
        | none => exact (member_none_iff k ms).1 hmk hkm
        | some v =>
          have hsv : dynSoft F v = false := by
            have := List.any_eq_false.1 hsoft _ (member_mem hmk)
            simpa using this
          have := (hlook k (dynOf F v)).2 ⟨hc.1, hc.2, v, hmk, by rw [decDyn_eq, hsv]⟩
          rw [hk k] at this
          simp at this
      · intro hk k
        cases hl : amLookup k (deleteKeys (libKeys o.sid) (dynMerge F [] ms)) with
        | none => rfl
        | some d =>
          obtain ⟨g1, g2, v, g3, _⟩ := (hlook k d).1 hl
          rcases hk k (List.mem_map_of_mem (member_mem g3)) with g | g
          · exact absurd g g1
          · exact absurd g g2
    rw [← hnil]
    by_cases hr : deleteKeys (libKeys o.sid) (dynMerge F [] ms) = []
    · simp [hr, e2]
    · simp [hr, hcan]

/-- **C28** (with `DropCustomOption`).  There are no extended top-level properties. -/
theorem c28_dropped (opts : List (CollOption U)) (hd : CollOption.dropCustom ∈ opts)
    (hn : NoParsers opts) (doc : Option Json) (c : Coll (Any U)) (h : fromJSON F opts doc = .ok c)
    (id : Str) (a : Any U) (ha : c.get id = some a) : ∃ o, a = .lib o ∧ a.extended = none := by
  rcases c32_drop_custom opts hd doc c h id a ha with ⟨o, t, h1, h2, _⟩ | ⟨t, f, _, _, ⟨b, e, h1, _⟩, _⟩
  · subst h1
    exact ⟨o, rfl, by simp only [Any.extended, h2, ite_self]⟩
  · exact absurd rfl (hn _ (by rw [h1]; simp) t (some f))

/-- C28: a malware object with an unknown member, which is kept with its value. -/
example : ∃ ms : List (Str × Json), Text (.obj ms) (b!"type") (b!"malware") ∧
    (b!"malware", SId.Malware) ∈ goTypes ∧ NoParser (U := Empty) [] (b!"malware") ∧
    (fromJSON (U := Empty) toy [] (some (.arr [.obj ms]))).okWith (fun c =>
      match c.get (exId (b!"malware")) with
      | some (.lib o) => match o.extra with
        | some [(k, .str v)] => k == b!"x_note" && v == b!"hello"
        | _ => false
      | _ => false) = true :=
  ⟨[(b!"type", exText (b!"malware")), (b!"id", exText (exId (b!"malware"))),
      (b!"is_family", .bool true), (b!"x_note", exText (b!"hello"))], ⟨_, ⟨_, rfl, rfl⟩, _, rfl⟩,
    by decide, by simp [NoParser, ParserFor], by decide +kernel⟩

/-- **C28 is false** for a member with an empty name: it is lost. -/
theorem c28_empty_name_lost : ∃ (ms : List (Str × Json)) (c : Coll (Any Empty)) (o : Obj),
    fromJSON toy [] (some (.arr [.obj ms])) = .ok c ∧ (b!"" : Str) ∈ amKeys ms ∧
      c.get (exId (b!"tool")) = some (.lib o) ∧ (Any.lib (U := Empty) o).extended = none := by
  have h : (fromJSON (U := Empty) toy [] (some (.arr [.obj [(b!"type", exText (b!"tool")),
      (b!"id", exText (exId (b!"tool"))), ([], exText (b!"x"))]]))).okWith (fun c =>
        match c.get (exId (b!"tool")) with
        | some (.lib o) => o.extra.isNone
        | _ => false) = true := by decide +kernel
  obtain ⟨c, h1, h2⟩ := Res.okWith_iff.1 h
  split at h2
  · next o ho => exact ⟨_, c, o, h1, by simp [amKeys], ho, by simpa [Any.extended] using fun _ => h2⟩
  · simp at h2

/-- **C28 is false** for extension definitions: they have no place for other members. -/
theorem c28_extension_definition : ∃ (ms : List (Str × Json)) (c : Coll (Any Empty)) (o : Obj),
    fromJSON toy [] (some (.arr [.obj ms])) = .ok c ∧ (b!"x_a") ∈ amKeys ms ∧
      (b!"x_a") ∉ properties o.sid ∧ c.get (exId (b!"extension-definition")) = some (.lib o) ∧
      (Any.lib (U := Empty) o).extended = none := by
  have h : (fromJSON (U := Empty) toy [] (some (.arr [.obj [
      (b!"type", exText (b!"extension-definition")),
      (b!"id", exText (exId (b!"extension-definition"))), (b!"x_a", exText (b!"x"))]]))).okWith (fun c =>
        match c.get (exId (b!"extension-definition")) with
        | some (.lib o) => o.extra.isNone && !(properties o.sid).contains (b!"x_a")
        | _ => false) = true := by decide +kernel
  obtain ⟨c, h1, h2⟩ := Res.okWith_iff.1 h
  split at h2
  · next o ho =>
    simp only [Option.isNone_iff_eq_none, Bool.and_eq_true, Bool.not_eq_true', List.contains_eq_mem,
      decide_eq_false_iff_not] at h2
    exact ⟨_, c, o, h1, by simp [amKeys], h2.2, ho, by simp [Any.extended, h2.1]⟩
  · simp at h2

/-! ## C30 -/

theorem panics_core (a : Any U) : (core a).panics = a.panics := by cases a <;> rfl
theorem getID_core (a : Any U) : getID (core a) = getID a := by cases a <;> rfl
theorem getType_core (a : Any U) : getType (core a) = getType a := by cases a <;> rfl

/-- The element has a type of its own, or is no object. -/
def OwnType (j : Json) : Prop := ∀ ms, j = .obj ms → (b!"type") ∈ amKeys ms

/-- Only the object, seen through `f`. -/
def seen {α β} (f : Any U → β) (r : Res (α × Option (Any U))) : Res (Option β) :=
  r.bind fun x => .ok (x.2.map f)

theorem parseOne_seen {β} (f : Any U → β) (cfg : Config U)
    (hf : ∀ a p p', ((if cfg.dropCustom then (p, some a) else extend (some a) p).2).map f =
      ((if cfg.dropCustom then (p', some a) else extend (some a) p').2).map f)
    {j : Json} (hj : OwnType j) (p : Peak) :
    seen f (parseOne F cfg p j) = seen f (parseOne F cfg none j) := by
  unfold parseOne
  cases j with
  | null => rfl
  | obj ms =>
    rw [decCustom_obj, decCustom_obj]
    cases hs : ms.any fun e => dynSoft F e.2 with
    | true => rfl
    | false =>
      simp only [D.res, Res.bind, Option.getD_some, Option.getD_none, amLookup_dynMerge]
      cases hm : member (b!"type") ms with
      | none => exact absurd (hj ms rfl) ((member_none_iff _ _).1 hm)
      | some v =>
        simp only
        cases hv : dynOf F v with
        | str typ =>
          simp only
          cases hn : newObject cfg typ (.obj ms) with
          | err e => rfl
          | panic => rfl
          | ok x =>
            cases x with
            | none => rfl
            | some a0 =>
              simp only
              cases hd : decAny F (.obj ms) a0 with
              | hard => rfl
              | panic => rfl
              | ok a1 soft =>
                cases soft with
                | true => rfl
                | false =>
                simp only
                cases a1 with
                | none => cases cfg.dropCustom <;> simp [extend, seen, Res.bind]
                | some a1 =>
                  have := hf a1 (some (dynMerge F (p.getD []) ms)) (some (dynMerge F [] ms))
                  have hsome : ∀ q, ∃ y, (if cfg.dropCustom then (q, some a1)
                      else extend (some a1) q).2 = some y := by
                    intro q
                    cases cfg.dropCustom with
                    | true => exact ⟨a1, rfl⟩
                    | false => cases a1 <;> exact ⟨_, rfl⟩
                  obtain ⟨y, hy⟩ := hsome (some (dynMerge F (p.getD []) ms))
                  obtain ⟨z, hz⟩ := hsome (some (dynMerge F [] ms))
                  rw [hy, hz] at this ⊢
                  simp only [seen, Res.bind]
                  rw [this]
        | _ => rfl
  | _ => rfl

theorem extend_core (cfg : Config U) (a : Any U) (p p' : Peak) :
    ((if cfg.dropCustom then (p, some a) else extend (some a) p).2).map core =
      ((if cfg.dropCustom then (p', some a) else extend (some a) p').2).map core := by
  cases cfg.dropCustom with
  | true => rfl
  | false =>
    have h1 := core_extend a p
    have h2 := core_extend a p'
    simp only [Bool.false_eq_true, if_false]
    rw [h1, h2]

theorem processObjects_append {cfg : Config U} {p p' : Peak} {l : List Json}
    {as : List (Option (Any U))} (h : Steps F cfg p l as p') (c : Coll (Any U)) (r : List Json) :
    processObjects F cfg p c (l ++ r) =
      processObjects F cfg p' (c.addAll (as.filterMap id)) r := by
  induction h generalizing c with
  | nil => rfl
  | cons h1 h2 h3 ih =>
    rename_i a as
    simp only [List.cons_append, processObjects, h1, Res.bind]
    rw [addOne_ok.2 ⟨h2, rfl⟩]
    simp only
    rw [ih]
    cases a <;> rfl

theorem processObjects_fail {cfg : Config U} (p : Peak) (l r : List Json) (c : Coll (Any U))
    (h : ∀ c', processObjects F cfg p c l ≠ .ok c') :
    processObjects F cfg p c (l ++ r) = processObjects F cfg p c l := by
  induction l generalizing p c with
  | nil => exact absurd rfl (h c)
  | cons j l ih =>
    simp only [List.cons_append, processObjects] at h ⊢
    cases h1 : parseOne F cfg p j with
    | err e => rfl
    | panic => rfl
    | ok x =>
      rw [h1] at h
      simp only [Res.bind] at h ⊢
      cases h2 : addOne c x.2 with
      | err e => rfl
      | panic => rfl
      | ok c1 =>
        rw [h2] at h
        exact ih x.1 c1 h

/-- Outcome of adding what was parsed: it depends on the object only. -/
theorem addOne_cases (c : Coll (Any U)) (a : Option (Any U)) :
    ((∃ x, a = some x ∧ x.panics = true) ∧ addOne c a = .panic) ∨
    ((∃ x, a = some x ∧ x.panics = false ∧ ¬ Acceptable x) ∧ ∃ e, addOne c a = .err e) ∨
    ((∀ x, a = some x → x.panics = false ∧ Acceptable x) ∧ addOne c a = .ok (c.addAll a.toList)) := by
  cases a with
  | none => exact .inr (.inr ⟨by simp, rfl⟩)
  | some x =>
    by_cases hp : x.panics = true
    · exact .inl ⟨⟨x, rfl, hp⟩, by simp [addOne, hp]⟩
    · simp only [Bool.not_eq_true] at hp
      by_cases ha : Acceptable x
      · refine .inr (.inr ⟨?_, addOne_ok.2 ⟨?_, rfl⟩⟩) <;>
        · intro y hy; simp only [Option.some.injEq] at hy; subst hy; exact ⟨hp, ha⟩
      · refine .inr (.inl ⟨⟨x, rfl, hp, ha⟩, .other, ?_⟩)
        have := add_rejected c x ha
        simp [addOne, hp, this]

/-- The result of parsing one more element, against parsing it alone. -/
theorem append_alike {β} (f : Any U → β) (hpan : ∀ a b : Any U, f a = f b → a.panics = b.panics)
    (hacc : ∀ a b : Any U, f a = f b → (Acceptable a ↔ Acceptable b)) {cfg : Config U} {j : Json}
    {p : Peak} (hs : seen f (parseOne F cfg p j) = seen f (parseOne F cfg none j))
    (c c0 : Coll (Any U)) :
    (processObjects F cfg p c [j] = .panic ↔ processObjects F cfg none c0 [j] = .panic) ∧
    ((∃ e, processObjects F cfg p c [j] = .err e) ↔
      ∃ e, processObjects F cfg none c0 [j] = .err e) ∧
    ∀ d, processObjects F cfg none c0 [j] = .ok d → ∃ as as' : List (Any U),
      d = c0.addAll as ∧ processObjects F cfg p c [j] = .ok (c.addAll as') ∧
        as'.map f = as.map f ∧ (∀ x ∈ as', Acceptable x) ∧ ∀ x ∈ as, Acceptable x := by
  simp only [processObjects]
  cases h1 : parseOne F cfg p j with
  | err e =>
    cases h2 : parseOne F cfg none j with
    | err e' => simp [Res.bind]
    | panic => rw [h1, h2] at hs; simp [seen, Res.bind] at hs
    | ok y => rw [h1, h2] at hs; simp [seen, Res.bind] at hs
  | panic =>
    cases h2 : parseOne F cfg none j with
    | err e' => rw [h1, h2] at hs; simp [seen, Res.bind] at hs
    | panic => simp [Res.bind]
    | ok y => rw [h1, h2] at hs; simp [seen, Res.bind] at hs
  | ok x =>
    cases h2 : parseOne F cfg none j with
    | err e' => rw [h1, h2] at hs; simp [seen, Res.bind] at hs
    | panic => rw [h1, h2] at hs; simp [seen, Res.bind] at hs
    | ok y =>
      rw [h1, h2] at hs
      obtain ⟨px, x⟩ := x
      obtain ⟨py, y⟩ := y
      simp only [seen, Res.bind, Res.ok.injEq] at hs ⊢
      have hxy : (x = none ∧ y = none) ∨ ∃ a b, x = some a ∧ y = some b ∧ f a = f b := by
        cases x <;> cases y <;> simp_all
      rcases hxy with ⟨rfl, rfl⟩ | ⟨a, b, rfl, rfl, hab⟩
      · simp only [addOne, reduceCtorEq, exists_false, iff_self, true_and, Res.ok.injEq]
        rintro d rfl
        exact ⟨[], [], rfl, rfl, rfl, by simp, by simp⟩
      · have e1 := hpan a b hab
        have e2 := hacc a b hab
        have key : ∀ {x : Option (Any U)} {z : Any U} {c : Coll (Any U)}, x = some z →
            (z.panics = true → addOne c x = .panic) ∧
            (z.panics = false → ¬ Acceptable z → ∃ e, addOne c x = .err e) ∧
            (z.panics = false → Acceptable z → addOne c x = .ok (c.addAll [z])) := by
          rintro _ z c rfl
          rcases addOne_cases c (some z) with ⟨⟨w, hw, h3⟩, h4⟩ | ⟨⟨w, hw, h3, h5⟩, h4⟩ | ⟨h3, h4⟩
          · simp only [Option.some.injEq] at hw; subst hw; simp [h3, h4]
          · simp only [Option.some.injEq] at hw; subst hw; simp [h3, h4, h5]
          · obtain ⟨h5, h6⟩ := h3 z rfl
            simp [h5, h6, h4]
        obtain ⟨a1, a2, a3⟩ := key (x := some a) (c := c) rfl
        obtain ⟨b1, b2, b3⟩ := key (x := some b) (c := c0) rfl
        cases hp : a.panics with
        | true =>
          rw [a1 hp, b1 (by rw [← e1]; exact hp)]
          simp
        | false =>
          rw [hp] at e1
          by_cases ha : Acceptable a
          · rw [a3 hp ha, b3 e1.symm (e2.1 ha)]
            simp only [reduceCtorEq, exists_false, iff_self, true_and, Res.ok.injEq]
            rintro d rfl
            exact ⟨[b], [a], rfl, rfl, by simp [hab], by simpa using ha, by simpa using e2.1 ha⟩
          · obtain ⟨e, he⟩ := a2 hp ha
            obtain ⟨e', he'⟩ := b2 e1.symm (fun h => ha (e2.2 h))
            rw [he, he']
            simp

/-- **C30** (first failure).  A document whose beginning is refused, or crashes the parser, is
refused, or crashes it, the same way. -/
theorem c30_prefix_failure (opts : List (CollOption U)) (l r : List Json)
    (h : ∀ c, fromJSON F opts (some (.arr l)) ≠ .ok c) :
    fromJSON F opts (some (.arr (l ++ r))) = fromJSON F opts (some (.arr l)) := by
  simp only [fromJSON_arr] at h ⊢
  exact processObjects_fail _ _ _ _ h

/-- The result `r` of a longer document is what adding the objects of the last element, parsed
alone with the result `s`, to `c` gives, up to the difference `f` does not see. -/
def Extends {β} (f : Any U → β) (ns : Bool) (c : Coll (Any U)) (s r : Res (Coll (Any U))) : Prop :=
  (r = .panic ↔ s = .panic) ∧ ((∃ e, r = .err e) ↔ ∃ e, s = .err e) ∧
    ∀ d, s = .ok d → ∃ as as' : List (Any U), d = (Coll.new ns).addAll as ∧
      r = .ok (c.addAll as') ∧ as'.map f = as.map f ∧ (∀ x ∈ as', Acceptable x) ∧
      ∀ x ∈ as, Acceptable x

/-- **C30** (everything but extended top-level properties; elements that have a type).  An
element is parsed as it would be alone, whatever the elements before it: with the same outcome, and
an object that is the same except for the extended properties. -/
theorem c30_append_partial (opts : List (CollOption U)) (l : List Json) (j : Json) (hj : OwnType j)
    (c : Coll (Any U)) (h : fromJSON F opts (some (.arr l)) = .ok c) :
    Extends core (Config.new opts).noSort c (fromJSON F opts (some (.arr [j])))
      (fromJSON F opts (some (.arr (l ++ [j])))) := by
  simp only [fromJSON_arr] at h ⊢
  obtain ⟨as, p', hst, rfl⟩ := processObjects_ok.1 h
  rw [processObjects_append hst]
  have hpan : ∀ a b : Any U, core a = core b → a.panics = b.panics := by
    intro a b e; rw [← panics_core a, ← panics_core b, e]
  have hacc : ∀ a b : Any U, core a = core b → (Acceptable a ↔ Acceptable b) := by
    intro a b e
    unfold Acceptable
    rw [← getID_core a, ← getType_core a, ← getID_core b, ← getType_core b, e]
  exact append_alike core hpan hacc (parseOne_seen core _ (extend_core _) hj p') _ _

/-- **C30** (with `DropCustomOption`, elements that have a type).  An element is parsed exactly
as it would be alone. -/
theorem c30_append_drop_partial (opts : List (CollOption U)) (hd : CollOption.dropCustom ∈ opts)
    (l : List Json) (j : Json) (hj : OwnType j)
    (c : Coll (Any U)) (h : fromJSON F opts (some (.arr l)) = .ok c) :
    Extends id (Config.new opts).noSort c (fromJSON F opts (some (.arr [j])))
      (fromJSON F opts (some (.arr (l ++ [j])))) := by
  simp only [fromJSON_arr] at h ⊢
  obtain ⟨as, p', hst, rfl⟩ := processObjects_ok.1 h
  rw [processObjects_append hst]
  exact append_alike id (fun a b e => by rw [show a = b from e])
    (fun a b e => by rw [show a = b from e])
    (parseOne_seen id _ (by rw [(dropCustom_iff opts).2 hd]; simp) hj p') _ _

/-- An object of a type of the library that is left to it, with no members but the properties of
that type. -/
def PlainElement (opts : List (CollOption U)) (j : Json) : Prop :=
  ∃ ms t s, j = .obj ms ∧ Text j (b!"type") t ∧ (t, s) ∈ goTypes ∧ NoParser opts t ∧
    ∀ k ∈ amKeys ms, k ∈ properties s

theorem parseOne_clean (cfg : Config U) (p : Peak) (hp : p.getD [] = []) (j : Json) :
    parseOne F cfg p j = parseOne F cfg none j := by
  cases j with
  | obj ms => simp only [parseOne, decCustom_obj, hp, Option.getD_none]
  | null => simp only [parseOne, decCustom]
  | _ => simp only [parseOne, decCustom]; rfl

theorem parseOne_plain {opts : List (CollOption U)} (hd : CollOption.dropCustom ∉ opts) {j : Json}
    (hj : PlainElement opts j) {p p' : Peak} (hp : p.getD [] = []) {a : Option (Any U)}
    (h : parseOne F (Config.new opts) p j = .ok (p', a)) : p'.getD [] = [] := by
  have hdr : (Config.new opts).dropCustom = false := by
    rw [← Bool.not_eq_true, dropCustom_iff]; exact hd
  obtain ⟨ms, t, s, rfl, ht, hs, hnp, hk⟩ := hj
  cases a with
  | some a =>
    obtain ⟨ms', typ, a0, a1, e, hsoft, hl, h4, h5, h6⟩ := parseOne_some h
    simp only [Json.obj.injEq] at e
    subst e
    obtain ⟨v, ⟨ms', e, hm⟩, raw, rfl⟩ := ht
    simp only [Json.obj.injEq] at e
    subst e
    have htyp : typ = t := by
      simp only [hp, amLookup_dynMerge, hm, dynOf, decDyn, Option.some.injEq, Dyn.str.injEq] at hl
      exact hl.symm
    subst htyp
    simp only [newObject, (noParser_iff opts typ).1 hnp, (dispatch_mem typ s).2 hs, Res.ok.injEq,
      Option.some.injEq] at h4
    subst h4
    simp only [decAny, D.bind_ok_iff, D.ok.injEq, Option.some.injEq, and_true] at h5
    obtain ⟨o, h5, rfl⟩ := h5
    have e1 : o.sid = s := (decObj_ok h5).1
    simp only [hdr, Bool.false_eq_true, if_false, extend, Option.getD_some, Prod.mk.injEq,
      Option.some.injEq, hp] at h6
    rw [← h6.1]
    simp only [Option.map_some, Option.getD_some]
    rw [eq_nil_iff_lookup]
    intro k
    rw [amLookup_deleteKeys, e1]
    by_cases hkm : k ∈ amKeys ms
    · rw [if_pos]
      have := hk k hkm
      simp only [libKeys, List.mem_append]
      exact .inl this
    · rw [amLookup_dynMerge, (member_none_iff k ms).2 hkm]
      simp [amLookup]
  | none =>
    obtain ⟨v, ⟨ms', e, hm⟩, raw, rfl⟩ := ht
    simp only [Json.obj.injEq] at e
    subst e
    unfold parseOne at h
    obtain ⟨q, h4, h5⟩ := Res.bind_ok_iff.1 h
    rw [D.res_ok_iff, decCustom_obj] at h4
    simp only [D.ok.injEq] at h4
    obtain ⟨rfl, _⟩ := h4
    simp only [Option.getD_some, amLookup_dynMerge, hm, dynOf, decDyn, newObject,
      (noParser_iff opts t).1 hnp, (dispatch_mem t s).2 hs] at h5
    obtain ⟨a', h6, h7⟩ := Res.bind_ok_iff.1 h5
    simp only [Res.ok.injEq] at h6
    subst h6
    simp only at h7
    obtain ⟨a2, h8, h9⟩ := Res.bind_ok_iff.1 h7
    split at h9 <;> simp at h9

/-- **C30** (after elements of known types that only have known members).  An element is parsed
exactly as it would be alone, with its extended properties. -/
theorem c30_append_plain_partial (opts : List (CollOption U)) (hd : CollOption.dropCustom ∉ opts)
    (l : List Json) (hl : ∀ i ∈ l, PlainElement opts i) (j : Json)
    (c : Coll (Any U)) (h : fromJSON F opts (some (.arr l)) = .ok c) :
    Extends id (Config.new opts).noSort c (fromJSON F opts (some (.arr [j])))
      (fromJSON F opts (some (.arr (l ++ [j])))) := by
  simp only [fromJSON_arr] at h ⊢
  obtain ⟨as, p', hst, rfl⟩ := processObjects_ok.1 h
  rw [processObjects_append hst]
  have hclean : ∀ {p : Peak} {l as p'}, Steps F (Config.new opts) p l as p' →
      (∀ i ∈ l, PlainElement opts i) → p.getD [] = [] → p'.getD [] = [] := by
    intro p l as p' hst
    induction hst with
    | nil => exact fun _ h => h
    | cons h1 h2 h3 ih =>
      intro hl hp
      exact ih (fun i hi => hl i (by simp [hi])) (parseOne_plain hd (hl _ (by simp)) hp h1)
  have := parseOne_clean (F := F) (Config.new opts) p' (hclean hst hl rfl) j
  exact append_alike id (fun a b e => by rw [show a = b from e])
    (fun a b e => by rw [show a = b from e]) (by rw [this]) _ _

/-- A malware object with an unknown member, and a tool. -/
def exLeak : List Json :=
  [.obj [(b!"type", exText (b!"malware")), (b!"id", exText (exId (b!"malware"))),
      (b!"x_note", exText (b!"hello"))],
   .obj [(b!"type", exText (b!"tool")), (b!"id", exText (exId (b!"tool")))]]

/-- Whether the tool in the collection has extended properties. -/
def exToolExtended (c : Coll (Any Empty)) : Option Bool :=
  match c.get (exId (b!"tool")) with
  | some (.lib o) => some o.extra.isSome
  | _ => none

/-- **C30 is false**: after an object with an unknown member, a tool without one is given that
member; parsed alone it has none. -/
theorem c30_leak : ∃ c d : Coll (Any Empty), fromJSON toy [] (some (.arr exLeak)) = .ok c ∧
    fromJSON toy [] (some (.arr (exLeak.drop 1))) = .ok d ∧
    exToolExtended c = some true ∧ exToolExtended d = some false := by
  have h1 : (fromJSON (U := Empty) toy [] (some (.arr exLeak))).okWith
      (fun c => exToolExtended c = some true) = true := by decide +kernel
  have h2 : (fromJSON (U := Empty) toy [] (some (.arr (exLeak.drop 1)))).okWith
      (fun c => exToolExtended c = some false) = true := by decide +kernel
  obtain ⟨c, a1, a2⟩ := Res.okWith_iff.1 h1
  obtain ⟨d, b1, b2⟩ := Res.okWith_iff.1 h2
  exact ⟨c, d, a1, b1, by simpa using a2, by simpa using b2⟩

/-- An object of an unknown type, and an object without a type. -/
def exTypeless : List Json :=
  [.obj [(b!"type", exText (b!"x-thing")), (b!"id", exText (exId (b!"x-thing")))],
   .obj [(b!"id", exText (exId (b!"tool")))]]

/-- **C30 is false**: an object without a type is skipped when it is alone, and is an error after
an object of an unknown type. -/
theorem c30_leaked_type : (∃ d : Coll (Any Empty), fromJSON toy [] (some (.arr (exTypeless.drop 1))) =
    .ok d) ∧ (∃ e, fromJSON (U := Empty) toy [] (some (.arr exTypeless)) = .err e) := by
  have h1 : (fromJSON (U := Empty) toy [] (some (.arr (exTypeless.drop 1)))).okWith
      (fun _ => true) = true := by decide +kernel
  obtain ⟨d, b1, _⟩ := Res.okWith_iff.1 h1
  refine ⟨⟨d, b1⟩, ?_⟩
  have h2 : (match fromJSON (U := Empty) toy [] (some (.arr exTypeless)) with
    | .err _ => true
    | _ => false) = true := by decide +kernel
  cases h : fromJSON (U := Empty) toy [] (some (.arr exTypeless)) with
  | err e => exact ⟨e, rfl⟩
  | ok c => rw [h] at h2; simp at h2
  | panic => rw [h] at h2; simp at h2

/-- C30: a list with an element of an unknown type and a further element with a type, accepted
together and apart, with and without `DropCustomOption`. -/
example : OwnType (exObjects.getD 0 .null) ∧
    (fromJSON (U := Empty) toy [] (some (.arr (exTypeless.take 1)))).okWith (fun _ => true) = true ∧
    (fromJSON (U := Empty) toy [] (some (.arr (exTypeless.take 1 ++ [exObjects.getD 0 .null])))).okWith
      (fun c => (c.get (exId (b!"malware"))).isSome && (c.get (exId (b!"x-thing"))).isSome) = true ∧
    (fromJSON (U := Empty) toy [.dropCustom] (some (.arr (exTypeless.take 1 ++
      [exObjects.getD 0 .null])))).okWith
      (fun c => (c.get (exId (b!"malware"))).isSome && (c.get (exId (b!"x-thing"))).isNone) = true := by
  refine ⟨?_, by decide +kernel, by decide +kernel, by decide +kernel⟩
  intro ms e
  simp only [exObjects, List.getD_cons_zero, Json.obj.injEq] at e
  subst e
  decide

/-- C30: a list of plain elements, and a failing prefix. -/
example : (∀ i ∈ exLeak.drop 1, PlainElement (U := Empty) [] i) ∧
    (fromJSON (U := Empty) toy [] (some (.arr (exLeak.drop 1)))).okWith (fun _ => true) = true ∧
    ∀ c, fromJSON (U := Empty) toy [] (some (.arr exTypeless)) ≠ .ok c := by
  refine ⟨?_, by decide +kernel, ?_⟩
  · intro i hi
    simp only [exLeak, List.drop_succ_cons, List.drop_zero, List.mem_singleton] at hi
    exact ⟨_, b!"tool", .Tool, hi, ⟨_, ⟨_, hi, rfl⟩, _, rfl⟩, by decide, by simp [NoParser, ParserFor],
      by decide⟩
  · obtain ⟨e, he⟩ := c30_leaked_type.2
    rw [he]
    simp

end Stix
