import Verif.Lemmas.ObjTrip

/-!
# Objects and bundles through JSON and back (C29, C35, C36)
-/

namespace Stix
open Spec StixObject
open Props.Canon (toy)

variable {F : Canon.FloatFmt} {U : Type} [UserType U]

/-! ### Extended properties -/

theorem mem_ext {α} {m m' : List (Str × α)} (h : SortedKeys m) (h' : SortedKeys m')
    (e : ∀ x, x ∈ m ↔ x ∈ m') : m = m' := by
  refine sorted_ext h h' fun k => ?_
  cases hk : amLookup k m with
  | some v => exact (amLookup_eq_some_of_mem _ _ _ h'.nodup ((e _).1 (mem_of_amLookup _ _ _ hk))).symm
  | none =>
    cases hk' : amLookup k m' with
    | none => rfl
    | some v =>
      rw [amLookup_eq_some_of_mem _ _ _ h.nodup ((e _).2 (mem_of_amLookup _ _ _ hk'))] at hk
      simp at hk

theorem leaks_from {l : List Obj} {e : Str × Dyn} (h : Leaks l e) : ∃ x ∈ l, Extra x e := by
  induction l with
  | nil => exact h.elim
  | cons o l ih =>
    rcases h with h | ⟨h, -⟩
    · exact ⟨o, by simp, h⟩
    · obtain ⟨x, hx, g⟩ := ih h
      exact ⟨x, by simp [hx], g⟩

theorem Spec.Carried.kept {drop : Prop} {earlier : List Obj} {o o' : Obj} (h : Carried drop earlier o o')
    (hd : ¬ drop) (hs : o.sid ≠ .ExtensionDefinition) : ∀ e ∈ extras o, e ∈ extras o' :=
  fun e he => (h.exact hd hs e).2 (.inl ⟨hs, he⟩)

theorem Spec.Carried.only {drop : Prop} {earlier : List Obj} {o o' : Obj} (h : Carried drop earlier o o')
    (e : Str × Dyn) (he : e ∈ extras o') :
    ∃ x, (x = o ∨ x ∈ earlier) ∧ x.sid ≠ .ExtensionDefinition ∧ e ∈ extras x := by
  by_cases hd : drop
  · simp [extras, h.dropped hd] at he
  by_cases hs : o.sid = .ExtensionDefinition
  · simp [extras, h.definition hs] at he
  obtain ⟨x, hx, g⟩ := leaks_from ((h.exact hd hs e).1 he)
  exact ⟨x, List.mem_cons.1 hx, g⟩

theorem Spec.Carried.extras_eq {drop : Prop} {o o' : Obj} (h : Carried drop [] o o')
    (hs : SortedKeys (extras o)) (hd : ¬ drop) (he : o.sid ≠ .ExtensionDefinition) :
    extras o' = extras o := by
  refine mem_ext h.sorted hs fun e => ⟨fun hx => ?_, h.kept hd he e⟩
  obtain ⟨x, hx, -, g⟩ := h.only e hx
  obtain rfl : x = o := by simpa using hx
  exact g

/-- There are none when they are dropped, and when neither the object nor an earlier one has any. -/
theorem Spec.Carried.extra_none {drop : Prop} {earlier : List Obj} {o o' : Obj}
    (h : Carried drop earlier o o')
    (hc : drop ∨ ∀ x, x = o ∨ x ∈ earlier → x.sid = .ExtensionDefinition ∨ extras x = []) :
    o'.extra = none := by
  have hnil : extras o' = [] := by
    rw [List.eq_nil_iff_forall_not_mem]
    intro e he
    rcases hc with hc | hc
    · simp [extras, h.dropped hc] at he
    · obtain ⟨x, hx, g1, g2⟩ := h.only e he
      rcases hc x hx with g | g
      · exact g1 g
      · simp [g] at g2
  cases hx : o'.extra with
  | none => rfl
  | some l =>
    simp only [extras, hx, Option.getD_some] at hnil
    subst hnil
    exact absurd hx h.nonempty

/-! ### Identity -/

theorem id_row (s : SId) : ∃ r ∈ objFields s, r.name = b!"ID" ∧ r.key = b!"id" ∧
    r.omitE = false ∧ r.ty.isStr = true := by
  have h : ∀ s ∈ allSIds, ((objFields s).any fun r => r.name == b!"ID" && r.key == b!"id" &&
      !r.omitE && r.ty.isStr) = true := by decide +kernel
  have := h s (mem_allSIds s)
  simpa only [List.any_eq_true, Bool.and_eq_true, beq_iff_eq, Bool.not_eq_true', and_assoc] using this

theorem text_survives {o o' : Obj} (h : Sound o) (hs : Survives o o') {r : FieldInfo}
    (hr : r ∈ objFields o.sid) (h1 : r.omitE = false) (h2 : r.ty.isStr = true) :
    o'.val r.name = o.val r.name := by
  have he : Emitted o r := by
    unfold Emitted
    split
    · simp [h1]
    · next hs' => exact h.required hs' r hr h1
  rw [hs.emitted r hr he]
  cases ht : r.ty <;> simp only [ht, Ty.isStr, Bool.false_eq_true] at h2
  rfl

theorem identity_survives {o o' : Obj} (h : Sound o) (hs : Survives o o') :
    getType o' = getType o ∧ getID o' = getID o := by
  obtain ⟨r, hr, h1, h2, h3, h4⟩ := type_row o.sid
  obtain ⟨q, hq, g1, g2, g3, g4⟩ := id_row o.sid
  have e1 := text_survives h hs hr h3 h4
  have e2 := text_survives h hs hq g3 g4
  rw [h1] at e1
  rw [g1] at e2
  simp only [getType, getID, Obj.getStr, e1, e2]
  trivial

/-! ### Several objects -/

theorem carried_of (L : Canon.FloatLaws F) (hI : IntegersParse F) {o : Obj} (h : Sound o)
    (opts : List (CollOption U)) (hp : NoParser opts (getType o)) {j : Json}
    (hj : marshalObj F o = some j) (p : Peak) (hps : SortedKeys (p.getD [])) (earlier : List Obj)
    (hpe : CollOption.dropCustom ∉ opts → ∀ e, (e ∈ p.getD [] ↔ Leaks earlier e) ∧
      (e ∈ p.getD [] → e.1 ≠ [])) :
    ∃ p' o', parseOne F (Config.new opts) p j = .ok (p', some (.lib o')) ∧
      Carried (CollOption.dropCustom ∈ opts) earlier o o' ∧ SortedKeys (p'.getD []) ∧
      (CollOption.dropCustom ∉ opts → ∀ e, (e ∈ p'.getD [] ↔ Leaks (o :: earlier) e) ∧
        (e ∈ p'.getD [] → e.1 ≠ [])) := by
  obtain ⟨p', o', h1, h2, h3, h4, h5⟩ := parseOne_marshal L hI h opts hp hj p hps
  have hapart : ∀ k d, Extra o (k, d) → k ∉ libKeys o.sid := by
    rintro k d ⟨hs, he⟩ hk
    obtain ⟨a1, a2⟩ := h.apart _ he
    simp only [libKeys, (canHave_iff _).2 hs, if_true, List.mem_append, List.mem_map,
      List.mem_singleton] at hk
    rcases hk with ⟨r, hr, e⟩ | e
    · exact a2 r hr (by rw [e]; rfl)
    · exact a1 e
  have hmem : ∀ {m : List (Str × Dyn)}, SortedKeys m → ∀ k d, (k, d) ∈ m ↔ amLookup k m = some d :=
    fun hm k d => ⟨amLookup_eq_some_of_mem _ _ _ hm.nodup, mem_of_amLookup _ _ _⟩
  have hfrom : CollOption.dropCustom ∉ opts → ∀ e, (e ∈ p'.getD [] ↔ Leaks (o :: earlier) e) ∧
      (e ∈ p'.getD [] → e.1 ≠ []) := by
    rintro hd ⟨k, d⟩
    have hl : (k, d) ∈ p'.getD [] ↔ Leaks (o :: earlier) (k, d) := by
      rw [hmem h3, (h5 hd).1, restOf]
      split
      · next hk =>
        simp only [reduceCtorEq, false_iff]
        rintro (he | ⟨he, -, hr⟩)
        · exact hapart k d he hk
        · have hne := ((hpe hd (k, d)).2 ((hpe hd (k, d)).1.2 he))
          simp only [libKeys, List.mem_append, List.mem_map] at hk
          rcases hk with ⟨r, hr', e⟩ | hk
          · exact hr r hr' e
          · split at hk
            · exact hne (by simpa using hk)
            · simp at hk
      · next hk =>
        have hr : ∀ r ∈ objFields o.sid, r.key ≠ k := fun r hr e =>
          hk (by simp only [libKeys, List.mem_append, List.mem_map]; exact .inl ⟨r, hr, e⟩)
        split
        · next hc =>
          rw [← hmem h.sorted]
          constructor
          · exact fun he => .inl ⟨hc.1, he⟩
          · rintro (he | ⟨-, hn, -⟩)
            · exact he.2
            · obtain ⟨e, he, rfl⟩ := List.mem_map.1 hc.2
              exact absurd ⟨hc.1, he⟩ (hn e.2)
        · next hc =>
          have hn : ∀ d, ¬ Extra o (k, d) := fun d he => hc ⟨he.1, List.mem_map.2 ⟨_, he.2, rfl⟩⟩
          rw [← hmem hps, (hpe hd (k, d)).1]
          exact ⟨fun he => .inr ⟨he, hn, hr⟩, fun he => he.elim (fun he => absurd he (hn d)) (·.1)⟩
    refine ⟨hl, fun he => ?_⟩
    rcases hl.1 he with he | ⟨he, -⟩
    · exact (h.apart _ he.2).1
    · exact (hpe hd _).2 ((hpe hd _).1.2 he)
  refine ⟨p', o', h1, ⟨h2, h4, ?_, ?_, ?_, ?_⟩, h3, hfrom⟩
  · intro hs
    by_cases hd : CollOption.dropCustom ∈ opts
    · exact h4 hd
    · rw [(h5 hd).2, if_neg fun hc => hc.2 hs]
  · intro hd hs e
    rw [← (hfrom hd e).1, extras, (h5 hd).2]
    by_cases hne : p'.getD [] = []
    · rw [if_neg fun hc => hc.1 hne, hne]; rfl
    · rw [if_pos ⟨hne, hs⟩]; rfl
  · by_cases hd : CollOption.dropCustom ∈ opts
    · rw [extras, h4 hd]; exact sortedKeys_nil
    · rw [extras, (h5 hd).2]
      split
      · exact h3
      · exact sortedKeys_nil
  · by_cases hd : CollOption.dropCustom ∈ opts
    · simp [h4 hd]
    · rw [(h5 hd).2]
      split
      · next hc => simpa using hc.1
      · simp

/-- What the parser makes of the JSON of a list of objects. -/
theorem steps_marshal (L : Canon.FloatLaws F) (hI : IntegersParse F) (opts : List (CollOption U)) :
    ∀ (os : List Obj) (js : List Json), List.Forall₂ (fun o j => marshalObj F o = some j) os js →
    (∀ o ∈ os, Sound o ∧ NoParser opts (getType o)) → ∀ (p : Peak) (earlier : List Obj),
    SortedKeys (p.getD []) →
    (CollOption.dropCustom ∉ opts → ∀ e, (e ∈ p.getD [] ↔ Leaks earlier e) ∧
      (e ∈ p.getD [] → e.1 ≠ [])) →
    ∃ os' p', Steps F (Config.new opts) p js (os'.map fun o => some (.lib o)) p' ∧
      CarriedAll (CollOption.dropCustom ∈ opts) earlier os os'
  | [], _, .nil, _, p, earlier, _, _ => ⟨[], p, .nil p, .nil _⟩
  | o :: os, _, .cons h1 h2, hs, p, earlier, hp, he => by
    obtain ⟨hso, hpo⟩ := hs o (by simp)
    obtain ⟨p1, o', g1, g2, g3, g4⟩ := carried_of L hI hso opts hpo h1 p hp earlier he
    obtain ⟨os', p', g5, g6⟩ := steps_marshal L hI opts os _ h2
      (fun x hx => hs x (by simp [hx])) p1 (o :: earlier) g3 g4
    obtain ⟨e1, e2⟩ := identity_survives hso g2.survives
    refine ⟨o' :: os', p', .cons g1 ?_ g5, .cons g2 g6⟩
    intro x hx
    obtain rfl := Option.some.inj hx
    refine ⟨rfl, ?_⟩
    show Identifies (getType o') (getID o')
    rw [e1, e2]
    exact hso.ident

/-! ## C29 -/

/-- **C29.** An object that can be sent is marshalled, its JSON is accepted, and gives a collection
with one object, which is of the same Go type and has the same properties as far as JSON keeps
them (`settled`: times to the millisecond, blank optional members of nested structs as absent).
Its extended properties are the same, unless they are to be dropped.

Missing: objects with values JSON cannot carry, or whose extended properties have names of
properties (`Sound`). -/
theorem c29_round_trip_partial (L : Canon.FloatLaws F) (hI : IntegersParse F) (o : Obj) (h : Sound o)
    (opts : List (CollOption U)) (hp : NoParser opts (getType o)) :
    ∃ j, marshalObj F o = some j ∧ ∃ c o', fromJSON F opts (some (.arr [j])) = .ok c ∧
      (∀ id a, c.get id = some a ↔ id = getID o ∧ a = .lib o') ∧ Survives o o' ∧
      (CollOption.dropCustom ∉ opts → o.sid ≠ .ExtensionDefinition → extras o' = extras o) ∧
      (CollOption.dropCustom ∈ opts ∨ o.sid = .ExtensionDefinition ∨ extras o = [] →
        o'.extra = none) := by
  obtain ⟨ms, hj, -⟩ := marshal_spec (F := F) h
  obtain ⟨p', o', h1, h2, -, -⟩ := carried_of L hI h opts hp hj none sortedKeys_nil [] (by simp [Leaks])
  obtain ⟨e1, e2⟩ := identity_survives h h2.survives
  have hacc : Acceptable (Any.lib o' : Any U) := by
    show Identifies (getType o') (getID o')
    rw [e1, e2]
    exact h.ident
  refine ⟨_, hj, (Coll.new (Config.new opts).noSort).addAll [.lib o'], o', fromJSON_single.2
    ⟨p', _, h1, fun x hx => ?_, rfl⟩, fun id a => ?_, h2.survives, ?_, ?_⟩
  · obtain rfl := Option.some.inj hx
    exact ⟨rfl, hacc⟩
  · rw [c01_get_latest]
    constructor
    · intro hl
      obtain ⟨-, g2, g3⟩ := latest_acceptable hl
      simp only [List.mem_singleton] at g3
      subst g3
      exact ⟨by rw [← g2]; exact e2, rfl⟩
    · rintro ⟨rfl, rfl⟩
      exact ⟨[], [], rfl, hacc, e2, by simp⟩
  · exact h2.extras_eq h.sorted
  · exact fun hc => h2.extra_none (by simpa using hc)

/-! ### Examples -/

theorem toy_integers : IntegersParse Props.Canon.toy := by
  intro t _ _ _
  refine ⟨?_, ?_⟩ <;> simp only [Props.Canon.toy] <;> split <;> rfl

theorem exSample_carriable : ∀ r ∈ objFields exSample.sid, Carriable r.ty (exSample.val r.name) := by
  refine lit_fields carriable_zeroOk .Malware exSampleFields fun e he t ht => ?_
  simp only [exSampleFields, List.mem_cons, List.not_mem_nil, or_false] at he
  rcases he with rfl | rfl | rfl | rfl | rfl | rfl
  · obtain rfl : _ = t := Option.some.inj ht; exact ⟨_, rfl, unicode_ascii _ (by decide)⟩
  · obtain rfl : _ = t := Option.some.inj ht; exact ⟨_, rfl, unicode_ascii _ (by decide)⟩
  · obtain rfl : _ = t := Option.some.inj ht; exact ⟨_, rfl, unicode_ascii _ (by decide)⟩
  · obtain rfl : _ = t := Option.some.inj ht
    exact .inr ⟨_, rfl, _, rfl, by simp only [carriable, endOfYears]; omega⟩
  · obtain rfl : _ = t := Option.some.inj ht
    exact .inr ⟨_, rfl, _, rfl, by simp only [carriable, endOfYears]; omega⟩
  · obtain rfl : _ = t := Option.some.inj ht
    exact .inr ⟨_, rfl, fun x hx => ⟨_, List.mem_singleton.1 hx, unicode_ascii _ (by decide)⟩⟩

theorem exSample_required : ∀ r ∈ objFields exSample.sid, r.omitE = false →
    ¬ Unset r.ty (exSample.val r.name) := by
  intro r hr h hu
  have := (isUnset_iff (objFields_plain _ r hr) (exSample_typed.fields r hr)).2 hu
  have hall : (objFields exSample.sid).all
      (fun r => r.omitE || !isUnset r.ty (exSample.val r.name)) = true := by decide +kernel
  have := List.all_eq_true.1 hall r hr
  simp_all

/-- C29: an object with an extended property that meets the hypotheses. -/
theorem exSample_sound : Sound exSample where
  type := by decide +kernel
  ident := by
    show Identifies _ _
    rw [← hasValidIdentifier_iff]
    decide +kernel
  fields := exSample_carriable
  required := fun _ => exSample_required
  sorted := exSample_typed.sorted
  extra := by
    intro e he
    obtain rfl : e = (b!"rank", .num 0) := by simpa [extras, exSample] using he
    exact ⟨unicode_ascii _ (by decide), by show F64Finite 0; decide⟩
  apart := by
    intro e he
    obtain rfl : e = (b!"rank", .num 0) := by simpa [extras, exSample] using he
    refine ⟨by decide, ?_⟩
    have : ∀ r ∈ objFields .Malware, foldName (b!"rank") ≠ foldName r.key := by decide +kernel
    exact this

/-- The listed fields of a tool. -/
def exToolFields (name : Str) : List (Str × GV) :=
  [(b!"Type", .str (b!"tool")), (b!"ID", .str (b!"tool--31b940d4-6f7f-459a-80ea-9c1f17b5891b")),
   (b!"SpecVersion", .str (b!"2.1")), (b!"Created", gvTime ⟨63000000000000000000, 0⟩),
   (b!"Modified", gvTime ⟨63000000000000000000, 0⟩), (b!"Name", .str name)]

/-- A tool without extended properties. -/
def exTool : Obj := Obj.lit .Tool (exToolFields (b!"nmap"))

theorem exTool_typed (name : Str) : ∀ r ∈ objFields .Tool,
    Typed r.ty ((Obj.lit .Tool (exToolFields name)).val r.name) := by
  refine lit_fields typed_zeroOk .Tool (exToolFields name) fun e he t ht => ?_
  simp only [exToolFields, List.mem_cons, List.not_mem_nil, or_false] at he
  rcases he with rfl | rfl | rfl | rfl | rfl | rfl
  · obtain rfl : _ = t := Option.some.inj ht; exact ⟨_, rfl, trivial⟩
  · obtain rfl : _ = t := Option.some.inj ht; exact ⟨_, rfl, trivial⟩
  · obtain rfl : _ = t := Option.some.inj ht; exact ⟨_, rfl, trivial⟩
  · obtain rfl : _ = t := Option.some.inj ht; exact .inr ⟨_, rfl, _, rfl, trivial⟩
  · obtain rfl : _ = t := Option.some.inj ht; exact .inr ⟨_, rfl, _, rfl, trivial⟩
  · obtain rfl : _ = t := Option.some.inj ht; exact ⟨_, rfl, trivial⟩

theorem exTool_carriable : ∀ r ∈ objFields .Tool, Carriable r.ty (exTool.val r.name) := by
  refine lit_fields carriable_zeroOk .Tool (exToolFields _) fun e he t ht => ?_
  simp only [exToolFields, List.mem_cons, List.not_mem_nil, or_false] at he
  rcases he with rfl | rfl | rfl | rfl | rfl | rfl
  · obtain rfl : _ = t := Option.some.inj ht; exact ⟨_, rfl, unicode_ascii _ (by decide)⟩
  · obtain rfl : _ = t := Option.some.inj ht; exact ⟨_, rfl, unicode_ascii _ (by decide)⟩
  · obtain rfl : _ = t := Option.some.inj ht; exact ⟨_, rfl, unicode_ascii _ (by decide)⟩
  · obtain rfl : _ = t := Option.some.inj ht
    exact .inr ⟨_, rfl, _, rfl, by simp only [carriable, endOfYears]; omega⟩
  · obtain rfl : _ = t := Option.some.inj ht
    exact .inr ⟨_, rfl, _, rfl, by simp only [carriable, endOfYears]; omega⟩
  · obtain rfl : _ = t := Option.some.inj ht; exact ⟨_, rfl, unicode_ascii _ (by decide)⟩

/-- C29: an object without extended properties. -/
theorem exTool_sound : Sound exTool where
  type := by decide +kernel
  ident := by
    show Identifies _ _
    rw [← hasValidIdentifier_iff]
    decide +kernel
  fields := exTool_carriable
  required := by
    intro _ r hr h hu
    have := (isUnset_iff (objFields_plain _ r hr) (exTool_typed _ r hr)).2 hu
    have hall : (objFields .Tool).all
        (fun r => r.omitE || !isUnset r.ty (exTool.val r.name)) = true := by decide +kernel
    have := List.all_eq_true.1 hall r hr
    simp_all [exTool]
  sorted := sortedKeys_nil
  extra := by rw [show extras exTool = [] from rfl]; simp
  apart := by rw [show extras exTool = [] from rfl]; simp

/-- The string that comes back in a field of a tool that is sent alone. -/
def exSent (o : Obj) (field : Str) : Option Str :=
  match marshalObj toy o with
  | none => none
  | some j => match fromJSON (U := Empty) toy [] (some (.arr [j])) with
    | .ok c => match c.get (getID o) with
      | some (.lib o') => some (o'.getStr field)
      | _ => none
    | _ => none

theorem exSent_iff {o : Obj} {field s : Str} (h : exSent o field = some s) :
    ∃ j c o', marshalObj toy o = some j ∧ fromJSON (U := Empty) toy [] (some (.arr [j])) = .ok c ∧
      c.get (getID o) = some (.lib o') ∧ o'.getStr field = s := by
  unfold exSent at h
  split at h
  · simp at h
  · next j hj =>
    split at h
    · next c hc =>
      split at h
      · next o' ho => exact ⟨j, c, o', hj, hc, ho, Option.some.inj h⟩
      · simp at h
    · simp at h

/-- **C29 is false** for a name that is not UTF-8: it comes back changed. -/
theorem c29_false : ∃ o j c o', TypedObj o ∧ Acceptable o ∧ extras o = [] ∧
    marshalObj toy o = some j ∧ fromJSON (U := Empty) toy [] (some (.arr [j])) = .ok c ∧
    c.get (getID o) = some (.lib o') ∧ o'.getStr (b!"Name") ≠ o.getStr (b!"Name") := by
  obtain ⟨j, c, o', h1, h2, h3, h4⟩ := exSent_iff (o := Obj.lit .Tool (exToolFields [0xff]))
    (field := b!"Name") (s := [0xef, 0xbf, 0xbd]) (by decide +kernel)
  have hx : extras (Obj.lit .Tool (exToolFields [0xff])) = [] := rfl
  refine ⟨_, j, c, o', ⟨exTool_typed _, by rw [hx]; exact sortedKeys_nil, by rw [hx]; simp⟩, ?_, hx,
    h1, h2, h3, ?_⟩
  · show Identifies _ _
    rw [← hasValidIdentifier_iff]
    decide +kernel
  · rw [h4]
    decide +kernel

/-- A tool with an extended property whose name is that of a property up to case. -/
def exToolCase : Obj := { exTool with extra := some [(b!"Description", .str (b!"x"))] }

/-- **C29 is false** for an extended property whose name is that of a property up to case: the
property that was not set comes back with its value. -/
theorem c29_false_extended : ∃ o j c o', TypedObj o ∧ Acceptable o ∧
    extras o = [(b!"Description", .str (b!"x"))] ∧
    marshalObj toy o = some j ∧ fromJSON (U := Empty) toy [] (some (.arr [j])) = .ok c ∧
    c.get (getID o) = some (.lib o') ∧ o.getStr (b!"Description") = [] ∧
    o'.getStr (b!"Description") = b!"x" := by
  obtain ⟨j, c, o', h1, h2, h3, h4⟩ := exSent_iff (o := exToolCase)
    (field := b!"Description") (s := b!"x") (by decide +kernel)
  refine ⟨_, j, c, o', ⟨exTool_typed _, ?_, ?_⟩, ?_, rfl, h1, h2, h3, by decide +kernel, h4⟩
  · simp [extras, exToolCase, SortedKeys]
  · intro e he
    obtain rfl : e = (b!"Description", .str (b!"x")) := by simpa [extras, exToolCase] using he
    trivial
  · show Identifies _ _
    rw [← hasValidIdentifier_iff]
    decide +kernel

end Stix
