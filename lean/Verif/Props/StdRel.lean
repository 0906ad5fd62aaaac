import Verif.Spec.StdRel
import Verif.Props.Rel

/-!
# Relationships of the standard (C72)
-/

namespace Stix
open Spec

/-- The table, decidably. -/
def inStdTable (source rel target : Str) : Bool :=
  stdRels.any fun e => e.1 == source && e.2.1 == rel && e.2.2.contains target

theorem inStdTable_iff {s r t : Str} :
    inStdTable s r t = true ↔ ∃ e ∈ stdRels, e.1 = s ∧ e.2.1 = r ∧ t ∈ e.2.2 := by
  simp only [inStdTable, List.any_eq_true, Bool.and_eq_true, beq_iff_eq, List.contains_iff_mem, and_assoc]

/-- What a helper is for is in the table. -/
def forStd (src rel : Str) : Option Targets → Bool
  | some (.types ts) => ts.all fun t => inStdTable src rel t
  | some .identifier => rel == b!"consists-of" && src == b!"infrastructure"
  | _ => false

/-- Checked over all helpers. -/
theorem helpers_std : ∀ row ∈ relTable, ∀ e ∈ sources, row.recv = .obj e.1 →
    forStd e.2 (namedAfter row.name) (targetsOf row.recv row.name) = true := by
  decide +kernel

/-- The target is one of those the helper is for. -/
def takes (t : Str) : Option Targets → Bool
  | some (.types ts) => ts.contains t
  | some .identifier => true
  | _ => false

/-- What is in the table has a helper; checked over the whole table. -/
theorem std_helpers : ∀ e ∈ stdRels, (e.1, e.2.1) ≠ (b!"attack-pattern", b!"uses") →
    ∃ s ∈ sources, s.2 = e.1 ∧ ∃ row ∈ relTable, row.recv = .obj s.1 ∧ namedAfter row.name = e.2.1 ∧
      ¬ (row.recv = .obj .AttackPattern ∧ row.name = b!"AddUses") ∧
      (e.2.2.all fun t => takes t (targetsOf row.recv row.name)) = true := by
  decide +kernel

/-- The helpers that all objects have. -/
theorem helpers_common : ∀ row ∈ relTable, (∃ b, row.recv = .base b) →
    namedAfter row.name = b!"related-to" ∨ namedAfter row.name = b!"derived-from" ∨
      namedAfter row.name = b!"duplicate-of" := by
  have : ∀ row ∈ relTable, (match row.recv with | .obj _ => false | .base _ => true) = true →
    namedAfter row.name = b!"related-to" ∨ namedAfter row.name = b!"derived-from" ∨
      namedAfter row.name = b!"duplicate-of" := by decide +kernel
  rintro row hr ⟨b, hb⟩
  exact this row hr (by rw [hb])

/-- **C72** (helpers of one type).  A relationship that an `AddX` method of an object of a type of the
standard returns is one that the standard defines for the types of the object and of the target.
Missing from the full statement: `AttackPattern.AddUses`, which makes another relationship
(`c72_uses`); targets of type `malware-analysis`, which pass for `malware`
(`c72_prefix`); and `AddConsistsOf`, which takes the identifiers of all types (`c72_consists`). -/
theorem c72_defined_partial (row : RelRow) (hr : row ∈ relTable) (k : SId) (hk : row.recv = .obj k) (src : Str)
    (hsrc : (k, src) ∈ sources) (hx : ¬ (row.recv = .obj .AttackPattern ∧ row.name = b!"AddUses"))
    (env : Env) (he : Sane env) (recv : Obj) (s : Str) (hs : prop recv (b!"id") = some (.str s))
    (t id : Str) (ht : t ∈ typeConsts) (hid : Identifies t id) (hma : t ≠ b!"malware-analysis")
    (hc : row.name = b!"AddConsistsOf" → t = b!"infrastructure" ∨ t = b!"observed-data" ∨ t ∈ stdObservables)
    (opts : List (Option Opt)) (hl : AllLibrary opts) (o : Obj)
    (h : row.run env recv id opts = .ret (some o) none) :
    ∃ rel, prop o (b!"relationship_type") = some (.str rel) ∧ prop o (b!"source_ref") = some (.str s) ∧
      prop o (b!"target_ref") = some (.str id) ∧ Defined src rel t := by
  obtain ⟨h1, h2, h3, -⟩ := c13_edge_partial row hr hx env he recv s id hs opts hl o h
  refine ⟨_, h1, h2, h3, .inl (inStdTable_iff.1 ?_)⟩
  have hm := helpers_std row hr _ hsrc hk
  cases hT : targetsOf row.recv row.name with
  | none => rw [hT] at hm; cases hm
  | some T =>
    cases T with
    | any => rw [hT] at hm; cases hm
    | types ts =>
      rw [hT] at hm
      simp only [forStd, List.all_eq_true] at hm
      apply hm
      by_contra hn
      rw [c14_library_type row hr ts hT env recv t id opts ht hid hn hma] at h
      cases h
    | identifier =>
      rw [hT] at hm
      simp only [forStd, Bool.and_eq_true, beq_iff_eq] at hm
      have hname : ∀ row ∈ relTable, namedAfter row.name = b!"consists-of" → row.name = b!"AddConsistsOf" := by
        decide +kernel
      rw [hm.1, hm.2]
      have hall : ∀ t ∈ b!"infrastructure" :: b!"observed-data" :: stdObservables,
          inStdTable (b!"infrastructure") (b!"consists-of") t = true := by decide +kernel
      apply hall
      rcases hc (hname row hr hm.1) with h | h | h
      · simp [h]
      · simp [h]
      · simp [h]

/-- **C72** (helpers of all objects).  The common relationships are defined by the standard when both ends
are of the same type; `related-to` always is.  Missing from the full statement: `AddDerivedFrom` and
`AddDuplicateOf` do not look at the type of the target (`c72_derived`). -/
theorem c72_common_partial (row : RelRow) (hr : row ∈ relTable) (b : Base) (hb : row.recv = .base b)
    (env : Env) (he : Sane env) (recv : Obj) (s : Str) (hs : prop recv (b!"id") = some (.str s))
    (src t id : Str) (ht : row.name ≠ b!"AddRelatedTo" → src = t) (opts : List (Option Opt))
    (hl : AllLibrary opts) (o : Obj) (h : row.run env recv id opts = .ret (some o) none) :
    ∃ rel, prop o (b!"relationship_type") = some (.str rel) ∧ prop o (b!"source_ref") = some (.str s) ∧
      prop o (b!"target_ref") = some (.str id) ∧ Defined src rel t := by
  obtain ⟨h1, h2, h3, -⟩ := c13_edge_partial row hr (by rw [hb]; rintro ⟨h, -⟩; cases h) env he recv s id hs
    opts hl o h
  refine ⟨_, h1, h2, h3, .inr ?_⟩
  by_cases hn : row.name = b!"AddRelatedTo"
  · left; rw [hn]; decide
  · rcases helpers_common row hr ⟨b, hb⟩ with h | h
    · exact .inl h
    · exact .inr ⟨h, ht hn⟩

/-- **C72** (the other way).  For each relationship in the table of the standard but one there is a method
that makes it, of the Go type for the source, whatever the ids of the source and of a target of a type in
the table. -/
theorem c72_complete_partial (e : Str × Str × List Str) (hes : e ∈ stdRels)
    (hx : (e.1, e.2.1) ≠ (b!"attack-pattern", b!"uses")) :
    ∃ k row, (k, e.1) ∈ sources ∧ row ∈ relTable ∧ row.recv = .obj k ∧
      ∀ (env : Env), Sane env → ∀ (recv : Obj) (s t id : Str), prop recv (b!"id") = some (.str s) → s ≠ [] →
        t ∈ e.2.2 → Identifies t id →
        ∃ o, row.run env recv id [] = .ret (some o) none ∧
          prop o (b!"relationship_type") = some (.str e.2.1) ∧ prop o (b!"source_ref") = some (.str s) ∧
          prop o (b!"target_ref") = some (.str id) := by
  obtain ⟨⟨k, _⟩, hk, rfl, row, hr, hrk, hn, hnx, hall⟩ := std_helpers e hes hx
  refine ⟨k, row, hk, hr, hrk, ?_⟩
  intro env he recv s t id hs h0 ht hid
  have htk := List.all_eq_true.1 hall t ht
  have hl : AllLibrary [] := by intro o ho; cases ho
  have hs' : ∃ o, row.run env recv id [] = .ret (some o) none := by
    cases hT : targetsOf row.recv row.name with
    | none => rw [hT] at htk; cases htk
    | some T =>
      refine c13_success row hr T hT env recv s id hs h0 ?_ [] hl (by intro o ho; cases ho)
      rw [hT] at htk
      cases T with
      | any => cases htk
      | types ts => exact ⟨t, by simpa [takes] using htk, hid⟩
      | identifier =>
        obtain ⟨-, hp, u, hu, rfl⟩ := hid
        exact ⟨t, u, hp, hu, rfl⟩
  obtain ⟨o, ho⟩ := hs'
  obtain ⟨h1, h2, h3, -⟩ := c13_edge_partial row hr hnx env he recv s id hs [] hl o ho
  exact ⟨o, ho, by rw [h1, hn], h2, h3⟩

/-- Not in the table and not common. -/
theorem not_defined {s r t : Str} (h : inStdTable s r t = false) (h1 : r ≠ b!"related-to") (h2 : s ≠ t) :
    ¬ Defined s r t := by
  rintro (hd | hd | ⟨-, hd⟩)
  · rw [← inStdTable_iff, h] at hd; cases hd
  · exact h1 hd
  · exact h2 hd

/-- An object with an id of that type. -/
def exIdOf (k : SId) (t : Str) : Obj := Obj.lit k [(b!"ID", .str (t ++ b!"--" ++ exUUID))]

/-- **C72**, the negation of the full statement: an attack pattern that uses a tool gets a relationship that
the standard does not define, and no method makes the one it does. -/
theorem c72_uses : ∃ o,
    AttackPattern_AddUses.run exEnv (exIdOf .AttackPattern (b!"attack-pattern")) (b!"tool--" ++ exUUID) []
      = .ret (some o) none ∧
    prop o (b!"relationship_type") = some (.str (b!"targets")) ∧
    ¬ Defined (b!"attack-pattern") (b!"targets") (b!"tool") ∧
    Defined (b!"attack-pattern") (b!"uses") (b!"tool") ∧
    ∀ row ∈ relTable, row.recv = .obj .AttackPattern → row.rel ≠ b!"uses" :=
  ⟨_, rfl, rfl, not_defined (by decide +kernel) (by decide) (by decide),
    .inl (inStdTable_iff.1 (by decide +kernel)), by decide +kernel⟩

/-- **C72**, the negation of the full statement: malware that drops a malware analysis. -/
theorem c72_prefix : ∃ o,
    Malware_AddDrops.run exEnv exMalware exMA [] = .ret (some o) none ∧
    prop o (b!"relationship_type") = some (.str (b!"drops")) ∧
    prop o (b!"target_ref") = some (.str exMA) ∧
    ¬ Defined (b!"malware") (b!"drops") (b!"malware-analysis") :=
  ⟨_, rfl, rfl, rfl, not_defined (by decide +kernel) (by decide) (by decide)⟩

/-- **C72**, the negation of the full statement: infrastructure that consists of a threat actor. -/
theorem c72_consists : ∃ o,
    Infrastructure_AddConsistsOf.run exEnv (exIdOf .Infrastructure (b!"infrastructure"))
      (b!"threat-actor--" ++ exUUID) [] = .ret (some o) none ∧
    prop o (b!"relationship_type") = some (.str (b!"consists-of")) ∧
    prop o (b!"target_ref") = some (.str (b!"threat-actor--" ++ exUUID)) ∧
    ¬ Defined (b!"infrastructure") (b!"consists-of") (b!"threat-actor") :=
  ⟨_, rfl, rfl, rfl, not_defined (by decide +kernel) (by decide) (by decide)⟩

/-- **C72**, the negation of the full statement: malware derived from an identity. -/
theorem c72_derived : ∃ row ∈ relTable, row.recv = .base .sdo ∧ ∃ o,
    row.run exEnv exMalware (b!"identity--" ++ exUUID) [] = .ret (some o) none ∧
    prop o (b!"relationship_type") = some (.str (b!"derived-from")) ∧
    ¬ Defined (b!"malware") (b!"derived-from") (b!"identity") := by
  refine ⟨STIXDomainObject_AddDerivedFrom, by simp [relTable], rfl, _, rfl,
    rfl, not_defined (by decide +kernel) (by decide) (by decide)⟩

/-- Non-vacuity: a threat actor that uses malware. -/
example : ∃ o, ThreatActor_AddUses.run exEnv (exIdOf .ThreatActor (b!"threat-actor")) (b!"malware--" ++ exUUID) []
      = .ret (some o) none ∧ ThreatActor_AddUses ∈ relTable ∧ (SId.ThreatActor, b!"threat-actor") ∈ sources ∧
    Defined (b!"threat-actor") (b!"uses") (b!"malware") :=
  ⟨_, rfl, by simp [relTable], by decide, .inl (inStdTable_iff.1 (by decide +kernel))⟩

end Stix
