import Verif.Props.Ctor
import Verif.Spec.Rel
import Verif.Model.Rel

/-!
# Relationship helpers (C13, C14)
-/

namespace Stix
open Spec

/-- The guard of a helper is what the specification says, up to the order of the types. -/
def agrees : Guard → Option Targets → Bool
  | .none, some .any => true
  | .valid, some .identifier => true
  | .types us, some (.types ts) => us.all (ts.contains ·) && ts.all (us.contains ·) &&
      ts.all (typeConsts.contains ·)
  | _, _ => false

/-- Checked over the whole table. -/
theorem table_agrees : ∀ row ∈ relTable, agrees row.guard (targetsOf row.recv row.name) = true := by
  decide +kernel

/-- And no helper is missing. -/
theorem table_complete : ∀ e ∈ helpers, ∃ row ∈ relTable, row.recv = e.1 ∧ row.name = e.2.1 := by
  decide +kernel

theorem table_rel : ∀ row ∈ relTable, row.rel ≠ [] ∧
    (row.rel = namedAfter row.name ∨ (row.recv = .obj .AttackPattern ∧ row.name = b!"AddUses")) := by
  decide +kernel

/-- No allowed type is the beginning of another type than itself.  This is what `ForType` needs to
tell types apart. -/
def Unambiguous (ts : List Str) (id : Str) : Prop :=
  ∀ t t' u, t ∈ ts → TypePart t' → UUIDText u → id = t' ++ b!"--" ++ u → t <+: t' → t = t'

theorem types_allowed {ts us : List Str} (h1 : us.all (ts.contains ·) = true)
    (h2 : ts.all (us.contains ·) = true) (h3 : ts.all (typeConsts.contains ·) = true) (id : Str)
    (hu : Unambiguous ts id) :
    (!isValidIdentifier id || !forTypes id us) = false ↔ (Targets.types ts).Allows id := by
  simp only [List.all_eq_true, List.contains_iff_mem] at h1 h2 h3
  rw [Bool.or_eq_false_iff, Bool.not_eq_false', Bool.not_eq_false', c07_valid_identifier, c09_forTypes]
  constructor
  · rintro ⟨⟨t, u, ht, hut, rfl⟩, x, hx, hf⟩
    have hxt := (c08_library_types x (h3 x (h1 x hx)))
    have := hu x t u (h1 x hx) ht hut rfl ((c09_forType_prefix_partial t u x hxt.2).1 hf)
    subst this
    exact ⟨x, h1 x hx, hxt.1, ht, u, hut, rfl⟩
  · rintro ⟨t, ht, h0, hp, u, hut, rfl⟩
    refine ⟨⟨t, u, hp, hut, rfl⟩, t, h2 t ht, ?_⟩
    exact (c09_forType_prefix_partial t u t hp).2 (List.prefix_refl _)

/-- What a helper refuses, given that types are told apart. -/
theorem rejects_iff {row : RelRow} (hr : row ∈ relTable) {T : Targets}
    (hT : targetsOf row.recv row.name = some T) (id : Str)
    (hu : ∀ ts, T = .types ts → Unambiguous ts id) :
    row.guard.rejects id = false ∧ id ≠ [] ↔ T.Allows id := by
  have ha := table_agrees row hr
  rw [hT] at ha
  cases hg : row.guard with
  | none =>
    cases T <;> rw [hg] at ha <;> simp [agrees] at ha
    simp [Guard.rejects, Targets.Allows]
  | valid =>
    cases T <;> rw [hg] at ha <;> simp [agrees] at ha
    simp only [Guard.rejects, Bool.not_eq_false', c07_valid_identifier, Targets.Allows]
    constructor
    · exact fun h => h.1
    · rintro ⟨t, u, h1, h2, rfl⟩
      exact ⟨⟨t, u, h1, h2, rfl⟩, by simp⟩
  | types us =>
    cases T with
    | any => rw [hg] at ha; cases ha
    | identifier => rw [hg] at ha; cases ha
    | types ts =>
      rw [hg] at ha
      simp only [agrees, Bool.and_eq_true] at ha
      have := types_allowed ha.1.1 ha.1.2 ha.2 id (hu ts rfl)
      simp only [Guard.rejects]
      rw [this]
      constructor
      · exact fun h => h.1
      · intro h
        refine ⟨h, ?_⟩
        obtain ⟨t, _, _, _, u, _, rfl⟩ := h
        simp

/-- The three ends of a relationship made by a helper. -/
theorem helper_made (row : RelRow) (env : Env) (he : Sane env) (recv : Obj)
    (s id : Str) (hs : prop recv (b!"id") = some (.str s)) (opts : List (Option Opt))
    (hl : AllLibrary opts) (o : Obj) (h : row.run env recv id opts = .ret (some o) none) :
    row.guard.rejects id = false ∧ o.sid = .Relationship ∧
    prop o (b!"relationship_type") = some (.str row.rel) ∧
    prop o (b!"source_ref") = some (.str s) ∧ prop o (b!"target_ref") = some (.str id) ∧
    (∃ i, prop o (b!"id") = some (.str i) ∧ Identifies (b!"relationship") i) ∧
    ∀ col : Coll Obj, (col.add o).2 = false := by
  rw [prop_id] at hs
  have hs' : recv.getStr (b!"ID") = s := by simp only [Obj.getStr]; rw [Option.some.inj hs]
  unfold RelRow.run at h
  split at h
  · cases h
  rename_i hg
  rw [hs'] at h
  have h' : (Ctor.relationship row.rel s id).run env opts = .ret (some o) none := h
  obtain ⟨o', e, hsid, -, -, hid, hadd, -⟩ := c37_wellformed env he _ opts hl _ h'
  cases e
  have hne : ¬ (row.rel = [] ∨ s = [] ∨ id = []) := by
    intro hc
    rw [(c15_missing env row.rel s id opts).2 hc] at h'; cases h'
  obtain ⟨o'', e, h2, -, h3, h4, h5⟩ := c15_carries env row.rel s id opts hl hne
  rw [h'] at h2; cases h2
  exact ⟨by simpa using hg, hsid, h3, h4, h5, hid, hadd⟩

/-- C13: a relationship returned without error has the receiver's id as its source, the given id as
its target, the type the method is named after, a valid id, and is accepted by every collection.
Missing from the full statement: `AttackPattern.AddUses`, which makes another type of relationship
(`c13_uses_is_targets`). -/
theorem c13_edge_partial (row : RelRow) (hr : row ∈ relTable)
    (hx : ¬ (row.recv = .obj .AttackPattern ∧ row.name = b!"AddUses")) (env : Env) (he : Sane env)
    (recv : Obj) (s id : Str) (hs : prop recv (b!"id") = some (.str s)) (opts : List (Option Opt))
    (hl : AllLibrary opts) (o : Obj) (h : row.run env recv id opts = .ret (some o) none) :
    prop o (b!"relationship_type") = some (.str (namedAfter row.name)) ∧
    prop o (b!"source_ref") = some (.str s) ∧ prop o (b!"target_ref") = some (.str id) ∧
    (∃ i, prop o (b!"id") = some (.str i) ∧ Identifies (b!"relationship") i) ∧
    ∀ col : Coll Obj, (col.add o).2 = false := by
  obtain ⟨-, -, h1, h2⟩ := helper_made row env he recv s id hs opts hl o h
  rw [((table_rel row hr).2.resolve_right hx)] at h1
  exact ⟨h1, h2⟩

/-- C13, the negation of the full statement: whatever the attack pattern, the target and the
options, what `AddUses` returns is never of type `uses`. -/
theorem c13_uses_is_targets (env : Env) (he : Sane env) (recv : Obj) (s id : Str)
    (hs : prop recv (b!"id") = some (.str s)) (opts : List (Option Opt)) (hl : AllLibrary opts) (o : Obj)
    (h : AttackPattern_AddUses.run env recv id opts = .ret (some o) none) :
    prop o (b!"relationship_type") = some (.str (b!"targets")) ∧
    prop o (b!"relationship_type") ≠ some (.str (namedAfter AttackPattern_AddUses.name)) := by
  obtain ⟨-, -, h1, -⟩ := helper_made AttackPattern_AddUses env he recv s id hs opts hl o h
  rw [h1]
  refine ⟨rfl, ?_⟩
  rw [Ne, Option.some.injEq, GV.str.injEq]
  decide

/-- C13: an accepted target, a receiver with an id and options relationships have are enough for
success. -/
theorem c13_success (row : RelRow) (hr : row ∈ relTable) (T : Targets)
    (hT : targetsOf row.recv row.name = some T) (env : Env) (recv : Obj) (s id : Str)
    (hs : prop recv (b!"id") = some (.str s)) (h0 : s ≠ []) (hallow : T.Allows id)
    (opts : List (Option Opt)) (hl : AllLibrary opts)
    (happ : ∀ opt, some opt ∈ opts → (target .Relationship opt).isSome) :
    ∃ o, row.run env recv id opts = .ret (some o) none := by
  have hg : row.guard.rejects id = false ∧ id ≠ [] := by
    have ha := table_agrees row hr
    rw [hT] at ha
    cases T with
    | any => exact (rejects_iff hr hT id (fun ts h => by cases h)).2 hallow
    | identifier => exact (rejects_iff hr hT id (fun ts h => by cases h)).2 hallow
    | types ts =>
      obtain ⟨t, ht, h0, hp, u, hu, rfl⟩ := hallow
      refine ⟨?_, by simp⟩
      cases hg : row.guard with
      | none => rw [hg] at ha; cases ha
      | valid => rw [hg] at ha; cases ha
      | types us =>
        rw [hg] at ha
        simp only [agrees, Bool.and_eq_true, List.all_eq_true, List.contains_iff_mem] at ha
        simp only [Guard.rejects]
        rw [Bool.or_eq_false_iff, Bool.not_eq_false', Bool.not_eq_false', c07_valid_identifier, c09_forTypes]
        exact ⟨⟨t, u, hp, hu, rfl⟩, t, ha.1.2 t ht,
          (c09_forType_prefix_partial t u t hp).2 (List.prefix_refl _)⟩
  rw [prop_id] at hs
  have hs' : recv.getStr (b!"ID") = s := by simp only [Obj.getStr]; rw [Option.some.inj hs]
  unfold RelRow.run
  rw [if_neg (by rw [hg.1]; decide), hs']
  obtain ⟨o, e, h1, h2, -⟩ := c15_carries env row.rel s id opts hl (by
    rintro (h | h | h)
    · exact (table_rel row hr).1 h
    · exact h0 h
    · exact hg.2 h)
  rw [h2.2 happ] at h1
  exact ⟨o, h1⟩

/-- C13: in every other case there is an error. -/
theorem c13_otherwise_error (row : RelRow) (hr : row ∈ relTable) (T : Targets)
    (hT : targetsOf row.recv row.name = some T) (env : Env) (recv : Obj) (s id : Str)
    (hs : prop recv (b!"id") = some (.str s)) (opts : List (Option Opt)) (hl : AllLibrary opts)
    (hu : ∀ ts, T = .types ts → Unambiguous ts id)
    (h : s = [] ∨ ¬ T.Allows id ∨ ∃ opt, some opt ∈ opts ∧ target .Relationship opt = none) :
    ∃ x e, row.run env recv id opts = .ret x (some e) := by
  rw [prop_id] at hs
  have hs' : recv.getStr (b!"ID") = s := by simp only [Obj.getStr]; rw [Option.some.inj hs]
  have hiff := rejects_iff hr hT id hu
  unfold RelRow.run
  split
  · exact ⟨_, _, rfl⟩
  rename_i hg
  rw [hs']
  by_cases hm : row.rel = [] ∨ s = [] ∨ id = []
  · exact ⟨_, _, (c15_missing env row.rel s id opts).2 hm⟩
  · obtain ⟨o, e, h1, h2, -⟩ := c15_carries env row.rel s id opts hl hm
    rcases h with h | h | ⟨opt, ho, hn⟩
    · exact (hm (.inr (.inl h))).elim
    · exact (h (hiff.1 ⟨by simpa using hg, fun h => hm (.inr (.inr h))⟩)).elim
    · cases e with
      | none => have := h2.1 rfl opt ho; rw [hn] at this; cases this
      | some e => exact ⟨_, _, h1⟩

/-- C14: a helper with a list of allowed types returns ErrInvalidParameter and no relationship for
everything that is not an identifier of one of these types.  Missing from the full statement: types
that begin with an allowed type, such as `malware-analysis` where `malware` is allowed
(`c14_prefix_accepted`). -/
theorem c14_rejects_partial (row : RelRow) (hr : row ∈ relTable) (ts : List Str)
    (hT : targetsOf row.recv row.name = some (.types ts)) (env : Env) (recv : Obj) (id : Str)
    (opts : List (Option Opt)) (hu : Unambiguous ts id) (h : ¬ ∃ t ∈ ts, Identifies t id) :
    row.run env recv id opts = .ret none (some .invalidParameter) := by
  have hiff := rejects_iff hr hT id (fun ts' e => by cases e; exact hu)
  have : row.guard.rejects id = true := by
    by_contra hc
    have hc' : row.guard.rejects id = false := by simpa using hc
    by_cases h0 : id = []
    · have ha := table_agrees row hr
      rw [hT] at ha
      cases hg : row.guard with
      | none => rw [hg] at ha; cases ha
      | valid => rw [hg] at ha; cases ha
      | types us =>
        rw [hg, h0] at hc'
        simp only [Guard.rejects] at hc'
        rw [show isValidIdentifier [] = false by decide] at hc'
        cases hc'
    · exact h (hiff.1 ⟨hc', h0⟩)
  rw [RelRow.run, if_pos this]; rfl

/-- C14: in particular for everything that is no identifier at all. -/
theorem c14_not_identifier (row : RelRow) (hr : row ∈ relTable) (T : Targets)
    (hT : targetsOf row.recv row.name = some T) (hany : T ≠ .any) (env : Env) (recv : Obj) (id : Str)
    (opts : List (Option Opt)) (h : ¬ ∃ t u, TypePart t ∧ UUIDText u ∧ id = t ++ b!"--" ++ u) :
    row.run env recv id opts = .ret none (some .invalidParameter) := by
  have ha := table_agrees row hr
  rw [hT] at ha
  have hv : isValidIdentifier id = false := by
    rw [← Bool.not_eq_true, c07_valid_identifier]; exact h
  have : row.guard.rejects id = true := by
    cases hg : row.guard with
    | none => rw [hg] at ha; cases T <;> first | exact (hany rfl).elim | cases ha
    | valid => simp [Guard.rejects, hv]
    | types us => simp [Guard.rejects, hv]
  rw [RelRow.run, if_pos this]; rfl

/-- C14: and for the identifiers of all of the library's types but `malware-analysis`. -/
theorem c14_library_type (row : RelRow) (hr : row ∈ relTable) (ts : List Str)
    (hT : targetsOf row.recv row.name = some (.types ts)) (env : Env) (recv : Obj) (t id : Str)
    (opts : List (Option Opt)) (ht : t ∈ typeConsts) (hid : Identifies t id) (hn : t ∉ ts)
    (hma : t ≠ b!"malware-analysis") :
    row.run env recv id opts = .ret none (some .invalidParameter) := by
  obtain ⟨h0, hp, u, hu, rfl⟩ := hid
  apply c14_rejects_partial row hr ts hT
  · intro x t' u' hx hp' hu' e hpre
    obtain ⟨rfl, rfl, -⟩ := c07_unique_parts t t' u u' hp hp' hu hu' e
    have ha := table_agrees row hr
    rw [hT] at ha
    have hx' : x ∈ typeConsts := by
      cases hg : row.guard with
      | none => rw [hg] at ha; cases ha
      | valid => rw [hg] at ha; cases ha
      | types us =>
        rw [hg] at ha
        simp only [agrees, Bool.and_eq_true, List.all_eq_true, List.contains_iff_mem] at ha
        exact ha.2 x hx
    rcases (c09_forType_library_partial t u x ht hx').1
        ((c09_forType_prefix_partial t u x (c08_library_types x hx').2).2 hpre) with h | h
    · exact h
    · exact (hma h.2).elim
  · rintro ⟨x, hx, -, hxp, u', hu', e⟩
    obtain ⟨rfl, -⟩ := c07_unique_parts t x u u' hp hxp hu hu' e
    exact hn hx

/-- An id to point at. -/
def exMA : Str := TypeMalwareAnalysis ++ b!"--" ++ exUUID

/-- A malware object. -/
def exMalware : Obj := Obj.lit .Malware [(b!"ID", .str (b!"malware--" ++ exUUID))]

/-- C14, the negation of the full statement: `AddDelivers` is for malware, and makes a relationship
to a malware analysis. -/
theorem c14_prefix_accepted : ∃ (row : RelRow) (ts : List Str) (env : Env) (recv : Obj) (id : Str) (o : Obj),
    row ∈ relTable ∧ targetsOf row.recv row.name = some (.types ts) ∧ Sane env ∧
    (¬ ∃ t ∈ ts, Identifies t id) ∧ row.run env recv id [] = .ret (some o) none ∧
    prop o (b!"target_ref") = some (.str id) := by
  refine ⟨AttackPattern_AddDelivers, [b!"malware"], exEnv, exMalware, exMA, _, by simp [relTable],
    by rfl, exEnv_sane, ?_, rfl, rfl⟩
  rintro ⟨t, ht, -, hp, u, hu, e⟩
  simp only [List.mem_cons, List.not_mem_nil, or_false] at ht
  subst ht
  have := c07_unique_parts TypeMalwareAnalysis (b!"malware") exUUID u
    (c08_library_types _ (by decide +kernel)).2 hp (Or.inl exUUID_canon) hu e
  exact absurd this.1 (by decide)

/-- Non-vacuity for C13 and C14: a helper, an option, a receiver and a target it accepts, and one it
does not. -/
example : ∃ o, Malware_AddVariantOf.run exEnv exMalware (b!"malware--" ++ exUUID)
      [some (.field OptionDescription (.str (b!"d")))] = .ret (some o) none ∧
    prop o (b!"relationship_type") = some (.str (b!"variant-of")) ∧
    Malware_AddVariantOf.run exEnv exMalware (b!"tool--" ++ exUUID) [] = .ret none (some .invalidParameter) ∧
    (∃ ts, targetsOf Malware_AddVariantOf.recv Malware_AddVariantOf.name = some (.types ts)) :=
  ⟨_, rfl, rfl, rfl, _, rfl⟩

example : Unambiguous [b!"malware"] (b!"tool--" ++ exUUID) := by
  intro t t' u ht hp hu e hpre
  simp only [List.mem_cons, List.not_mem_nil, or_false] at ht
  subst ht
  have := c07_unique_parts (b!"tool") t' exUUID u
    (c08_library_types TypeTool (by decide +kernel)).2 hp (Or.inl exUUID_canon) hu e
  rw [← this.1] at hpre
  exact absurd (List.isPrefixOf_iff_prefix.2 hpre) (by decide)

end Stix
