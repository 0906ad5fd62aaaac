import Verif.Lemmas.Stable
import Verif.Props.RoundTrip

/-!
# Writing what was read (C63)
-/

namespace Stix
open Spec StixObject
open Props.Canon (toy)

variable {F : Canon.FloatFmt} {U : Type} [UserType U]

/-- A text or a pointer. -/
def Ty.small : Ty → Bool
  | .str _ => true
  | .ptr _ => true
  | _ => false

/-- A struct among the properties of an object has texts and pointers only. -/
def Ty.texts : Ty → Bool
  | .struct _ fs => fs.toList.all fun r => r.ty.small
  | _ => true

theorem objFields_texts (s : SId) : ∀ r ∈ objFields s, r.ty.texts = true := by
  have : ∀ s ∈ allSIds, ∀ r ∈ objFields s, r.ty.texts = true := by decide +kernel
  exact this s (mem_allSIds s)

theorem sane_objRow {s : SId} {r : FieldInfo} (hr : r ∈ objFields s) : r.ty.sane = true :=
  sane_row (objFields_sane s) (by rw [mkFields_toList]; exact hr)

theorem unset_zero_row {s : SId} {r : FieldInfo} (hr : r ∈ objFields s) {v : GV} (h : Unset r.ty v) :
    Unset r.ty (zero r.ty) := by
  have hs := sane_objRow hr
  cases ht : r.ty <;> rw [ht] at h <;> simp only [Unset] at h ⊢
  case struct nm fs =>
    rw [ht] at hs
    simp only [Ty.sane, Bool.and_eq_true, decide_eq_true_eq] at hs
    exact ⟨_, by rw [zero], fun r hr => zeroFields_row hs.1.1 hr⟩

/-- A property that is set is still set. -/
theorem set_settled {s : SId} {r : FieldInfo} (hr : r ∈ objFields s) {v : GV} (hv : Carriable r.ty v)
    (h : ¬ Unset r.ty v) : ¬ Unset r.ty (settled r.ty v) := by
  have hp := objFields_plain s r hr
  have hx := objFields_texts s r hr
  have hsane := sane_objRow hr
  generalize r.ty = t at hv h hp hx hsane
  cases t <;> simp only [Ty.plain, Ty.simple, Bool.false_eq_true] at hp <;>
    simp only [Unset, not_false_eq_true, zero] at h ⊢ <;> try (simpa only [settled] using h)
  case slice t =>
    rcases hv with rfl | ⟨l, rfl, -⟩
    · exact absurd rfl h
    · simp [settled]
  case map =>
    rcases hv with rfl | ⟨l, rfl, -⟩
    · exact absurd rfl h
    · simp [settled]
  case ptr =>
    rcases hv with rfl | ⟨l, rfl, -⟩
    · exact absurd rfl h
    · simp [settled]
  case ext =>
    rcases hv with rfl | ⟨l, rfl, -⟩
    · exact absurd rfl h
    · simp [settled]
  case struct nm fs =>
    obtain ⟨f, rfl, hv⟩ := hv
    rw [valFields_iff] at hv
    simp only [Ty.sane, Bool.and_eq_true, decide_eq_true_eq] at hsane
    simp only [Ty.texts, List.all_eq_true] at hx
    rintro ⟨g, hg, hz⟩
    simp only [settled, GV.struct.injEq] at hg
    subst hg
    refine h ⟨f, rfl, fun r hr => ?_⟩
    have h1 := hz r hr
    have h2 := hx r hr
    have h3 := hv r hr
    rw [settledFields_row hsane.1.1 hr] at h1
    cases ht : r.ty <;> simp only [ht, Ty.small, Bool.false_eq_true] at h2
    case str =>
      rw [ht] at h3 h1
      obtain ⟨x, hx, -⟩ := h3
      rw [hx] at h1 ⊢
      split at h1
      · next hb =>
        simp only [Blank, Bool.and_eq_true, List.isEmpty_iff] at hb
        simp [hb.2, zero]
      · simpa only [settled] using h1
    case ptr =>
      rw [ht] at h3 h1
      rcases h3 with hx | ⟨x, hx, -⟩
      · rw [hx]; rfl
      · rw [hx] at h1
        simp [Blank, settled, zero] at h1

/-- What survives can be sent as well. -/
theorem sound_survives {o o' : Obj} (h : Sound o) (hs : Survives o o')
    (hx : ∀ e ∈ extras o', e ∈ extras o) (hxs : SortedKeys (extras o')) : Sound o' := by
  obtain ⟨e1, e2⟩ := identity_survives h hs
  have hval : ∀ r ∈ objFields o.sid, Carriable r.ty (o'.val r.name) := by
    intro r hr
    by_cases he : Emitted o r
    · rw [hs.emitted r hr he]
      exact (stable (F := toy) r.ty _ (sane_objRow hr) (objFields_firm _ r hr) (h.fields r hr)).1
    · rw [hs.hidden r hr he]
      exact val_zero carriable_zeroOk (objFields_plain _ r hr) (sane_objRow hr)
  refine ⟨by rw [e1, hs.sid]; exact h.type, ?_, by rw [hs.sid]; exact hval, ?_, hxs,
    fun e he => h.extra e (hx e he), by rw [hs.sid]; exact fun e he => h.apart e (hx e he)⟩
  · show Identifies (getType o') (getID o')
    rw [e1, e2]
    exact h.ident
  · rw [hs.sid]
    intro hne r hr ho
    have hu := h.required hne r hr ho
    have he : Emitted o r := by
      simp only [Emitted, ho, Bool.false_and]
      split
      · trivial
      · exact hu
    rw [hs.emitted r hr he]
    exact set_settled hr (h.fields r hr) hu

theorem enc_settled_row {o : Obj} (h : Sound o) {r : FieldInfo} (hr : r ∈ objFields o.sid)
    (hu : ¬ Unset r.ty (o.val r.name)) :
    enc F r.ty (settled r.ty (o.val r.name)) = enc F r.ty (o.val r.name) := by
  refine (stable r.ty _ (sane_objRow hr) (objFields_firm _ r hr) (h.fields r hr)).2.2 fun hx hc => hu ?_
  cases ht : r.ty <;> simp only [ht, Ty.isExt, Bool.false_eq_true] at hx
  simp only [Unset, zero, hc]

/-- The members are sorted by name. -/
theorem marshal_sorted {o : Obj} (h : Sound o) (hs : o.sid ≠ .ExtensionDefinition) {ms : List (Str × Json)}
    (hj : marshalObj F o = some (.obj ms)) : SortedKeys ms := by
  have hh := (hasMarshalHelper_iff o.sid).2 hs
  simp only [marshalObj, hh, if_true, Option.bind_eq_some_iff, Option.map_eq_some_iff] at hj
  obtain ⟨m, h1, js, h2, h3⟩ := hj
  simp only [Json.obj.injEq] at h3
  subst h3
  obtain ⟨g1, g2⟩ := objectToMap_lookup hh h.sorted h1
  have hkeys : ∀ e ∈ m, sanitize e.1 = e.1 := by
    rintro ⟨k, mv⟩ he
    cases (g2 k mv).1 he with
    | field r hr e => rw [← e]; exact sanitize_key hr
    | extra d hd => exact sanitize_unicode (h.extra _ hd).1
  have hf := encEntries_some h2
  clear h1 h2 g2
  have : amKeys js = amKeys m := by
    clear g1
    induction hf with
    | nil => rfl
    | @cons a b l l' h1 _ ih =>
      simp only [List.mem_cons, forall_eq_or_imp] at hkeys
      simp only [amKeys, List.map_cons, List.cons.injEq] at ih ⊢
      exact ⟨by rw [h1.1, hkeys.1], ih hkeys.2⟩
  have h1 : (amKeys m).Pairwise (fun a b => strLt a b = true) := List.pairwise_map.2 g1
  rw [← this] at h1
  exact List.pairwise_map.1 h1

/-- What survives is written as before. -/
theorem marshal_survives {o o' : Obj} (h : Sound o) (hs : Survives o o')
    (hx : o.sid ≠ .ExtensionDefinition → extras o' = extras o) : marshalObj F o' = marshalObj F o := by
  by_cases hsid : o.sid = .ExtensionDefinition
  · have hh : hasMarshalHelper .ExtensionDefinition = false := by decide +kernel
    have hb : baseOf .ExtensionDefinition = .none := by decide +kernel
    simp only [marshalObj, hs.sid, hsid, hh, Bool.false_eq_true, if_false]
    congr 1
    refine encFields_congr fun r hr => ?_
    have hr' : r ∈ objFields o.sid := by rw [hsid, objFields_none hb]; exact hr
    by_cases he : Emitted o r
    · have hb : (r.omitE && Blank (o.val r.name)) = false := by
        simpa only [Emitted, hsid, if_true] using he
      rw [hs.emitted r hr' he]
      have hst := stable (F := F) r.ty _ (sane_objRow hr') (objFields_firm _ r hr') (h.fields r hr')
      refine ⟨by rw [hst.2.1], fun _ => hst.2.2 fun hx hc => ?_⟩
      have ho : ∀ r ∈ objFields .ExtensionDefinition, (r.omitE || !r.ty.isExt) = true := by decide +kernel
      have := ho r (hsid ▸ hr')
      simp only [hx, Bool.not_true, Bool.or_false] at this
      simp [this, hc, Blank] at hb
    · have hb : (r.omitE && Blank (o.val r.name)) = true := by
        simpa only [Emitted, hsid, if_true, Bool.not_eq_false] using he
      rw [hs.hidden r hr' he]
      simp only [Bool.and_eq_true] at hb
      refine ⟨by rw [hb.2, (blank_zero (h.fields r hr') hb.2).2], fun hc => ?_⟩
      simp [hb.1, hb.2] at hc
  · have hx' := hx hsid
    have h' : Sound o' := sound_survives h hs (by rw [hx']; exact fun _ he => he) (by rw [hx']; exact h.sorted)
    obtain ⟨ms, h1, -, h2⟩ := marshal_spec (F := F) h
    obtain ⟨ms', h1', -, h2'⟩ := marshal_spec (F := F) h'
    rw [h1, h1']
    congr 2
    refine mem_ext (marshal_sorted h' (by rw [hs.sid]; exact hsid) h1') (marshal_sorted h hsid h1) ?_
    rintro ⟨k, j⟩
    rw [h2, h2', hx', hs.sid]
    refine or_congr (exists_congr fun r => and_congr_right fun hr => and_congr_right fun _ => ?_) Iff.rfl
    have e1 : Emitted o r ↔ ¬ Unset r.ty (o.val r.name) := by simp only [Emitted, hsid, if_false]
    have e2 : Emitted o' r ↔ ¬ Unset r.ty (o'.val r.name) := by simp only [Emitted, hs.sid, hsid, if_false]
    rw [e2]
    by_cases he : Emitted o r
    · have hu := e1.1 he
      rw [hs.emitted r hr he, enc_settled_row h hr hu]
      simp only [he, set_settled hr (h.fields r hr) hu, not_false_eq_true]
    · have hu : Unset r.ty (o.val r.name) := by
        by_contra hc
        exact he (e1.2 hc)
      rw [hs.hidden r hr he]
      simp only [he, unset_zero_row hr hu, not_true_eq_false, false_and]

/-- **C63.** If the JSON of an object that can be sent is read, the object that is returned has the same
JSON, member by member and byte by byte.

Missing: objects with values JSON cannot carry, or whose extended properties have names of
properties (`Sound`). -/
theorem c63_stable_partial (L : Canon.FloatLaws F) (hI : IntegersParse F) (o : Obj) (h : Sound o)
    (opts : List (CollOption U)) (hp : NoParser opts (getType o))
    (hd : CollOption.dropCustom ∉ opts ∨ extras o = []) :
    ∃ j, marshalObj F o = some j ∧ ∃ c o', fromJSON F opts (some (.arr [j])) = .ok c ∧
      c.get (getID o) = some (.lib o') ∧ marshalObj F o' = some j := by
  obtain ⟨j, h1, c, o', h2, h3, h4, h5, h6⟩ := c29_round_trip_partial L hI o h opts hp
  refine ⟨j, h1, c, o', h2, (h3 _ _).2 ⟨rfl, rfl⟩, ?_⟩
  rw [← h1]
  refine marshal_survives h h4 fun hs => ?_
  rcases hd with hd | hd
  · exact h5 hd hs
  · rw [extras, h6 (.inr (.inr hd)), hd]; rfl

/-- C63: an object with an extended property. -/
example : Sound exSample ∧ CollOption.dropCustom ∉ ([] : List (CollOption Empty)) :=
  ⟨exSample_sound, by simp⟩

/-- Whether the JSON has the member, for an object and for what it is after it was sent. -/
def exTwice (o : Obj) (k : Str) : Option (Bool × Bool) :=
  match marshalObj toy o with
  | some (.obj ms) => match fromJSON (U := Empty) toy [] (some (.arr [.obj ms])) with
    | .ok c => match c.get (getID o) with
      | some (.lib o') => match marshalObj toy o' with
        | some (.obj ms') => some (decide (k ∈ amKeys ms), decide (k ∈ amKeys ms'))
        | _ => none
      | _ => none
    | _ => none
  | _ => none

/-- **C63 is false** for an extended property whose name is that of a property up to case: the second
JSON has a member that the first does not have. -/
theorem c63_false : ∃ o ms c o' ms', TypedObj o ∧ Acceptable o ∧ marshalObj toy o = some (.obj ms) ∧
    fromJSON (U := Empty) toy [] (some (.arr [.obj ms])) = .ok c ∧ c.get (getID o) = some (.lib o') ∧
    marshalObj toy o' = some (.obj ms') ∧ (b!"description") ∉ amKeys ms ∧ (b!"description") ∈ amKeys ms' := by
  have h : exTwice exToolCase (b!"description") = some (false, true) := by decide +kernel
  unfold exTwice at h
  split at h
  · next ms hms =>
    split at h
    · next c hc =>
      split at h
      · next o' ho =>
        split at h
        · next ms' hms' =>
          simp only [Option.some.injEq, Prod.mk.injEq, decide_eq_false_iff_not, decide_eq_true_eq] at h
          refine ⟨_, ms, c, o', ms', ⟨exTool_typed _, ?_, ?_⟩, ?_, hms, hc, ho, hms', h.1, h.2⟩
          · simp [extras, exToolCase, SortedKeys]
          · intro e he
            simp only [extras, exToolCase, Option.getD_some, List.mem_cons, List.not_mem_nil, or_false] at he
            subst he
            trivial
          · show Identifies _ _
            rw [← hasValidIdentifier_iff]
            decide +kernel
        · simp at h
      · simp at h
    · simp at h
  · simp at h

end Stix
