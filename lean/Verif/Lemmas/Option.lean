import Verif.Spec.Option
import Verif.Lemmas.SortedMap

/-!
# Lemmas about object tables and options
-/

namespace Stix
open Spec

theorem mem_allSIds (s : SId) : s ∈ allSIds := by cases s <;> decide

/-- No Go field name and no JSON name occurs twice in an object kind. -/
theorem objFields_nodup_table : ∀ s ∈ allSIds,
    ((objFields s).map (·.name)).Nodup ∧ ((objFields s).map (·.key)).Nodup := by
  decide +kernel

theorem objFields_names_nodup (s : SId) : ((objFields s).map (·.name)).Nodup :=
  (objFields_nodup_table s (mem_allSIds s)).1

theorem objFields_keys_nodup (s : SId) : ((objFields s).map (·.key)).Nodup :=
  (objFields_nodup_table s (mem_allSIds s)).2

theorem findField_some {n : Str} {l : List FieldInfo} {f : FieldInfo}
    (h : findField n l = some f) : f ∈ l ∧ f.name = n := by
  induction l with
  | nil => cases h
  | cons g l ih =>
    simp only [findField] at h
    split at h
    · cases h; exact ⟨List.mem_cons_self, ‹_›⟩
    · exact ⟨List.mem_cons_of_mem _ (ih h).1, (ih h).2⟩

theorem findField_none {n : Str} {l : List FieldInfo}
    (h : findField n l = none) : ∀ f ∈ l, f.name ≠ n := by
  induction l with
  | nil => simp
  | cons g l ih =>
    simp only [findField] at h
    split at h
    · cases h
    · intro f hf
      rcases List.mem_cons.1 hf with rfl | hf
      · assumption
      · exact ih h f hf

theorem fieldByName_some {s : SId} {n : Str} {f : FieldInfo}
    (h : fieldByName s n = some f) : f ∈ objFields s ∧ f.name = n := by
  simp only [fieldByName] at h
  cases h1 : findField n (ownFields s).toList with
  | some g =>
    rw [h1] at h; simp only [Option.orElse, Option.some.injEq] at h; subst h
    have := findField_some h1
    exact ⟨List.mem_append_right _ this.1, this.2⟩
  | none =>
    rw [h1] at h; simp only [Option.orElse] at h
    have := findField_some h
    exact ⟨List.mem_append_left _ this.1, this.2⟩

theorem getField_some {s : SId} {n : Str} {f : FieldInfo}
    (h : getFieldFromBaseStruct s n = some f) : f ∈ objFields s ∧ f.name = n := by
  have base : ∀ l, l = (baseFields (baseOf s)).toList →
      ((findField n l).orElse fun _ => fieldByName s n) = some f →
      f ∈ objFields s ∧ f.name = n := by
    intro l hl h
    cases h1 : findField n l with
    | some g =>
      rw [h1] at h; simp only [Option.orElse, Option.some.injEq] at h; subst h
      have := findField_some h1
      exact ⟨List.mem_append_left _ (hl ▸ this.1), this.2⟩
    | none => rw [h1] at h; exact fieldByName_some h
  unfold getFieldFromBaseStruct at h
  cases hb : baseOf s with
  | sco => rw [hb] at h; exact base _ (by rw [hb]; rfl) h
  | sdo => rw [hb] at h; exact base _ (by rw [hb]; rfl) h
  | sro => rw [hb] at h; exact fieldByName_some h
  | none => rw [hb] at h; exact fieldByName_some h

theorem find?_key {l : List FieldInfo} (hk : (l.map (·.key)).Nodup) {f : FieldInfo} (hf : f ∈ l) :
    l.find? (fun g => g.key == f.key) = some f := by
  induction l with
  | nil => cases hf
  | cons g l ih =>
    simp only [List.map_cons, List.nodup_cons] at hk
    rcases List.mem_cons.1 hf with rfl | hf
    · simp
    · have : g.key ≠ f.key := fun e => hk.1 (e ▸ List.mem_map.2 ⟨f, hf, rfl⟩)
      rw [List.find?_cons, beq_eq_false_iff_ne.2 this]
      exact ih hk.2 hf

/-- A property is the value of its field. -/
theorem prop_field {o : Obj} {f : FieldInfo} (hf : f ∈ objFields o.sid) :
    prop o f.key = some (o.val f.name) := by
  simp [prop, find?_key (objFields_keys_nodup o.sid) hf]

theorem name_inj {s : SId} {f g : FieldInfo} (hf : f ∈ objFields s) (hg : g ∈ objFields s)
    (h : f.name = g.name) : f = g :=
  List.inj_on_of_nodup_map (objFields_names_nodup s) hf hg h

/-- Setting a field changes the property of that field and no other. -/
theorem prop_set {o : Obj} {f : FieldInfo} (hf : f ∈ objFields o.sid) (v : GV) (q : Str) :
    prop (o.set f.name v) q = if q = f.key then some v else prop o q := by
  by_cases hq : q = f.key
  · subst hq
    rw [if_pos rfl]
    have := prop_field (o := o.set f.name v) (f := f) hf
    rw [this]; simp [Obj.set, setVal]
  · rw [if_neg hq]
    simp only [prop, Obj.set]
    cases h : (objFields o.sid).find? (fun g => g.key == q) with
    | none => rfl
    | some g =>
      have hgq : g.key = q := by simpa using List.find?_some h
      have hg := List.mem_of_find?_eq_some h
      have : g.name ≠ f.name := by
        intro e; have := name_inj hg hf e; subst this; exact hq hgq.symm
      simp [setVal, this]

theorem set_set (o : Obj) (n : Str) (v w : GV) : (o.set n v).set n w = o.set n w := by
  simp only [Obj.set, Obj.mk.injEq, true_and, and_true]
  funext x
  by_cases h1 : x = n <;> simp [setVal, h1]

theorem set_val (o : Obj) (n : Str) (v : GV) : (o.set n v).val n = v := by
  simp [Obj.set, setVal]

theorem set_val_ne (o : Obj) {n x : Str} (v : GV) (h : x ≠ n) : (o.set n v).val x = o.val x := by
  simp [Obj.set, setVal, h]

theorem set_comm (o : Obj) {n m : Str} (h : n ≠ m) (v w : GV) :
    (o.set n v).set m w = (o.set m w).set n v := by
  simp only [Obj.set, Obj.mk.injEq, true_and, and_true]
  funext x
  by_cases h1 : x = n
  · subst h1; simp [setVal, h]
  · by_cases h2 : x = m
    · subst h2; simp [setVal, h1]
    · simp [setVal, h1, h2]

/-- One entry of the check that options are for the property they are named after. -/
def optCheck (row : OptRow) (s : SId) : Bool :=
  match getFieldFromBaseStruct s row.field with
  | none => (optionProperty s row.name).isNone
  | some f =>
    if f.ty.kind ≠ row.kind then (optionProperty s row.name).isNone
    else if row.ty.assignable f.ty = false then
      (optionProperty s row.name).isNone && row.name == OptionContent.name && s == SId.Note
    else optionProperty s row.name == some f.key && f.key != (b!"id") && f.key != (b!"type")
      && f.key != (b!"extensions")

theorem optCheck_table : ∀ row ∈ optTable, ∀ s ∈ allSIds, optCheck row s = true := by
  decide +kernel

/-- What applying an option from the table does. -/
theorem apply_field {row : OptRow} (hrow : row ∈ optTable) (v : GV) (o : Obj) :
    (optionProperty o.sid row.name = none ∧
      (((Opt.field row v).apply o = (o, .err .other)) ∨
       ((Opt.field row v).apply o = (o, .panic) ∧ row.name = OptionContent.name ∧ o.sid = .Note))) ∨
    (∃ f ∈ objFields o.sid, optionProperty o.sid row.name = some f.key ∧ f.key ≠ b!"id" ∧
      f.key ≠ b!"type" ∧ f.key ≠ b!"extensions" ∧ f.ty.kind = row.kind ∧
      row.ty.assignable f.ty = true ∧ f.name = row.field ∧
      (Opt.field row v).apply o = (o.set f.name v, .ok ())) := by
  have hc := optCheck_table row hrow o.sid (mem_allSIds _)
  simp only [optCheck] at hc
  simp only [Opt.apply, setField]
  cases hf : getFieldFromBaseStruct o.sid row.field with
  | none =>
    rw [hf] at hc
    exact .inl ⟨by simpa using hc, .inl rfl⟩
  | some f =>
    rw [hf] at hc
    simp only at hc ⊢
    by_cases hk : f.ty.kind ≠ row.kind
    · rw [if_pos hk] at hc ⊢
      exact .inl ⟨by simpa using hc, .inl rfl⟩
    · rw [if_neg hk] at hc ⊢
      by_cases ha : row.ty.assignable f.ty = false
      · rw [if_pos ha] at hc ⊢
        simp only [Bool.and_eq_true, Option.isNone_iff_eq_none, beq_iff_eq] at hc
        exact .inl ⟨hc.1.1, .inr ⟨rfl, hc.1.2, hc.2⟩⟩
      · rw [if_neg ha] at hc ⊢
        simp only [Bool.and_eq_true, beq_iff_eq, bne_iff_ne] at hc
        have := getField_some hf
        exact .inr ⟨f, this.1, hc.1.1.1, hc.1.1.2, hc.1.2, hc.2, by simpa using hk, by simpa using ha,
          this.2, rfl⟩

/-- One entry of the check that extensions go into the extensions property. -/
def extCheck (s : SId) : Bool :=
  match findFieldForExtension s with
  | none => !(properties s).contains (b!"extensions")
  | some f => f.key == (b!"extensions") && f.name == (b!"Extensions") &&
      (match f.ty with | .ext _ => true | _ => false) &&
      (objFields s).any (fun g => g.name == f.name && g.key == f.key &&
        (match g.ty with | .ext _ => true | _ => false))

theorem extCheck_table : ∀ s ∈ allSIds, extCheck s = true := by decide +kernel

/-- What `OptionExtension` does. -/
theorem apply_extension (n : Str) (v : GV) (o : Obj) :
    ((b!"extensions") ∉ properties o.sid ∧ (Opt.extension n v).apply o = (o, .err .other)) ∨
    (∃ f ∈ objFields o.sid, f.key = (b!"extensions") ∧ f.name = (b!"Extensions") ∧ (∃ ks, f.ty = .ext ks) ∧
      (Opt.extension n v).apply o =
        (o.set f.name (.map (some (smInsert n v (entries (prop o (b!"extensions")))))), .ok ())) := by
  have hc := extCheck_table o.sid (mem_allSIds _)
  simp only [extCheck] at hc
  simp only [Opt.apply, optionExtension]
  cases hf : findFieldForExtension o.sid with
  | none =>
    rw [hf] at hc
    exact .inl ⟨by simpa using hc, rfl⟩
  | some f =>
    rw [hf] at hc
    simp only [Bool.and_eq_true, beq_iff_eq, List.any_eq_true] at hc
    obtain ⟨⟨⟨hk, hn⟩, ht⟩, g, hg, ⟨hgn, hgk⟩, hgt⟩ := hc
    right
    refine ⟨g, hg, hgk.trans hk, hgn.trans hn, ?_, ?_⟩
    · cases h : g.ty <;> rw [h] at hgt <;> simp at hgt
      exact ⟨_, rfl⟩
    · simp only
      have hp : prop o (b!"extensions") = some (o.val f.name) := by
        have := prop_field hg
        rw [hgk, hk, hgn] at this
        exact this
      rw [hp, hgn]
      cases h : f.ty <;> rw [h] at ht <;> simp at ht
      simp only [entries]
      cases o.val f.name <;> first | rfl | skip
      rename_i m; cases m <;> rfl

end Stix
