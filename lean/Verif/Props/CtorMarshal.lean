import Verif.Spec.CtorMarshal
import Verif.Props.Ctor
import Verif.Lemmas.CtorTyped
import Verif.Props.Marshal

/-!
# Constructed objects can be marshalled (C38)
-/

namespace Stix
open Spec StixObject
open Props.Canon (toy)

variable {F : Canon.FloatFmt}

/-- A value that is no type's zero value, nor a struct. -/
def GV.nonZero : GV → Bool
  | .str s => !s.isEmpty
  | .int i => i != 0
  | .enum n => n != 0
  | .slice l => l.isSome
  | .map m => m.isSome
  | .ptr p => p.isSome
  | .dyn d => !d.isNil
  | _ => false

theorem not_unset {v : GV} (h : v.nonZero = true) (t : Ty) : ¬ Unset t v := by
  intro hu
  cases t <;> simp only [Unset, zero] at hu
  case struct =>
    obtain ⟨f, rfl, -⟩ := hu
    simp [GV.nonZero] at h
  all_goals (subst hu; simp [GV.nonZero, Dyn.isNil] at h)

theorem gvStrs_nonZero {l : Option (List Str)} (h : ¬ l.getD [] = []) : (gvStrs l).nonZero = true := by
  cases l <;> simp_all [gvStrs, GV.nonZero]

theorem ptr_nonZero {t : Option GoTime} (h : ¬ t = none) : (GV.ptr (t.map .time)).nonZero = true := by
  cases t <;> simp_all [GV.nonZero]

theorem map_nonZero {m : Option (List (Str × GV))} (h : ¬ m.isNone = true) :
    (GV.map m).nonZero = true := by
  cases m <;> simp_all [GV.nonZero]

theorem int_nonZero {i : Int} (h : ¬ i < 1) : (GV.int i).nonZero = true := by
  simp only [GV.nonZero, bne_iff_ne]; omega

/-- The names of the required properties, other than booleans. -/
def requiredKeys (s : SId) : List Str :=
  ((objFields s).filter fun r => !r.omitE && (match r.ty with
    | .bool => false
    | _ => true)).map FieldInfo.key

set_option maxRecDepth 4000 in
/-- Required properties are the common ones, the arguments, or one of two others. -/
theorem required_cover (c : Ctor) : ∀ k ∈ requiredKeys c.kind,
    k ∈ [b!"type", b!"id", b!"spec_version", b!"created", b!"modified"] ∨
    k ∈ (promise c).args.map Prod.fst ∨ (c.kind = .Identity ∧ k = b!"identity_class") ∨
    c.kind = .ExtensionDefinition := by
  cases c <;> simp only [promise, List.map_cons, List.map_nil, Ctor.kind] <;> decide +kernel

set_option maxRecDepth 4000 in
/-- The constructor has tested the arguments that are required properties. -/
theorem pre_args {c : Ctor} {n : Nat} (h : c.pre n = none) : ∀ e ∈ (promise c).args,
    e.1 ∈ requiredKeys c.kind → c.kind = .ExtensionDefinition ∨ e.2.nonZero = true ∨
      (e.1 = b!"content" ∧ ∃ os, c = .note (textOf e.2) os ∧ e.2 = .str (textOf e.2)) ∨
      (e.1 = b!"opinion" ∧ ∃ v os, c = .opinion v os ∧ e.2 = .enum v) := by
  cases c <;> simp only [promise, List.mem_cons, List.not_mem_nil, or_false, forall_eq_or_imp, forall_eq,
    Ctor.kind]
  all_goals try (intro e he; exact he.elim)
  all_goals simp only [Ctor.pre, ite_eq_right_iff, reduceCtorEq, imp_false, not_or] at h
  all_goals try refine ⟨?_, ?_⟩
  all_goals try refine ⟨?_, ?_⟩
  all_goals try refine ⟨?_, ?_⟩
  all_goals intro hk
  all_goals first
    | exact .inl rfl
    | (exfalso; revert hk; decide +kernel)
    | (right; left; simp [GV.nonZero, h]; done)
    | exact .inl trivial
    | exact .inr (.inl (gvStrs_nonZero (by tauto)))
    | exact .inr (.inl (ptr_nonZero (by tauto)))
    | exact .inr (.inl (map_nonZero (by tauto)))
    | exact .inr (.inl (int_nonZero (by tauto)))
    | (right; right; left; simp [textOf]; done)
    | (right; right; right; simp; done)

/-! ### Options -/

/-- The value of the property is one of which `P` holds, before the options and in every option for
the property; then it is afterwards. -/
theorem options_keep {P : GV → Prop} {p : Str} (hp : p ≠ b!"extensions") :
    ∀ (opts : List (Option Opt)) (o : Obj), AllLibrary opts →
    (∀ row v, some (Opt.field row v) ∈ opts → target o.sid (.field row v) = some p → P v) →
    (∃ v, prop o p = some v ∧ P v) → ∃ v, prop (applyOptions o opts).1 p = some v ∧ P v
  | [], _, _, _, h => h
  | none :: opts, o, hl, hopt, h =>
    options_keep hp opts o (fun opt ho => hl opt (.tail _ ho)) (fun row v ho => hopt row v (.tail _ ho)) h
  | some opt :: opts, o, hl, hopt, h => by
    obtain ⟨h1, h2, h3⟩ := c16_option_frame opt (hl opt (.head _)) o
    by_cases hok : (opt.apply o).2 = .ok ()
    · rw [applyOptions_cons_ok hok]
      obtain ⟨q, hq⟩ := Option.isSome_iff_exists.1 (h2.1 hok)
      obtain ⟨-, -, hs, -, ⟨w, hw, hw'⟩, hne⟩ := h3 q hq
      refine options_keep hp opts _ (fun opt ho => hl opt (.tail _ ho))
        (fun row v ho ht => hopt row v (.tail _ ho) (by rw [← hs]; exact ht)) ?_
      by_cases he : p = q
      · subst he
        cases opt with
        | user f => exact (hl (.user f) (by simp)).elim
        | field row v =>
          simp only [WantedValue] at hw'
          subst hw'
          exact ⟨w, hw, hopt row w (.head _) hq⟩
        | extension n v =>
          simp only [target] at hq
          split at hq
          · exact absurd (Option.some.inj hq).symm hp
          · simp at hq
      · rw [hne p he]
        exact h
    · rw [applyOptions_cons_fail hok, h1 hok]
      exact h

/-- The same when some option is for the property. -/
theorem options_give {P : GV → Prop} {p : Str} (hp : p ≠ b!"extensions") :
    ∀ (opts : List (Option Opt)) (o : Obj), AllLibrary opts → (applyOptions o opts).2 = .ok () →
    (∀ row v, some (Opt.field row v) ∈ opts → target o.sid (.field row v) = some p → P v) →
    (∃ opt, some opt ∈ opts ∧ target o.sid opt = some p) →
    ∃ v, prop (applyOptions o opts).1 p = some v ∧ P v
  | [], _, _, _, _, h => by simp at h
  | none :: opts, o, hl, hr, hopt, h =>
    options_give hp opts o (fun opt ho => hl opt (.tail _ ho)) hr
      (fun row v ho => hopt row v (.tail _ ho)) (by simpa using h)
  | some opt :: opts, o, hl, hr, hopt, h => by
    obtain ⟨h1, h2, h3⟩ := c16_option_frame opt (hl opt (.head _)) o
    by_cases hok : (opt.apply o).2 = .ok ()
    · rw [applyOptions_cons_ok hok] at hr ⊢
      obtain ⟨q, hq⟩ := Option.isSome_iff_exists.1 (h2.1 hok)
      obtain ⟨-, -, hs, -, ⟨w, hw, hw'⟩, hne⟩ := h3 q hq
      have hopt' : ∀ row v, some (Opt.field row v) ∈ opts →
          target (opt.apply o).1.sid (.field row v) = some p → P v :=
        fun row v ho ht => hopt row v (.tail _ ho) (by rw [← hs]; exact ht)
      by_cases he : p = q
      · subst he
        refine options_keep hp opts _ (fun opt ho => hl opt (.tail _ ho)) hopt' ?_
        cases opt with
        | user f => exact (hl (.user f) (by simp)).elim
        | field row v =>
          simp only [WantedValue] at hw'
          subst hw'
          exact ⟨w, hw, hopt row w (.head _) hq⟩
        | extension n v =>
          simp only [target] at hq
          split at hq
          · exact absurd (Option.some.inj hq).symm hp
          · simp at hq
      · refine options_give hp opts _ (fun opt ho => hl opt (.tail _ ho)) hr hopt' ?_
        obtain ⟨opt', ho, ht⟩ := h
        rcases List.mem_cons.1 ho with e | ho
        · obtain rfl := Option.some.inj e
          rw [ht] at hq
          exact absurd (Option.some.inj hq) he
        · exact ⟨opt', ho, by rw [hs]; exact ht⟩
    · rw [applyOptions_cons_fail hok] at hr
      exact absurd hr hok

/-! ## C38 -/

theorem mem_requiredKeys {s : SId} {r : FieldInfo} (hr : r ∈ objFields s) (ho : r.omitE = false)
    (hb : r.ty ≠ .bool) : r.key ∈ requiredKeys s := by
  refine List.mem_map.2 ⟨r, List.mem_filter.2 ⟨hr, ?_⟩, rfl⟩
  cases ht : r.ty <;> simp_all

theorem required_not_extensions (s : SId) : (b!"extensions") ∉ requiredKeys s := by
  have : ∀ s ∈ allSIds, (b!"extensions") ∉ requiredKeys s := by decide +kernel
  exact this s (mem_allSIds s)

theorem untouched_table {p : Str} (h : ∀ e ∈ optionProperties, p ∉ e.2) (hp : p ≠ b!"extensions")
    (s : SId) (opts : List (Option Opt)) : Untouched s opts p := by
  intro opt ho ht
  cases opt with
  | user f => simp [target] at ht
  | field row v =>
    simp only [target, optionProperty] at ht
    split at ht
    · simp at ht
    · next alts hl =>
      have := List.find?_some ht
      exact h _ (mem_of_amLookup _ _ _ hl) (by simpa using this)
  | extension n v =>
    simp only [target] at ht
    split at ht
    · exact hp (Option.some.inj ht).symm
    · simp at ht

theorem untouched_note (opts : List (Option Opt)) : Untouched .Note opts (b!"content") :=
  untouched_table (by decide +kernel) (by decide) _ _

theorem untouched_opinion (opts : List (Option Opt)) : Untouched .Opinion opts (b!"opinion") :=
  untouched_table (by decide +kernel) (by decide) _ _

theorem run_marshals (env : Env) (he : Sane env) (c : Ctor) (opts : List (Option Opt))
    (hl : AllLibrary opts) (o : Obj) (h : c.run env opts = .ret (some o) none) (ho : TypedObj o)
    (hb : NoneBlanked (promise c).kind opts) :
    (marshalObj F o).isSome = true ↔ Supplied opts c := by
  rw [promise_kind] at hb
  obtain ⟨hs, -, hp, hu⟩ := run_ok_prop hl h
  obtain ⟨hpre, o', ha, -, -⟩ := run_ok h
  by_cases hed : c.kind = .ExtensionDefinition
  · obtain ⟨ms, h1, -⟩ := c27_extensionDefinition_partial (F := F) o ho (hs.trans hed)
    rw [h1]
    cases c <;> simp [Ctor.kind] at hed <;> simp [Supplied]
  rw [c27_required_partial o ho (by rw [hs]; exact hed)]
  have hval : ∀ r ∈ objFields o.sid, prop o r.key = some (o.val r.name) := fun r hr => prop_field hr
  -- a required property that the object had before the options stays set
  have hkeep : ∀ r ∈ objFields o.sid, r.omitE = false → r.ty ≠ .bool → r.key ≠ b!"id" →
      (∃ v, prop (c.base env) r.key = some v ∧ ¬ Unset r.ty v) → ¬ Unset r.ty (o.val r.name) := by
    intro r hr hro hrb hid hbase
    have hmem := mem_requiredKeys hr hro hrb
    have hne : r.key ≠ b!"extensions" := fun e => required_not_extensions o.sid (e ▸ hmem)
    obtain ⟨v, hv, hv'⟩ := options_keep (P := fun v => ¬ Unset r.ty v) hne opts (c.base env) hl
      (fun row v hm ht => hb row v hm r (hs ▸ hr) hro (by rw [base_sid] at ht; exact ht)) hbase
    rw [← hp _ hid, hval r hr] at hv
    rw [Option.some.inj hv]
    exact hv'
  constructor
  · intro hall
    cases c with
    | identity n =>
      intro hun
      obtain ⟨r, hr, hk, ho', ht⟩ : ∃ r ∈ objFields .Identity, r.key = b!"identity_class" ∧
          r.omitE = false ∧ r.ty.isStr = true := by
        have : ((objFields .Identity).any fun r => r.key == b!"identity_class" && !r.omitE &&
          r.ty.isStr) = true := by decide +kernel
        simpa only [List.any_eq_true, Bool.and_eq_true, beq_iff_eq, Bool.not_eq_true', and_assoc] using this
      refine hall r (hs ▸ hr) ho' ?_
      have h1 := hu _ (by decide) hun
      rw [← hk, hval r (hs ▸ hr), hk,
        show prop ((Ctor.identity n).base env) (b!"identity_class") = some (.str []) from rfl] at h1
      rw [Option.some.inj h1]
      cases hty : r.ty <;> simp only [hty, Ty.isStr, Bool.false_eq_true] at ht
      rfl
    | note content os =>
      rintro rfl
      obtain ⟨r, hr, hk, ho', ht⟩ : ∃ r ∈ objFields .Note, r.key = b!"content" ∧
          r.omitE = false ∧ r.ty.isStr = true := by
        have : ((objFields .Note).any fun r => r.key == b!"content" && !r.omitE &&
          r.ty.isStr) = true := by decide +kernel
        simpa only [List.any_eq_true, Bool.and_eq_true, beq_iff_eq, Bool.not_eq_true', and_assoc] using this
      refine hall r (hs ▸ hr) ho' ?_
      have h1 := hu (b!"content") (by decide) (untouched_note opts)
      rw [← hk, hval r (hs ▸ hr), hk,
        show prop ((Ctor.note [] os).base env) (b!"content") = some (.str []) from rfl] at h1
      rw [Option.some.inj h1]
      cases hty : r.ty <;> simp only [hty, Ty.isStr, Bool.false_eq_true] at ht
      rfl
    | opinion v os =>
      rintro rfl
      obtain ⟨r, hr, hk, ho', ht⟩ : ∃ r ∈ objFields .Opinion, r.key = b!"opinion" ∧
          r.omitE = false ∧ (match r.ty with
            | .enum _ => true
            | _ => false) = true := by
        have : ((objFields .Opinion).any fun r => r.key == b!"opinion" && !r.omitE &&
          (match r.ty with
            | .enum _ => true
            | _ => false)) = true := by decide +kernel
        simpa only [List.any_eq_true, Bool.and_eq_true, beq_iff_eq, Bool.not_eq_true', and_assoc] using this
      refine hall r (hs ▸ hr) ho' ?_
      have h1 := hu (b!"opinion") (by decide) (untouched_opinion opts)
      rw [← hk, hval r (hs ▸ hr), hk,
        show prop ((Ctor.opinion 0 os).base env) (b!"opinion") = some (.enum 0) from rfl] at h1
      rw [Option.some.inj h1]
      cases hty : r.ty <;> simp only [hty, Bool.false_eq_true] at ht
      rfl
    | _ => trivial
  · intro hsup r hr hro
    by_cases hrb : r.ty = .bool
    · rw [hrb]; exact id
    by_cases hid : r.key = b!"id"
    · obtain ⟨id, h1, h2⟩ := run_ok_id he hl h
      have h3 := hval r hr
      rw [hid, prop_id, h1] at h3
      rw [← Option.some.inj h3]
      refine not_unset ?_ _
      obtain ⟨-, -, u, -, rfl⟩ := h2
      simp [GV.nonZero]
    have hmem := hs ▸ mem_requiredKeys hr hro hrb
    have hprops : r.key ∈ properties c.kind := List.mem_map.2 ⟨r, hs ▸ hr, rfl⟩
    rcases required_cover c r.key hmem with hk | hk | ⟨hk, hk'⟩ | hk
    · refine hkeep r hr hro hrb hid ?_
      simp only [List.mem_cons, List.not_mem_nil, or_false] at hk
      have hd := base_defaults env c
      simp only [defaults, List.forall_mem_cons] at hd
      rcases hk with hk | hk | hk | hk | hk
      · refine ⟨_, by rw [hk]; exact prop_base_type env c, not_unset ?_ _⟩
        have := (c08_library_types _ (typ_mem c)).1
        simpa [GV.nonZero] using this
      · exact absurd hk hid
      · exact ⟨_, by rw [hk]; exact hd.1 (hk ▸ hprops), not_unset rfl _⟩
      · exact ⟨_, by rw [hk]; exact hd.2.1 (hk ▸ hprops), not_unset rfl _⟩
      · exact ⟨_, by rw [hk]; exact hd.2.2.1 (hk ▸ hprops), not_unset rfl _⟩
    · obtain ⟨e, hem, hek⟩ := List.mem_map.1 hk
      refine hkeep r hr hro hrb hid ⟨e.2, by rw [← hek]; exact base_args env c e hem, ?_⟩
      refine not_unset ?_ _
      rcases pre_args hpre e hem (hek ▸ hmem) with g | g | ⟨-, os, g1, g2⟩ | ⟨-, v, os, g1, g2⟩
      · exact absurd g hed
      · exact g
      · rw [g1] at hsup
        rw [g2]
        simpa [GV.nonZero, Supplied, textOf] using hsup
      · rw [g1] at hsup
        rw [g2]
        simpa [GV.nonZero, Supplied] using hsup
    · cases c <;> simp only [Ctor.kind, reduceCtorEq] at hk
      have hex : ∃ opt, some opt ∈ opts ∧ target .Identity opt = some (b!"identity_class") := by
        simpa [Supplied, Untouched] using hsup
      obtain ⟨v, hv, hv'⟩ := options_give (P := fun v => ¬ Unset r.ty v) (p := r.key)
        (by rw [hk']; decide) opts _ hl (by rw [ha])
        (fun row v hm ht => hb row v hm r (hs ▸ hr) hro (by rw [base_sid] at ht; exact ht))
        (by rw [hk', base_sid]; exact hex)
      rw [← hp _ hid, hval r hr] at hv
      rw [Option.some.inj hv]
      exact hv'
    · exact absurd hk hed

/-- **C38.** An object that a constructor returns without error is marshalled exactly when what the
constructor leaves to the caller is supplied, given that no option blanks a required property.  (The
arguments and the parameters of the options are values of their Go types, and floats are numbers.)

Missing: in its own words the property promises it for every constructor; three do not keep it
without `Supplied`. -/
theorem c38_marshals_partial (env : Env) (he : Sane env) (c : Ctor) (opts : List (Option Opt))
    (hl : AllLibrary opts) (ha : ValArgs typed c) (hv : ValOpts typed opts)
    (hb : NoneBlanked (promise c).kind opts) (o : Obj) (h : c.run env opts = .ret (some o) none) :
    (marshalObj F o).isSome = true ↔ Supplied opts c :=
  run_marshals env he c opts hl o h (run_typed ha hl hv h) hb

/-! ### Witnesses -/

/-- **C38 is false** for three constructors: an identity without the option for its class, a note
without content, an opinion with the zero value are returned without error and cannot be
marshalled. -/
theorem c38_false : ∀ c ∈ [Ctor.identity (b!"x"), .note [] (some [b!"x"]), .opinion 0 (some [b!"x"])],
    ∃ o, c.run exEnv [] = .ret (some o) none ∧ marshalObj toy o = none := by
  simp only [List.forall_mem_cons]
  refine ⟨⟨_, rfl, ?_⟩, ⟨_, rfl, ?_⟩, ⟨_, rfl, ?_⟩, by simp⟩ <;> rw [← Option.isNone_iff_eq_none] <;>
    decide +kernel

/-- C38: a tool that meets the hypotheses. -/
example : (∃ o, (Ctor.tool (b!"nmap")).run exEnv [some (.field OptionVersion (.str (b!"7")))] =
      .ret (some o) none) ∧
    ValArgs typed (.tool (b!"nmap")) ∧ ValOpts typed [some (.field OptionVersion (.str (b!"7")))] ∧
    NoneBlanked .Tool [some (.field OptionVersion (.str (b!"7")))] ∧
    Supplied [some (.field OptionVersion (.str (b!"7")))] (.tool (b!"nmap")) := by
  refine ⟨⟨_, rfl⟩, ?_, ?_, ?_, trivial⟩
  · intro e he r hr hk
    simp only [promise, List.mem_cons, List.not_mem_nil, or_false] at he
    subst he
    have h : ∀ r ∈ objFields .Tool, r.key = b!"name" → r.ty.isStr = true := by decide +kernel
    exact val_text (h r hr hk) trivial
  · intro opt ho
    simp only [List.mem_cons, Option.some.injEq, List.not_mem_nil, or_false] at ho
    subst ho
    exact ⟨_, rfl, trivial⟩
  · intro row v hm r hr _ _
    simp only [List.mem_cons, Option.some.injEq, Opt.field.injEq, List.not_mem_nil, or_false] at hm
    obtain ⟨-, rfl⟩ := hm
    exact not_unset rfl _

/-- **C38 is false** for a location at a latitude that is no number. -/
theorem c38_false_nan : ∃ o, (Ctor.location [] [] 0x7ff8000000000001 0x7ff8000000000001).run exEnv [] =
    .ret (some o) none ∧ marshalObj toy o = none := by
  refine ⟨_, rfl, ?_⟩
  rw [← Option.isNone_iff_eq_none]
  decide +kernel

end Stix
