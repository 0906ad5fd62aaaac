import Verif.Spec.CtorMarshal
import Verif.Lemmas.Literal
import Verif.Props.Ctor

/-!
# Constructors given values of the right types make values of the right types (lemmas)
-/

namespace Stix
open Spec


mutual
/-- The types are the same but for the names of strings, integers and maps. -/
def Ty.agree : Ty → Ty → Bool
  | .str _, .str _ => true
  | .bool, .bool => true
  | .int _, .int _ => true
  | .flt, .flt => true
  | .enum e, .enum f => e = f
  | .bin, .bin => true
  | .time, .time => true
  | .slice t, .slice u => t.agree u
  | .map _ _ t, .map _ _ u => t.agree u
  | .ptr t, .ptr u => t.agree u
  | .struct _ fs, .struct _ gs => fs.agree gs
  | .dyn, .dyn => true
  | .raw, .raw => true
  | _, _ => false

/-- The same for the fields. -/
def Fields.agree : Fields → Fields → Bool
  | .nil, .nil => true
  | .cons n _ _ t r, .cons m _ _ u s => n = m && t.agree u && r.agree s
  | _, _ => false
end

mutual
theorem agree_val {P : Leaves} : ∀ {t u : Ty} {v : GV}, t.agree u = true → Val P t v → Val P u v
  | .str _, u, v, h, hv => by cases u <;> simp only [Ty.agree, Bool.false_eq_true] at h; exact hv
  | .bool, u, v, h, hv => by cases u <;> simp only [Ty.agree, Bool.false_eq_true] at h; exact hv
  | .int _, u, v, h, hv => by cases u <;> simp only [Ty.agree, Bool.false_eq_true] at h; exact hv
  | .flt, u, v, h, hv => by cases u <;> simp only [Ty.agree, Bool.false_eq_true] at h; exact hv
  | .enum _, u, v, h, hv => by
    cases u <;> simp only [Ty.agree, Bool.false_eq_true] at h
    simp only [decide_eq_true_eq] at h; subst h; exact hv
  | .bin, u, v, h, hv => by cases u <;> simp only [Ty.agree, Bool.false_eq_true] at h; exact hv
  | .time, u, v, h, hv => by cases u <;> simp only [Ty.agree, Bool.false_eq_true] at h; exact hv
  | .dyn, u, v, h, hv => by cases u <;> simp only [Ty.agree, Bool.false_eq_true] at h; exact hv
  | .raw, u, v, h, hv => by cases u <;> simp only [Ty.agree, Bool.false_eq_true] at h; exact hv
  | .ext _, u, v, h, hv => by cases u <;> simp only [Ty.agree, Bool.false_eq_true] at h
  | .slice t, u, v, h, hv => by
    cases u <;> simp only [Ty.agree, Bool.false_eq_true] at h
    simp only [Val] at hv ⊢
    rcases hv with hv | ⟨l, rfl, hl⟩
    · exact .inl hv
    · exact .inr ⟨l, rfl, fun x hx => agree_val h (hl x hx)⟩
  | .map _ _ t, u, v, h, hv => by
    cases u <;> simp only [Ty.agree, Bool.false_eq_true] at h
    simp only [Val] at hv ⊢
    rcases hv with hv | ⟨l, rfl, hs, hl⟩
    · exact .inl hv
    · exact .inr ⟨l, rfl, hs, fun x hx => ⟨(hl x hx).1, agree_val h (hl x hx).2⟩⟩
  | .ptr t, u, v, h, hv => by
    cases u <;> simp only [Ty.agree, Bool.false_eq_true] at h
    simp only [Val] at hv ⊢
    rcases hv with hv | ⟨x, rfl, hx⟩
    · exact .inl hv
    · exact .inr ⟨x, rfl, agree_val h hx⟩
  | .struct _ fs, u, v, h, hv => by
    cases u <;> simp only [Ty.agree, Bool.false_eq_true] at h
    simp only [Val] at hv ⊢
    obtain ⟨f, rfl, hf⟩ := hv
    exact ⟨f, rfl, agree_fields h hf⟩

theorem agree_fields {P : Leaves} : ∀ {fs gs : Fields} {f : Str → GV}, fs.agree gs = true →
    ValFields P fs f → ValFields P gs f
  | .nil, gs, f, h, hv => by
    cases gs <;> simp only [Fields.agree, Bool.false_eq_true] at h; trivial
  | .cons n k o t r, gs, f, h, hv => by
    cases gs <;> simp only [Fields.agree, Bool.false_eq_true] at h
    simp only [Bool.and_eq_true, decide_eq_true_eq] at h
    obtain ⟨⟨rfl, h1⟩, h2⟩ := h
    simp only [ValFields] at hv ⊢
    exact ⟨agree_val h1 hv.1, agree_fields h2 hv.2⟩
end

/-- An option that is applied has a parameter of the type of the field. -/
def optAgree (row : OptRow) (s : SId) : Bool :=
  match findField row.field (objFields s) with
  | none => true
  | some f => f.ty.kind != row.kind || !row.ty.assignable f.ty || row.ty.agree f.ty

set_option maxRecDepth 8000 in
theorem optAgree_table : ∀ row ∈ optTable, ∀ s ∈ allSIds, optAgree row s = true := by
  decide +kernel


mutual
/-- Equality of types. -/
def Ty.eqb : Ty → Ty → Bool
  | .str n, .str m => n = m
  | .bool, .bool => true
  | .int n, .int m => n = m
  | .flt, .flt => true
  | .enum e, .enum f => e = f
  | .bin, .bin => true
  | .time, .time => true
  | .slice t, .slice u => t.eqb u
  | .map n k t, .map m l u => n = m && k = l && t.eqb u
  | .ptr t, .ptr u => t.eqb u
  | .struct n fs, .struct m gs => n = m && fs.eqb gs
  | .dyn, .dyn => true
  | .ext ks, .ext ls => ks.eqb ls
  | .raw, .raw => true
  | _, _ => false

/-- Equality of fields. -/
def Fields.eqb : Fields → Fields → Bool
  | .nil, .nil => true
  | .cons n k o t r, .cons m l p u s => n = m && k = l && o = p && t.eqb u && r.eqb s
  | _, _ => false

/-- Equality of the known extensions. -/
def Known.eqb : Known → Known → Bool
  | .nil, .nil => true
  | .cons n k t r, .cons m l u s => n = m && k = l && t.eqb u && r.eqb s
  | _, _ => false
end

mutual
theorem Ty.eqb_eq : ∀ {t u : Ty}, t.eqb u = true → t = u
  | .str _, u, h => by cases u <;> simp_all [Ty.eqb]
  | .bool, u, h => by cases u <;> simp_all [Ty.eqb]
  | .int _, u, h => by cases u <;> simp_all [Ty.eqb]
  | .flt, u, h => by cases u <;> simp_all [Ty.eqb]
  | .enum _, u, h => by cases u <;> simp_all [Ty.eqb]
  | .bin, u, h => by cases u <;> simp_all [Ty.eqb]
  | .time, u, h => by cases u <;> simp_all [Ty.eqb]
  | .slice t, u, h => by
    cases u <;> simp only [Ty.eqb, Bool.false_eq_true] at h
    rw [Ty.eqb_eq h]
  | .map _ _ t, u, h => by
    cases u <;> simp only [Ty.eqb, Bool.false_eq_true, Bool.and_eq_true, decide_eq_true_eq] at h
    obtain ⟨⟨rfl, rfl⟩, h⟩ := h
    rw [Ty.eqb_eq h]
  | .ptr t, u, h => by
    cases u <;> simp only [Ty.eqb, Bool.false_eq_true] at h
    rw [Ty.eqb_eq h]
  | .struct _ fs, u, h => by
    cases u <;> simp only [Ty.eqb, Bool.false_eq_true, Bool.and_eq_true, decide_eq_true_eq] at h
    obtain ⟨rfl, h⟩ := h
    rw [Fields.eqb_eq h]
  | .dyn, u, h => by cases u <;> simp_all [Ty.eqb]
  | .ext ks, u, h => by
    cases u <;> simp only [Ty.eqb, Bool.false_eq_true] at h
    rw [Known.eqb_eq h]
  | .raw, u, h => by cases u <;> simp_all [Ty.eqb]

theorem Fields.eqb_eq : ∀ {t u : Fields}, t.eqb u = true → t = u
  | .nil, u, h => by cases u <;> simp_all [Fields.eqb]
  | .cons n k o t r, u, h => by
    cases u <;> simp only [Fields.eqb, Bool.false_eq_true, Bool.and_eq_true, decide_eq_true_eq] at h
    obtain ⟨⟨⟨⟨rfl, rfl⟩, rfl⟩, h1⟩, h2⟩ := h
    rw [Ty.eqb_eq h1, Fields.eqb_eq h2]

theorem Known.eqb_eq : ∀ {t u : Known}, t.eqb u = true → t = u
  | .nil, u, h => by cases u <;> simp_all [Known.eqb]
  | .cons n k t r, u, h => by
    cases u <;> simp only [Known.eqb, Bool.false_eq_true, Bool.and_eq_true, decide_eq_true_eq] at h
    obtain ⟨⟨⟨rfl, rfl⟩, h1⟩, h2⟩ := h
    rw [Fields.eqb_eq h1, Known.eqb_eq h2]
end

/-- The extensions property has the one type of extensions. -/
theorem extTy {s : SId} {f : FieldInfo} (hf : f ∈ objFields s) (hk : f.key = b!"extensions") :
    f.ty = .ext knownExts := by
  have h : ∀ s ∈ allSIds, ∀ f ∈ objFields s, f.key = b!"extensions" →
    f.ty.eqb (.ext knownExts) = true := by decide +kernel
  exact Ty.eqb_eq (h s (mem_allSIds s) f hf hk)

theorem find?_name {l : List FieldInfo} (hk : (l.map (·.name)).Nodup) {f : FieldInfo} (hf : f ∈ l) :
    l.find? (fun g => g.name = f.name) = some f := by
  induction l with
  | nil => cases hf
  | cons g l ih =>
    simp only [List.map_cons, List.nodup_cons] at hk
    rcases List.mem_cons.1 hf with rfl | hf
    · simp
    · have : g.name ≠ f.name := fun e => hk.1 (e ▸ List.mem_map.2 ⟨f, hf, rfl⟩)
      rw [List.find?_cons, decide_eq_false this]
      exact ih hk.2 hf

theorem findField_mem {fs : List FieldInfo} (hn : (fs.map (·.name)).Nodup) {f : FieldInfo} (hf : f ∈ fs) :
    findField f.name fs = some f := by
  induction fs with
  | nil => cases hf
  | cons g fs ih =>
    simp only [List.map_cons, List.nodup_cons] at hn
    simp only [findField]
    rcases List.mem_cons.1 hf with rfl | hf
    · rw [if_pos rfl]
    · rw [if_neg, ih hn.2 hf]
      intro e; exact hn.1 (e ▸ List.mem_map.2 ⟨f, hf, rfl⟩)

/-- All fields have values of their types. -/
def ValObj (P : Leaves) (o : Obj) : Prop := ∀ r ∈ objFields o.sid, Val P r.ty (o.val r.name)

theorem valObj_set {P : Leaves} {o : Obj} (h : ValObj P o) {f : FieldInfo} (hf : f ∈ objFields o.sid)
    {v : GV} (hv : Val P f.ty v) : ValObj P (o.set f.name v) := by
  intro r hr
  by_cases e : r.name = f.name
  · obtain rfl := name_inj hr hf e
    rw [set_val]; exact hv
  · rw [set_val_ne o v e]; exact h r hr

theorem apply_val {P : Leaves} {o : Obj} (h : ValObj P o) (opt : Opt) (hl : Library opt)
    (hv : ValOpt P opt) : ValObj P (opt.apply o).1 := by
  cases opt with
  | user f => exact hl.elim
  | field row v =>
    rcases apply_field hl v o with ⟨-, h' | ⟨h', -⟩⟩ | ⟨f, hf, -, -, -, -, hk, ha, hn, h'⟩
    · rw [h']; exact h
    · rw [h']; exact h
    · rw [h']
      refine valObj_set h hf (agree_val ?_ hv)
      have := optAgree_table row hl o.sid (mem_allSIds _)
      rw [optAgree, ← hn, findField_mem (objFields_names_nodup _) hf] at this
      simpa [hk, ha] using this
  | extension n v =>
    rcases apply_extension n v o with ⟨-, h'⟩ | ⟨f, hf, hk, hn, -, h'⟩
    · rw [h']; exact h
    · rw [h']
      refine valObj_set h hf ?_
      have h0 := h f hf
      rw [extTy hf hk] at h0 ⊢
      have hp := prop_field hf
      rw [hk] at hp
      rw [hp]
      simp only [Val] at h0 ⊢
      rcases h0 with h0 | ⟨m, h0, hs, hm⟩
      · rw [h0]
        refine .inr ⟨_, rfl, sortedKeys_smInsert (by simp [SortedKeys, entries]), fun e he => ?_⟩
        rcases mem_smInsert he with rfl | he
        · exact hv
        · simp [entries] at he
      · rw [h0]
        refine .inr ⟨_, rfl, sortedKeys_smInsert hs, fun e he => ?_⟩
        rcases mem_smInsert he with rfl | he
        · exact hv
        · exact hm e he

theorem options_val {P : Leaves} : ∀ (opts : List (Option Opt)) {o : Obj}, ValObj P o →
    AllLibrary opts → ValOpts P opts → ValObj P (applyOptions o opts).1
  | [], _, h, _, _ => h
  | none :: opts, o, h, hl, hv =>
    options_val opts h (fun x hx => hl x (.tail _ hx)) fun x hx => hv x (.tail _ hx)
  | some opt :: opts, o, h, hl, hv => by
    have h1 := apply_val h opt (hl opt (.head _)) (hv opt (.head _))
    simp only [applyOptions]
    split
    · next o' heq =>
      rw [heq] at h1
      exact options_val opts h1 (fun x hx => hl x (.tail _ hx)) fun x hx => hv x (.tail _ hx)
    · exact h1

/-- The type of the property. -/
def keyTy (s : SId) (k : Str) : Option Ty := ((objFields s).find? fun r => r.key = k).map FieldInfo.ty

theorem valArgs_keyTy {P : Leaves} {c : Ctor} (h : ValArgs P c) :
    ∀ e ∈ (promise c).args, ∀ t, keyTy (promise c).kind e.1 = some t → Val P t e.2 := by
  intro e he t ht
  simp only [keyTy, Option.map_eq_some_iff] at ht
  obtain ⟨r, hr, rfl⟩ := ht
  exact h e he r (List.mem_of_find?_eq_some hr) (by simpa using List.find?_some hr)

set_option maxRecDepth 8000 in
theorem own_val {P : Leaves} {c : Ctor} (h : ValArgs P c) :
    ∀ e ∈ c.own, ∀ t, fieldTy c.kind e.1 = some t → Val P t e.2 := by
  have h' := valArgs_keyTy h
  clear h
  cases c <;> simp only [Ctor.own, promise, Ctor.kind, List.mem_cons, List.not_mem_nil, or_false,
    forall_eq_or_imp, forall_eq, IsEmpty.forall_iff, implies_true] at h' ⊢
  all_goals (try refine ⟨?_, ?_⟩)
  all_goals (try refine ⟨?_, ?_⟩)
  all_goals (try refine ⟨?_, ?_⟩)
  all_goals first
    | exact fun t ht => h' t ht
    | exact fun t ht => h'.1 t ht
    | exact fun t ht => h'.2 t ht
    | exact fun t ht => h'.2.1 t ht
    | exact fun t ht => h'.2.2 t ht
    | exact fun t ht => h'.2.2.1 t ht
    | exact fun t ht => h'.2.2.2 t ht

theorem textTy {s : SId} {n : Str} (hn : n ∈ [b!"Type", b!"ID", b!"SpecVersion"]) {t : Ty}
    (ht : fieldTy s n = some t) : t.isStr = true := by
  have h : ∀ s ∈ allSIds, ∀ n ∈ [b!"Type", b!"ID", b!"SpecVersion"],
      ((fieldTy s n).map Ty.isStr).getD true = true := by decide +kernel
  have := h s (mem_allSIds s) n hn
  rwa [ht] at this

theorem timeTy {s : SId} {n : Str} (hn : n ∈ [b!"Created", b!"Modified"]) {t : Ty}
    (ht : fieldTy s n = some t) : t = .ptr .time := by
  have h : ∀ s ∈ allSIds, ∀ n ∈ [b!"Created", b!"Modified"],
      ((fieldTy s n).map (Ty.eqb · (.ptr .time))).getD true = true := by decide +kernel
  have := h s (mem_allSIds s) n hn
  rw [ht] at this
  exact Ty.eqb_eq this

theorem val_text {P : Leaves} {t : Ty} (ht : t.isStr = true) {s : Str} (hs : P.str s) : Val P t (.str s) := by
  cases t <;> simp only [Ty.isStr, Bool.false_eq_true] at ht
  exact ⟨_, rfl, hs⟩

/-- What the common fields need. -/
structure CommonOk (P : Leaves) (env : Env) (c : Ctor) : Prop where
  typ : P.str c.typ
  version : P.str specVersion21
  ident : P.str (newIdentifier env.rnd c.typ)
  now : P.time env.now

theorem common_val {P : Leaves} {env : Env} {c : Ctor} (h : CommonOk P env c) :
    ∀ e ∈ c.common env, ∀ t, fieldTy c.kind e.1 = some t → Val P t e.2 := by
  have hstr : ∀ n ∈ [b!"Type", b!"ID", b!"SpecVersion"], ∀ s, P.str s → ∀ t,
      fieldTy c.kind n = some t → Val P t (.str s) := fun n hn s hs t ht => val_text (textTy hn ht) hs
  have htime : ∀ n ∈ [b!"Created", b!"Modified"], ∀ t, fieldTy c.kind n = some t →
      Val P t (gvTime env.now) := by
    intro n hn t ht
    rw [timeTy hn ht]
    exact .inr ⟨_, rfl, _, rfl, h.now⟩
  have hsub : ∀ e ∈ c.common env, e ∈ [(b!"Type", GV.str c.typ), (b!"ID", .str (newIdentifier env.rnd c.typ)),
   (b!"SpecVersion", .str specVersion21), (b!"Created", gvTime env.now), (b!"Modified", gvTime env.now)] := by
    intro e he
    have h0 : e ∈ scoLit c.typ ++ [(b!"ID", .str (newIdentifier env.rnd c.typ))] ∨ e ∈ baseLit env c.typ := by
      cases c
      case markingDefinition => 
        right
        simp only [Ctor.common, List.mem_cons, List.not_mem_nil, or_false] at he
        simp only [baseLit, List.mem_cons, List.not_mem_nil, or_false]
        rcases he with rfl | rfl | rfl | rfl <;> simp [Ctor.typ]
      case process => left; exact he
      all_goals
        simp only [Ctor.common] at he
        split at he
        · exact .inl (List.mem_append_left _ he)
        · exact .inr he
    rcases h0 with h0 | h0
    · simp only [scoLit, List.mem_append, List.mem_cons, List.not_mem_nil, or_false] at h0
      rcases h0 with (rfl | rfl) | rfl <;> simp
    · exact h0
  intro e he t ht
  have := hsub e he
  simp only [List.mem_cons, List.not_mem_nil, or_false] at this
  rcases this with rfl | rfl | rfl | rfl | rfl
  · exact hstr _ (by simp) _ h.typ t ht
  · exact hstr _ (by simp) _ h.ident t ht
  · exact hstr _ (by simp) _ h.version t ht
  · exact htime _ (by simp) t ht
  · exact htime _ (by simp) t ht

theorem base_val {P : Leaves} (hP : ZeroOk P) {env : Env} {c : Ctor} (h : CommonOk P env c)
    (ha : ValArgs P c) : ValObj P (c.base env) := by
  intro r hr
  rw [base_sid] at hr
  refine lit_fields hP c.kind _ ?_ r hr
  intro e he t ht
  rcases List.mem_append.1 he with he | he
  · exact common_val h e he t ht
  · exact own_val ha e he t ht

/-- A constructor given values of the right types makes an object with values of the right types. -/
theorem run_val {P : Leaves} (hP : ZeroOk P) {env : Env} {c : Ctor} (h : CommonOk P env c)
    (hid : ∀ t, P.str (newObservableIdentifier env.sha1 t c.typ))
    (ha : ValArgs P c) {opts : List (Option Opt)} (hl : AllLibrary opts) (ho : ValOpts P opts)
    {o : Obj} (hr : c.run env opts = .ret (some o) none) : ValObj P o := by
  obtain ⟨-, o', hap, -, hx⟩ := run_ok hr
  have hv := options_val opts (base_val hP h ha) hl ho
  rw [hap] at hv
  rcases hx with ⟨-, hx⟩ | ⟨t, -, hx⟩
  · cases hx; exact hv
  · cases hx
    obtain ⟨r, hrm, hre⟩ : ∃ r ∈ objFields o'.sid, r.name = b!"ID" := by
      have := (hasField_id_type o'.sid).1
      obtain ⟨f, hf, he⟩ := List.any_eq_true.1 this
      simp only [Bool.and_eq_true, beq_iff_eq] at he
      exact ⟨f, hf, he.1⟩
    have := valObj_set hv hrm (v := .str (newObservableIdentifier env.sha1 t c.typ))
      (val_text (textTy (s := o'.sid) (n := b!"ID") (by simp) ?_) (hid t))
    · rw [hre] at this; exact this
    · have hf := find?_name (objFields_names_nodup o'.sid) hrm
      rw [hre] at hf
      simp [fieldTy, hf]

theorem run_typed {env : Env} {c : Ctor} (ha : ValArgs typed c) {opts : List (Option Opt)}
    (hl : AllLibrary opts) (ho : ValOpts typed opts) {o : Obj}
    (hr : c.run env opts = .ret (some o) none) : TypedObj o := by
  refine ⟨run_val typed_zeroOk ⟨trivial, trivial, trivial, trivial⟩ (fun _ => trivial) ha hl ho hr, ?_, ?_⟩
  · rw [extras, (run_ok_prop hl hr).2.1]; exact sortedKeys_nil
  · rw [extras, (run_ok_prop hl hr).2.1]; intro e he; cases he
end Stix
