import Verif.Lemmas.TextPrint
import Verif.Lemmas.SortedMap
import Verif.Lemmas.Option
import Verif.Model.Process

/-!
# What the encoder writes is JSON
-/

namespace Stix.Text
open Stix Stix.Canon Stix.Spec.Canon Stix.Spec.Text

variable {F : FloatFmt}

theorem printable_ofStr (s : Str) : Printable (.ofStr s) := reads_jsonQuote s

theorem printableArr_iff {l : List Json} : PrintableArr l ↔ ∀ j ∈ l, Printable j := by
  induction l with
  | nil => simp [PrintableArr]
  | cons j l ih => simp [PrintableArr, ih]

theorem printableObj_iff {m : List (Str × Json)} :
    PrintableObj m ↔ ∀ e ∈ m, ValidUTF8 e.1 ∧ Printable e.2 := by
  induction m with
  | nil => simp [PrintableObj]
  | cons e m ih => simp [PrintableObj, ih, and_assoc]

mutual
theorem encDyn_printable (W : WritesNumbers F) : ∀ (d : Dyn) (j : Json), encDyn F d = some j →
    Printable j
  | .nil, j, h => by rw [encDyn, Option.some.injEq] at h; subst h; trivial
  | .bool b, j, h => by rw [encDyn, Option.some.injEq] at h; subst h; trivial
  | .num f, j, h => by
    rw [encDyn] at h
    split at h
    · next hf =>
      rw [Option.some.injEq] at h; subst h
      exact number_floatLit W hf
    · simp at h
  | .int i, j, h => by rw [encDyn, Option.some.injEq] at h; subst h; exact number_intLit i
  | .str s, j, h => by rw [encDyn, Option.some.injEq] at h; subst h; exact printable_ofStr s
  | .strs l, j, h => by
    rw [encDyn, Option.some.injEq] at h; subst h
    show PrintableArr _
    rw [printableArr_iff]
    intro j hj
    obtain ⟨s, -, rfl⟩ := List.mem_map.1 hj
    exact printable_ofStr s
  | .arr l, j, h => by
    rw [encDyn, Option.map_eq_some_iff] at h
    obtain ⟨js, h1, rfl⟩ := h
    exact encDynArr_printable W l js h1
  | .obj m, j, h => by
    rw [encDyn, Option.map_eq_some_iff] at h
    obtain ⟨js, h1, rfl⟩ := h
    exact encDynObj_printable W m js h1

theorem encDynArr_printable (W : WritesNumbers F) : ∀ (l : List Dyn) (js : List Json),
    encDynArr F l = some js → PrintableArr js
  | [], js, h => by rw [encDynArr, Option.some.injEq] at h; subst h; trivial
  | d :: l, js, h => by
    rw [encDynArr] at h
    split at h
    · next h1 h2 =>
      rw [Option.some.injEq] at h; subst h
      exact ⟨encDyn_printable W d _ h1, encDynArr_printable W l _ h2⟩
    · simp at h

theorem encDynObj_printable (W : WritesNumbers F) : ∀ (m : List (Str × Dyn)) (js : List (Str × Json)),
    encDynObj F m = some js → PrintableObj js
  | [], js, h => by rw [encDynObj, Option.some.injEq] at h; subst h; trivial
  | (k, d) :: l, js, h => by
    rw [encDynObj] at h
    split at h
    · next h1 h2 =>
      rw [Option.some.injEq] at h; subst h
      exact ⟨sanitize_valid k, encDyn_printable W d _ h1, encDynObj_printable W l _ h2⟩
    · simp at h
end

theorem allSome_printable {α} {f : α → Option Json} : ∀ (l : List α) (js : List Json),
    (∀ a ∈ l, ∀ j, f a = some j → Printable j) → allSome f l = some js → PrintableArr js
  | [], js, _, h => by rw [allSome, Option.some.injEq] at h; subst h; trivial
  | a :: l, js, hf, h => by
    rw [allSome] at h
    split at h
    · next h1 h2 =>
      rw [Option.some.injEq] at h; subst h
      exact ⟨hf a (by simp) _ h1, allSome_printable l _ (fun a ha => hf a (by simp [ha])) h2⟩
    · simp at h

theorem encEntries_printable {α} {f : α → Option Json} : ∀ (l : List (Str × α)) (js : List (Str × Json)),
    (∀ e ∈ l, ∀ j, f e.2 = some j → Printable j) → encEntries f l = some js → PrintableObj js
  | [], js, _, h => by rw [encEntries, Option.some.injEq] at h; subst h; trivial
  | (k, a) :: l, js, hf, h => by
    rw [encEntries] at h
    split at h
    · next h1 h2 =>
      rw [Option.some.injEq] at h; subst h
      exact ⟨sanitize_valid k, hf (k, a) (by simp) _ h1,
        encEntries_printable l _ (fun a ha => hf a (by simp [ha])) h2⟩
    · simp at h

mutual
/-- JSON names in UTF-8, and nothing that is written as it was given. -/
def Ty.clean : Ty → Bool
  | .slice t => Ty.clean t
  | .map _ _ t => Ty.clean t
  | .ptr t => Ty.clean t
  | .struct _ fs => Fields.clean fs
  | .ext ks => Known.clean ks
  | .raw => false
  | _ => true

/-- Of every field. -/
def Fields.clean : Fields → Bool
  | .nil => true
  | .cons _ k _ t rest => decide (ValidUTF8 k) && Ty.clean t && Fields.clean rest

/-- Of every extension struct. -/
def Known.clean : Known → Bool
  | .nil => true
  | .cons _ _ fs rest => Fields.clean fs && Known.clean rest
end

mutual
theorem enc_printable (W : WritesNumbers F) : ∀ (t : Ty) (v : GV) (j : Json), Ty.clean t = true →
    enc F t v = some j → Printable j
  | .str _, v, j, _, h => by
    cases v <;> simp only [enc, Option.some.injEq, reduceCtorEq] at h
    subst h; exact printable_ofStr _
  | .bool, v, j, _, h => by
    cases v <;> simp only [enc, Option.some.injEq, reduceCtorEq] at h
    subst h; trivial
  | .int _, v, j, _, h => by
    cases v <;> simp only [enc, Option.some.injEq, reduceCtorEq] at h
    subst h; exact number_intLit _
  | .flt, v, j, _, h => by
    cases v <;> try simp only [enc, reduceCtorEq] at h
    split at h
    · next hf =>
      rw [Option.some.injEq] at h; subst h
      exact number_floatLit W hf
    · simp at h
  | .enum e, v, j, _, h => by
    cases v <;> simp only [enc, Option.some.injEq, reduceCtorEq] at h
    subst h; exact printable_ofStr _
  | .bin, v, j, _, h => by
    cases v <;> simp only [enc, Option.some.injEq, reduceCtorEq] at h
    next b =>
    subst h
    cases b with
    | none => trivial
    | some b => exact reads_plain (b64_plain b)
  | .time, v, j, _, h => by
    cases v <;> simp only [enc, Option.some.injEq, reduceCtorEq] at h
    subst h; exact reads_plain (timestamp_plain _)
  | .slice t, v, j, hc, h => by
    cases v <;> try simp only [enc, reduceCtorEq] at h
    next l =>
    cases l with
    | none => simp only [enc, Option.some.injEq] at h; subst h; trivial
    | some l =>
      simp only [enc, Option.map_eq_some_iff] at h
      obtain ⟨js, h1, rfl⟩ := h
      exact allSome_printable l js (fun a _ j hj => enc_printable W t a j hc hj) h1
  | .map _ _ t, v, j, hc, h => by
    cases v <;> try simp only [enc, reduceCtorEq] at h
    next l =>
    cases l with
    | none => simp only [enc, Option.some.injEq] at h; subst h; trivial
    | some l =>
      simp only [enc, Option.map_eq_some_iff] at h
      obtain ⟨js, h1, rfl⟩ := h
      exact encEntries_printable l js (fun a _ j hj => enc_printable W t a.2 j hc hj) h1
  | .ptr t, v, j, hc, h => by
    cases v <;> try simp only [enc, reduceCtorEq] at h
    next p =>
    cases p with
    | none => simp only [enc, Option.some.injEq] at h; subst h; trivial
    | some p =>
      simp only [enc] at h
      exact enc_printable W t p j hc h
  | .struct _ fs, v, j, hc, h => by
    cases v <;> simp only [enc, reduceCtorEq, Option.map_eq_some_iff] at h
    obtain ⟨js, h1, rfl⟩ := h
    exact encFields_printable W fs _ js hc h1
  | .dyn, v, j, _, h => by
    cases v <;> try simp only [enc, reduceCtorEq] at h
    exact encDyn_printable W _ j h
  | .ext ks, v, j, hc, h => by
    cases v <;> try simp only [enc, reduceCtorEq] at h
    next l =>
    cases l with
    | none => simp only [enc, Option.some.injEq] at h; subst h; trivial
    | some l =>
      simp only [enc, Option.map_eq_some_iff] at h
      obtain ⟨js, h1, rfl⟩ := h
      exact encEntries_printable l js (fun a _ j hj => encExt_printable W ks a.2 j hc hj) h1
  | .raw, _, _, hc, _ => by simp [Ty.clean] at hc

theorem encFields_printable (W : WritesNumbers F) : ∀ (fs : Fields) (f : Str → GV)
    (js : List (Str × Json)), Fields.clean fs = true → encFields F fs f = some js → PrintableObj js
  | .nil, _, js, _, h => by rw [encFields, Option.some.injEq] at h; subst h; trivial
  | .cons n k o t rest, f, js, hc, h => by
    simp only [Fields.clean, Bool.and_eq_true, decide_eq_true_eq] at hc
    rw [encFields] at h
    split at h
    · exact encFields_printable W rest f js hc.2 h
    · split at h
      · next h1 h2 =>
        rw [Option.some.injEq] at h; subst h
        exact ⟨hc.1.1, enc_printable W t _ _ hc.1.2 h1, encFields_printable W rest f _ hc.2 h2⟩
      · simp at h

theorem encExt_printable (W : WritesNumbers F) : ∀ (ks : Known) (v : GV) (j : Json),
    Known.clean ks = true → encExt F ks v = some j → Printable j
  | .nil, v, j, _, h => by
    unfold encExt at h
    split at h
    · exact encDyn_printable W _ j h
    · exact encDyn_printable W _ j h
    · simp at h
    · simp_all
  | .cons k n fs rest, v, j, hc, h => by
    simp only [Known.clean, Bool.and_eq_true] at hc
    unfold encExt at h
    split at h
    · split at h
      · rw [Option.map_eq_some_iff] at h
        obtain ⟨js, h1, rfl⟩ := h
        exact encFields_printable W fs _ js hc.1 h1
      · exact encExt_printable W rest _ j hc.2 h
    · exact encExt_printable W rest v j hc.2 h
end

/-! ### Objects and bundles -/

theorem objFields_clean (s : SId) : ∀ r ∈ objFields s, ValidUTF8 r.key ∧ Ty.clean r.ty = true := by
  have : ∀ s ∈ allSIds, ∀ r ∈ objFields s, ValidUTF8 r.key ∧ Ty.clean r.ty = true := by decide +kernel
  exact this s (mem_allSIds s)

theorem ownFields_clean (s : SId) : Fields.clean (ownFields s) = true := by
  have : ∀ s ∈ allSIds, Fields.clean (ownFields s) = true := by decide +kernel
  exact this s (mem_allSIds s)

/-- Only fields of clean types. -/
def Typed (m : List (Str × MV)) : Prop := ∀ e ∈ m, ∀ t v, e.2 = .typed t v → Ty.clean t = true

theorem fieldsToMap_typed {val : Str → GV} : ∀ (fs : List FieldInfo) (m m' : List (Str × MV)),
    (∀ r ∈ fs, Ty.clean r.ty = true) → Typed m → fieldsToMap val fs m = some m' → Typed m'
  | [], m, m', _, hm, h => by rw [fieldsToMap, Option.some.injEq] at h; subst h; exact hm
  | f :: fs, m, m', hf, hm, h => by
    have hr : ∀ r ∈ fs, Ty.clean r.ty = true := fun r hr => hf r (by simp [hr])
    rw [fieldsToMap] at h
    split at h
    · split at h
      · exact fieldsToMap_typed fs m m' hr hm h
      · simp at h
    · refine fieldsToMap_typed fs _ m' hr ?_ h
      intro e he t v ht
      rcases mem_smInsert he with rfl | he
      · simp only [MV.typed.injEq] at ht
        rw [← ht.1]
        exact hf f (by simp)
      · exact hm e he t v ht

theorem addExtra_typed {m : List (Str × MV)} (extra : Option (List (Str × Dyn))) (hm : Typed m) :
    Typed (addExtra extra m) := by
  unfold addExtra
  generalize extra.getD [] = l
  induction l generalizing m with
  | nil => exact hm
  | cons x l ih =>
    refine ih ?_
    intro e he t v ht
    rcases mem_smInsert he with rfl | he
    · simp at ht
    · exact hm e he t v ht

theorem objectToMap_typed {o : Obj} {m : List (Str × MV)} (h : objectToMap o = some m) : Typed m := by
  have hb : ∀ r ∈ (baseFields (baseOf o.sid)).toList, Ty.clean r.ty = true := fun r hr =>
    (objFields_clean o.sid r (List.mem_append_left _ hr)).2
  have ho : ∀ r ∈ (ownFields o.sid).toList, Ty.clean r.ty = true := fun r hr =>
    (objFields_clean o.sid r (List.mem_append_right _ hr)).2
  have h0 : Typed [] := by intro e he; simp at he
  unfold objectToMap at h
  split at h
  · rw [Option.map_eq_some_iff] at h
    obtain ⟨m', h1, rfl⟩ := h
    have := fieldsToMap_typed _ _ _ ho h0 h1
    split
    · exact addExtra_typed _ this
    · exact this
  · rw [Option.bind_eq_some_iff] at h
    obtain ⟨m', h1, h2⟩ := h
    exact fieldsToMap_typed _ _ _ ho (addExtra_typed _ (fieldsToMap_typed _ _ _ hb h0 h1)) h2

/-- An object is written as JSON. -/
theorem marshalObj_printable (W : WritesNumbers F) {o : Obj} {j : Json}
    (h : marshalObj F o = some j) : Printable j := by
  unfold marshalObj at h
  split at h
  · rw [Option.bind_eq_some_iff] at h
    obtain ⟨m, h1, h2⟩ := h
    rw [Option.map_eq_some_iff] at h2
    obtain ⟨js, h3, rfl⟩ := h2
    refine encEntries_printable m js (fun e he j hj => ?_) h3
    have ht := objectToMap_typed h1 e he
    cases hm : e.2 with
    | typed t v =>
      rw [hm] at hj
      exact enc_printable W t v j (ht t v hm) hj
    | extra d =>
      rw [hm] at hj
      exact encDyn_printable W d j hj
  · rw [Option.map_eq_some_iff] at h
    obtain ⟨js, h3, rfl⟩ := h
    exact encFields_printable W _ _ js (ownFields_clean o.sid) h3

end Stix.Text
