import Verif.Lemmas.ObjTrip
import Verif.Spec.Standard
import Verif.Props.Time

/-!
# Go types against the standard
-/

namespace Stix
open Stix.Spec

variable {F : Canon.FloatFmt}

/-- The keys. -/
def Known.keys : Known → List Str
  | .nil => []
  | .cons k _ _ rest => k :: rest.keys

mutual
/-- What is written for the Go type is what the standard says. -/
def fits : Ty → STy → Bool
  | .str _, s => match s with
    | .text | .any => true
    | _ => false
  | .bool, s => match s with
    | .boolean | .any => true
    | _ => false
  | .int _, s => match s with
    | .integer | .any => true
    | _ => false
  | .flt, s => match s with
    | .number | .any => true
    | _ => false
  | .enum _, s => match s with
    | .text | .any => true
    | _ => false
  | .bin, s => match s with
    | .binary | .any => true
    | _ => false
  | .time, s => match s with
    | .time | .any => true
    | _ => false
  | .slice t, s => match s with
    | .list u => fits t u
    | .any => true
    | _ => false
  | .map _ _ t, s => match s with
    | .dict u => fits t u
    | .any => true
    | _ => false
  | .ptr t, s => fits t s
  | .struct _ fs, s => match s with
    | .object ps => fitsFields fs ps &&
        ps.all fun p => !p.2.1 || fs.toList.any fun r => r.key == p.1 && !r.omitE
    | .any => true
    | _ => false
  | .dyn, s => match s with
    | .any => true
    | _ => false
  | .ext ks, s => match s with
    | .exts es => fitsKnown ks es && es.all fun e => ks.keys.contains e.1
    | .any => true
    | _ => false
  | .raw, s => match s with
    | .any => true
    | _ => false

/-- Every field of the struct. -/
def fitsFields : Fields → Props → Bool
  | .nil, _ => true
  | .cons _ k _ t rest, ps =>
    (match amLookup k ps with
    | some p => fits t p.2
    | none => false) && fitsFields rest ps

/-- Every extension. -/
def fitsKnown : Known → List (Str × Props) → Bool
  | .nil, _ => true
  | .cons k _ fs rest, es =>
    (match amLookup k es with
    | some ps => fitsFields fs ps &&
        ps.all fun p => !p.2.1 || fs.toList.any fun r => r.key == p.1 && !r.omitE
    | none => false) && fitsKnown rest es
end

theorem integerText_intLit (i : Int) : IntegerText (intLit i) := by
  obtain ⟨h1, h2, -⟩ := natLit_spec i.natAbs
  refine ⟨natLit i.natAbs, ?_, h1, h2⟩
  unfold intLit
  split
  · exact .inr rfl
  · exact .inl rfl

theorem encFields_required : ∀ {fs : Fields} {f : Str → GV} {js : List (Str × Json)},
    encFields F fs f = some js → ∀ r ∈ fs.toList, r.omitE = false → r.key ∈ amKeys js
  | .nil, _, _, _, r, hr, _ => by simp [Fields.toList] at hr
  | .cons n k o t rest, f, js, h, r, hr, ho => by
    simp only [Fields.toList, List.mem_cons] at hr
    rw [encFields] at h
    split at h
    · next hb =>
      rcases hr with rfl | hr
      · simp only at ho; simp [ho] at hb
      · exact encFields_required h r hr ho
    · split at h
      · next h1 h2 =>
        rw [Option.some.injEq] at h
        subst h
        simp only [amKeys, List.map_cons, List.mem_cons]
        rcases hr with rfl | hr
        · exact .inl rfl
        · exact .inr (encFields_required h2 r hr ho)
      · cases h

theorem object_conforms {fs : Fields} {f : Str → GV} {ps : Props} {js : List (Str × Json)}
    (h : encFields F fs f = some js)
    (hc : ∀ e ∈ js, ∃ p, amLookup e.1 ps = some p ∧ Conforms p.2 e.2)
    (hr : (ps.all fun p => !p.2.1 || fs.toList.any fun r => r.key == p.1 && !r.omitE) = true) :
    Conforms (.object ps) (.obj js) := by
  refine .object ps js (fun k => ((amLookup k ps).map (·.2)).getD .any) ?_ ?_ ?_
  · intro e he
    obtain ⟨p, hp, -⟩ := hc e he
    exact ⟨p.1, by rw [hp]; exact mem_of_amLookup _ _ _ hp⟩
  · intro e he
    obtain ⟨p, hp, h⟩ := hc e he
    simpa only [hp, Option.map_some, Option.getD_some] using h
  · intro p hp hreq
    have := List.all_eq_true.1 hr p hp
    simp only [hreq, Bool.not_true, Bool.false_or, List.any_eq_true, Bool.and_eq_true, beq_iff_eq,
      Bool.not_eq_true'] at this
    obtain ⟨r, hr, hk, ho⟩ := this
    rw [← hk]
    exact encFields_required h r hr ho

mutual
theorem fits_conforms : ∀ {t : Ty} {s : STy} {v : GV} {j : Json}, fits t s = true → Val placed t v →
    enc F t v = some j → Conforms s j
  | .str _, s, v, j, hf, hv, h => by
    obtain ⟨x, rfl, -⟩ := hv
    simp only [enc, Option.some.injEq] at h
    subst h
    unfold fits at hf
    split at hf
    · exact .text _ _
    · exact .any _
    · cases hf
  | .bool, s, v, j, hf, hv, h => by
    obtain ⟨x, rfl⟩ := hv
    simp only [enc, Option.some.injEq] at h
    subst h
    unfold fits at hf
    split at hf
    · exact .boolean _
    · exact .any _
    · cases hf
  | .int _, s, v, j, hf, hv, h => by
    obtain ⟨x, rfl, -⟩ := hv
    simp only [enc, Option.some.injEq] at h
    subst h
    unfold fits at hf
    split at hf
    · exact .integer _ (integerText_intLit x)
    · exact .any _
    · cases hf
  | .flt, s, v, j, hf, hv, h => by
    obtain ⟨x, rfl, -⟩ := hv
    simp only [enc] at h
    unfold fits at hf
    split at hf
    · split at h
      · rw [Option.some.injEq] at h
        subst h
        exact .number _
      · cases h
    · exact .any _
    · cases hf
  | .enum _, s, v, j, hf, hv, h => by
    obtain ⟨x, rfl, -⟩ := hv
    simp only [enc, Option.some.injEq] at h
    subst h
    unfold fits at hf
    split at hf
    · exact .text _ _
    · exact .any _
    · cases hf
  | .bin, s, v, j, hf, hv, h => by
    obtain ⟨x, rfl⟩ := hv
    simp only [enc, Option.some.injEq] at h
    subst h
    unfold fits at hf
    split at hf
    · cases x
      · exact .null _
      · rw [(c26_standard_base64 _).1]
        exact .binary _
    · exact .any _
    · cases hf
  | .time, s, v, j, hf, hv, h => by
    obtain ⟨x, rfl, h0, h1⟩ := hv
    simp only [enc, Option.some.injEq] at h
    subst h
    unfold fits at hf
    split at hf
    · obtain ⟨c, hc, e, -⟩ := c22_timestamp_text x h0 (endOfYears_eq ▸ h1)
      rw [e]
      exact .time c hc
    · exact .any _
    · cases hf
  | .slice t, s, v, j, hf, hv, h => by
    unfold fits at hf
    split at hf
    · rcases hv with rfl | ⟨l, rfl, hv⟩
      · simp only [enc, Option.some.injEq] at h
        subst h
        exact .null _
      · simp only [enc, Option.map_eq_some_iff] at h
        obtain ⟨js, h, rfl⟩ := h
        refine .list _ _ fun j hj => ?_
        obtain ⟨x, hx, e⟩ := forall₂_mem_right (allSome_some h) hj
        exact fits_conforms hf (hv x hx) e
    · exact .any _
    · cases hf
  | .map _ _ t, s, v, j, hf, hv, h => by
    unfold fits at hf
    split at hf
    · rcases hv with rfl | ⟨l, rfl, -, hv⟩
      · simp only [enc, Option.some.injEq] at h
        subst h
        exact .null _
      · simp only [enc, Option.map_eq_some_iff] at h
        obtain ⟨js, h, rfl⟩ := h
        refine .dict _ _ fun j hj => ?_
        obtain ⟨x, hx, -, e⟩ := forall₂_mem_right (encEntries_some h) hj
        exact fits_conforms hf (hv x hx).2 e
    · exact .any _
    · cases hf
  | .ptr t, s, v, j, hf, hv, h => by
    rw [fits] at hf
    rcases hv with rfl | ⟨x, rfl, hv⟩
    · simp only [enc, Option.some.injEq] at h
      subst h
      exact .null _
    · rw [enc] at h
      exact fits_conforms hf hv h
  | .struct _ fs, s, v, j, hf, hv, h => by
    unfold fits at hf
    split at hf
    · obtain ⟨f, rfl, hv⟩ := hv
      simp only [enc, Option.map_eq_some_iff] at h
      obtain ⟨js, h, rfl⟩ := h
      rw [Bool.and_eq_true] at hf
      exact object_conforms h (fitsFields_conforms hf.1 hv h) hf.2
    · exact .any _
    · cases hf
  | .dyn, s, v, j, hf, hv, h => by
    unfold fits at hf
    split at hf
    · exact .any _
    · cases hf
  | .ext ks, s, v, j, hf, hv, h => by
    unfold fits at hf
    split at hf
    · next es =>
      rw [Bool.and_eq_true] at hf
      rcases hv with rfl | ⟨l, rfl, -, hv⟩
      · simp only [enc, Option.some.injEq] at h
        subst h
        exact .null _
      · simp only [enc, Option.map_eq_some_iff] at h
        obtain ⟨js, h, rfl⟩ := h
        have hkey : ∀ e ∈ js, (e.1 ∈ amKeys es → ∃ ps, amLookup e.1 es = some ps ∧
            Conforms (.object ps) e.2) := by
          intro e he hk
          obtain ⟨x, hx, hk1, e2⟩ := forall₂_mem_right (encEntries_some h) he
          rw [sanitize_unicode (hv x hx).1] at hk1
          obtain ⟨⟨k', ps'⟩, hm, hk'⟩ := List.mem_map.1 hk
          have hin := List.all_eq_true.1 hf.2 _ hm
          simp only [List.contains_iff_mem] at hin
          simp only at hk'
          rw [hk1]
          exact fitsKnown_conforms hf.1 (hv x hx).2 e2 (by rw [← hk1, ← hk']; exact hin)
        refine .exts es js (fun k => match amLookup k es with
          | some ps => .object ps
          | none => .any) ?_ ?_
        · intro e he
          by_cases hk : e.1 ∈ amKeys es
          · obtain ⟨ps, h1, h2⟩ := hkey e he hk
            exact .inl ⟨ps, mem_of_amLookup _ _ _ h1, by rw [h1]⟩
          · refine .inr ⟨hk, ?_⟩
            rw [(amLookup_eq_none_iff _ _).2 hk]
        · intro e he
          by_cases hk : e.1 ∈ amKeys es
          · obtain ⟨ps, h1, h2⟩ := hkey e he hk
            simpa only [h1] using h2
          · rw [(amLookup_eq_none_iff _ _).2 hk]
            exact .any _
    · exact .any _
    · cases hf
  | .raw, s, v, j, hf, hv, h => by
    unfold fits at hf
    split at hf
    · exact .any _
    · cases hf

theorem fitsFields_conforms : ∀ {fs : Fields} {ps : Props} {f : Str → GV} {js : List (Str × Json)},
    fitsFields fs ps = true → ValFields placed fs f → encFields F fs f = some js →
      ∀ e ∈ js, ∃ p, amLookup e.1 ps = some p ∧ Conforms p.2 e.2
  | .nil, _, _, js, _, _, h => by
    rw [encFields, Option.some.injEq] at h
    subst h
    intro e he
    cases he
  | .cons n k o t rest, ps, f, js, hf, hv, h => by
    rw [fitsFields, Bool.and_eq_true] at hf
    rw [encFields] at h
    split at h
    · exact fitsFields_conforms hf.2 hv.2 h
    · split at h
      · next h1 h2 =>
        rw [Option.some.injEq] at h
        subst h
        intro e he
        rcases List.mem_cons.1 he with rfl | he
        · have hf1 := hf.1
          split at hf1
          · next p hp => exact ⟨p, hp, fits_conforms hf1 hv.1 h1⟩
          · cases hf1
        · exact fitsFields_conforms hf.2 hv.2 h2 e he
      · cases h

theorem fitsKnown_conforms : ∀ {ks : Known} {es : List (Str × Props)} {key : Str} {v : GV} {j : Json},
    fitsKnown ks es = true → ValExt placed ks key v → encExt F ks v = some j → key ∈ ks.keys →
      ∃ ps, amLookup key es = some ps ∧ Conforms (.object ps) j
  | .nil, _, _, _, _, _, _, _, hk => by cases hk
  | .cons k _ fs rest, es, key, v, j, hf, hv, h, hk => by
    rw [fitsKnown, Bool.and_eq_true] at hf
    rcases hv with ⟨h1, f, rfl, hv⟩ | ⟨h1, h2, hv⟩
    · have := h1 rfl
      subst this
      simp only [encExt, if_true, Option.map_eq_some_iff] at h
      obtain ⟨js, h, rfl⟩ := h
      have hf1 := hf.1
      split at hf1
      · next ps hp =>
        rw [Bool.and_eq_true] at hf1
        exact ⟨ps, hp, object_conforms h (fitsFields_conforms hf1.1 hv h) hf1.2⟩
      · cases hf1
    · have hne := h1 rfl
      have h' : encExt F rest v = some j := by
        unfold encExt at h
        split at h
        · next tag f =>
          rw [if_neg] at h
          · exact h
          · rintro rfl
            exact h2 _ rfl
        · exact h
      simp only [Known.keys, List.mem_cons, hne, false_or] at hk
      exact fitsKnown_conforms hf.2 hv h' hk
end

end Stix
