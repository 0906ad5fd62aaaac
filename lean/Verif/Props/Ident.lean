import Verif.Lemmas.Uuid
import Verif.Gen.TypeConsts

/-!
# Identifier properties: C07, C08, C09
-/

namespace Stix
open Spec

/-- **C07.** `IsValidIdentifier` accepts exactly the strings that consist of a type
part, the first `--`, and a UUID in one of the four spellings. -/
theorem c07_valid_identifier (id : Str) :
    isValidIdentifier id = true ↔
      ∃ t u, TypePart t ∧ UUIDText u ∧ id = t ++ b!"--" ++ u := by
  unfold isValidIdentifier
  constructor
  · intro h
    split at h
    · rename_i t u heq
      obtain ⟨h1, h2, h3⟩ := (splitDD_two id t u).1 heq
      exact ⟨t, u, h2, (uuidParse_isSome u).1 h, h1⟩
    · simp at h
  · rintro ⟨t, u, h1, h2, h3⟩
    have := (splitDD_two id t u).2 ⟨h3, h1, uuidText_not_hasDD u h2⟩
    rw [this]; exact (uuidParse_isSome u).2 h2

/-- **C07 (consequence).** In a valid identifier the `--` is the only one: the type part
and the UUID part have none, and the cut is unique. -/
theorem c07_unique_parts (t t' u u' : Str) (h : TypePart t) (h' : TypePart t')
    (hu : UUIDText u) (hu' : UUIDText u') (e : t ++ b!"--" ++ u = t' ++ b!"--" ++ u') :
    t = t' ∧ u = u' ∧ ¬ HasDD t ∧ ¬ HasDD u := by
  have h1 := (splitDD_two _ t u).2 ⟨rfl, h, uuidText_not_hasDD u hu⟩
  have h2 := (splitDD_two _ t' u').2 ⟨rfl, h', uuidText_not_hasDD u' hu'⟩
  rw [e, h2] at h1
  simp only [List.cons.injEq, and_true] at h1
  exact ⟨h1.1.symm, h1.2.symm,
    fun hd => h (hd.trans (List.prefix_append t _).isInfix), uuidText_not_hasDD u hu⟩

/-- The canonical spelling used in the examples below. -/
def exUUID : Str := b!"e2e1a340-4415-4ba8-9671-f7343fbf0836"

theorem exUUID_canon : UUIDCanon exUUID :=
  ⟨b!"e2e1a340", b!"4415", b!"4ba8", b!"9671", b!"f7343fbf0836",
    ⟨rfl, by decide⟩, ⟨rfl, by decide⟩, ⟨rfl, by decide⟩, ⟨rfl, by decide⟩, ⟨rfl, by decide⟩, rfl⟩

theorem typePart_of_split (t : Str) (h : splitDD (t ++ b!"-") = [t ++ b!"-"]) : TypePart t := by
  intro hd
  rcases splitDD_first _ _ _ h with ⟨_, _, h3⟩ | ⟨b, _, _, h4⟩
  · exact h3 hd
  · exact splitDD_ne_nil _ h4

/-- Non-vacuity for C07: valid and invalid identifiers exist. -/
example : isValidIdentifier (b!"indicator--" ++ exUUID) = true ∧
    isValidIdentifier (b!"notvalid--foo") = false ∧
    isValidIdentifier (b!"notvalidfoo") = false ∧
    TypePart (b!"indicator") ∧ ¬ TypePart (b!"a--b") ∧ ¬ TypePart (b!"a-") :=
  ⟨by decide, by decide, by decide, typePart_of_split _ (by decide),
   fun h => h ⟨b!"a", b!"b-", rfl⟩, fun h => h ⟨b!"a", [], rfl⟩⟩

/-- `HasValidIdentifier` is the specification of "identifies an object of that type"
(used for C04). -/
theorem hasValidIdentifier_iff (id typ : Str) :
    hasValidIdentifier id typ = true ↔ Identifies typ id := by
  unfold hasValidIdentifier Identifies
  constructor
  · intro h
    split at h
    · rename_i t u heq
      obtain ⟨h1, h2, h3⟩ := (splitDD_two id t u).1 heq
      split at h
      · simp at h
      · rename_i ht
        simp only [ne_eq, Decidable.not_not] at ht
        subst ht
        split at h
        · simp at h
        · rename_i ht
          exact ⟨ht, h2, u, (uuidParse_isSome u).1 h, h1⟩
    · simp at h
  · rintro ⟨h0, h1, u, h2, h3⟩
    have := (splitDD_two id typ u).2 ⟨h3, h1, uuidText_not_hasDD u h2⟩
    rw [this]; simp [h0, (uuidParse_isSome u).2 h2]

/-- **C08.** For every sixteen random bytes, `NewIdentifier(t)` is valid, is `ForType(t)`,
and is accepted for an object of type `t`, provided `t` is a non-empty type part. -/
theorem c08_new_identifier (rnd : List UInt8) (t : Str) (hr : rnd.length = 16)
    (ht : t ≠ []) (hp : TypePart t) :
    isValidIdentifier (newIdentifier rnd t) = true ∧ forType (newIdentifier rnd t) t = true ∧
    hasValidIdentifier (newIdentifier rnd t) t = true ∧ Identifies t (newIdentifier rnd t) := by
  have hu : UUIDText (uuidString (uuidStamp 4 rnd)) :=
    Or.inl (uuidCanon_uuidString _ (by rw [uuidStamp_length, hr]))
  have hi : Identifies t (newIdentifier rnd t) := ⟨ht, hp, _, hu, rfl⟩
  refine ⟨(c07_valid_identifier _).2 ⟨t, _, hp, hu, rfl⟩, ?_, (hasValidIdentifier_iff _ _).2 hi, hi⟩
  unfold forType indexIsZero newIdentifier
  rw [List.isPrefixOf_iff_prefix]
  exact ⟨_, (List.append_assoc _ _ _).symm⟩

/-- **C08.** The same for deterministic observable identifiers, whatever the hash. -/
theorem c08_new_observable_identifier (sha1 : Str → List UInt8) (v t : Str)
    (hs : ∀ x, (sha1 x).length = 20) (ht : t ≠ []) (hp : TypePart t) :
    isValidIdentifier (newObservableIdentifier sha1 v t) = true ∧
    forType (newObservableIdentifier sha1 v t) t = true ∧
    Identifies t (newObservableIdentifier sha1 v t) := by
  have hu : UUIDText (uuidString (uuidSHA1 sha1 v)) :=
    Or.inl (uuidCanon_uuidString _ (by simp [uuidSHA1, uuidStamp_length, hs]))
  have hi : Identifies t (newObservableIdentifier sha1 v t) := ⟨ht, hp, _, hu, rfl⟩
  refine ⟨(c07_valid_identifier _).2 ⟨t, _, hp, hu, rfl⟩, ?_, hi⟩
  unfold forType indexIsZero newObservableIdentifier
  rw [List.isPrefixOf_iff_prefix]
  exact ⟨_, (List.append_assoc _ _ _).symm⟩

/-- **C08.** The condition on the type is necessary: for an empty type or one that is not
a type part, no object of that type with such an identifier is accepted. -/
theorem c08_condition_necessary (rnd : List UInt8) (t : Str)
    (h : t = [] ∨ ¬ TypePart t) : hasValidIdentifier (newIdentifier rnd t) t = false := by
  rw [← Bool.not_eq_true, hasValidIdentifier_iff]
  rintro ⟨h0, h1, _⟩
  exact h.elim h0 (fun h => h h1)

/-- **C08.** A type part is a string without `--` that does not end in `-`. -/
theorem c08_typePart_iff (t : Str) : TypePart t ↔ ¬ HasDD t ∧ t.getLast? ≠ some 45 := by
  unfold TypePart
  induction t with
  | nil => simp [HasDD]; exact not_hasDD_single _
  | cons c t ih =>
    cases t with
    | nil =>
      simp only [List.cons_append, List.nil_append, hasDD_cons_cons, List.getLast?_singleton,
        not_or, ne_eq, Option.some.injEq]
      constructor
      · rintro ⟨h, _⟩
        exact ⟨not_hasDD_single _, fun hc => h ⟨hc, rfl⟩⟩
      · rintro ⟨_, h⟩
        exact ⟨fun hc => h hc.1, not_hasDD_single _⟩
    | cons d t =>
      simp only [List.cons_append, hasDD_cons_cons, not_or, List.getLast?_cons_cons] at ih ⊢
      rw [ih, and_assoc]

/-- **C08.** Every declared STIX type qualifies. -/
theorem c08_library_types : ∀ t ∈ typeConsts, t ≠ [] ∧ TypePart t := by
  have h : ∀ t ∈ typeConsts, t ≠ [] ∧ splitDD (t ++ b!"-") = [t ++ b!"-"] := by decide +kernel
  exact fun t ht => ⟨(h t ht).1, typePart_of_split t (h t ht).2⟩

/-- Every type in `AllTypes` is a declared type constant, and only the bundle is left out. -/
theorem c08_allTypes : ∀ t, t ∈ typeConsts ↔ t ∈ allTypes ∨ t = TypeBundle := by
  have h1 : ∀ t ∈ typeConsts, t ∈ allTypes ∨ t = TypeBundle := by decide +kernel
  have h2 : ∀ t ∈ allTypes, t ∈ typeConsts := by decide +kernel
  exact fun t => ⟨h1 t, fun h => h.elim (h2 t) (fun h => by subst h; decide +kernel)⟩

/-- Non-vacuity for C08. -/
example : hasValidIdentifier (newIdentifier (List.replicate 16 7) TypeMalware) TypeMalware = true :=
  (c08_new_identifier _ _ rfl (c08_library_types _ (by decide +kernel)).1
    (c08_library_types _ (by decide +kernel)).2).2.2.1

/-- **C09 is false of the code**: `ForType` is a prefix test, so a malware-analysis
identifier counts as a malware identifier. -/
theorem c09_forType_not_exact :
    ¬ ∀ (id t u : Str), TypePart t → UUIDText u → id = t ++ b!"--" ++ u →
      ∀ t', TypePart t' → (forType id t' = true ↔ t' = t) := by
  intro h
  have := (h (TypeMalwareAnalysis ++ b!"--" ++ exUUID) TypeMalwareAnalysis exUUID
    (c08_library_types _ (by decide +kernel)).2 (Or.inl exUUID_canon) rfl TypeMalware
    (c08_library_types _ (by decide +kernel)).2).1 (by decide +kernel)
  revert this; decide

/-- **C09 (what holds).** For a valid identifier, `ForType(t)` is true exactly when `t`
is a prefix of the identifier's type part. -/
theorem c09_forType_prefix_partial (t u t' : Str) (ht' : TypePart t') :
    forType (t ++ b!"--" ++ u) t' = true ↔ t' <+: t := by
  unfold forType indexIsZero
  rw [List.isPrefixOf_iff_prefix, List.append_assoc]
  constructor
  · intro h
    by_cases hl : t'.length ≤ t.length
    · exact List.prefix_of_prefix_length_le h (List.prefix_append _ _) hl
    · exfalso
      obtain ⟨x, rfl⟩ := List.prefix_of_prefix_length_le (List.prefix_append t _) h (by omega)
      rw [List.prefix_append_right_inj] at h
      apply ht'
      match x, h, hl with
      | [], _, hl => simp at hl
      | [c], h, _ =>
        obtain ⟨r, hr⟩ := h
        simp only [List.cons_append, List.nil_append, List.cons.injEq] at hr
        exact ⟨t, [], by simp [hr.1]⟩
      | c :: d :: x, h, _ =>
        obtain ⟨r, hr⟩ := h
        simp only [List.cons_append, List.nil_append, List.cons.injEq] at hr
        exact ⟨t, x ++ b!"-", by simp [hr.1, hr.2.1]⟩
  · exact fun h => h.trans (List.prefix_append _ _)

/-- **C09 (what holds).** Among the declared STIX types the answer is exact except for one
pair: asking for malware about a malware-analysis identifier. -/
theorem c09_forType_library_partial (t u t' : Str) (ht : t ∈ typeConsts) (ht' : t' ∈ typeConsts) :
    forType (t ++ b!"--" ++ u) t' = true ↔
      t' = t ∨ (t' = TypeMalware ∧ t = TypeMalwareAnalysis) := by
  have h : ∀ t ∈ typeConsts, ∀ t' ∈ typeConsts,
      (t'.isPrefixOf t = true ↔ t' = t ∨ (t' = TypeMalware ∧ t = TypeMalwareAnalysis)) := by
    decide +kernel
  rw [c09_forType_prefix_partial t u t' (c08_library_types t' ht').2, ← h t ht t' ht',
    List.isPrefixOf_iff_prefix]

/-- **C09.** `ForTypes` is the disjunction of `ForType` over the list. -/
theorem c09_forTypes (id : Str) (ts : List Str) :
    forTypes id ts = true ↔ ∃ t ∈ ts, forType id t = true := by
  induction ts with
  | nil => simp [forTypes]
  | cons t ts ih =>
    unfold forTypes
    by_cases h : forType id t = true
    · simp [h]
    · simp [h, ih]

/-- **C09 (what holds).** For valid identifiers of declared types, `ForTypes` with a list of
declared types that does not mix malware in is exact membership. -/
theorem c09_forTypes_library_partial (t u : Str) (ts : List Str) (ht : t ∈ typeConsts)
    (hts : ∀ x ∈ ts, x ∈ typeConsts) (hm : t ≠ TypeMalwareAnalysis ∨ TypeMalware ∉ ts) :
    forTypes (t ++ b!"--" ++ u) ts = true ↔ t ∈ ts := by
  rw [c09_forTypes]
  constructor
  · rintro ⟨x, hx, hf⟩
    rcases (c09_forType_library_partial t u x ht (hts x hx)).1 hf with rfl | ⟨rfl, rfl⟩
    · exact hx
    · exact absurd hx (hm.resolve_left (fun h => h rfl))
  · exact fun h => ⟨t, h, (c09_forType_library_partial t u t ht ht).2 (Or.inl rfl)⟩

/-- Non-vacuity for the C09 theorems. -/
example : forTypes (TypeTool ++ b!"--" ++ exUUID) [TypeMalware, TypeTool] = true ∧
    forTypes (TypeTool ++ b!"--" ++ exUUID) [TypeMalware] = false ∧
    TypeTool ∈ typeConsts ∧ TypeMalware ∈ typeConsts := by decide +kernel

end Stix
