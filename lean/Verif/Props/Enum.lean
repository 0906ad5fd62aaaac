import Verif.Model.Enum
import Verif.Spec.Enum
import Verif.Spec.Text
import Mathlib.Data.List.Perm.Basic

/-!
# Enumeration properties: C19, C20, C21
-/

namespace Stix
open Spec

/-! ### Lemmas -/

theorem mem_allEnums (e : EnumId) : e ∈ allEnums := by cases e <;> decide

/-- The table is the vocabulary, plus the empty name for zero except for opinions. -/
theorem enumTable_eq (e : EnumId) : enumTable e =
    (if e = .OpinionValue then [] else [(0, [])]) ++ vocabulary e := by
  cases e <;> rfl

theorem vocabulary_facts : ∀ e ∈ allEnums,
    ((vocabulary e).map Prod.fst).Nodup ∧ ((vocabulary e).map Prod.snd).Nodup ∧
    ∀ p ∈ vocabulary e, p.1 ≠ 0 ∧ p.2 ≠ [] ∧ amLookup p.1 (enumTable e) = some p.2 ∧
      jsonQuote p.2 = p.2 ∧ sanitize p.2 = p.2 := by
  decide +kernel

theorem enumFind_of_nodup (visit : List (UInt8 × Str)) (hn : (visit.map Prod.snd).Nodup)
    (n : UInt8) (s : Str) (h : (n, s) ∈ visit) : enumFind visit s = n := by
  induction visit with
  | nil => simp at h
  | cons e rest ih =>
    obtain ⟨k, v⟩ := e
    simp only [List.map_cons, List.nodup_cons] at hn
    simp only [enumFind]
    rcases List.mem_cons.1 h with he | h
    · simp only [Prod.mk.injEq] at he
      simp [he.1, he.2]
    · split
      · rename_i hv; subst hv
        exact absurd (List.mem_map.2 ⟨_, h, rfl⟩) hn.1
      · exact ih hn.2 h

theorem enumFind_of_not_mem (visit : List (UInt8 × Str)) (s : Str)
    (h : ∀ n, (n, s) ∉ visit) : enumFind visit s = 0 := by
  induction visit with
  | nil => rfl
  | cons e rest ih =>
    obtain ⟨k, v⟩ := e
    simp only [enumFind]
    split
    · rename_i hv; subst hv; exact absurd (List.mem_cons_self) (h k)
    · exact ih (fun n hn => h n (List.mem_cons_of_mem _ hn))

theorem enumTable_names_nodup (e : EnumId) : ((enumTable e).map Prod.snd).Nodup := by
  have : ∀ e ∈ allEnums, ((enumTable e).map Prod.snd).Nodup := by decide +kernel
  exact this e (mem_allEnums e)

theorem enumFind_name {visit : List (UInt8 × Str)} {e : EnumId} (hv : visit.Perm (enumTable e))
    {n : UInt8} {s : Str} (h : (n, s) ∈ vocabulary e) : enumFind visit s = n := by
  refine enumFind_of_nodup visit ((hv.map Prod.snd).nodup_iff.2 (enumTable_names_nodup e)) n s ?_
  rw [hv.mem_iff, enumTable_eq]
  exact List.mem_append_right _ h

theorem enumFind_other {visit : List (UInt8 × Str)} {e : EnumId} (hv : visit.Perm (enumTable e))
    {s : Str} (h : ¬ IsName e s) : enumFind visit s = 0 := by
  by_cases hs : s = [] ∧ e ≠ .OpinionValue
  · obtain ⟨rfl, he⟩ := hs
    refine enumFind_of_nodup visit ((hv.map Prod.snd).nodup_iff.2 (enumTable_names_nodup e)) 0 [] ?_
    rw [hv.mem_iff, enumTable_eq, if_neg he]; simp
  · refine enumFind_of_not_mem visit s (fun n hn => ?_)
    rw [hv.mem_iff, enumTable_eq] at hn
    rcases List.mem_append.1 hn with h1 | h1
    · split at h1
      · simp at h1
      · rename_i he
        simp only [List.mem_singleton, Prod.mk.injEq] at h1
        exact hs ⟨h1.2, he⟩
    · exact h ⟨n, h1⟩

theorem goMiddle_str (raw dec : Str) : goMiddle (Json.raw (.str raw dec)) = .ok raw := by
  simp [goMiddle, Json.raw]

theorem goMiddle_ok (b : Str) (h : 2 ≤ b.length) : ∃ t, goMiddle b = .ok t := by
  unfold goMiddle; rw [if_neg (by omega)]; exact ⟨_, rfl⟩

/-- The text an enumeration looks up: the raw bytes between the quotes, or for extension types
the decoded text. -/
def enumText (e : EnumId) (raw dec : Str) : Str :=
  match enumMode e with
  | .viaString => dec
  | _ => raw

theorem enumUnmarshal_str {visit : List (UInt8 × Str)} {e : EnumId}
    (hv : visit.Perm (enumTable e)) (raw dec : Str) :
    enumUnmarshal visit e (.str raw dec) = .ok (enumFind visit (enumText e raw dec)) := by
  unfold enumUnmarshal enumText
  cases hm : enumMode e with
  | sliced => simp [goMiddle_str]
  | viaString => simp [jsonIntoString]
  | guarded =>
    dsimp only
    split
    · rename_i hl
      have : raw = [] := by
        simp [Json.raw] at hl
        exact List.eq_nil_of_length_eq_zero (by omega)
      subst this
      rw [enumFind_other hv]
      rintro ⟨n, hn⟩
      exact ((vocabulary_facts e (mem_allEnums e)).2.2 _ hn).2.1 rfl
    · simp [goMiddle_str]

/-! ### C19 -/

/-- **C19.** Every defined value of every enumeration is written as its STIX name and read
back as the same value, in whatever order the runtime visits the name table. -/
theorem c19_round_trip (e : EnumId) (visit : List (UInt8 × Str)) (hv : visit.Perm (enumTable e))
    (n : UInt8) (s : Str) (h : (n, s) ∈ vocabulary e) :
    enumMarshal e n = .str s s ∧ enumUnmarshal visit e (enumMarshal e n) = .ok n := by
  obtain ⟨_, _, h3, h4, h5⟩ := (vocabulary_facts e (mem_allEnums e)).2.2 _ h
  have hm : enumMarshal e n = .str s s := by
    simp only [enumMarshal, enumName, Json.ofStr, h3, Option.getD_some, h4, h5]
  refine ⟨hm, ?_⟩
  rw [hm, enumUnmarshal_str hv]
  have : enumText e s s = s := by unfold enumText; split <;> rfl
  rw [this, enumFind_name hv h]

/-- **C19.** Values without a name (the zero value, and values outside the constant block)
are written as the empty string and read back as zero. -/
theorem c19_undefined_value (e : EnumId) (visit : List (UInt8 × Str))
    (hv : visit.Perm (enumTable e)) (n : UInt8) (h : ∀ s, (n, s) ∉ vocabulary e) :
    enumMarshal e n = .str [] [] ∧ enumUnmarshal visit e (enumMarshal e n) = .ok 0 := by
  have hname : enumName e n = [] := by
    unfold enumName
    cases hl : amLookup n (enumTable e) with
    | none => rfl
    | some s =>
      have hmem : (n, s) ∈ enumTable e := by
        revert hl
        generalize enumTable e = l
        intro hl
        induction l with
        | nil => simp [amLookup] at hl
        | cons x l ih =>
          obtain ⟨a, y⟩ := x
          simp only [amLookup] at hl
          split at hl
          · rename_i ha; subst ha; simp only [Option.some.injEq] at hl; subst hl; simp
          · exact List.mem_cons_of_mem _ (ih hl)
      rw [enumTable_eq] at hmem
      rcases List.mem_append.1 hmem with h1 | h1
      · split at h1
        · simp at h1
        · simp only [List.mem_singleton, Prod.mk.injEq] at h1
          simp [h1.2]
      · exact absurd h1 (h s)
  have hm : enumMarshal e n = .str [] [] := by
    simp [enumMarshal, Json.ofStr, hname, jsonQuote, jsonQuoteAux, sanitize, sanitizeAux]
  refine ⟨hm, ?_⟩
  rw [hm, enumUnmarshal_str hv]
  have : enumText e [] [] = [] := by unfold enumText; split <;> rfl
  rw [this, enumFind_other hv]
  rintro ⟨k, hk⟩
  exact ((vocabulary_facts e (mem_allEnums e)).2.2 _ hk).2.1 rfl

/-- **C19.** Distinct defined values have distinct names. -/
theorem c19_names_distinct (e : EnumId) (n m : UInt8) (s : Str)
    (h1 : (n, s) ∈ vocabulary e) (h2 : (m, s) ∈ vocabulary e) : n = m := by
  rw [← enumFind_name (List.Perm.refl _) h1, ← enumFind_name (List.Perm.refl _) h2]

/-- **C19.** The defined values are exactly the non-zero declared constants. -/
theorem c19_constants (e : EnumId) (n : UInt8) :
    (n ∈ enumConsts e ∧ n ≠ 0) ↔ ∃ s, (n, s) ∈ vocabulary e := by
  have h1 : ∀ e ∈ allEnums, ∀ n ∈ enumConsts e, n ≠ 0 → n ∈ (vocabulary e).map Prod.fst := by
    decide +kernel
  have h2 : ∀ e ∈ allEnums, ∀ p ∈ vocabulary e, p.1 ∈ enumConsts e ∧ p.1 ≠ 0 := by
    decide +kernel
  constructor
  · rintro ⟨h, h0⟩
    obtain ⟨p, hp, rfl⟩ := List.mem_map.1 (h1 e (mem_allEnums e) n h h0)
    exact ⟨p.2, hp⟩
  · rintro ⟨s, hs⟩
    exact h2 e (mem_allEnums e) _ hs

/-- Non-vacuity for C19. -/
example : enumUnmarshal (enumTable .OpinionValue).reverse .OpinionValue
    (enumMarshal .OpinionValue 4) = .ok 4 :=
  (c19_round_trip .OpinionValue _ (List.reverse_perm _) 4 (b!"agree") (by decide)).2

/-! ### C20 -/

/-- A JSON string without escapes and non-ASCII bytes decodes to itself. -/
theorem reads_ascii {raw dec : Str} (h : Spec.Text.Reads raw dec) :
    (∀ c ∈ raw, c ≠ 92 ∧ c < 0x80) → dec = raw := by
  induction h with
  | nil => intro _; rfl
  | ascii _ _ _ _ _ ih => intro hp; rw [ih fun c hc => hp c (by simp [hc])]
  | @char c body s hc _ ih =>
    intro hp
    rw [ih fun c hc => hp c (by simp [hc])]
  | byte hc _ _ _ =>
    intro hp
    exact absurd (hp _ List.mem_cons_self).2 (UInt8.not_lt.2 hc)
  | short _ _ _ => intro hp; exact absurd rfl (hp 92 List.mem_cons_self).1
  | hex _ _ _ _ => intro hp; exact absurd rfl (hp 92 (by simp)).1
  | pair _ _ _ _ _ => intro hp; exact absurd rfl (hp 92 (by simp)).1
  | half _ _ _ _ _ _ => intro hp; exact absurd rfl (hp 92 (by simp)).1

/-- **C20.** A JSON string, spelled `raw`, whose text `dec` is not one of the enumeration's names
decodes to the zero value. -/
theorem c20_unknown_name (e : EnumId) (visit : List (UInt8 × Str))
    (hv : visit.Perm (enumTable e)) (raw dec : Str) (hp : Spec.Text.Reads raw dec)
    (h : ¬ IsName e dec) : enumUnmarshal visit e (.str raw dec) = .ok 0 := by
  rw [enumUnmarshal_str hv, enumFind_other hv]
  unfold enumText
  split
  · exact h
  · intro hr
    have hplain : ∀ e ∈ allEnums, ∀ p ∈ vocabulary e, ∀ c ∈ p.2, c ≠ 92 ∧ c < 0x80 := by
      decide +kernel
    obtain ⟨n, hn⟩ := hr
    exact h (by rw [reads_ascii hp (hplain e (mem_allEnums e) _ hn)]; exact ⟨n, hn⟩)

/-- **C20.** A name that is a name decodes to its own value, so together with
`c20_unknown_name` decoding of strings is completely determined. -/
theorem c20_known_name (e : EnumId) (visit : List (UInt8 × Str))
    (hv : visit.Perm (enumTable e)) (n : UInt8) (s : Str) (h : (n, s) ∈ vocabulary e) :
    enumUnmarshal visit e (.str s s) = .ok n := by
  rw [enumUnmarshal_str hv]
  have : enumText e s s = s := by unfold enumText; split <;> rfl
  rw [this, enumFind_name hv h]

/-- Non-vacuity for C20: upper case is not a name. -/
example : ¬ IsName .OpinionValue (b!"AGREE") ∧ Spec.Text.Reads (b!"AGREE") (b!"AGREE") ∧
    enumUnmarshal (enumTable .OpinionValue) .OpinionValue (.str (b!"AGREE") (b!"AGREE")) = .ok 0 := by
  have h : ¬ IsName .OpinionValue (b!"AGREE") := by
    rintro ⟨n, hn⟩
    have h2 : (b!"AGREE") ∉ (vocabulary .OpinionValue).map Prod.snd := by decide +kernel
    exact h2 (List.mem_map.2 ⟨_, hn, rfl⟩)
  have hr : Spec.Text.Reads (b!"AGREE") (b!"AGREE") := by
    repeat' first | exact .nil | refine .ascii (by decide) (by decide) (by decide) (by decide) ?_
  exact ⟨h, hr, c20_unknown_name _ _ (List.Perm.refl _) _ _ hr h⟩

/-! ### C21 -/

/-- **C21 is false of the code**: a one-digit number for an encryption algorithm panics, and
so does one for an opinion. -/
theorem c21_decode_panics :
    ¬ ∀ (e : EnumId) (j : Json), (enumUnmarshal (enumTable e) e j).NoPanic := by
  intro h
  have := h .EncryptionAlgorithm (.num (b!"1"))
  revert this
  decide +kernel

/-- **C21.** The same witness for opinions. -/
theorem c21_opinion_panics :
    enumUnmarshal (enumTable .OpinionValue) .OpinionValue (.num (b!"1")) = .panic := by
  decide +kernel

/-- **C21 (what holds).** Decoding a JSON value panics only for encryption algorithms and
opinions, and only when the value is a number written with a single character. -/
theorem c21_decode_panic_iff_partial (e : EnumId) (visit : List (UInt8 × Str)) (j : Json)
    (hj : j ≠ .num []) :
    enumUnmarshal visit e j = .panic ↔
      (e = .EncryptionAlgorithm ∨ e = .OpinionValue) ∧ ∃ d, j = .num [d] := by
  have hlen : j.raw.length < 2 ↔ ∃ d, j = .num [d] := by
    cases j with
    | null => simp [Json.raw]
    | bool b => cases b <;> simp [Json.raw]
    | num lit =>
      match lit, hj with
      | [], h => exact absurd rfl h
      | [d], _ => simp [Json.raw]
      | _ :: _ :: _, _ => simp [Json.raw]
    | str raw dec => simp [Json.raw]
    | arr l => simp [Json.raw]
    | obj m => simp [Json.raw]
  have hmode : (enumMode e = .sliced) ↔ (e = .EncryptionAlgorithm ∨ e = .OpinionValue) := by
    cases e <;> decide
  rw [← hlen, ← hmode]
  unfold enumUnmarshal
  cases enumMode e with
  | sliced =>
    simp only [true_and]
    constructor
    · intro h
      by_contra hl
      obtain ⟨t, ht⟩ := goMiddle_ok j.raw (by omega)
      simp [ht] at h
    · intro h; simp [goMiddle, h]
  | guarded =>
    simp only [reduceCtorEq, false_and, iff_false]
    split
    · simp
    · obtain ⟨t, ht⟩ := goMiddle_ok j.raw (by omega)
      simp [ht]
  | viaString =>
    simp only [reduceCtorEq, false_and, iff_false]
    cases j <;> simp [jsonIntoString]

/-- Non-vacuity for C21: numbers of several digits and all other values decode quietly. -/
example : enumUnmarshal (enumTable .OpinionValue) .OpinionValue (.num (b!"12")) = .ok 0 ∧
    enumUnmarshal (enumTable .SocketType) .SocketType (.num (b!"1")) = .ok 0 ∧
    enumUnmarshal (enumTable .ExtensionType) .ExtensionType (.num (b!"1")) = .err .other := by
  decide +kernel

end Stix
