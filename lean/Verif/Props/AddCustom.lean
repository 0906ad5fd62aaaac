import Verif.Props.ParseMany

/-!
# Adding custom objects (C04)
-/

namespace Stix
open Spec StixObject

variable {U : Type} [UserType U]

namespace Spec

/-- The custom object has a value for the key, which is no string. -/
def NotText (m : List (Str × Dyn)) (key : Str) : Prop := ∃ v, amLookup key m = some v ∧ ∀ s, v ≠ .str s

/-- The text the custom object has for the key: empty if there is none. -/
def TextOf (m : List (Str × Dyn)) (key s : Str) : Prop :=
  amLookup key m = some (.str s) ∨ amLookup key m = none ∧ s = []

end Spec

theorem customText_ok {m : List (Str × Dyn)} {key s : Str} : customText (some m) key = .ok s ↔ TextOf m key s := by
  unfold customText TextOf
  simp only [Option.getD_some]
  split
  · rename_i h; simp [h, eq_comm]
  · rename_i h; simp [h, eq_comm]
  · rename_i h' h; simp only [h, Option.some.injEq, reduceCtorEq, false_and, or_false, false_iff]
    exact fun e => h' s e

theorem customText_panic {m : List (Str × Dyn)} {key : Str} :
    customText (some m) key = .panic ↔ NotText m key := by
  unfold customText NotText
  simp only [Option.getD_some]
  split
  · rename_i h; simp [h]
  · rename_i h; simp [h]
  · rename_i h' h; simp only [h, Option.some.injEq, exists_eq_left', true_iff]
    exact fun s e => h' s e

theorem splitDD_length_two (s : Str) : (splitDD s).length = 2 ↔
    ∃ a b, s = a ++ b!"--" ++ b ∧ ¬ HasDD (a ++ b!"-") ∧ ¬ HasDD b := by
  simp only [← splitDD_two, List.length_eq_two]

/-- **C04** (custom objects).  `Add` of a custom object crashes exactly if its id is not a string, or its
id has two parts and its type is not a string; otherwise it is accepted exactly if the id, as a string,
identifies an object of the type, as a string, and is otherwise refused. -/
theorem c04_custom (c : Coll (Any U)) (m : List (Str × Dyn)) :
    (addOne c (some (.custom (some m))) = .panic ↔ NotText m (b!"id") ∨
      ∃ a b, TextOf m (b!"id") (a ++ b!"--" ++ b) ∧ ¬ HasDD (a ++ b!"-") ∧ ¬ HasDD b ∧ NotText m (b!"type")) ∧
    ((∃ c', addOne c (some (.custom (some m))) = .ok c') ↔
      ∃ id t, TextOf m (b!"id") id ∧ TextOf m (b!"type") t ∧ Identifies t id) ∧
    ∀ c', addOne c (some (.custom (some m))) = .ok c' → c' = (c.add (.custom (some m))).1 := by
  have hp : (Any.custom (some m) : Any U).panics = true ↔ NotText m (b!"id") ∨
      ∃ a b, TextOf m (b!"id") (a ++ b!"--" ++ b) ∧ ¬ HasDD (a ++ b!"-") ∧ ¬ HasDD b ∧ NotText m (b!"type") := by
    unfold Any.panics
    cases h : customText (some m) (b!"id") with
    | panic => simp only [h, customText_panic.1 h, true_or]
    | err e => unfold customText at h; split at h <;> cases h
    | ok id =>
      have ht := customText_ok.1 h
      have hn : ¬ NotText m (b!"id") := by rw [← customText_panic, h]; simp
      simp only [h, decide_eq_true_eq, splitDD_length_two, customText_panic, hn, false_or]
      constructor
      · rintro ⟨⟨a, b, rfl, h1, h2⟩, h3⟩; exact ⟨a, b, ht, h1, h2, h3⟩
      · rintro ⟨a, b, h0, h1, h2, h3⟩
        rw [← customText_ok, h] at h0
        exact ⟨⟨a, b, by simpa using h0, h1, h2⟩, h3⟩
  have hok : (Any.custom (some m) : Any U).panics = false ∧ Acceptable (Any.custom (some m) : Any U) ↔
      ∃ id t, TextOf m (b!"id") id ∧ TextOf m (b!"type") t ∧ Identifies t id := by
    constructor
    · rintro ⟨h1, h2⟩
      unfold Acceptable at h2
      have h3 : ¬ (Any.custom (some m) : Any U).panics = true := by simp [h1]
      rw [hp, not_or] at h3
      cases hi : customText (some m) (b!"id") with
      | panic => exact absurd (customText_panic.1 hi) h3.1
      | err e => unfold customText at hi; split at hi <;> cases hi
      | ok id =>
        have e1 : getID (Any.custom (some m) : Any U) = id := by simp only [getID, hi]
        rw [e1] at h2
        obtain ⟨u, hu⟩ := splitDD_of_identifies h2
        obtain ⟨e2, g1, g2⟩ := (splitDD_two _ _ _).1 hu
        cases ht : customText (some m) (b!"type") with
        | panic => exact absurd ⟨_, _, customText_ok.1 (hi.trans (congrArg _ e2)), g1, g2, customText_panic.1 ht⟩ h3.2
        | err e => unfold customText at ht; split at ht <;> cases ht
        | ok t =>
          have e3 : getType (Any.custom (some m) : Any U) = t := by simp only [getType, ht]
          rw [e3] at h2
          exact ⟨id, t, customText_ok.1 hi, customText_ok.1 ht, h2⟩
    · rintro ⟨id, t, hi, ht, h⟩
      rw [← customText_ok] at hi ht
      constructor
      · unfold Any.panics
        simp [hi, ht]
      · unfold Acceptable
        simp only [getID, getType, hi, ht]
        exact h
  refine ⟨?_, ?_, ?_⟩
  · rw [← hp]
    rcases addOne_cases c (some (.custom (some m) : Any U)) with ⟨⟨x, e, h1⟩, h2⟩ | ⟨⟨x, e, h1, -⟩, y, h2⟩ | ⟨h1, h2⟩
    · cases e; simp [h1, h2]
    · cases e; simp [h1, h2]
    · simp [(h1 _ rfl).1, h2]
  · rw [← hok]
    rcases addOne_cases c (some (.custom (some m) : Any U)) with ⟨⟨x, e, h1⟩, h2⟩ | ⟨⟨x, e, h1, h3⟩, y, h2⟩ | ⟨h1, h2⟩
    · cases e; simp [h1, h2]
    · cases e; simp [h1, h2, h3]
    · simp [(h1 _ rfl).1, (h1 _ rfl).2, h2]
  · intro c' h
    simp only [addOne] at h
    split_ifs at h
    simpa using h.symm

/-- Non-vacuity: all three outcomes. -/
example : addOne (Coll.new false : Coll (Any Empty)) (some (.custom (some
      [(b!"id", .str (b!"a--b")), (b!"type", .bool true)]))) = .panic ∧
    (∃ e, addOne (Coll.new false : Coll (Any Empty)) (some (.custom (some
      [(b!"id", .str (b!"a")), (b!"type", .bool true)]))) = .err e) ∧
    ∃ c, addOne (Coll.new false : Coll (Any Empty)) (some (.custom (some
      [(b!"id", .str (exId (b!"x-thing"))), (b!"type", .str (b!"x-thing"))]))) = .ok c :=
  ⟨rfl, ⟨_, rfl⟩, (c04_custom _ _).2.1.2 ⟨_, _, .inl rfl, .inl rfl, (c04_accepts (Coll.new false) (⟨exId (b!"x-thing"), b!"x-thing", 0⟩ : ExObj)).1 (by decide +kernel)⟩⟩

end Stix
