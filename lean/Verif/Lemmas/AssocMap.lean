import Verif.Model.Basic
import Mathlib.Data.List.Perm.Basic
import Mathlib.Data.List.Nodup

/-! # Association-list lemmas -/

namespace Stix
variable {κ α : Type _} [DecidableEq κ]

theorem amLookup_insert (k k' : κ) (v : α) (m : List (κ × α)) :
    amLookup k' (amInsert k v m) = if k = k' then some v else amLookup k' m := by
  induction m with
  | nil => simp [amInsert, amLookup]
  | cons e m ih =>
    obtain ⟨a, x⟩ := e
    simp only [amInsert]
    by_cases h : a = k
    · subst h; by_cases h' : a = k' <;> simp [amLookup, h']
    · by_cases h' : a = k'
      · subst h'; simp [amLookup, h, Ne.symm h]
      · simp [amLookup, h, h', ih]

theorem amKeys_insert_mem (k : κ) (v : α) (m : List (κ × α)) (x : κ) :
    x ∈ amKeys (amInsert k v m) ↔ x = k ∨ x ∈ amKeys m := by
  induction m with
  | nil => simp [amInsert, amKeys]
  | cons e m ih =>
    obtain ⟨a, y⟩ := e
    simp only [amInsert]
    by_cases h : a = k
    · subst h; simp [amKeys]
    · simp only [h, if_false]
      simp only [amKeys, List.map_cons, List.mem_cons] at ih ⊢
      rw [ih]; tauto

theorem amKeys_insert_nodup (k : κ) (v : α) (m : List (κ × α)) (h : (amKeys m).Nodup) :
    (amKeys (amInsert k v m)).Nodup := by
  induction m with
  | nil => simp [amInsert, amKeys]
  | cons e m ih =>
    obtain ⟨a, y⟩ := e
    simp only [amInsert]
    have h1 : a ∉ amKeys m ∧ (amKeys m).Nodup := by simpa [amKeys] using h
    by_cases hk : a = k
    · subst hk; simpa [amKeys] using h
    · simp only [hk, if_false]
      have : a ∉ amKeys (amInsert k v m) := by
        rw [amKeys_insert_mem]; tauto
      simpa [amKeys] using And.intro this (ih h1.2)

theorem amLookup_eq_some_of_mem (k : κ) (v : α) (m : List (κ × α)) (h : (amKeys m).Nodup)
    (hm : (k, v) ∈ m) : amLookup k m = some v := by
  induction m with
  | nil => simp at hm
  | cons e m ih =>
    obtain ⟨a, y⟩ := e
    have h1 : a ∉ amKeys m ∧ (amKeys m).Nodup := by simpa [amKeys] using h
    rcases List.mem_cons.1 hm with he | hm
    · simp only [Prod.mk.injEq] at he
      simp [amLookup, he.1, he.2]
    · have : a ≠ k := by
        rintro rfl
        exact h1.1 (List.mem_map.2 ⟨_, hm, rfl⟩)
      simp [amLookup, this, ih h1.2 hm]

theorem mem_of_amLookup (k : κ) (v : α) (m : List (κ × α)) (h : amLookup k m = some v) :
    (k, v) ∈ m := by
  induction m with
  | nil => simp [amLookup] at h
  | cons e m ih =>
    obtain ⟨a, y⟩ := e
    simp only [amLookup] at h
    split at h
    · rename_i ha; subst ha; simp only [Option.some.injEq] at h; subst h; simp
    · exact List.mem_cons_of_mem _ (ih h)

theorem amLookup_eq_some_iff (k : κ) (v : α) (m : List (κ × α)) (h : (amKeys m).Nodup) :
    amLookup k m = some v ↔ (k, v) ∈ m :=
  ⟨mem_of_amLookup k v m, amLookup_eq_some_of_mem k v m h⟩

theorem amLookup_eq_none_iff (k : κ) (m : List (κ × α)) :
    amLookup k m = none ↔ k ∉ amKeys m := by
  induction m with
  | nil => simp [amLookup, amKeys]
  | cons e m ih =>
    obtain ⟨a, y⟩ := e
    simp only [amLookup]
    split
    · rename_i h; subst h; simp [amKeys]
    · rename_i h
      rw [ih]; simp only [amKeys, List.map_cons, List.mem_cons, not_or]
      exact ⟨fun hx => ⟨Ne.symm h, hx⟩, fun hx => hx.2⟩

theorem mem_amInsert_iff (k : κ) (v : α) (m : List (κ × α)) (h : (amKeys m).Nodup) (e : κ × α) :
    e ∈ amInsert k v m ↔ e = (k, v) ∨ (e.1 ≠ k ∧ e ∈ m) := by
  obtain ⟨a, x⟩ := e
  rw [← amLookup_eq_some_iff a x _ (amKeys_insert_nodup k v m h), amLookup_insert]
  by_cases hk : k = a
  · subst hk; simp [eq_comm]
  · simp only [hk, if_false, amLookup_eq_some_iff a x m h, Prod.mk.injEq]
    constructor
    · exact fun hx => Or.inr ⟨Ne.symm hk, hx⟩
    · rintro (⟨h1, _⟩ | h1)
      · exact absurd h1.symm hk
      · exact h1.2

theorem amLookup_delete (k k' : κ) (m : List (κ × α)) :
    amLookup k' (amDelete k m) = if k = k' then none else amLookup k' m := by
  unfold amDelete
  induction m with
  | nil => simp [amLookup]
  | cons e m ih =>
    obtain ⟨a, y⟩ := e
    by_cases h : a = k
    · subst h
      simp only [List.filter_cons, decide_true, Bool.not_true, Bool.false_eq_true, if_false, ih]
      by_cases h' : a = k' <;> simp [amLookup, h']
    · simp only [List.filter_cons, h, decide_false, Bool.not_false, if_true, amLookup, ih]
      by_cases h' : a = k'
      · subst h'; simp [Ne.symm h]
      · simp [h']

end Stix
