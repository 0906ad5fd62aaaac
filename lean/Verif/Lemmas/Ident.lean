import Verif.Model.Ident
import Verif.Spec.Ident

namespace Stix
open Spec

theorem splitDD_ne_nil (s : Str) : splitDD s ≠ [] := by
  fun_induction splitDD s <;> simp_all

theorem hasDD_cons_cons (c₁ c₂ : UInt8) (r : Str) :
    HasDD (c₁ :: c₂ :: r) ↔ (c₁ = dash ∧ c₂ = dash) ∨ HasDD (c₂ :: r) := by
  unfold HasDD dash
  rw [List.infix_cons_iff]
  simp only [List.cons_prefix_cons, List.nil_prefix, and_true]
  constructor
  · rintro (⟨h1, h2⟩ | h)
    · exact Or.inl ⟨h1.symm, h2.symm⟩
    · exact Or.inr h
  · rintro (⟨h1, h2⟩ | h)
    · exact Or.inl ⟨h1.symm, h2.symm⟩
    · exact Or.inr h

theorem not_hasDD_nil : ¬ HasDD [] := by simp [HasDD]
theorem not_hasDD_single (c : UInt8) : ¬ HasDD [c] := by
  intro h; have := h.length_le; simp at this

/-- Splitting a string with no separator. -/
theorem splitDD_of_not_hasDD (s : Str) (h : ¬ HasDD s) : splitDD s = [s] := by
  fun_induction splitDD s with
  | case1 => rfl
  | case2 => rfl
  | case3 c₁ c₂ r hc => exact absurd ((hasDD_cons_cons _ _ _).2 (Or.inl hc)) h
  | case4 c₁ c₂ r hc h' t heq ih =>
    rw [hasDD_cons_cons] at h
    have := ih (fun hh => h (Or.inr hh))
    rw [heq] at this
    simp_all
  | case5 c₁ c₂ r hc heq => exact absurd heq (splitDD_ne_nil _)

/-- Splitting at the first separator. -/
theorem splitDD_append (a b : Str) (h : ¬ HasDD (a ++ b!"-")) :
    splitDD (a ++ b!"--" ++ b) = a :: splitDD b := by
  induction a with
  | nil => simp [splitDD, dash]
  | cons c a ih =>
    cases a with
    | nil =>
      have hc : ¬ (c = dash) := by
        intro hc; apply h; rw [List.cons_append, List.nil_append, hasDD_cons_cons]
        exact Or.inl ⟨hc, rfl⟩
      simp only [List.cons_append, List.nil_append] at ih ⊢
      rw [splitDD, if_neg (fun h => hc h.1), ih (by exact not_hasDD_single _)]
    | cons c' a =>
      simp only [List.cons_append] at ih h ⊢
      rw [hasDD_cons_cons] at h
      rw [splitDD, if_neg (fun hh => h (Or.inl hh)), ih (fun hh => h (Or.inr hh))]

/-- The first part returned by a split, with what follows. -/
theorem splitDD_first (s a : Str) (t : List Str) (h : splitDD s = a :: t) :
    (t = [] ∧ s = a ∧ ¬ HasDD s) ∨
    (∃ b, s = a ++ b!"--" ++ b ∧ ¬ HasDD (a ++ b!"-") ∧ splitDD b = t) := by
  fun_induction splitDD s generalizing a t with
  | case1 => simp only [List.cons.injEq] at h; left; exact ⟨h.2.symm, h.1, not_hasDD_nil⟩
  | case2 c => simp only [List.cons.injEq] at h; left; exact ⟨h.2.symm, h.1, not_hasDD_single _⟩
  | case3 c₁ c₂ r hc =>
    simp only [List.cons.injEq] at h
    right; refine ⟨r, ?_, ?_, h.2⟩
    · rw [← h.1, hc.1, hc.2]; rfl
    · rw [← h.1]; exact not_hasDD_single _
  | case4 c₁ c₂ r hc h' t' heq ih =>
    simp only [List.cons.injEq] at h
    rcases ih h' t' heq with ⟨h1, h2, h3⟩ | ⟨b, h1, h2, h3⟩
    · left; refine ⟨by rw [← h.2]; exact h1, by rw [h2, h.1], ?_⟩
      rw [hasDD_cons_cons]; exact fun hh => hh.elim hc h3
    · right; refine ⟨b, by rw [h1, ← h.1]; rfl, ?_, by rw [h3, h.2]⟩
      rw [← h.1, List.cons_append]
      cases h' with
      | nil =>
        simp only [List.nil_append, List.cons_append] at h1 ⊢
        rw [hasDD_cons_cons]
        injection h1 with h1 _
        rw [h1] at hc
        exact fun hh => hh.elim hc (not_hasDD_single _)
      | cons c' h' =>
        simp only [List.cons_append] at h1 h2 ⊢
        injection h1 with h1 _
        rw [hasDD_cons_cons, ← h1]
        exact fun hh => hh.elim hc (by rw [h1]; exact h2)
  | case5 c₁ c₂ r hc heq => exact absurd heq (splitDD_ne_nil _)

theorem splitDD_two (s a b : Str) :
    splitDD s = [a, b] ↔ s = a ++ b!"--" ++ b ∧ ¬ HasDD (a ++ b!"-") ∧ ¬ HasDD b := by
  constructor
  · intro h
    rcases splitDD_first s a [b] h with ⟨h1, _⟩ | ⟨b', h1, h2, h3⟩
    · simp at h1
    · rcases splitDD_first b' b [] h3 with ⟨_, h4, h5⟩ | ⟨b'', _, _, h6⟩
      · subst h4; exact ⟨h1, h2, h5⟩
      · exact absurd h6 (splitDD_ne_nil _)
  · rintro ⟨rfl, h1, h2⟩
    rw [splitDD_append a b h1, splitDD_of_not_hasDD b h2]

end Stix
