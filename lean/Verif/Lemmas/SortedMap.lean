import Verif.Model.SortedMap
import Verif.Lemmas.AssocMap

/-!
# Lemmas about the canonical form of maps
-/

set_option linter.unusedSimpArgs false

namespace Stix

theorem strLt_irrefl (x : Str) : strLt x x = false := by
  induction x with
  | nil => rfl
  | cons a x ih => simp [strLt, ih]

theorem strLt_trans {x y z : Str} (h1 : strLt x y = true) (h2 : strLt y z = true) :
    strLt x z = true := by
  induction x generalizing y z with
  | nil =>
    cases y with
    | nil => simp [strLt] at h1
    | cons b y => cases z with
      | nil => simp [strLt] at h2
      | cons c z => rfl
  | cons a x ih =>
    cases y with
    | nil => simp [strLt] at h1
    | cons b y => cases z with
      | nil => simp [strLt] at h2
      | cons c z =>
        simp only [strLt] at h1 h2 ⊢
        have key : ∀ {p q : UInt8} {u v : Str}, (if p < q then true else if q < p then false else strLt u v) = true →
            p < q ∨ (p = q ∧ strLt u v = true) := by
          intro p q u v h
          split at h
          · exact .inl ‹_›
          · split at h
            · cases h
            · refine .inr ⟨?_, h⟩
              rename_i h1 h2
              exact UInt8.le_antisymm (UInt8.not_lt.1 h2) (UInt8.not_lt.1 h1)
        rcases key h1 with h3 | ⟨rfl, h3⟩ <;> rcases key h2 with h4 | ⟨rfl, h4⟩
        · rw [if_pos (UInt8.lt_trans h3 h4)]
        · rw [if_pos h3]
        · rw [if_pos h4]
        · rw [if_neg (UInt8.lt_irrefl _), if_neg (UInt8.lt_irrefl _)]; exact ih h3 h4

theorem strLt_asymm {x y : Str} (h : strLt x y = true) : strLt y x = false := by
  cases hyx : strLt y x with
  | false => rfl
  | true => have := strLt_trans h hyx; rw [strLt_irrefl] at this; cases this

theorem strLt_total {x y : Str} (h : strLt x y = false) (hne : x ≠ y) : strLt y x = true := by
  induction x generalizing y with
  | nil => cases y with
    | nil => exact absurd rfl hne
    | cons b y => simp [strLt] at h
  | cons a x ih => cases y with
    | nil => rfl
    | cons b y =>
      simp only [strLt] at h ⊢
      split at h
      · cases h
      · rename_i hab
        split at h
        · rename_i hba; rw [if_pos hba]
        · rename_i hba
          rw [if_neg hba, if_neg hab]
          have : a = b := UInt8.le_antisymm (UInt8.not_lt.1 hba) (UInt8.not_lt.1 hab)
          subst this
          exact ih h (fun e => hne (by rw [e]))

variable {α : Type _}

theorem amLookup_smInsert (k k' : Str) (v : α) (m : List (Str × α)) :
    amLookup k' (smInsert k v m) = if k' = k then some v else amLookup k' m := by
  induction m with
  | nil => simp [smInsert, amLookup, eq_comm]
  | cons e m ih =>
    obtain ⟨a, x⟩ := e
    simp only [smInsert]
    split
    · rename_i h; subst h
      by_cases h2 : k' = a
      · subst h2; simp [amLookup]
      · simp [amLookup, h2, Ne.symm h2]
    · rename_i hne
      split
      · by_cases h2 : k' = k
        · subst h2; simp [amLookup]
        · simp [amLookup, h2, Ne.symm h2]
      · simp only [amLookup, ih]
        by_cases h2 : a = k'
        · subst h2; simp [hne]
        · simp [h2]

theorem smInsert_comm {k k' : Str} (hne : k ≠ k') (v v' : α) (m : List (Str × α)) :
    smInsert k v (smInsert k' v' m) = smInsert k' v' (smInsert k v m) := by
  have hne' := Ne.symm hne
  induction m with
  | nil =>
    simp only [smInsert, hne, hne', if_false]
    cases h : strLt k k' with
    | true => simp [strLt_asymm h]
    | false => simp [strLt_total h hne]
  | cons e m ih =>
    obtain ⟨a, x⟩ := e
    by_cases h1 : a = k
    · subst h1
      by_cases h3 : strLt k' a = true
      · simp [smInsert, hne, h3, hne', strLt_asymm h3]
      · simp [smInsert, hne, h3, hne']
    · by_cases h2 : a = k'
      · subst h2
        by_cases h3 : strLt k a = true
        · simp [smInsert, hne', h3, hne, strLt_asymm h3]
        · simp [smInsert, hne', h3, hne]
      · by_cases h3 : strLt k a = true <;> by_cases h4 : strLt k' a = true
        · cases h : strLt k k' with
          | true => simp [smInsert, h1, h2, h3, h4, hne, hne', h, strLt_asymm h]
          | false => simp [smInsert, h1, h2, h3, h4, hne, hne', h, strLt_total h hne]
        · have : strLt k' k = false := by
            cases h : strLt k' k with
            | false => rfl
            | true => exact absurd (strLt_trans h h3) h4
          simp [smInsert, h1, h2, h3, h4, hne, hne', this]
        · have : strLt k k' = false := by
            cases h : strLt k k' with
            | false => rfl
            | true => exact absurd (strLt_trans h h4) h3
          simp [smInsert, h1, h2, h3, h4, hne, hne', this]
        · simp [smInsert, h1, h2, h3, h4, ih]

theorem smInsert_smInsert (k : Str) (v v' : α) (m : List (Str × α)) :
    smInsert k v (smInsert k v' m) = smInsert k v m := by
  induction m with
  | nil => simp [smInsert]
  | cons e m ih =>
    obtain ⟨a, x⟩ := e
    by_cases h1 : a = k
    · simp [smInsert, h1]
    · by_cases h3 : strLt k a = true
      · simp [smInsert, h1, h3]
      · simp [smInsert, h1, h3, ih]

theorem smInsert_ne_nil (k : Str) (v : α) (m : List (Str × α)) : smInsert k v m ≠ [] := by
  cases m with
  | nil => simp [smInsert]
  | cons e m => simp only [smInsert]; split <;> [skip; split] <;> simp

theorem mem_smInsert {k : Str} {v : α} {m : List (Str × α)} {e : Str × α}
    (h : e ∈ smInsert k v m) : e = (k, v) ∨ e ∈ m := by
  induction m with
  | nil => simp [smInsert] at h; exact .inl h
  | cons a m ih =>
    simp only [smInsert] at h
    split at h
    · rcases List.mem_cons.1 h with h | h
      · exact .inl h
      · exact .inr (List.mem_cons_of_mem _ h)
    · split at h
      · rcases List.mem_cons.1 h with h | h
        · exact .inl h
        · exact .inr h
      · rcases List.mem_cons.1 h with h | h
        · exact .inr (by simp [h])
        · rcases ih h with h | h
          · exact .inl h
          · exact .inr (List.mem_cons_of_mem _ h)

theorem sortedKeys_nil : SortedKeys ([] : List (Str × α)) := List.Pairwise.nil

theorem sortedKeys_smInsert {k : Str} {v : α} {m : List (Str × α)} (h : SortedKeys m) :
    SortedKeys (smInsert k v m) := by
  induction m with
  | nil => simp [smInsert, SortedKeys]
  | cons a m ih =>
    obtain ⟨a, x⟩ := a
    have hm : SortedKeys m := (List.pairwise_cons.1 h).2
    have ha := (List.pairwise_cons.1 h).1
    simp only [smInsert]
    split
    · rename_i h1; subst h1
      exact List.pairwise_cons.2 ⟨ha, hm⟩
    · rename_i hne
      split
      · rename_i hlt
        refine List.pairwise_cons.2 ⟨?_, h⟩
        intro e he
        rcases List.mem_cons.1 he with rfl | he
        · exact hlt
        · exact strLt_trans hlt (ha e he)
      · rename_i hlt
        refine List.pairwise_cons.2 ⟨?_, ih hm⟩
        intro e he
        rcases mem_smInsert he with rfl | he
        · exact strLt_total (by simpa using hlt) (Ne.symm hne)
        · exact ha e he

theorem SortedKeys.nodup {m : List (Str × α)} (h : SortedKeys m) : (amKeys m).Nodup := by
  rw [amKeys, List.Nodup, List.pairwise_map]
  refine h.imp ?_
  intro a b hab e
  rw [e, strLt_irrefl] at hab; cases hab

/-- Two sorted maps with the same entries are equal. -/
theorem sorted_ext {m m' : List (Str × α)} (h : SortedKeys m) (h' : SortedKeys m')
    (e : ∀ k, amLookup k m = amLookup k m') : m = m' := by
  induction m generalizing m' with
  | nil =>
    cases m' with
    | nil => rfl
    | cons b m' => have := e b.1; simp [amLookup] at this
  | cons a m ih =>
    cases m' with
    | nil => have := e a.1; simp [amLookup] at this
    | cons b m' =>
      obtain ⟨a, x⟩ := a
      obtain ⟨b, y⟩ := b
      have hm := List.pairwise_cons.1 h
      have hm' := List.pairwise_cons.1 h'
      have nlt : ∀ {c : Str} {l : List (Str × α)} {d : Str}, (∀ e ∈ l, strLt d e.1 = true) →
          (c = d ∨ strLt c d = true) → amLookup c l = none := by
        intro c l d hl hc
        rw [amLookup_eq_none_iff]
        intro hmem
        obtain ⟨e, he, rfl⟩ := List.mem_map.1 hmem
        have h1 := hl e he
        rcases hc with rfl | hc
        · rw [strLt_irrefl] at h1; cases h1
        · rw [strLt_asymm hc] at h1; cases h1
      have hab : a = b := by
        by_contra hne
        cases hlt : strLt a b with
        | true =>
          have h1 := e a
          simp only [amLookup, if_true, Ne.symm hne, if_false] at h1
          rw [nlt hm'.1 (.inr hlt)] at h1; cases h1
        | false =>
          have h1 := e b
          simp only [amLookup, if_true, hne, if_false] at h1
          rw [nlt hm.1 (.inr (strLt_total hlt hne))] at h1; cases h1
      subst hab
      have hxy := e a
      simp only [amLookup, if_true, Option.some.injEq] at hxy
      subst hxy
      congr 1
      refine ih hm.2 hm'.2 (fun k => ?_)
      by_cases hk : a = k
      · subst hk
        rw [nlt hm.1 (.inl rfl), nlt hm'.1 (.inl rfl)]
      · have := e k
        simpa [amLookup, hk] using this

theorem smInsert_last {k : Str} {v : α} {m : List (Str × α)}
    (h : ∀ e ∈ m, strLt e.1 k = true) : smInsert k v m = m ++ [(k, v)] := by
  induction m with
  | nil => rfl
  | cons a m ih =>
    obtain ⟨a, x⟩ := a
    have h1 : strLt a k = true := h _ (List.mem_cons_self)
    have hne : a ≠ k := by rintro rfl; rw [strLt_irrefl] at h1; cases h1
    simp [smInsert, hne, strLt_asymm h1, ih (fun e he => h e (List.mem_cons_of_mem _ he))]

theorem foldl_smInsert_sorted (m acc : List (Str × α)) (h : SortedKeys (acc ++ m)) :
    m.foldl (fun m e => smInsert e.1 e.2 m) acc = acc ++ m := by
  induction m generalizing acc with
  | nil => simp
  | cons a m ih =>
    simp only [List.foldl_cons]
    have h1 : ∀ e ∈ acc, strLt e.1 a.1 = true := by
      intro e he
      exact (List.pairwise_append.1 h).2.2 e he a (List.mem_cons_self)
    rw [smInsert_last h1, ih]
    · simp
    · simpa using h

/-- Writing the entries of a sorted map one after the other gives that map. -/
theorem smOfList_sorted {m : List (Str × α)} (h : SortedKeys m) : smOfList m = m := by
  have := foldl_smInsert_sorted m [] (by simpa using h)
  simpa [smOfList] using this

theorem sortedKeys_foldl (l acc : List (Str × α)) (h : SortedKeys acc) :
    SortedKeys (l.foldl (fun m e => smInsert e.1 e.2 m) acc) := by
  induction l generalizing acc with
  | nil => exact h
  | cons a l ih => exact ih _ (sortedKeys_smInsert h)

theorem sortedKeys_smOfList (l : List (Str × α)) : SortedKeys (smOfList l) :=
  sortedKeys_foldl l [] sortedKeys_nil

end Stix
