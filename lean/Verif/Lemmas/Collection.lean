import Mathlib.Data.List.Induction
import Verif.Lemmas.AssocMap
import Verif.Spec.Collection
import Verif.Props.Ident

/-! # Collection invariant -/

namespace Stix
open Spec StixObject Coll Classical

variable {α : Type _} [StixObject α]

theorem identifies_unique {t t' id : Str} (h : Identifies t id) (h' : Identifies t' id) : t = t' := by
  obtain ⟨_, h1, u, h2, rfl⟩ := h
  obtain ⟨_, h1', u', h2', e⟩ := h'
  exact (c07_unique_parts t t' u u' h1 h1' h2 h2' e).1

theorem splitDD_of_identifies {t id : Str} (h : Identifies t id) :
    ∃ u, splitDD id = [t, u] := by
  obtain ⟨_, h1, u, h2, rfl⟩ := h
  exact ⟨u, (splitDD_two _ _ _).2 ⟨rfl, h1, uuidText_not_hasDD u h2⟩⟩

theorem latest_unique {h : List α} {id : Str} {o o' : α} (h1 : Latest h id o)
    (h2 : Latest h id o') : o = o' := by
  obtain ⟨b, a, rfl, ha, hi, hn⟩ := h1
  obtain ⟨b', a', e, ha', hi', hn'⟩ := h2
  rcases List.append_eq_append_iff.1 e with ⟨x, hx, hy⟩ | ⟨x, hx, hy⟩
  · cases x with
    | nil => simp at hy; exact hy.1
    | cons c x =>
      simp only [List.cons_append, List.cons.injEq] at hy
      exact absurd ha' (hn o' (by rw [hy.2]; simp) hi')
  · cases x with
    | nil => simp at hy; exact hy.1.symm
    | cons c x =>
      simp only [List.cons_append, List.cons.injEq] at hy
      exact absurd ha (hn' o (by rw [hy.2]; simp) hi)

theorem latest_acceptable {h : List α} {id : Str} {o : α} (h1 : Latest h id o) :
    Acceptable o ∧ getID o = id ∧ o ∈ h := by
  obtain ⟨b, a, rfl, ha, hi, hn⟩ := h1
  exact ⟨ha, hi, by simp⟩

theorem latest_snoc (h : List α) (o' : α) (id : Str) (o : α) :
    Latest (h ++ [o']) id o ↔
      (Acceptable o' ∧ getID o' = id ∧ o = o') ∨
      (¬ (Acceptable o' ∧ getID o' = id) ∧ Latest h id o) := by
  constructor
  · rintro ⟨b, a, e, ha, hi, hn⟩
    rcases List.eq_nil_or_concat a with rfl | ⟨a', x, rfl⟩
    · rw [List.append_inj_right' (t₁ := [o']) (t₂ := [o]) e rfl |> List.cons.inj |>.1]
      exact Or.inl ⟨ha, hi, rfl⟩
    · right
      have e' : h ++ [o'] = (b ++ o :: a') ++ [x] := by simpa using e
      obtain ⟨e1, e2⟩ := List.append_inj' e' rfl
      simp only [List.cons.injEq, and_true] at e2
      subst e2
      refine ⟨fun hh => hn o' (by simp) hh.2 hh.1, b, a', e1, ha, hi, fun p hp => hn p (by simp [hp])⟩
  · rintro (⟨h1, h2, rfl⟩ | ⟨h1, b, a, rfl, ha, hi, hn⟩)
    · exact ⟨h, [], rfl, h1, h2, by simp⟩
    · refine ⟨b, a ++ [o'], by simp, ha, hi, ?_⟩
      intro p hp hpi hpa
      rcases List.mem_append.1 hp with hp | hp
      · exact hn p hp hpi hpa
      · simp only [List.mem_singleton] at hp; subst hp
        exact h1 ⟨hpa, hpi⟩

theorem exists_latest_iff (h : List α) (id : Str) :
    (∃ o, Latest h id o) ↔ ∃ o ∈ h, Acceptable o ∧ getID o = id := by
  constructor
  · rintro ⟨o, ho⟩
    obtain ⟨h1, h2, h3⟩ := latest_acceptable ho
    exact ⟨o, h3, h1, h2⟩
  · induction h using List.reverseRecOn with
    | nil => rintro ⟨o, ho, _⟩; simp at ho
    | append_singleton h x ih =>
      rintro ⟨o, ho, ha, hi⟩
      by_cases hx : Acceptable x ∧ getID x = id
      · exact ⟨x, (latest_snoc h x id x).2 (Or.inl ⟨hx.1, hx.2, rfl⟩)⟩
      · rcases List.mem_append.1 ho with ho | ho
        · obtain ⟨o', ho'⟩ := ih ⟨o, ho, ha, hi⟩
          exact ⟨o', (latest_snoc h x id o').2 (Or.inr ⟨hx, ho'⟩)⟩
        · simp only [List.mem_singleton] at ho; subst ho
          exact absurd ⟨ha, hi⟩ hx

theorem firstBefore_snoc {h : List α} {o : α} {id id' : Str} (hf : FirstBefore h id id') :
    FirstBefore (h ++ [o]) id id' := by
  obtain ⟨b, a, rfl, h1, h2, o', h3, h4⟩ := hf
  exact ⟨b, a ++ [o], by simp, h1, h2, o', by simp [h3], h4⟩

/-- What relates the state of the collection to the history. -/
structure CollInv (ns : Bool) (c : Coll α) (h : List α) : Prop where
  lookup : ∀ t id o, c.getObject t id = some o ↔ Latest h id o ∧ getType o = t
  keys : (amKeys c.objects).Nodup
  bkeys : ∀ e ∈ c.objects, (amKeys e.2).Nodup
  bne : ∀ e ∈ c.objects, e.2 ≠ []
  nsEq : c.noSort = ns
  onodup : ns = false → c.order.Nodup
  omem : ns = false → ∀ id, id ∈ c.order ↔ ∃ o, Latest h id o
  opair : ns = false → c.order.Pairwise (FirstBefore h)

theorem collInv_new (ns : Bool) : CollInv (α := α) ns (Coll.new ns) [] where
  lookup := by intro t id o; simp [Coll.new, getObject, amLookup, Latest]
  keys := by simp [Coll.new, amKeys]
  bkeys := by simp [Coll.new]
  bne := by simp [Coll.new]
  nsEq := rfl
  onodup := by simp [Coll.new]
  omem := by simp [Coll.new, Latest]
  opair := by simp [Coll.new]

theorem add_rejected (c : Coll α) (o : α) (h : ¬ Acceptable o) : c.add o = (c, true) := by
  have : hasValidIdentifier (getID o) (getType o) = false := by
    rw [← Bool.not_eq_true, hasValidIdentifier_iff]; exact h
  simp [add, this]

theorem collInv_add {ns : Bool} {c : Coll α} {h : List α} (inv : CollInv ns c h) (o : α) :
    CollInv ns (c.add o).1 (h ++ [o]) := by
  by_cases ha : Acceptable o
  swap
  · rw [add_rejected c o ha]
    have hl : ∀ id x, Latest (h ++ [o]) id x ↔ Latest h id x := by
      intro id x; rw [latest_snoc]; simp [ha]
    exact { inv with
      lookup := fun t id x => by rw [hl]; exact inv.lookup t id x
      omem := fun hn id => by rw [inv.omem hn]; simp [hl]
      opair := fun hn => (inv.opair hn).imp firstBefore_snoc }
  · have hv : hasValidIdentifier (getID o) (getType o) = true := (hasValidIdentifier_iff _ _).2 ha
    have hobj : (c.add o).1.objects = amInsert (getType o)
        (amInsert (getID o) o ((amLookup (getType o) c.objects).getD [])) c.objects := by
      simp only [add, hv]; split
      · simp at *
      · dsimp only; split <;> rfl
    have hbk : (amKeys ((amLookup (getType o) c.objects).getD [])).Nodup := by
      cases hb : amLookup (getType o) c.objects with
      | none => simp [amKeys]
      | some b => exact inv.bkeys _ (mem_of_amLookup _ _ _ hb)
    have hget : ∀ t id, (c.add o).1.getObject t id =
        if getType o = t ∧ getID o = id then some o else c.getObject t id := by
      intro t id
      simp only [getObject, hobj, amLookup_insert]
      by_cases ht : getType o = t
      · subst ht
        simp only [if_true, true_and, amLookup_insert]
        split
        · rfl
        · cases amLookup (getType o) c.objects <;> simp [amLookup]
      · simp [ht]
    have hupd : (amLookup (getID o) ((amLookup (getType o) c.objects).getD [])).isSome = true ↔
        ∃ x, Latest h (getID o) x := by
      have : amLookup (getID o) ((amLookup (getType o) c.objects).getD []) =
          c.getObject (getType o) (getID o) := by
        unfold getObject; cases amLookup (getType o) c.objects <;> simp [amLookup]
      rw [this, Option.isSome_iff_exists]
      simp only [inv.lookup]
      constructor
      · rintro ⟨x, hx, _⟩; exact ⟨x, hx⟩
      · rintro ⟨x, hx⟩
        obtain ⟨h1, h2, _⟩ := latest_acceptable hx
        refine ⟨x, hx, ?_⟩
        unfold Acceptable at h1 ha; rw [h2] at h1
        exact identifies_unique h1 ha
    have hord : (c.add o).1.order = if c.noSort = false ∧ ¬ (∃ x, Latest h (getID o) x)
        then c.order ++ [getID o] else c.order := by
      rw [← hupd]
      simp only [add, hv, Bool.not_eq_true]
      split
      · simp at *
      · dsimp only; split <;> rfl
    have hns : (c.add o).1.noSort = c.noSort := by
      simp only [add, hv]; split
      · rfl
      · dsimp only; split <;> rfl
    refine ⟨?_, ?_, ?_, ?_, hns.trans inv.nsEq, ?_, ?_, ?_⟩
    · intro t id x
      rw [hget, latest_snoc]
      by_cases hc : getType o = t ∧ getID o = id
      · obtain ⟨rfl, rfl⟩ := hc
        simp only [and_self, if_true, Option.some.injEq, ha, true_and, not_true, false_and, or_false]
        exact ⟨by rintro rfl; exact ⟨rfl, rfl⟩, fun hx => hx.1.symm⟩
      · rw [if_neg hc, inv.lookup]
        by_cases hi : getID o = id
        · subst hi
          simp only at hc
          simp only [ha, true_and, not_true, false_and, or_false, and_true]
          have hne : ¬ (Latest h (getID o) x ∧ getType x = t) := by
            rintro ⟨hx, rfl⟩
            obtain ⟨h1, h2, _⟩ := latest_acceptable hx
            unfold Acceptable at h1 ha; rw [h2] at h1
            exact hc ⟨identifies_unique ha h1, trivial⟩
          constructor
          · exact fun hx => absurd hx hne
          · rintro ⟨rfl, rfl⟩; simp at hc
        · simp [hi]
    · rw [hobj]; exact amKeys_insert_nodup _ _ _ inv.keys
    · rw [hobj]; intro e he
      rcases (mem_amInsert_iff _ _ _ inv.keys e).1 he with rfl | ⟨_, he⟩
      · exact amKeys_insert_nodup _ _ _ hbk
      · exact inv.bkeys e he
    · rw [hobj]; intro e he
      rcases (mem_amInsert_iff _ _ _ inv.keys e).1 he with rfl | ⟨_, he⟩
      · intro h0
        have : (getID o, o) ∈ amInsert (getID o) o ((amLookup (getType o) c.objects).getD []) :=
          (mem_amInsert_iff _ _ _ hbk _).2 (Or.inl rfl)
        simp only at h0; rw [h0] at this; simp at this
      · exact inv.bne e he
    · intro hn
      rw [hord]
      split
      · rename_i hc
        rw [List.nodup_append]
        refine ⟨inv.onodup hn, by simp, ?_⟩
        intro a hma b hmb hab
        simp only [List.mem_singleton] at hmb
        subst hmb; subst hab
        exact hc.2 ((inv.omem hn _).1 hma)
      · exact inv.onodup hn
    · intro hn id
      have hns' : c.noSort = false := inv.nsEq.trans hn
      have key : (∃ x, Latest (h ++ [o]) id x) ↔ getID o = id ∨ ∃ x, Latest h id x := by
        simp only [latest_snoc, ha, true_and]
        constructor
        · rintro ⟨x, ⟨h1, _⟩ | ⟨_, h1⟩⟩
          · exact Or.inl h1
          · exact Or.inr ⟨x, h1⟩
        · rintro (h1 | ⟨x, h1⟩)
          · exact ⟨o, Or.inl ⟨h1, rfl⟩⟩
          · by_cases hi : getID o = id
            · exact ⟨o, Or.inl ⟨hi, rfl⟩⟩
            · exact ⟨x, Or.inr ⟨hi, h1⟩⟩
      rw [key, hord]
      split
      · simp only [List.mem_append, List.mem_singleton, inv.omem hn]
        constructor
        · rintro (h1 | h1)
          · exact Or.inr h1
          · exact Or.inl h1.symm
        · rintro (h1 | h1)
          · exact Or.inr h1.symm
          · exact Or.inl h1
      · rename_i hc
        rw [inv.omem hn]
        constructor
        · exact Or.inr
        · rintro (rfl | h1)
          · by_contra hx; exact hc ⟨hns', hx⟩
          · exact h1
    · intro hn
      rw [hord]
      split
      · rename_i hc
        rw [List.pairwise_append]
        refine ⟨(inv.opair hn).imp firstBefore_snoc, by simp, ?_⟩
        intro a hma b hmb
        simp only [List.mem_singleton] at hmb; subst hmb
        refine ⟨h, [o], rfl, (exists_latest_iff h a).1 ((inv.omem hn a).1 hma), ?_, o, by simp, ha, rfl⟩
        intro p hp hpa hpi
        exact hc.2 ((exists_latest_iff h _).2 ⟨p, hp, hpa, hpi⟩)
      · exact (inv.opair hn).imp firstBefore_snoc

theorem collInv_addAll (ns : Bool) (h : List α) :
    CollInv ns ((Coll.new ns).addAll h) h := by
  induction h using List.reverseRecOn with
  | nil => exact collInv_new ns
  | append_singleton h o ih =>
    have : (Coll.new ns).addAll (h ++ [o]) = (((Coll.new ns).addAll h).add o).1 := by
      simp [addAll]
    rw [this]; exact collInv_add ih o

theorem CollInv.get {ns : Bool} {c : Coll α} {h : List α} (inv : CollInv ns c h) (id : Str) (o : α) :
    c.get id = some o ↔ Latest h id o := by
  unfold Coll.get
  constructor
  · intro hg
    split at hg
    · exact ((inv.lookup _ _ _).1 hg).1
    · simp at hg
  · intro hl
    obtain ⟨h1, h2, _⟩ := latest_acceptable hl
    unfold Acceptable at h1; rw [h2] at h1
    obtain ⟨u, hu⟩ := splitDD_of_identifies h1
    rw [hu]
    exact (inv.lookup _ _ _).2 ⟨hl, rfl⟩

end Stix
