import Verif.Spec.Sched
import Verif.Lemmas.Collection

/-!
# Lemmas about concurrent use
-/

namespace Stix.Sched
open Stix Stix.Spec StixObject

variable {α : Type}

/-! ### Maps -/

theorem insert_fresh {β} (k : Str) (v : β) (m : List (Str × β)) (h : amLookup k m = none) :
    amInsert k v m = m ++ [(k, v)] := by
  induction m with
  | nil => rfl
  | cons e m ih =>
    obtain ⟨k', v'⟩ := e
    by_cases hk : k' = k
    · simp [amLookup, hk] at h
    · simp only [amLookup, hk, if_false] at h
      simp [amInsert, hk, ih h]

theorem insert_same {β} (k : Str) (v : β) (m : List (Str × β)) (h : amLookup k m = some v) :
    amInsert k v m = m := by
  induction m with
  | nil => simp [amLookup] at h
  | cons e m ih =>
    obtain ⟨k', v'⟩ := e
    by_cases hk : k' = k
    · simp [amLookup, hk] at h
      simp [amInsert, hk, h]
    · simp only [amLookup, hk, if_false] at h
      simp [amInsert, hk, ih h]

theorem insert_twice {β} (k : Str) (v w : β) (m : List (Str × β)) :
    amInsert k v (amInsert k w m) = amInsert k v m := by
  induction m with
  | nil => simp [amInsert]
  | cons e m ih =>
    obtain ⟨k', v'⟩ := e
    by_cases hk : k' = k
    · simp [amInsert, hk]
    · simp [amInsert, hk, ih]

/-- Entries of a map that have been seen, one by one, are all of it once every key has been. -/
theorem seen_all {β} {v m : List (Str × β)} (hm : (amKeys m).Nodup) (hv : (amKeys v).Nodup)
    (hs : ∀ e ∈ v, e ∈ m) (ha : ∀ x ∈ amKeys m, x ∈ amKeys v) : v.Perm m := by
  refine (List.perm_ext_iff_of_nodup (List.Nodup.of_map _ hv) (List.Nodup.of_map _ hm)).2 fun e => ⟨hs e, fun he => ?_⟩
  obtain ⟨e', he', hk⟩ := List.mem_map.1 (ha e.1 (List.mem_map.2 ⟨e, he, rfl⟩))
  have h1 := (amLookup_eq_some_iff e.1 e.2 m hm).2 he
  have h2 := (amLookup_eq_some_iff e'.1 e'.2 m hm).2 (hs e' he')
  rw [hk, h1] at h2
  have : e' = e := Prod.ext hk (Option.some.inj h2).symm
  exact this ▸ he'

theorem seen_more {β} {v m : List (Str × β)} {k : Str} {x : β} (hv : (amKeys v).Nodup)
    (hs : ∀ e ∈ v, e ∈ m) (hk : k ∉ amKeys v) (hl : amLookup k m = some x) :
    (amKeys (v ++ [(k, x)])).Nodup ∧ ∀ e ∈ v ++ [(k, x)], e ∈ m := by
  constructor
  · simp only [amKeys, List.map_append, List.map_cons, List.map_nil]
    rw [List.nodup_append]
    refine ⟨hv, by simp, ?_⟩
    rintro a ha b hb rfl
    simp only [List.mem_singleton] at hb
    exact hk (hb ▸ ha)
  · intro e he
    rcases List.mem_append.1 he with he | he
    · exact hs e he
    · simp only [List.mem_singleton] at he
      exact he ▸ mem_of_amLookup _ _ _ hl

/-! ### The memory and the collection it holds -/

/-- The entry of the outer map leads to this bucket. -/
def Leads (m : Mem α) (x : Str × Nat) (y : Str × List (Str × α)) : Prop :=
  x.1 = y.1 ∧ x.2 < m.buckets.length ∧ m.buckets.getD x.2 [] = y.2

/-- The memory holds the collection. -/
structure Rep (m : Mem α) (c : Coll α) : Prop where
  noSort : m.noSort = c.noSort
  order : m.order = c.order
  none : m.objects = none → c.objects = []
  some : ∀ p, m.objects = some p → p < m.outers.length ∧
    List.Forall₂ (Leads m) (m.outers.getD p []) c.objects ∧ ((m.outers.getD p []).map Prod.snd).Nodup

theorem leads_lookup {m : Mem α} {l : List (Str × Nat)} {l' : List (Str × List (Str × α))}
    (h : List.Forall₂ (Leads m) l l') (t : Str) :
    (amLookup t l = none → amLookup t l' = none) ∧
    ∀ b, amLookup t l = some b → b < m.buckets.length ∧ amLookup t l' = some (m.buckets.getD b []) := by
  induction h with
  | nil => simp [amLookup]
  | @cons x y l l' hxy _ ih =>
    obtain ⟨k, b⟩ := x
    obtain ⟨k', v⟩ := y
    obtain ⟨h1, h2, h3⟩ := hxy
    simp only at h1 h2 h3
    subst h1
    simp only [amLookup]
    by_cases hk : k = t
    · simp only [hk, if_true]
      refine ⟨by simp, fun b' hb => ?_⟩
      cases hb
      exact ⟨h2, by rw [h3]⟩
    · simp only [hk, if_false]
      exact ih

theorem leads_keys {m : Mem α} {l : List (Str × Nat)} {l' : List (Str × List (Str × α))}
    (h : List.Forall₂ (Leads m) l l') : amKeys l = amKeys l' := by
  induction h with
  | nil => rfl
  | cons h _ ih => simp only [amKeys, List.map_cons] at ih ⊢; rw [h.1, ih]

/-- Writing to a bucket. -/
theorem leads_write {m : Mem α} {l : List (Str × Nat)} {l' : List (Str × List (Str × α))}
    (h : List.Forall₂ (Leads m) l l') (hn : (l.map Prod.snd).Nodup) {t : Str} {b : Nat}
    (hl : amLookup t l = some b) (w : List (Str × α)) :
    List.Forall₂ (Leads { m with buckets := m.buckets.set b w }) l (amInsert t w l') := by
  have key : ∀ {l l'}, List.Forall₂ (Leads m) l l' → b ∉ l.map Prod.snd →
      List.Forall₂ (Leads { m with buckets := m.buckets.set b w }) l l' := by
    intro l l' h hb
    induction h with
    | nil => exact .nil
    | @cons x y l l' hxy _ ih =>
      simp only [List.map_cons, List.mem_cons, not_or] at hb
      refine .cons ⟨hxy.1, by simpa using hxy.2.1, ?_⟩ (ih hb.2)
      rw [← hxy.2.2]
      simp only [List.getD_eq_getElem?_getD, List.getElem?_set_ne hb.1]
  induction h with
  | nil => simp [amLookup] at hl
  | @cons x y l l' hxy ht ih =>
    obtain ⟨k, r⟩ := x
    obtain ⟨k', v⟩ := y
    have hk' : k = k' := hxy.1
    subst hk'
    simp only [List.map_cons, List.nodup_cons] at hn
    simp only [amLookup] at hl
    by_cases hk : k = t
    · simp only [hk, if_true, Option.some.injEq] at hl
      subst hl hk
      simp only [amInsert, if_true]
      refine .cons ⟨rfl, by simpa using hxy.2.1, ?_⟩ (key ht hn.1)
      simp only [List.getD_eq_getElem?_getD, List.getElem?_set_self hxy.2.1, Option.getD_some]
    · simp only [hk, if_false] at hl
      simp only [amInsert, hk, if_false]
      have hb : b ≠ r := by
        rintro rfl
        exact hn.1 (List.mem_map.2 ⟨_, mem_of_amLookup _ _ _ hl, rfl⟩)
      refine .cons ⟨rfl, by simpa using hxy.2.1, ?_⟩ (ih hn.2 hl)
      rw [← hxy.2.2]
      simp only [List.getD_eq_getElem?_getD, List.getElem?_set_ne hb]

/-- A new bucket changes nothing. -/
theorem leads_make {m : Mem α} {l : List (Str × Nat)} {l' : List (Str × List (Str × α))}
    (h : List.Forall₂ (Leads m) l l') :
    List.Forall₂ (Leads { m with buckets := m.buckets ++ [[]] }) l l' := by
  refine h.imp fun x y hxy => ⟨hxy.1, ?_, ?_⟩
  · have := hxy.2.1
    simp only [List.length_append, List.length_cons, List.length_nil]
    omega
  · rw [← hxy.2.2]
    simp only [List.getD_eq_getElem?_getD, List.getElem?_append_left hxy.2.1]

theorem leads_lt {m : Mem α} {l : List (Str × Nat)} {l' : List (Str × List (Str × α))}
    (h : List.Forall₂ (Leads m) l l') : ∀ b ∈ l.map Prod.snd, b < m.buckets.length := by
  induction h with
  | nil => simp
  | cons h _ ih => intro b hb; rcases List.mem_cons.1 hb with rfl | hb; exacts [h.2.1, ih b hb]

/-- The outer map depends on the buckets only. -/
theorem leads_outers {m : Mem α} {l : List (Str × Nat)} {l' : List (Str × List (Str × α))}
    (o : Option Nat) (os : List (List (Str × Nat))) (h : List.Forall₂ (Leads m) l l') :
    List.Forall₂ (Leads { m with objects := o, outers := os }) l l' := h

/-! ### Reading -/

variable [StixObject α]

/-- What `getObject` finds is what the call needs. -/
def UseOk (c : Coll α) (call : Call α) (r : Option α) : Use α → Prop
  | .ret => Answers c call (.obj r)
  | .elem rest acc => call = .allObjects ∧ c.noSort = false ∧ c.order.length ≠ 0 ∧
      acc ++ r :: rest.map c.get = c.order.map c.get

/-- Where a reading call is, and what it knows. -/
def Reading (c : Coll α) (m : Mem α) (call : Call α) : PC α → Prop
  | .get1 u t id => UseOk c call (c.getObject t id) u
  | .get2 u p t id => m.objects = some p ∧ UseOk c call (c.getObject t id) u
  | .get3 u b id => UseOk c call (amLookup id (m.buckets.getD b [])) u
  | .all1 => call = .allObjects
  | .all2 => call = .allObjects ∧ c.noSort = false
  | .all3 => call = .allObjects ∧ c.noSort = false ∧ c.order.length ≠ 0
  | .all4 => call = .allObjects ∧ ¬ (c.noSort = false ∧ c.order.length ≠ 0)
  | .all5 p seen acc => call = .allObjects ∧ ¬ (c.noSort = false ∧ c.order.length ≠ 0) ∧ m.objects = some p ∧
      ∃ bs : List (Str × List (Str × α)), ∃ vs : List (List (Str × α)), amKeys bs = seen ∧ (amKeys bs).Nodup ∧
        (∀ e ∈ bs, e ∈ c.objects) ∧ List.Forall₂ (fun b v => Coll.Iter b.2 v) bs vs ∧
        acc = vs.flatten.map fun e => some e.2
  | .all6 p seen b bseen acc =>
      call = .allObjects ∧ ¬ (c.noSort = false ∧ c.order.length ≠ 0) ∧ m.objects = some p ∧
      ∃ bs : List (Str × List (Str × α)), ∃ vs : List (List (Str × α)), ∃ e : Str × List (Str × α),
        ∃ v : List (Str × α), amKeys (bs ++ [e]) = seen ∧ (amKeys (bs ++ [e])).Nodup ∧
        (∀ x ∈ bs ++ [e], x ∈ c.objects) ∧ List.Forall₂ (fun b v => Coll.Iter b.2 v) bs vs ∧
        m.buckets.getD b [] = e.2 ∧ amKeys v = bseen ∧ (amKeys v).Nodup ∧ (∀ x ∈ v, x ∈ e.2) ∧
        acc = (vs.flatten ++ v).map fun e => some e.2
  | .type1 plural t => call = if plural then .list t else .getAll t
  | .type2 plural p t => (call = if plural then .list t else .getAll t) ∧ m.objects = some p
  | .type3 b seen acc => ∃ t, (call = .getAll t ∨ call = .list t) ∧
      amLookup t c.objects = some (m.buckets.getD b []) ∧
      ∃ v : List (Str × α), amKeys v = seen ∧ (amKeys v).Nodup ∧ (∀ e ∈ v, e ∈ m.buckets.getD b []) ∧
        acc = v.map Prod.snd
  | .done a => Answers c call a
  | _ => False

theorem nextGet_reading (c : Coll α) (m : Mem α) (hs : c.noSort = false) (ho : c.order.length ≠ 0) :
    ∀ (rest : List Str) (acc : List (Option α)), acc ++ rest.map c.get = c.order.map c.get →
      Reading c m .allObjects (nextGet rest acc)
  | [], acc, h => by
    simp only [nextGet, Reading, Answers, Coll.AllObjects, hs, ho, ne_eq, not_false_eq_true, and_self, if_true]
    simpa using h
  | id :: rest, acc, h => by
    unfold nextGet
    split
    · rename_i t u he
      refine ⟨rfl, hs, ho, ?_⟩
      have : c.get id = c.getObject t id := by rw [Coll.get, he]
      rw [← this]
      simpa using h
    · rename_i hne
      refine nextGet_reading c m hs ho rest _ ?_
      have : c.get id = none := by
        unfold Coll.get
        split
        · rename_i t u he; exact absurd he (hne t u)
        · rfl
      rw [List.map_cons, this] at h
      simpa using h

theorem use_reading {c : Coll α} {m : Mem α} {call : Call α} {r : Option α} {u : Use α}
    (h : UseOk c call r u) : Reading c m call (use r u) := by
  cases u with
  | ret => exact h
  | elem rest acc =>
    obtain ⟨rfl, hs, ho, e⟩ := h
    exact nextGet_reading c m hs ho rest _ (by simpa using e)

theorem start_reading (c : Coll α) (m : Mem α) (call : Call α) (h : call.writes = false) :
    Reading c m call (start call) := by
  cases call with
  | add o => simp [Call.writes] at h
  | get id =>
    unfold start
    dsimp only
    split
    · rename_i t u he
      show (_ : Option α) = _
      rw [Coll.get, he]
    · rename_i hne
      show (_ : Option α) = _
      unfold Coll.get
      split
      · rename_i t u he; exact absurd he (hne t u)
      · rfl
  | one t id => exact rfl
  | allObjects => exact rfl
  | getAll t => exact rfl
  | list t => exact rfl

/-- Keys of a collection's maps are distinct. -/
structure Distinct (c : Coll α) : Prop where
  keys : (amKeys c.objects).Nodup
  bkeys : ∀ e ∈ c.objects, (amKeys e.2).Nodup

theorem noBucket_reading {c : Coll α} {m : Mem α} {plural : Bool} {t : Str}
    (h : amLookup t c.objects = none) :
    Reading c m (if plural then .list t else .getAll t) (noBucket plural) := by
  cases plural with
  | false => simp [noBucket, Reading, Answers, Coll.GetAll, h]
  | true => simp [noBucket, Reading, Answers, Coll.GetAll, h]

/-- A step of a reading call changes no memory, and the call knows what it should. -/
theorem reading_step {c : Coll α} {m : Mem α} (hr : Rep m c) (hd : Distinct c) {call : Call α} {pc : PC α}
    (h : Reading c m call pc) {k : Str} {m' : Mem α} {pc' : PC α} (hs : step k m pc = some (m', pc')) :
    m' = m ∧ Reading c m call pc' := by
  cases pc with
  | get1 u t id =>
    simp only [step] at hs
    split at hs <;> rename_i ho <;> simp only [Option.some.injEq, Prod.mk.injEq] at hs <;> obtain ⟨rfl, rfl⟩ := hs
    · have e : c.getObject t id = none := by simp [Coll.getObject, hr.none ho, amLookup]
      simp only [Reading, e] at h
      exact ⟨rfl, use_reading h⟩
    · exact ⟨rfl, ho, h⟩
  | get2 u p t id =>
    obtain ⟨ho, h⟩ := h
    obtain ⟨-, hf, -⟩ := hr.some p ho
    simp only [step] at hs
    split at hs <;> rename_i hl <;> simp only [Option.some.injEq, Prod.mk.injEq] at hs <;> obtain ⟨rfl, rfl⟩ := hs
    · have e : c.getObject t id = none := by simp [Coll.getObject, (leads_lookup hf t).1 hl]
      rw [e] at h
      exact ⟨rfl, use_reading h⟩
    · rename_i b
      have e : c.getObject t id = amLookup id (m.buckets.getD b []) := by
        simp only [Coll.getObject, ((leads_lookup hf t).2 b hl).2]
      rw [e] at h
      exact ⟨rfl, h⟩
  | get3 u b id =>
    simp only [step, Option.some.injEq, Prod.mk.injEq] at hs
    obtain ⟨rfl, rfl⟩ := hs
    exact ⟨rfl, use_reading h⟩
  | all1 =>
    simp only [step, Option.some.injEq, Prod.mk.injEq] at hs
    obtain ⟨rfl, rfl⟩ := hs
    refine ⟨rfl, ?_⟩
    split <;> rename_i hn <;> rw [hr.noSort] at hn
    · exact ⟨h, hn⟩
    · exact ⟨h, fun g => hn g.1⟩
  | all2 =>
    simp only [step, Option.some.injEq, Prod.mk.injEq] at hs
    obtain ⟨rfl, rfl⟩ := hs
    refine ⟨rfl, ?_⟩
    split <;> rename_i hn <;> rw [hr.order] at hn
    · exact ⟨h.1, h.2, hn⟩
    · exact ⟨h.1, fun g => hn g.2⟩
  | all3 =>
    simp only [step, Option.some.injEq, Prod.mk.injEq] at hs
    obtain ⟨rfl, rfl⟩ := hs
    obtain ⟨rfl, h1, h2⟩ := h
    exact ⟨rfl, nextGet_reading c m h1 h2 _ _ (by rw [hr.order]; rfl)⟩
  | all4 =>
    obtain ⟨rfl, h1⟩ := h
    simp only [step] at hs
    split at hs <;> rename_i ho <;> simp only [Option.some.injEq, Prod.mk.injEq] at hs <;> obtain ⟨rfl, rfl⟩ := hs
    · refine ⟨rfl, ?_⟩
      simp only [Reading, Answers, Coll.AllObjects]
      rw [if_neg h1]
      exact ⟨[], by rw [hr.none ho]; exact List.Perm.refl _, [], .nil, rfl⟩
    · exact ⟨rfl, rfl, h1, ho, [], [], rfl, by simp [amKeys], by simp, .nil, rfl⟩
  | all5 p seen acc =>
    obtain ⟨rfl, h1, ho, bs, vs, rfl, hn, hsub, hf, rfl⟩ := h
    obtain ⟨-, hl, -⟩ := hr.some p ho
    simp only [step] at hs
    split at hs
    · rename_i hall
      simp only [Option.some.injEq, Prod.mk.injEq] at hs
      obtain ⟨rfl, rfl⟩ := hs
      refine ⟨rfl, ?_⟩
      simp only [Reading, Answers, Coll.AllObjects]
      rw [if_neg h1]
      rw [leads_keys hl] at hall
      exact ⟨bs, seen_all hd.keys hn hsub hall, vs, hf, rfl⟩
    · split at hs
      · simp at hs
      · rename_i hk
        split at hs
        · simp at hs
        · rename_i b hb
          simp only [Option.some.injEq, Prod.mk.injEq] at hs
          obtain ⟨rfl, rfl⟩ := hs
          obtain ⟨g1, g2⟩ := seen_more hn hsub hk ((leads_lookup hl k).2 b hb).2
          exact ⟨rfl, rfl, h1, ho, bs, vs, _, [], by simp [amKeys], g1, g2, hf, rfl, rfl,
            by simp [amKeys], by simp, by simp⟩
  | all6 p seen b bseen acc =>
    obtain ⟨rfl, h1, ho, bs, vs, e, v, rfl, hn, hsub, hf, hb, rfl, hvn, hvs, rfl⟩ := h
    simp only [step] at hs
    rw [hb] at hs
    split at hs
    · rename_i hall
      simp only [Option.some.injEq, Prod.mk.injEq] at hs
      obtain ⟨rfl, rfl⟩ := hs
      have hp := seen_all (hd.bkeys e (hsub e (by simp))) hvn hvs hall
      refine ⟨rfl, rfl, h1, ho, bs ++ [e], vs ++ [v], rfl, hn, hsub, ?_, by simp⟩
      exact List.rel_append hf (.cons hp .nil)
    · split at hs
      · simp at hs
      · rename_i hk
        split at hs
        · simp at hs
        · rename_i o hl
          simp only [Option.some.injEq, Prod.mk.injEq] at hs
          obtain ⟨rfl, rfl⟩ := hs
          obtain ⟨g1, g2⟩ := seen_more hvn hvs hk hl
          exact ⟨rfl, rfl, h1, ho, bs, vs, e, v ++ [(k, o)], rfl, hn, hsub, hf, hb, by simp [amKeys], g1, g2,
            by simp⟩
  | type1 plural t =>
    simp only [Reading] at h
    subst h
    simp only [step] at hs
    split at hs <;> rename_i ho <;> simp only [Option.some.injEq, Prod.mk.injEq] at hs <;> obtain ⟨rfl, rfl⟩ := hs
    · exact ⟨rfl, noBucket_reading (by simp [hr.none ho, amLookup])⟩
    · exact ⟨rfl, rfl, ho⟩
  | type2 plural p t =>
    obtain ⟨rfl, ho⟩ := h
    obtain ⟨-, hf, -⟩ := hr.some p ho
    simp only [step] at hs
    split at hs <;> rename_i hl <;> simp only [Option.some.injEq, Prod.mk.injEq] at hs <;> obtain ⟨rfl, rfl⟩ := hs
    · exact ⟨rfl, noBucket_reading ((leads_lookup hf t).1 hl)⟩
    · rename_i b
      refine ⟨rfl, t, by cases plural <;> simp, ((leads_lookup hf t).2 b hl).2, [], rfl, by simp [amKeys],
        by simp, rfl⟩
  | type3 b seen acc =>
    obtain ⟨t, hc, hl, v, rfl, hn, hsub, rfl⟩ := h
    simp only [step] at hs
    split at hs
    · rename_i hall
      simp only [Option.some.injEq, Prod.mk.injEq] at hs
      obtain ⟨rfl, rfl⟩ := hs
      have hp := seen_all (hd.bkeys _ (mem_of_amLookup _ _ _ hl)) hn hsub hall
      have hg : c.GetAll t (some (v.map Prod.snd)) := by
        unfold Coll.GetAll
        rw [hl]
        exact ⟨v, hp, rfl⟩
      refine ⟨rfl, ?_⟩
      rcases hc with rfl | rfl
      · exact hg
      · exact ⟨_, hg, rfl⟩
    · split at hs
      · simp at hs
      · rename_i hk
        split at hs
        · simp at hs
        · rename_i o hlo
          simp only [Option.some.injEq, Prod.mk.injEq] at hs
          obtain ⟨rfl, rfl⟩ := hs
          obtain ⟨g1, g2⟩ := seen_more hn hsub hk hlo
          exact ⟨rfl, t, hc, hl, v ++ [(k, o)], by simp [amKeys], g1, g2, by simp⟩
  | done a => simp [step] at hs
  | panic => simp [step] at hs
  | _ => exact h.elim

/-- A reading call does not write. -/
theorem reading_access {c : Coll α} {m : Mem α} {call : Call α} {pc : PC α} (h : Reading c m call pc)
    {l : Loc} {w : Bool} (ha : access pc = some (l, w)) : w = false := by
  cases pc <;> simp only [access, Option.some.injEq, Prod.mk.injEq, reduceCtorEq] at ha <;>
    first | exact ha.2.symm | exact h.elim

/-! ### Adding -/

/-- The collection with this bucket for the type of the object. -/
def mid (c : Coll α) (o : α) (v : List (Str × α)) : Coll α :=
  { c with objects := amInsert (getType o) v c.objects }

/-- The bucket for the type of the object. -/
def bucketOf (c : Coll α) (o : α) : List (Str × α) := (amLookup (getType o) c.objects).getD []

/-- Where an `Add` is, and how far the memory has got. -/
def Adding (c : Coll α) (m : Mem α) (o : α) : PC α → Prop
  | .add1 x => x = o ∧ hasValidIdentifier (getID o) (getType o) = true ∧ Rep m c
  | .add2 x => x = o ∧ hasValidIdentifier (getID o) (getType o) = true ∧ Rep m c ∧ m.objects = none
  | .add3 x => x = o ∧ hasValidIdentifier (getID o) (getType o) = true ∧ Rep m c ∧ ∃ p, m.objects = some p
  | .add4 x p => x = o ∧ hasValidIdentifier (getID o) (getType o) = true ∧ Rep m c ∧ m.objects = some p
  | .add5 x => x = o ∧ hasValidIdentifier (getID o) (getType o) = true ∧ Rep m c ∧ (∃ p, m.objects = some p) ∧
      amLookup (getType o) c.objects = none
  | .add6 x p b => x = o ∧ hasValidIdentifier (getID o) (getType o) = true ∧ Rep m c ∧ m.objects = some p ∧
      amLookup (getType o) c.objects = none ∧ b < m.buckets.length ∧ m.buckets.getD b [] = [] ∧
      b ∉ (m.outers.getD p []).map Prod.snd
  | .add7 x b => x = o ∧ hasValidIdentifier (getID o) (getType o) = true ∧ Rep m (mid c o (bucketOf c o)) ∧
      ∃ p, m.objects = some p ∧ amLookup (getType o) (m.outers.getD p []) = some b
  | .add8 x b u => x = o ∧ hasValidIdentifier (getID o) (getType o) = true ∧ Rep m (mid c o (bucketOf c o)) ∧
      (∃ p, m.objects = some p ∧ amLookup (getType o) (m.outers.getD p []) = some b) ∧
      u = (amLookup (getID o) (bucketOf c o)).isSome
  | .add9 x u => x = o ∧ hasValidIdentifier (getID o) (getType o) = true ∧
      Rep m (mid c o (amInsert (getID o) o (bucketOf c o))) ∧ u = (amLookup (getID o) (bucketOf c o)).isSome
  | .add10 x => x = o ∧ hasValidIdentifier (getID o) (getType o) = true ∧
      Rep m (mid c o (amInsert (getID o) o (bucketOf c o))) ∧ c.noSort = false ∧
      (amLookup (getID o) (bucketOf c o)).isSome = false
  | .add11 x ord => x = o ∧ hasValidIdentifier (getID o) (getType o) = true ∧
      Rep m (mid c o (amInsert (getID o) o (bucketOf c o))) ∧ c.noSort = false ∧
      (amLookup (getID o) (bucketOf c o)).isSome = false ∧ ord = c.order
  | .done a => Rep m (c.add o).1 ∧ a = .err (c.add o).2
  | _ => False

theorem start_adding {c : Coll α} {m : Mem α} (hr : Rep m c) (o : α) : Adding c m o (start (.add o)) := by
  unfold start
  dsimp only
  split
  · rename_i hv
    simp only [Adding, Coll.add, hv, if_true, and_true]
    exact hr
  · rename_i hv
    exact ⟨rfl, by simpa using hv, hr⟩

theorem add_valid {c : Coll α} {o : α} (hv : hasValidIdentifier (getID o) (getType o) = true) :
    c.add o = (if c.noSort = false ∧ (amLookup (getID o) (bucketOf c o)).isSome = false then
      { mid c o (amInsert (getID o) o (bucketOf c o)) with order := c.order ++ [getID o] }
      else mid c o (amInsert (getID o) o (bucketOf c o)), false) := by
  simp only [Coll.add, hv, Bool.true_eq_false, if_false]
  rfl

/-- A step of `Add` brings the memory further. -/
theorem adding_step {c : Coll α} {m : Mem α} {o : α} {pc : PC α} (h : Adding c m o pc) {k : Str} {m' : Mem α}
    {pc' : PC α} (hs : step k m pc = some (m', pc')) : Adding c m' o pc' := by
  cases pc with
  | add1 x =>
    obtain ⟨rfl, hv, hr⟩ := h
    simp only [step, Option.some.injEq, Prod.mk.injEq] at hs
    obtain ⟨rfl, rfl⟩ := hs
    split <;> rename_i ho
    · exact ⟨rfl, hv, hr, ho⟩
    · exact ⟨rfl, hv, hr, Option.ne_none_iff_exists'.1 ho⟩
  | add2 x =>
    obtain ⟨rfl, hv, hr, ho⟩ := h
    simp only [step, Option.some.injEq, Prod.mk.injEq] at hs
    obtain ⟨rfl, rfl⟩ := hs
    refine ⟨rfl, hv, ⟨hr.noSort, hr.order, by simp, ?_⟩, _, rfl⟩
    intro p hp
    simp only [Option.some.injEq] at hp
    subst hp
    simp [hr.none ho]
  | add3 x =>
    obtain ⟨rfl, hv, hr, p, ho⟩ := h
    simp only [step, ho, Option.some.injEq, Prod.mk.injEq] at hs
    obtain ⟨rfl, rfl⟩ := hs
    exact ⟨rfl, hv, hr, ho⟩
  | add4 x p =>
    obtain ⟨rfl, hv, hr, ho⟩ := h
    obtain ⟨-, hf, -⟩ := hr.some p ho
    simp only [step] at hs
    split at hs <;> rename_i hl <;> simp only [Option.some.injEq, Prod.mk.injEq] at hs <;> obtain ⟨rfl, rfl⟩ := hs
    · exact ⟨rfl, hv, hr, ⟨p, ho⟩, (leads_lookup hf _).1 hl⟩
    · rename_i b
      have hl' := ((leads_lookup hf _).2 b hl).2
      refine ⟨rfl, hv, ?_, p, ho, hl⟩
      have : mid c x (bucketOf c x) = c := by
        rw [mid, bucketOf, hl', Option.getD_some, insert_same _ _ _ hl']
      rwa [this]
  | add5 x =>
    obtain ⟨rfl, hv, hr, ⟨p, ho⟩, hl⟩ := h
    obtain ⟨hp, hf, hn⟩ := hr.some p ho
    simp only [step, ho, Option.some.injEq, Prod.mk.injEq] at hs
    obtain ⟨rfl, rfl⟩ := hs
    refine ⟨rfl, hv, ⟨hr.noSort, hr.order, by simp, ?_⟩, rfl, hl, by simp, by simp, ?_⟩
    · intro q hq
      have : q = p := by simpa using hq.symm
      subst this
      exact ⟨hp, leads_make hf, hn⟩
    · intro hb
      exact absurd (leads_lt hf _ hb) (by omega)
  | add6 x p b =>
    obtain ⟨rfl, hv, hr, ho, hl, hb, hb0, hbn⟩ := h
    obtain ⟨hp, hf, hn⟩ := hr.some p ho
    simp only [step, Option.some.injEq, Prod.mk.injEq] at hs
    obtain ⟨rfl, rfl⟩ := hs
    have hlo : amLookup (getType x) (m.outers.getD p []) = none := by
      rw [amLookup_eq_none_iff] at hl ⊢
      rwa [leads_keys hf]
    have hset : (m.outers.set p (amInsert (getType x) b (m.outers.getD p []))).getD p [] =
        m.outers.getD p [] ++ [(getType x, b)] := by
      rw [← insert_fresh _ _ _ hlo]
      simp [List.getD_eq_getElem?_getD, List.getElem?_set_self hp]
    refine ⟨rfl, hv, ⟨hr.noSort, hr.order, by simp [ho], ?_⟩, p, ho, ?_⟩
    · intro q hq
      have : q = p := by simpa [ho] using hq.symm
      subst this
      refine ⟨by simpa using hp, ?_, ?_⟩
      · simp only [hset, mid, bucketOf, hl, Option.getD_none]
        rw [insert_fresh _ _ _ hl]
        exact List.rel_append hf (.cons ⟨rfl, hb, hb0⟩ .nil)
      · simp only [hset, List.map_append, List.map_cons, List.map_nil]
        rw [List.nodup_append]
        refine ⟨hn, by simp, ?_⟩
        rintro y hy z hz rfl
        simp only [List.mem_singleton] at hz
        exact hbn (hz ▸ hy)
    · simp only [hset]
      rw [← insert_fresh _ _ _ hlo, amLookup_insert]
      simp
  | add7 x b =>
    obtain ⟨rfl, hv, hr, p, ho, hl⟩ := h
    simp only [step, Option.some.injEq, Prod.mk.injEq] at hs
    obtain ⟨rfl, rfl⟩ := hs
    refine ⟨rfl, hv, hr, ⟨p, ho, hl⟩, ?_⟩
    have := ((leads_lookup (hr.some p ho).2.1 _).2 b hl).2
    simp only [mid, amLookup_insert, if_true, Option.some.injEq] at this
    rw [← this]
  | add8 x b u =>
    obtain ⟨rfl, hv, hr, ⟨p, ho, hl⟩, rfl⟩ := h
    obtain ⟨hp, hf, hn⟩ := hr.some p ho
    simp only [step, Option.some.injEq, Prod.mk.injEq] at hs
    obtain ⟨rfl, rfl⟩ := hs
    have hb := ((leads_lookup hf _).2 b hl).2
    simp only [mid, amLookup_insert, if_true, Option.some.injEq] at hb
    refine ⟨rfl, hv, ⟨hr.noSort, hr.order, by simp [ho], ?_⟩, rfl⟩
    intro q hq
    have : q = p := by simpa [ho] using hq.symm
    subst this
    refine ⟨hp, ?_, hn⟩
    have := leads_write hf hn hl (amInsert (getID x) x (m.buckets.getD b []))
    simp only [mid, insert_twice] at this ⊢
    rw [← hb] at this ⊢
    exact this
  | add9 x u =>
    obtain ⟨rfl, hv, hr, rfl⟩ := h
    simp only [step, Option.some.injEq, Prod.mk.injEq] at hs
    obtain ⟨rfl, rfl⟩ := hs
    have hn : m.noSort = c.noSort := hr.noSort
    rw [hn]
    split <;> rename_i hc
    · exact ⟨rfl, hv, hr, hc⟩
    · simp only [Adding]
      rw [add_valid hv, if_neg hc]
      exact ⟨hr, rfl⟩
  | add10 x =>
    obtain ⟨rfl, hv, hr, h1, h2⟩ := h
    simp only [step, Option.some.injEq, Prod.mk.injEq] at hs
    obtain ⟨rfl, rfl⟩ := hs
    exact ⟨rfl, hv, hr, h1, h2, hr.order⟩
  | add11 x ord =>
    obtain ⟨rfl, hv, hr, h1, h2, rfl⟩ := h
    simp only [step, Option.some.injEq, Prod.mk.injEq] at hs
    obtain ⟨rfl, rfl⟩ := hs
    simp only [Adding]
    rw [add_valid hv, if_pos ⟨h1, h2⟩]
    exact ⟨⟨hr.noSort, rfl, hr.none, hr.some⟩, rfl⟩
  | done a => simp [step] at hs
  | panic => simp [step] at hs
  | _ => exact h.elim

/-- There is a next step unless the call has returned or panicked. -/
theorem step_exists (m : Mem α) (pc : PC α) (h1 : ∀ a, pc ≠ .done a) (h2 : pc ≠ .panic) :
    ∃ k m' pc', step k m pc = some (m', pc') := by
  have pick : ∀ {β} (l : List (Str × β)) (seen : List Str), (¬ ∀ x ∈ amKeys l, x ∈ seen) →
      ∃ k v, k ∉ seen ∧ amLookup k l = some v := by
    intro β l seen h
    push Not at h
    obtain ⟨k, hk, hs⟩ := h
    cases hl : amLookup k l with
    | none => exact absurd hk ((amLookup_eq_none_iff k l).1 hl)
    | some v => exact ⟨k, v, hs, hl⟩
  cases pc with
  | done a => exact absurd rfl (h1 a)
  | panic => exact absurd rfl h2
  | all5 p seen acc =>
    by_cases hc : ∀ x ∈ amKeys (m.outers.getD p []), x ∈ seen
    · exact ⟨[], m, _, by simp only [step]; rw [if_pos hc]⟩
    · obtain ⟨k, v, hk, hl⟩ := pick _ _ hc
      exact ⟨k, m, _, by simp only [step]; rw [if_neg hc, if_neg hk, hl]⟩
  | all6 p seen b bseen acc =>
    by_cases hc : ∀ x ∈ amKeys (m.buckets.getD b []), x ∈ bseen
    · exact ⟨[], m, _, by simp only [step]; rw [if_pos hc]⟩
    · obtain ⟨k, v, hk, hl⟩ := pick _ _ hc
      exact ⟨k, m, _, by simp only [step]; rw [if_neg hc, if_neg hk, hl]⟩
  | type3 b seen acc =>
    by_cases hc : ∀ x ∈ amKeys (m.buckets.getD b []), x ∈ seen
    · exact ⟨[], m, _, by simp only [step]; rw [if_pos hc]⟩
    · obtain ⟨k, v, hk, hl⟩ := pick _ _ hc
      exact ⟨k, m, _, by simp only [step]; rw [if_neg hc, if_neg hk, hl]⟩
  | _ =>
    simp only [step]
    first
      | exact ⟨[], _, _, rfl⟩
      | (split <;> exact ⟨[], _, _, rfl⟩)

end Stix.Sched
