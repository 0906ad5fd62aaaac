import Verif.Lemmas.Sched
import Verif.Props.Collection

/-!
# Goroutines that use one collection: C81
-/

namespace Stix
open Spec StixObject Sched

variable {α : Type} [StixObject α]

theorem addAll_snoc' (c : Coll α) (h : List α) (o : α) : c.addAll (h ++ [o]) = ((c.addAll h).add o).1 := by
  simp [Coll.addAll]

omit [StixObject α] in
theorem added_append (l : List (Nat × Call α × Ans α)) (i : Nat) (c : Call α) (a : Ans α) :
    added (l ++ [(i, c, a)]) = added l ++ (match c with | .add o => [o] | _ => []) := by
  cases c <;> simp [added]

omit [StixObject α] in
theorem returned_append (j : Nat) (l : List (Nat × Call α × Ans α)) (i : Nat) (c : Call α) (a : Ans α) :
    returned j (l ++ [(i, c, a)]) = returned j l ++ (if i = j then [c] else []) := by
  by_cases h : i = j <;> simp [returned, h]

/-- What holds at every moment of a run without overlaps. -/
structure SysInv (ns : Bool) (calls : List (List (Call α))) (s : Sys α) : Prop where
  apart : ¬ Overlap s
  rep : (∀ i o, ¬ Busy s i (.add o)) → Rep s.mem ((Coll.new ns).addAll (added s.log))
  adds : ∀ (i : Nat) (o : α) (pc : PC α) (t : List (Call α)), s.threads[i]? = some ⟨some (.add o, pc), t⟩ →
    Adding ((Coll.new ns).addAll (added s.log)) s.mem o pc
  reads : ∀ (i : Nat) (c : Call α) (pc : PC α) (t : List (Call α)), c.writes = false → s.threads[i]? = some ⟨some (c, pc), t⟩ →
    Reading ((Coll.new ns).addAll (added s.log)) s.mem c pc
  past : OneByOne ns s.log
  programs : ∀ (i : Nat) (l : List (Call α)), calls[i]? = some l → ∃ t, s.threads[i]? = some t ∧
    l = returned i s.log ++ t.now.toList.map Prod.fst ++ t.todo

theorem sysInv_init (ns : Bool) (calls : List (List (Call α))) : SysInv ns calls (Sys.init ns calls) where
  apart := by
    rintro ⟨i, j, o, c, -, ⟨pc, t, h⟩, -⟩
    simp only [Sys.init, List.getElem?_map, Option.map_eq_some_iff] at h
    obtain ⟨l, -, h⟩ := h
    cases h
  rep := fun _ => ⟨rfl, rfl, fun _ => rfl, by simp [Sys.init]⟩
  adds := by
    intro i o pc t h
    simp only [Sys.init, List.getElem?_map, Option.map_eq_some_iff] at h
    obtain ⟨l, -, h⟩ := h
    cases h
  reads := by
    intro i c pc t _ h
    simp only [Sys.init, List.getElem?_map, Option.map_eq_some_iff] at h
    obtain ⟨l, -, h⟩ := h
    cases h
  past := by
    intro before i c a after h
    simp [Sys.init] at h
  programs := by
    intro i l h
    refine ⟨{ todo := l }, ?_, ?_⟩
    · simp [Sys.init, h]
    · simp [Sys.init, returned]

theorem distinct_addAll (ns : Bool) (h : List α) : Distinct ((Coll.new ns).addAll h) :=
  ⟨(collInv_addAll ns h).keys, (collInv_addAll ns h).bkeys⟩

/-- The thread that took the step has changed, the others have not. -/
theorem get_set {β} {l : List β} {i j : Nat} {x y z : β} (hi : l[i]? = some z)
    (h : (l.set i x)[j]? = some y) : (j = i ∧ y = x) ∨ (j ≠ i ∧ l[j]? = some y) := by
  by_cases e : j = i
  · subst e
    have hl : j < l.length := by
      rw [List.getElem?_eq_some_iff] at hi; exact hi.1
    rw [List.getElem?_set_self hl] at h
    exact .inl ⟨rfl, (Option.some.inj h).symm⟩
  · rw [List.getElem?_set_ne (Ne.symm e)] at h
    exact .inr ⟨e, h⟩

theorem programs_step {ns : Bool} {calls : List (List (Call α))} {s : Sys α} (inv : SysInv ns calls s)
    {i : Nat} {t t' : Thread α} (hi : s.threads[i]? = some t) (log : List (Nat × Call α × Ans α))
    (ht : returned i log ++ t'.now.toList.map Prod.fst ++ t'.todo =
      returned i s.log ++ t.now.toList.map Prod.fst ++ t.todo)
    (hl : ∀ j, j ≠ i → returned j log = returned j s.log) (j : Nat) (l : List (Call α)) (hj : calls[j]? = some l) :
    ∃ u, (s.threads.set i t')[j]? = some u ∧ l = returned j log ++ u.now.toList.map Prod.fst ++ u.todo := by
  obtain ⟨u, hu, rfl⟩ := inv.programs j l hj
  by_cases e : j = i
  · subst e
    have hlt : j < s.threads.length := by
      rw [List.getElem?_eq_some_iff] at hi; exact hi.1
    rw [hi] at hu
    cases hu
    exact ⟨t', by rw [List.getElem?_set_self hlt], ht.symm⟩
  · exact ⟨u, by rw [List.getElem?_set_ne (Ne.symm e)]; exact hu, by rw [hl j e]⟩

theorem oneByOne_snoc {ns : Bool} {log : List (Nat × Call α × Ans α)} (h : OneByOne ns log) {i : Nat}
    {c : Call α} {a : Ans α} (ha : Answers ((Coll.new ns).addAll (added log)) c a) :
    OneByOne ns (log ++ [(i, c, a)]) := by
  intro before j c' a' after e
  rcases List.append_eq_append_iff.1 e with ⟨z, hz, hz'⟩ | ⟨z, hz, hz'⟩
  · cases z with
    | nil =>
      simp only [List.nil_append, List.cons.injEq, Prod.mk.injEq] at hz'
      obtain ⟨⟨rfl, rfl, rfl⟩, -⟩ := hz'
      simp only [List.append_nil] at hz
      rwa [hz]
    | cons x z => simp at hz'
  · cases z with
    | nil =>
      simp only [List.nil_append, List.cons.injEq, Prod.mk.injEq] at hz'
      obtain ⟨⟨rfl, rfl, rfl⟩, -⟩ := hz'
      simp only [List.append_nil] at hz
      rwa [← hz]
    | cons x z =>
      simp only [List.cons_append, List.cons.injEq] at hz'
      obtain ⟨rfl, -⟩ := hz'
      exact h before j c' a' z hz

theorem sysInv_step {ns : Bool} {calls : List (List (Call α))} {s s' : Sys α} (inv : SysInv ns calls s)
    {i : Nat} {k : Str} (hs : s.step i k = some s') (ho : ¬ Overlap s') : SysInv ns calls s' := by
  unfold Sys.step at hs
  split at hs
  · simp at hs
  · simp at hs
  · -- a call begins
    rename_i c cs hi
    simp only [Option.some.injEq] at hs
    subst hs
    have hlt : i < s.threads.length := by rw [List.getElem?_eq_some_iff] at hi; exact hi.1
    have hbusy : Busy { s with threads := s.threads.set i ⟨some (c, start c), cs⟩ } i c :=
      ⟨_, _, List.getElem?_set_self hlt⟩
    have hfree : ∀ o, c = .add o → ∀ j o', ¬ Busy s j (.add o') := by
      rintro o rfl j o' ⟨pc, t, hj⟩
      have hne : i ≠ j := by
        rintro rfl
        rw [hi] at hj
        cases hj
      exact ho ⟨i, j, o, .add o', hne, hbusy, pc, t, by rw [List.getElem?_set_ne hne]; exact hj⟩
    refine ⟨ho, fun hn => ?_, fun j o pc t hj => ?_, fun j c' pc t hw hj => ?_, inv.past,
      programs_step inv hi s.log (by simp) (fun _ _ => rfl)⟩
    · refine inv.rep fun j o hb => hn j o ?_
      obtain ⟨pc, t, hj⟩ := hb
      have hne : i ≠ j := by
        rintro rfl
        rw [hi] at hj
        cases hj
      exact ⟨pc, t, by rw [List.getElem?_set_ne hne]; exact hj⟩
    · rcases get_set hi hj with ⟨rfl, e⟩ | ⟨-, hj⟩
      · simp only [Thread.mk.injEq, Option.some.injEq, Prod.mk.injEq] at e
        obtain ⟨⟨rfl, rfl⟩, rfl⟩ := e
        exact start_adding (inv.rep (hfree o rfl)) o
      · exact inv.adds j o pc t hj
    · rcases get_set hi hj with ⟨rfl, e⟩ | ⟨-, hj⟩
      · simp only [Thread.mk.injEq, Option.some.injEq, Prod.mk.injEq] at e
        obtain ⟨⟨rfl, rfl⟩, rfl⟩ := e
        exact start_reading _ _ _ hw
      · exact inv.reads j c' pc t hw hj
  · -- a call returns
    rename_i c a cs hi
    simp only [Option.some.injEq] at hs
    subst hs
    have hans : Answers ((Coll.new ns).addAll (added s.log)) c a := by
      cases hc : c.writes with
      | false => exact inv.reads i c _ _ hc hi
      | true =>
        cases c with
        | add o =>
          obtain ⟨-, rfl⟩ := inv.adds i o _ _ hi
          exact rfl
        | _ => simp [Call.writes] at hc
    have hprog := programs_step (t' := ⟨none, cs⟩) inv hi (s.log ++ [(i, c, a)])
      (by simp [returned_append]) (fun j hj => by simp [returned_append, Ne.symm hj])
    cases hc : c.writes with
    | false =>
      have hadd : added (s.log ++ [(i, c, a)]) = added s.log := by
        rw [added_append]
        cases c <;> simp_all [Call.writes]
      refine ⟨ho, fun hn => ?_, fun j o pc t hj => ?_, fun j c' pc t hw hj => ?_,
        oneByOne_snoc inv.past hans, hprog⟩
      · simp only [hadd]
        refine inv.rep fun j o hb => hn j o ?_
        obtain ⟨pc, t, hj⟩ := hb
        have hne : i ≠ j := by
          rintro rfl
          rw [hi] at hj
          cases hj
          simp [Call.writes] at hc
        exact ⟨pc, t, by rw [List.getElem?_set_ne hne]; exact hj⟩
      · rcases get_set hi hj with ⟨rfl, e⟩ | ⟨-, hj⟩
        · cases e
        · simp only [hadd]
          exact inv.adds j o pc t hj
      · rcases get_set hi hj with ⟨rfl, e⟩ | ⟨-, hj⟩
        · cases e
        · simp only [hadd]
          exact inv.reads j c' pc t hw hj
    | true =>
      cases c with
      | add o =>
        have hidle : ∀ (j : Nat) c' pc t, s.threads[j]? = some ⟨some (c', pc), t⟩ → j = i := by
          intro j c' pc t hj
          by_contra hne
          exact inv.apart ⟨i, j, o, c', Ne.symm hne, ⟨_, _, hi⟩, ⟨_, _, hj⟩⟩
        have hnone : ∀ (j : Nat) c' pc t, (s.threads.set i ⟨none, cs⟩)[j]? ≠ some ⟨some (c', pc), t⟩ := by
          intro j c' pc t hj
          rcases get_set hi hj with ⟨rfl, e⟩ | ⟨hne, hj⟩
          · cases e
          · exact hne (hidle j c' pc t hj)
        refine ⟨ho, fun _ => ?_, fun j o pc t hj => absurd hj (hnone _ _ _ _),
          fun j c' pc t _ hj => absurd hj (hnone _ _ _ _), oneByOne_snoc inv.past hans, hprog⟩
        simp only [added_append]
        rw [addAll_snoc']
        exact (inv.adds i o _ _ hi).1
      | _ => simp [Call.writes] at hc
  · -- a step within a call
    rename_i c pc cs hnd hi
    split at hs
    · simp at hs
    · rename_i m' pc' hst
      simp only [Option.some.injEq] at hs
      subst hs
      have hprog := programs_step (t' := ⟨some (c, pc'), cs⟩) inv hi s.log (by simp) (fun _ _ => rfl)
      have hlt : i < s.threads.length := by rw [List.getElem?_eq_some_iff] at hi; exact hi.1
      cases hc : c.writes with
      | false =>
        have hnow : ∀ j o, ¬ Busy s j (.add o) := by
          rintro j o ⟨pc, t, hj⟩
          refine inv.apart ⟨j, i, o, c, ?_, ⟨pc, t, hj⟩, ⟨_, _, hi⟩⟩
          rintro rfl
          rw [hi] at hj
          cases hj
          simp [Call.writes] at hc
        have hrep := inv.rep hnow
        obtain ⟨rfl, hread⟩ := reading_step hrep (distinct_addAll ns _) (inv.reads i c pc cs hc hi) hst
        refine ⟨ho, fun _ => hrep, fun j o pc t hj => ?_, fun j c' pc t hw hj => ?_, inv.past, hprog⟩
        · rcases get_set hi hj with ⟨rfl, e⟩ | ⟨-, hj⟩
          · simp only [Thread.mk.injEq, Option.some.injEq, Prod.mk.injEq] at e
            obtain ⟨⟨rfl, rfl⟩, rfl⟩ := e
            simp [Call.writes] at hc
          · exact absurd ⟨pc, t, hj⟩ (hnow j o)
        · rcases get_set hi hj with ⟨rfl, e⟩ | ⟨-, hj⟩
          · simp only [Thread.mk.injEq, Option.some.injEq, Prod.mk.injEq] at e
            obtain ⟨⟨rfl, rfl⟩, rfl⟩ := e
            exact hread
          · exact inv.reads j c' pc t hw hj
      | true =>
        cases c with
        | add o =>
          have hidle : ∀ (j : Nat) c' pc t, s.threads[j]? = some ⟨some (c', pc), t⟩ → j = i := by
            intro j c' pc t hj
            by_contra hne
            exact inv.apart ⟨i, j, o, c', Ne.symm hne, ⟨_, _, hi⟩, ⟨_, _, hj⟩⟩
          have hadd := adding_step (inv.adds i o pc cs hi) hst
          refine ⟨ho, fun hn => ?_, fun j o' pc t hj => ?_, fun j c' pc t hw hj => ?_, inv.past, hprog⟩
          · exact absurd ⟨_, _, List.getElem?_set_self hlt⟩ (hn i o)
          · rcases get_set hi hj with ⟨rfl, e⟩ | ⟨hne, hj⟩
            · simp only [Thread.mk.injEq, Option.some.injEq, Prod.mk.injEq, Call.add.injEq] at e
              obtain ⟨⟨rfl, rfl⟩, rfl⟩ := e
              exact hadd
            · exact absurd (hidle _ _ _ _ hj) hne
          · rcases get_set hi hj with ⟨rfl, e⟩ | ⟨hne, hj⟩
            · simp only [Thread.mk.injEq, Option.some.injEq, Prod.mk.injEq] at e
              obtain ⟨⟨rfl, rfl⟩, rfl⟩ := e
              simp [Call.writes] at hw
            · exact absurd (hidle _ _ _ _ hj) hne
        | _ => simp [Call.writes] at hc

theorem sysInv_guarded {ns : Bool} {calls : List (List (Call α))} {s : Sys α}
    (h : Guarded (Sys.init ns calls) s) : SysInv ns calls s := by
  induction h with
  | refl => exact sysInv_init ns calls
  | step i k _ hs ho ih => exact sysInv_step ih hs ho

/-- **C81.** As long as no `Add` overlaps another call, what all calls have returned is what they
return when they are made one after the other, in the order in which they returned, and each goroutine
has made its calls in its order. -/
theorem c81_one_by_one (ns : Bool) (calls : List (List (Call α))) (s : Sys α)
    (h : Guarded (Sys.init ns calls) s) :
    OneByOne ns s.log ∧ ∀ (i : Nat) l, calls[i]? = some l → ∃ t, s.threads[i]? = some t ∧
      l = returned i s.log ++ t.now.toList.map Prod.fst ++ t.todo :=
  ⟨(sysInv_guarded h).past, (sysInv_guarded h).programs⟩

/-- **C81.** There is no data race then. -/
theorem c81_no_race (ns : Bool) (calls : List (List (Call α))) (s : Sys α)
    (h : Guarded (Sys.init ns calls) s) : ¬ Race s := by
  have inv := sysInv_guarded h
  rintro ⟨i, j, c, c', pc, pc', t, t', l, w, w', hne, hi, hj, ha, ha', hw⟩
  have hc : c.writes = false := by
    cases c with
    | add o => exact absurd ⟨i, j, o, c', hne, ⟨_, _, hi⟩, ⟨_, _, hj⟩⟩ inv.apart
    | _ => rfl
  have hc' : c'.writes = false := by
    cases c' with
    | add o => exact absurd ⟨j, i, o, c, Ne.symm hne, ⟨_, _, hj⟩, ⟨_, _, hi⟩⟩ inv.apart
    | _ => rfl
  have h1 := reading_access (inv.reads i c pc t hc hi) ha
  have h2 := reading_access (inv.reads j c' pc' t' hc' hj) ha'
  simp [h1, h2] at hw

/-- **C81.** No call panics or waits for another: a goroutine in the middle of a call can go on. -/
theorem c81_goes_on (ns : Bool) (calls : List (List (Call α))) (s : Sys α)
    (h : Guarded (Sys.init ns calls) s) (i : Nat) (c : Call α) (hb : Busy s i c) :
    ∃ k s', s.step i k = some s' := by
  have inv := sysInv_guarded h
  obtain ⟨pc, t, hi⟩ := hb
  have hp : pc ≠ .panic := by
    rintro rfl
    cases hc : c.writes with
    | false => exact (inv.reads i c _ _ hc hi).elim
    | true =>
      cases c with
      | add o => exact (inv.adds i o _ _ hi).elim
      | _ => simp [Call.writes] at hc
  by_cases hd : ∃ a, pc = .done a
  · obtain ⟨a, rfl⟩ := hd
    exact ⟨[], _, by unfold Sys.step; rw [hi]⟩
  · obtain ⟨k, m', pc', hst⟩ := step_exists s.mem pc (fun a e => hd ⟨a, e⟩) hp
    refine ⟨k, { s with mem := m', threads := s.threads.set i { now := some (c, pc'), todo := t } }, ?_⟩
    unfold Sys.step
    rw [hi]
    cases pc <;> first | exact absurd ⟨_, rfl⟩ hd | simp only [hst]

/-- **C81.** Reading needs no lock: once the calls of `Add` have returned, and all calls still to be
made are others, every run is one without overlaps. -/
theorem c81_readers (s0 s1 s : Sys α) (h : Guarded s0 s1)
    (hnow : ∀ i o, ¬ Busy s1 i (.add o))
    (htodo : ∀ (i : Nat) (t : Thread α), s1.threads[i]? = some t → ∀ c ∈ t.todo, c.writes = false) (hr : Run s1 s) :
    Guarded s0 s := by
  suffices g : Guarded s0 s ∧ (∀ i o, ¬ Busy s i (.add o)) ∧
      ∀ (i : Nat) (t : Thread α), s.threads[i]? = some t → ∀ c ∈ t.todo, c.writes = false from g.1
  induction hr with
  | refl => exact ⟨h, hnow, htodo⟩
  | @step s2 s3 i k _ hs ih =>
    obtain ⟨g1, g2, g3⟩ := ih
    have key : (∀ i o, ¬ Busy s3 i (.add o)) ∧
        ∀ (i : Nat) (t : Thread α), s3.threads[i]? = some t → ∀ c ∈ t.todo, c.writes = false := by
      unfold Sys.step at hs
      split at hs
      · simp at hs
      · simp at hs
      · rename_i c cs hi
        simp only [Option.some.injEq] at hs
        subst hs
        constructor
        · rintro j o ⟨pc, t, hj⟩
          rcases get_set hi hj with ⟨rfl, e⟩ | ⟨-, hj⟩
          · simp only [Thread.mk.injEq, Option.some.injEq, Prod.mk.injEq] at e
            obtain ⟨⟨rfl, rfl⟩, rfl⟩ := e
            have := g3 j _ hi (.add o) (by simp)
            simp [Call.writes] at this
          · exact g2 j o ⟨pc, t, hj⟩
        · intro j t hj
          rcases get_set hi hj with ⟨rfl, rfl⟩ | ⟨-, hj⟩
          · intro c' hc'
            exact g3 j _ hi c' (by simp only at hc'; simp [hc'])
          · exact g3 j t hj
      · rename_i c a cs hi
        simp only [Option.some.injEq] at hs
        subst hs
        constructor
        · rintro j o ⟨pc, t, hj⟩
          rcases get_set hi hj with ⟨rfl, e⟩ | ⟨-, hj⟩
          · cases e
          · exact g2 j o ⟨pc, t, hj⟩
        · intro j t hj
          rcases get_set hi hj with ⟨rfl, rfl⟩ | ⟨-, hj⟩
          · exact g3 j ⟨some (c, .done a), cs⟩ hi
          · exact g3 j t hj
      · rename_i c pc cs hnd hi
        split at hs
        · simp at hs
        · simp only [Option.some.injEq] at hs
          subst hs
          constructor
          · rintro j o ⟨pc, t, hj⟩
            rcases get_set hi hj with ⟨rfl, e⟩ | ⟨-, hj⟩
            · simp only [Thread.mk.injEq, Option.some.injEq, Prod.mk.injEq] at e
              obtain ⟨⟨rfl, rfl⟩, rfl⟩ := e
              exact g2 j o ⟨_, _, hi⟩
            · exact g2 j o ⟨pc, t, hj⟩
          · intro j t hj
            rcases get_set hi hj with ⟨rfl, rfl⟩ | ⟨-, hj⟩
            · exact g3 j ⟨some (c, pc), cs⟩ hi
            · exact g3 j t hj
    refine ⟨.step i k g1 hs ?_, key⟩
    rintro ⟨i, j, o, c, -, hb, -⟩
    exact key.1 i o hb

/-! ### With a lock -/

/-- The goroutine is in the middle of an `Add`. -/
def addsNow (t : Thread α) : Bool := match t.now with
  | some (c, _) => c.writes
  | none => false

/-- The goroutine is in the middle of another call. -/
def readsNow (t : Thread α) : Bool := match t.now with
  | some (c, _) => !c.writes
  | none => false

/-- What the lock counts. -/
structure LockInv (s : Locked α) : Prop where
  readers : s.readers = s.sys.threads.countP readsNow
  writer : s.writer = true → s.sys.threads.countP addsNow = 1 ∧ s.sys.threads.countP readsNow = 0
  free : s.writer = false → s.sys.threads.countP addsNow = 0

omit [StixObject α] in
theorem count_set (p : Thread α → Bool) {l : List (Thread α)} {i : Nat} {t t' : Thread α} (h : l[i]? = some t) :
    (l.set i t').countP p + (if p t then 1 else 0) = l.countP p + if p t' then 1 else 0 := by
  obtain ⟨hl, rfl⟩ := List.getElem?_eq_some_iff.1 h
  rw [List.countP_set hl]
  have : p l[i] = true → 0 < l.countP p := fun hp => List.countP_pos_iff.2 ⟨_, List.getElem_mem hl, hp⟩
  split <;> split <;> simp_all

omit [StixObject α] in
theorem lockInv_apart {s : Locked α} (inv : LockInv s) : ¬ Overlap s.sys := by
  rintro ⟨i, j, o, c, hne, ⟨pc, t, hi⟩, ⟨pc', t', hj⟩⟩
  have ha : 0 < s.sys.threads.countP addsNow :=
    List.countP_pos_iff.2 ⟨_, List.mem_of_getElem? hi, rfl⟩
  have hw : s.writer = true := by
    by_contra hw
    have := inv.free (by simpa using hw)
    omega
  obtain ⟨h1, h2⟩ := inv.writer hw
  cases hc : c.writes with
  | false =>
    have : 0 < s.sys.threads.countP readsNow :=
      List.countP_pos_iff.2 ⟨_, List.mem_of_getElem? hj, by simp [readsNow, hc]⟩
    omega
  | true =>
    have hset := count_set addsNow (t' := ⟨none, []⟩) hi
    have hj' : (s.sys.threads.set i ⟨none, []⟩)[j]? = some ⟨some (c, pc'), t'⟩ := by
      rw [List.getElem?_set_ne hne]; exact hj
    have : 0 < (s.sys.threads.set i ⟨none, []⟩).countP addsNow :=
      List.countP_pos_iff.2 ⟨_, List.mem_of_getElem? hj', by simp [addsNow, hc]⟩
    simp [addsNow, Call.writes] at hset
    omega

theorem lockInv_step {s s' : Locked α} (inv : LockInv s) {i : Nat} {k : Str} (hs : s.step i k = some s') :
    LockInv s' ∧ s.sys.step i k = some s'.sys := by
  simp only [Locked.step, Option.bind_eq_some_iff] at hs
  obtain ⟨sys, h1, h2⟩ := hs
  have h1' := h1
  unfold Sys.step at h1
  split at h1
  · simp at h1
  · simp at h1
  · rename_i c cs hi
    simp only [Option.some.injEq] at h1
    rw [hi] at h2
    simp only at h2
    have ca := count_set addsNow (t' := ⟨some (c, start c), cs⟩) hi
    have cr := count_set readsNow (t' := ⟨some (c, start c), cs⟩) hi
    simp only [addsNow, readsNow, Bool.false_eq_true, if_false, Nat.add_zero] at ca cr
    split at h2 <;> rename_i hc
    · split at h2
      · rename_i hf
        simp only [Option.some.injEq] at h2
        subst h2 h1
        have e1 := inv.free hf.1
        have e2 := inv.readers
        rw [hf.2] at e2
        simp only [hc, if_true, Bool.not_true, Bool.false_eq_true, if_false] at ca cr
        refine ⟨⟨?_, fun _ => ⟨?_, ?_⟩, by simp⟩, h1'⟩
        · simpa using e2.trans cr.symm
        · simpa [e1] using ca
        · simpa [← e2] using cr
      · simp at h2
    · split at h2
      · rename_i hf
        simp only [Option.some.injEq] at h2
        subst h2 h1
        simp only [Bool.not_eq_true] at hc
        simp only [hc, Bool.not_false, if_true, Bool.false_eq_true, if_false] at ca cr
        refine ⟨⟨?_, by simp, fun _ => ?_⟩, h1'⟩
        · exact (congrArg (· + 1) inv.readers).trans cr.symm
        · exact ca.trans (inv.free hf)
      · simp at h2
  · rename_i c a cs hi
    simp only [Option.some.injEq] at h1
    rw [hi] at h2
    simp only at h2
    have ca := count_set addsNow (t' := ⟨none, cs⟩) hi
    have cr := count_set readsNow (t' := ⟨none, cs⟩) hi
    simp only [addsNow, readsNow, Bool.false_eq_true, if_false, Nat.add_zero] at ca cr
    split at h2 <;> rename_i hc <;> simp only [Option.some.injEq] at h2 <;> subst h2 h1
    · simp only [hc, if_true, Bool.not_true, Bool.false_eq_true, if_false] at ca cr
      have hw : s.writer = true := by
        by_contra hw
        have h0 := inv.free (by simpa using hw)
        omega
      obtain ⟨e1, e2⟩ := inv.writer hw
      refine ⟨⟨?_, by simp, fun _ => ?_⟩, h1'⟩
      · exact inv.readers.trans cr.symm
      · simp only
        omega
    · simp only [Bool.not_eq_true] at hc
      simp only [hc, Bool.not_false, if_true, Bool.false_eq_true, if_false] at ca cr
      have e := inv.readers
      refine ⟨⟨?_, fun hw => ?_, fun hw => ?_⟩, h1'⟩
      · simp only
        omega
      · have := (inv.writer hw).2
        simp only
        omega
      · exact ca.trans (inv.free hw)
  · rename_i c pc cs hnd hi
    split at h1
    · simp at h1
    · rename_i m' pc' hst
      simp only [Option.some.injEq] at h1
      have h2' : s' = { s with sys := sys } := by
        rw [hi] at h2
        split at h2
        · rename_i e; cases e
        · rename_i c' a cs' e
          cases e
          exact absurd rfl (hnd a)
        · simpa using h2.symm
      subst h2' h1
      have ca := count_set addsNow (t' := ⟨some (c, pc'), cs⟩) hi
      have cr := count_set readsNow (t' := ⟨some (c, pc'), cs⟩) hi
      simp only [addsNow, readsNow] at ca cr
      replace ca := Nat.add_right_cancel ca
      replace cr := Nat.add_right_cancel cr
      exact ⟨⟨inv.readers.trans cr.symm, fun hw => ⟨ca.trans (inv.writer hw).1, cr.trans (inv.writer hw).2⟩,
        fun hw => ca.trans (inv.free hw)⟩, h1'⟩

omit [StixObject α] in
theorem lockInv_init (ns : Bool) (calls : List (List (Call α))) : LockInv ⟨Sys.init ns calls, false, 0⟩ where
  readers := by
    symm
    simp [Sys.init, List.countP_eq_zero, readsNow]
  writer := by simp
  free := by
    intro _
    simp [Sys.init, List.countP_eq_zero, addsNow]

theorem lockInv_run {ns : Bool} {calls : List (List (Call α))} {s : Locked α}
    (h : LockedRun ⟨Sys.init ns calls, false, 0⟩ s) : LockInv s ∧ Guarded (Sys.init ns calls) s.sys := by
  induction h with
  | refl => exact ⟨lockInv_init ns calls, .refl _⟩
  | step i k _ hs ih =>
    obtain ⟨g1, g2⟩ := lockInv_step ih.1 hs
    exact ⟨g1, .step i k ih.2 g2 (lockInv_apart g1)⟩

/-- **C81.** A lock keeps the calls apart: with a `sync.RWMutex` around all calls, for writing around
`Add`, every run is one without overlaps. -/
theorem c81_locked (ns : Bool) (calls : List (List (Call α))) (s : Locked α)
    (h : LockedRun ⟨Sys.init ns calls, false, 0⟩ s) : Guarded (Sys.init ns calls) s.sys :=
  (lockInv_run h).2

/-- **C81.** Nor is there a deadlock: as long as a goroutine has not made all its calls, some goroutine
can go on. -/
theorem c81_no_deadlock (ns : Bool) (calls : List (List (Call α))) (s : Locked α)
    (h : LockedRun ⟨Sys.init ns calls, false, 0⟩ s) (i : Nat) (t : Thread α) (hi : s.sys.threads[i]? = some t)
    (ht : t.now ≠ none ∨ t.todo ≠ []) : ∃ j k s', s.step j k = some s' := by
  obtain ⟨inv, hg⟩ := lockInv_run h
  by_cases hb : ∃ j c, Busy s.sys j c
  · obtain ⟨j, c, hb⟩ := hb
    obtain ⟨k, sys, hs⟩ := c81_goes_on ns calls s.sys hg j c hb
    obtain ⟨pc, u, hj⟩ := hb
    refine ⟨j, k, ?_⟩
    simp only [Locked.step, hs, Option.bind_some, hj]
    split
    · rename_i e; cases e
    · split <;> exact ⟨_, rfl⟩
    · exact ⟨_, rfl⟩
  · have hidle : ∀ u ∈ s.sys.threads, u.now = none := by
      intro u hu
      obtain ⟨j, hj⟩ := List.mem_iff_getElem?.1 hu
      obtain ⟨now, todo⟩ := u
      cases now with
      | none => rfl
      | some x => exact absurd ⟨j, x.1, x.2, todo, hj⟩ hb
    have hr : s.readers = 0 := by
      rw [inv.readers, List.countP_eq_zero]
      intro u hu
      simp [readsNow, hidle u hu]
    have hw : s.writer = false := by
      by_contra hw
      have := (inv.writer (by simpa using hw)).1
      rw [List.countP_eq_zero.2 (fun u hu => by simp [addsNow, hidle u hu])] at this
      omega
    obtain ⟨now, todo⟩ := t
    have hn : now = none := hidle _ (List.mem_of_getElem? hi)
    subst hn
    cases todo with
    | nil => simp at ht
    | cons c cs =>
      refine ⟨i, [], ?_⟩
      have hs : ∃ sys, s.sys.step i [] = some sys := by
        unfold Sys.step
        rw [hi]
        exact ⟨_, rfl⟩
      obtain ⟨sys, hs⟩ := hs
      simp only [Locked.step, hs, Option.bind_some, hi, hr, hw, and_self, if_true]
      split <;> exact ⟨_, rfl⟩

/-! ### Without a lock -/

/-- Runs one schedule. -/
def runs (s : Sys α) : List (Nat × Str) → Option (Sys α)
  | [] => some s
  | (i, k) :: l => (s.step i k).bind fun s' => runs s' l

theorem run_runs {s s' : Sys α} (l : List (Nat × Str)) (h : runs s l = some s') : Run s s' := by
  have key : ∀ (l : List (Nat × Str)) (s0 s : Sys α), Run s0 s → runs s l = some s' → Run s0 s' := by
    intro l
    induction l with
    | nil => intro s0 s hr h; simp only [runs, Option.some.injEq] at h; exact h ▸ hr
    | cons e l ih =>
      intro s0 s hr h
      obtain ⟨i, k⟩ := e
      simp only [runs, Option.bind_eq_some_iff] at h
      obtain ⟨s1, h1, h2⟩ := h
      exact ih s0 s1 (.step i k hr h1) h2
  exact key l s s (.refl s) h

/-- A tool and a malware. -/
def exAdd1 : ExObj := ⟨b!"tool--" ++ exUUID, b!"tool", 1⟩
/-- See `exAdd1`. -/
def exAdd2 : ExObj := ⟨b!"malware--" ++ exUUID, b!"malware", 2⟩

/-- Two goroutines, each of which adds an object; the first looks for its object afterwards. -/
def exTwoAdd : List (List (Call ExObj)) := [[.add exAdd1, .get exAdd1.id, .allObjects], [.add exAdd2]]

/-- **C81**, a lock is needed: two goroutines that add objects at the same time race. -/
theorem c81_race : ∃ s : Sys ExObj, Run (Sys.init false exTwoAdd) s ∧ Race s := by
  have h : ((runs (Sys.init false exTwoAdd) [(0, []), (1, []), (0, []), (1, [])]).map fun s =>
      s.threads) = some [⟨some (.add exAdd1, .add2 exAdd1), [.get exAdd1.id, .allObjects]⟩, ⟨some (.add exAdd2, .add2 exAdd2), []⟩] := by
    rfl
  obtain ⟨s, h1, h2⟩ := Option.map_eq_some_iff.1 h
  exact ⟨s, run_runs _ h1, 0, 1, _, _, .add2 exAdd1, .add2 exAdd2, _, _, .objects, true, true, by simp, by rw [h2]; rfl,
    by rw [h2]; rfl, rfl, rfl, .inl rfl⟩

/-- **C81**, a lock is needed: `Add` returns no error, yet `Get` does not find the object afterwards,
and `AllObjects` has a nil in its place. -/
theorem c81_lost : ∃ s : Sys ExObj, Run (Sys.init false exTwoAdd) s ∧
    s.log = [(0, .add exAdd1, .err false), (1, .add exAdd2, .err false), (0, .get exAdd1.id, .obj none),
      (0, .allObjects, .objs [none, some exAdd2])] := by
  have h : ((runs (Sys.init false exTwoAdd) ([(0, []), (1, []), (0, []), (1, [])] ++
      List.replicate 11 (0, []) ++ List.replicate 11 (1, []) ++ List.replicate 14 (0, []))).map fun s =>
      s.log) = some [(0, .add exAdd1, .err false), (1, .add exAdd2, .err false), (0, .get exAdd1.id, .obj none),
      (0, .allObjects, .objs [none, some exAdd2])] := by
    decide +kernel
  obtain ⟨s, h1, h2⟩ := Option.map_eq_some_iff.1 h
  exact ⟨s, run_runs _ h1, h2⟩

/-! ### A run without overlaps -/

/-- No `Add` overlaps another call. -/
def calm (s : Sys α) : Bool :=
  (List.range s.threads.length).all fun i => (List.range s.threads.length).all fun j =>
    match s.threads[i]?, s.threads[j]? with
    | some ⟨some (.add _, _), _⟩, some ⟨some _, _⟩ => i == j
    | _, _ => true

omit [StixObject α] in
theorem calm_apart {s : Sys α} (h : calm s = true) : ¬ Overlap s := by
  rintro ⟨i, j, o, c, hne, ⟨pc, t, hi⟩, ⟨pc', t', hj⟩⟩
  have hl : ∀ {i : Nat} {t : Thread α}, s.threads[i]? = some t → i ∈ List.range s.threads.length := by
    intro i t h
    rw [List.getElem?_eq_some_iff] at h
    exact List.mem_range.2 h.1
  have h' := List.all_eq_true.1 (List.all_eq_true.1 h i (hl hi)) j (hl hj)
  rw [hi, hj] at h'
  exact hne (by simpa using h')

/-- Runs one schedule as long as there are no overlaps. -/
def calmRuns (s : Sys α) : List (Nat × Str) → Option (Sys α)
  | [] => some s
  | (i, k) :: l => (s.step i k).bind fun s' => if calm s' then calmRuns s' l else none

theorem guarded_runs {s s' : Sys α} (l : List (Nat × Str)) (h : calmRuns s l = some s') : Guarded s s' := by
  have key : ∀ (l : List (Nat × Str)) (s0 s : Sys α), Guarded s0 s → calmRuns s l = some s' → Guarded s0 s' := by
    intro l
    induction l with
    | nil => intro s0 s hr h; simp only [calmRuns, Option.some.injEq] at h; exact h ▸ hr
    | cons e l ih =>
      intro s0 s hr h
      obtain ⟨i, k⟩ := e
      simp only [calmRuns, Option.bind_eq_some_iff] at h
      obtain ⟨s1, h1, h2⟩ := h
      split at h2
      · rename_i hc
        exact ih s0 s1 (.step i k hr h1 (calm_apart hc)) h2
      · simp at h2
  exact key l s s (.refl s) h

/-- C81: one goroutine adds an object, then two read at the same time, step by step in turn, one of them
what a `range` over a map gives. -/
example : ∃ s : Sys ExObj, Guarded (Sys.init true [[.add exAdd1, .get exAdd1.id], [.allObjects]]) s ∧
    s.log = [(0, .add exAdd1, .err false), (0, .get exAdd1.id, .obj (some exAdd1)), (1, .allObjects, .objs [some exAdd1])] := by
  have h : ((calmRuns (Sys.init true [[.add exAdd1, .get exAdd1.id], [.allObjects]]) (List.replicate 11 (0, []) ++
      [(0, []), (1, []), (0, []), (1, []), (0, []), (1, []), (0, []), (1, b!"tool"), (0, []),
        (1, exAdd1.id), (1, []), (1, []), (1, [])])).map fun s => s.log) =
      some [(0, .add exAdd1, .err false), (0, .get exAdd1.id, .obj (some exAdd1)), (1, .allObjects, .objs [some exAdd1])] := by
    decide +kernel
  obtain ⟨s, h1, h2⟩ := Option.map_eq_some_iff.1 h
  exact ⟨s, guarded_runs _ h1, h2⟩

/-- Runs one schedule under the lock. -/
def lockRuns (s : Locked α) : List (Nat × Str) → Option (Locked α)
  | [] => some s
  | (i, k) :: l => (s.step i k).bind fun s' => lockRuns s' l

theorem locked_runs {s s' : Locked α} (l : List (Nat × Str)) (h : lockRuns s l = some s') : LockedRun s s' := by
  have key : ∀ (l : List (Nat × Str)) (s0 s : Locked α), LockedRun s0 s → lockRuns s l = some s' →
      LockedRun s0 s' := by
    intro l
    induction l with
    | nil => intro s0 s hr h; simp only [lockRuns, Option.some.injEq] at h; exact h ▸ hr
    | cons e l ih =>
      intro s0 s hr h
      obtain ⟨i, k⟩ := e
      simp only [lockRuns, Option.bind_eq_some_iff] at h
      obtain ⟨s1, h1, h2⟩ := h
      exact ih s0 s1 (.step i k hr h1) h2
  exact key l s s (.refl s) h

/-- C81: under the lock the second goroutine has to wait where it raced in `c81_race`, and nothing is
lost. -/
example : (lockRuns ⟨Sys.init false exTwoAdd, false, 0⟩ [(0, []), (1, [])]).isNone = true ∧
    ∃ s : Locked ExObj, LockedRun ⟨Sys.init false exTwoAdd, false, 0⟩ s ∧
      s.sys.log = [(0, .add exAdd1, .err false), (1, .add exAdd2, .err false), (0, .get exAdd1.id, .obj (some exAdd1)),
        (0, .allObjects, .objs [some exAdd1, some exAdd2])] := by
  have h : (lockRuns ⟨Sys.init false exTwoAdd, false, 0⟩ [(0, []), (1, [])]).isNone = true ∧
      ((lockRuns ⟨Sys.init false exTwoAdd, false, 0⟩ (List.replicate 13 (0, []) ++ List.replicate 12 (1, []) ++
        List.replicate 16 (0, []))).map fun s => s.sys.log) =
      some [(0, .add exAdd1, .err false), (1, .add exAdd2, .err false), (0, .get exAdd1.id, .obj (some exAdd1)),
        (0, .allObjects, .objs [some exAdd1, some exAdd2])] := by
    decide +kernel
  obtain ⟨s, h1, h2⟩ := Option.map_eq_some_iff.1 h.2
  exact ⟨h.1, s, locked_runs _ h1, h2⟩

end Stix
