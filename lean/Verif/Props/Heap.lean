import Verif.Spec.Heap
import Verif.Props.Collection

/-!
# Shared objects (C71)
-/

namespace Stix
open Spec StixObject

variable {α : Type} [StixObject α]

theorem World.run_append (w : World α) (a b : List (Event α)) : w.run (a ++ b) = (w.run a).run b :=
  List.foldl_append

/-- The memory is as the writes made it. -/
theorem heap_value (w : World α) (es : List (Event α)) (p : Nat) (o : α) :
    Value w.heap es p o ↔ (w.run es).heap p = o := by
  induction es generalizing w with
  | nil =>
    constructor
    · rintro (⟨b, a, h, -⟩ | ⟨-, h⟩)
      · simp at h
      · exact h.symm
    · intro h; exact .inr ⟨by simp, h.symm⟩
  | cons e es ih =>
    show _ ↔ ((w.step e).run es).heap p = o
    rw [← ih]
    constructor
    · rintro (⟨b, a, h, hn⟩ | ⟨hn, h⟩)
      · cases b with
        | nil =>
          simp only [List.nil_append, List.cons.injEq] at h
          obtain ⟨rfl, rfl⟩ := h
          exact .inr ⟨hn, by simp [World.step]⟩
        | cons x b =>
          simp only [List.cons_append, List.cons.injEq] at h
          exact .inl ⟨b, a, h.2, hn⟩
      · refine .inr ⟨fun o' ho => hn o' (by simp [ho]), ?_⟩
        rw [h]
        cases e with
        | add q => rfl
        | write q o' =>
          have : p ≠ q := by rintro rfl; exact hn o' (by simp)
          simp [World.step, this]
    · rintro (⟨b, a, h, hn⟩ | ⟨hn, h⟩)
      · exact .inl ⟨e :: b, a, by rw [h]; rfl, hn⟩
      · cases e with
        | add q => exact .inr ⟨by simpa using hn, h⟩
        | write q o' =>
          by_cases hq : p = q
          · subst hq
            simp only [World.step, if_true] at h
            subst h
            exact .inl ⟨[], es, rfl, hn⟩
          · simp only [World.step, hq, if_false] at h
            exact .inr ⟨by
              intro o'' ho
              rcases List.mem_cons.1 ho with ho | ho
              · injection ho with h1 _; exact hq h1
              · exact hn _ ho, h⟩

/-- The references that were added. -/
def refs (w : World α) : List (Event α) → List Ref
  | [] => []
  | .write p o :: es => refs (w.step (.write p o)) es
  | .add p :: es => w.ref p :: refs (w.step (.add p)) es

theorem run_coll (w : World α) (es : List (Event α)) : (w.run es).coll = w.coll.addAll (refs w es) := by
  induction es generalizing w with
  | nil => rfl
  | cons e es ih =>
    cases e with
    | write p o => exact ih _
    | add p => exact ih _

theorem refs_append (w : World α) (a b : List (Event α)) : refs w (a ++ b) = refs w a ++ refs (w.run a) b := by
  induction a generalizing w with
  | nil => rfl
  | cons e a ih =>
    cases e with
    | write p o => exact ih _
    | add p => exact congrArg _ (ih _)

/-- A reference that was added was added by an event. -/
theorem refs_split (w : World α) (es : List (Event α)) (A B : List Ref) (r : Ref)
    (h : refs w es = A ++ r :: B) :
    ∃ before p after, es = before ++ .add p :: after ∧ A = refs w before ∧ r = (w.run before).ref p ∧
      B = refs (w.run (before ++ [.add p])) after := by
  induction es generalizing w A with
  | nil => simp [refs] at h
  | cons e es ih =>
    cases e with
    | write p o =>
      obtain ⟨b, q, a, rfl, rfl, rfl, rfl⟩ := ih (w.step (.write p o)) A h
      exact ⟨.write p o :: b, q, a, rfl, rfl, rfl, rfl⟩
    | add p =>
      cases A with
      | nil =>
        simp only [refs, List.nil_append, List.cons.injEq] at h
        exact ⟨[], p, es, rfl, rfl, h.1.symm, h.2.symm⟩
      | cons x A =>
        simp only [refs, List.cons_append, List.cons.injEq] at h
        obtain ⟨rfl, h⟩ := h
        obtain ⟨b, q, a, rfl, rfl, rfl, rfl⟩ := ih (w.step (.add p)) A h
        exact ⟨.add p :: b, q, a, rfl, rfl, rfl, rfl⟩

theorem acceptedAs_iff (w : World α) (before : List (Event α)) (p : Nat) (id : Str) :
    AcceptedAs w.heap before p id ↔
      Acceptable ((w.run before).ref p) ∧ getID ((w.run before).ref p) = id := by
  unfold AcceptedAs
  simp only [heap_value]
  constructor
  · rintro ⟨o, rfl, h1, h2⟩; exact ⟨h2, h1⟩
  · rintro ⟨h1, h2⟩; exact ⟨_, rfl, h2, h1⟩

theorem lastAdded_iff (w : World α) (es : List (Event α)) (id : Str) (p : Nat) :
    LastAdded w.heap es id p ↔ ∃ r, Latest (refs w es) id r ∧ r.ptr = p := by
  constructor
  · rintro ⟨b, a, rfl, hacc, hn⟩
    rw [acceptedAs_iff] at hacc
    refine ⟨(w.run b).ref p, ⟨refs w b, refs (w.run (b ++ [.add p])) a, ?_, hacc.1, hacc.2, ?_⟩, rfl⟩
    · rw [refs_append, World.run_append]; rfl
    · intro r hr hid hac
      obtain ⟨A, B, hAB⟩ := List.append_of_mem hr
      obtain ⟨b', q, a', rfl, rfl, rfl, rfl⟩ := refs_split _ _ _ _ _ hAB
      refine hn b' q a' rfl ?_
      rw [acceptedAs_iff, show b ++ Event.add p :: b' = (b ++ [.add p]) ++ b' by simp, World.run_append]
      exact ⟨hac, hid⟩
  · rintro ⟨r, ⟨A, B, hAB, hac, hid, hn⟩, rfl⟩
    obtain ⟨b, q, a, rfl, rfl, rfl, rfl⟩ := refs_split _ _ _ _ _ hAB
    refine ⟨b, a, rfl, (acceptedAs_iff ..).2 ⟨hac, hid⟩, ?_⟩
    rintro b' q' a' rfl hacc
    change AcceptedAs w.heap (b ++ Event.add q :: b') q' id at hacc
    rw [acceptedAs_iff, show b ++ Event.add q :: b' = (b ++ [.add q]) ++ b' by simp,
      World.run_append] at hacc
    refine hn ((w.run (b ++ [.add q])).run b' |>.ref q') ?_ hacc.2 hacc.1
    rw [refs_append]
    simp [refs]

/-- **C71.** `Get` returns the pointer that was last accepted for the identifier, whatever was changed in
between, and what is read through it is what was written last. -/
theorem c71_get (ns : Bool) (heap : Nat → α) (es : List (Event α)) (id : Str) (p : Nat) :
    (((World.init ns heap).run es).coll.get id).map Ref.ptr = some p ↔ LastAdded heap es id p := by
  have e : ((World.init ns heap).run es).coll = (Coll.new ns).addAll (refs (World.init ns heap) es) :=
    run_coll _ es
  have l := lastAdded_iff (World.init ns heap) es id p
  rw [e, Option.map_eq_some_iff]
  simp only [c01_get_latest]
  exact l.symm

/-- **C71.** What is read through a pointer is what was written last: the collection has no copy. -/
theorem c71_shared (ns : Bool) (heap : Nat → α) (es : List (Event α)) (p : Nat) (o : α) :
    ((World.init ns heap).run es).heap p = o ↔ Value heap es p o :=
  (heap_value (World.init ns heap) es p o).symm

/-- **C71.** Changing objects changes no answer of the collection: the pointers it gives are the same. -/
theorem c71_write (w : World α) (es : List (Event α)) (h : ∀ p, .add p ∉ es) :
    (w.run es).coll = w.coll := by
  induction es generalizing w with
  | nil => rfl
  | cons e es ih =>
    cases e with
    | write p o => exact ih (w.step (.write p o)) fun q hq => h q (by simp [hq])
    | add p => exact absurd (by simp) (h p)

theorem keepsIds_value {heap : Nat → α} {es : List (Event α)} (h : KeepsIds heap es) {p : Nat} {o : α}
    (hv : Value heap es p o) : getID o = getID (heap p) ∧ getType o = getType (heap p) := by
  rcases hv with ⟨b, a, rfl, -⟩ | ⟨-, rfl⟩
  · exact h p o (by simp)
  · exact ⟨rfl, rfl⟩

theorem keepsIds_prefix {heap : Nat → α} {a b : List (Event α)} (h : KeepsIds heap (a ++ b)) :
    KeepsIds heap a := fun p o ho => h p o (by simp [ho])

/-- **C71.** While the program keeps the ids and types of its objects, an object that is found under an
id has that id, and the id identifies an object of its type. -/
theorem c71_found (heap : Nat → α) (es : List (Event α)) (hk : KeepsIds heap es) (id : Str) (p : Nat)
    (o : α) (hl : LastAdded heap es id p) (hv : Value heap es p o) : getID o = id ∧ Acceptable o := by
  obtain ⟨b, a, rfl, ⟨o', hv', hid, hacc⟩, -⟩ := hl
  have h1 := keepsIds_value hk hv
  have h2 := keepsIds_value (keepsIds_prefix hk) hv'
  refine ⟨by rw [h1.1, ← h2.1, hid], ?_⟩
  unfold Acceptable at hacc ⊢
  rwa [h1.1, h1.2, ← h2.1, ← h2.2]

/-- A listing has the latest reference for every id, once. -/
theorem allObjects_latest {β : Type} [StixObject β] (ns : Bool) (h : List β) (out : List (Option β))
    (ho : ((Coll.new ns).addAll h).AllObjects out) :
    ∃ rs : List β, out = rs.map some ∧ (rs.map getID).Nodup ∧ ∀ r, r ∈ rs ↔ Latest h (getID r) r := by
  cases ns with
  | true =>
    obtain ⟨l, rfl, hn, hm⟩ := allObjects_nosort h out ho
    have key : ∀ e ∈ l, getID e.2 = e.1 := fun e he => by
      obtain ⟨_, _, _, _, hid, _⟩ := (hm e.1 e.2).1 he
      exact hid
    refine ⟨l.map Prod.snd, by simp [Function.comp_def], ?_, ?_⟩
    · have : (l.map Prod.snd).map getID = amKeys l := by
        unfold amKeys
        rw [List.map_map, List.map_inj_left]
        exact key
      rwa [this]
    · intro r
      rw [← hm]
      constructor
      · intro hr
        obtain ⟨e, he, rfl⟩ := List.mem_map.1 hr
        rw [key e he]; exact he
      · intro hr; exact List.mem_map.2 ⟨_, hr, rfl⟩
  | false =>
    obtain ⟨ids, hn, -, hm, hf⟩ := c02_allObjects_order h out ho
    have key : ∀ (ids : List Str) (out : List (Option β)),
        List.Forall₂ (fun id o => ∃ x, o = some x ∧ Latest h id x) ids out →
        ∃ rs : List β, out = rs.map some ∧ rs.map getID = ids ∧ ∀ r ∈ rs, Latest h (getID r) r := by
      intro ids out hf
      induction hf with
      | nil => exact ⟨[], rfl, rfl, by simp⟩
      | cons hx _ ih =>
        obtain ⟨x, rfl, hl⟩ := hx
        obtain ⟨rs, rfl, rfl, hr⟩ := ih
        obtain ⟨_, _, _, _, hid, _⟩ := id hl
        refine ⟨x :: rs, rfl, by simp [hid], ?_⟩
        rintro r (_ | ⟨_, hr'⟩)
        · rw [hid]; exact hl
        · exact hr r hr'
    obtain ⟨rs, rfl, rfl, hr⟩ := key ids out hf
    refine ⟨rs, rfl, hn, fun r => ⟨hr r, fun hl => ?_⟩⟩
    have : getID r ∈ rs.map getID := (hm _).2 ((exists_latest_iff h _).1 ⟨r, hl⟩)
    obtain ⟨r', hr', he⟩ := List.mem_map.1 this
    have := hr r' hr'
    rw [he] at this
    rwa [latest_unique hl this]

/-- **C71.** Then the listing of a collection has every object once, each is the one that `Get` returns
for its present id, and every identifier that was accepted is the id of one of them. -/
theorem c71_listed (ns : Bool) (heap : Nat → α) (es : List (Event α)) (hk : KeepsIds heap es)
    (out : List (Option Ref)) (ho : ((World.init ns heap).run es).coll.AllObjects out) :
    ∃ ps : List Nat, out.map (Option.map Ref.ptr) = ps.map some ∧
      (ps.map fun p => getID (((World.init ns heap).run es).heap p)).Nodup ∧
      ∀ id p, LastAdded heap es id p ↔ p ∈ ps ∧ getID (((World.init ns heap).run es).heap p) = id := by
  have e : ((World.init ns heap).run es).coll = (Coll.new ns).addAll (refs (World.init ns heap) es) :=
    run_coll _ es
  rw [e] at ho
  obtain ⟨rs, rfl, hn, hm⟩ := allObjects_latest ns _ out ho
  have now : ∀ r ∈ rs, getID (((World.init ns heap).run es).heap r.ptr) = getID r := by
    intro r hr
    exact (c71_found heap es hk (getID r) r.ptr _
      ((lastAdded_iff (World.init ns heap) es _ _).2 ⟨r, (hm r).1 hr, rfl⟩)
      ((heap_value (World.init ns heap) es _ _).2 rfl)).1
  refine ⟨rs.map Ref.ptr, by simp [Function.comp_def], ?_, fun id p => ?_⟩
  · have : (rs.map Ref.ptr).map (fun p => getID (((World.init ns heap).run es).heap p)) = rs.map getID := by
      rw [List.map_map, List.map_inj_left]
      exact now
    rwa [this]
  · refine (lastAdded_iff (World.init ns heap) es id p).trans ?_
    constructor
    · rintro ⟨r, hl, rfl⟩
      have hid : getID r = id := by obtain ⟨_, _, _, _, hid, _⟩ := hl; exact hid
      have hr := (hm r).2 (by rw [hid]; exact hl)
      exact ⟨List.mem_map.2 ⟨r, hr, rfl⟩, (now r hr).trans hid⟩
    · rintro ⟨hp, hid⟩
      obtain ⟨r, hr, rfl⟩ := List.mem_map.1 hp
      rw [now r hr] at hid
      exact ⟨r, hid ▸ (hm r).1 hr, rfl⟩

/-- **C71.** An object whose id is changed after it was added is still found under the id it had, and not
under the id it has. -/
theorem c71_renamed (ns : Bool) (heap : Nat → α) (p : Nat) (o : α) (h1 : Acceptable (heap p))
    (hne : getID o ≠ getID (heap p)) :
    (((World.init ns heap).run [.add p, .write p o]).coll.get (getID (heap p))).map Ref.ptr = some p ∧
    ((World.init ns heap).run [.add p, .write p o]).heap p = o ∧
    ((World.init ns heap).run [.add p, .write p o]).coll.get (getID o) = none := by
  refine ⟨(c71_get ..).2 ⟨[], [.write p o], rfl, ⟨_, .inr ⟨by simp, rfl⟩, rfl, h1⟩, ?_⟩, ?_, ?_⟩
  · rintro (_ | ⟨_, _ | _⟩) q a' h <;> simp at h
  · simp [World.run, World.step]
  · rw [run_coll]
    refine (c01_get_nil ns _ _).2 ?_
    intro r hr hid
    simp only [refs, List.mem_singleton] at hr
    subst hr
    exact absurd hid.symm hne

/-- **C71.** Adding it again makes the collection have it twice. -/
theorem c71_twice (ns : Bool) (heap : Nat → α) (p : Nat) (o : α) (h1 : Acceptable (heap p))
    (h2 : Acceptable o) (hne : getID o ≠ getID (heap p)) (out : List (Option Ref))
    (ho : ((World.init ns heap).run [.add p, .write p o, .add p]).coll.AllObjects out) :
    out.map (Option.map Ref.ptr) = [some p, some p] := by
  rw [run_coll] at ho
  obtain ⟨rs, rfl, hn, hm⟩ := allObjects_latest ns _ out ho
  -- the object is referred to twice
  have h0 : refs (World.init ns heap) [.add p, .write p o, .add p] =
      [⟨p, getID (heap p), getType (heap p)⟩, ⟨p, getID o, getType o⟩] := by
    simp [refs, World.step, World.ref, World.init]
  rw [h0] at hm
  have hperm : rs.Perm [⟨p, getID (heap p), getType (heap p)⟩, ⟨p, getID o, getType o⟩] := by
    refine (List.perm_ext_iff_of_nodup hn.of_map ?_).2 fun r => ?_
    · simp only [List.nodup_cons, List.mem_singleton, Ref.mk.injEq, not_and]
      exact ⟨fun _ h => absurd h.symm hne, by simp, List.nodup_nil⟩
    · rw [hm]
      constructor
      · rintro ⟨b, a, h, -⟩
        rw [h]; simp
      · intro hr
        rcases List.mem_cons.1 hr with rfl | hr
        · exact ⟨[], _, rfl, h1, rfl, fun q hq hid => by
            rw [List.mem_singleton.1 hq] at hid
            exact absurd hid hne⟩
        · rw [List.mem_singleton.1 hr]
          exact ⟨[_], [], rfl, h2, rfl, by simp⟩
  have := (hperm.map Ref.ptr).map some
  rw [List.map_map, List.map_map] at *
  exact (List.perm_replicate (n := 2) (a := some p)).1 this

/-- An object in memory is changed after it was added, and the program reads the change. -/
def exHeap : Nat → ExObj := fun _ => ⟨b!"tool--" ++ exUUID, b!"tool", 1⟩
def exEvents : List (Event ExObj) := [.add 5, .write 5 ⟨b!"tool--" ++ exUUID, b!"tool", 2⟩]

example : KeepsIds exHeap exEvents ∧ LastAdded exHeap exEvents (b!"tool--" ++ exUUID) 5 ∧
    Value exHeap exEvents 5 ⟨b!"tool--" ++ exUUID, b!"tool", 2⟩ := by
  refine ⟨?_, (c71_get false _ _ _ _).1 (by decide +kernel), (c71_shared false _ _ _ _).1 (by decide +kernel)⟩
  intro p o ho
  simp only [exEvents, List.mem_cons, List.not_mem_nil, or_false, reduceCtorEq, false_or,
    Event.write.injEq] at ho
  rw [ho.2]
  exact ⟨rfl, rfl⟩

example : Acceptable (exHeap 5) ∧ Acceptable (⟨b!"malware--" ++ exUUID, b!"malware", 2⟩ : ExObj) ∧
    getID (⟨b!"malware--" ++ exUUID, b!"malware", 2⟩ : ExObj) ≠ getID (exHeap 5) :=
  ⟨(c04_accepts (Coll.new false) _).1 (by decide +kernel),
    (c04_accepts (Coll.new false) _).1 (by decide +kernel), by decide +kernel⟩

end Stix
