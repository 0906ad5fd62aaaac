import Verif.Props.Leftover
import Verif.Props.ParseMany
import Verif.Props.Heap

/-!
# Merging collections and documents (C79)
-/

namespace Stix
open Spec StixObject Coll Stix.Canon Stix.Props.Canon

section
variable {α : Type} [StixObject α]

theorem latest_append (h h' : List α) (id : Str) (o : α) : Latest (h ++ h') id o ↔
    Latest h' id o ∨ ((∀ p ∈ h', getID p = id → ¬ Acceptable p) ∧ Latest h id o) := by
  induction h' using List.reverseRecOn generalizing o with
  | nil => simp [Latest]
  | append_singleton h' x ih =>
    rw [← List.append_assoc, latest_snoc, latest_snoc, ih]
    simp only [List.mem_append, List.mem_singleton]
    constructor
    · rintro (h1 | ⟨h1, h2 | ⟨h2, h3⟩⟩)
      · exact .inl (.inl h1)
      · exact .inl (.inr ⟨h1, h2⟩)
      · refine .inr ⟨?_, h3⟩
        rintro p (hp | rfl) hi ha
        · exact h2 p hp hi ha
        · exact h1 ⟨ha, hi⟩
    · rintro ((h1 | ⟨h1, h2⟩) | ⟨h1, h2⟩)
      · exact .inl h1
      · exact .inr ⟨h1, .inl h2⟩
      · exact .inr ⟨fun ⟨ha, hi⟩ => h1 x (.inr rfl) hi ha, .inr ⟨fun p hp => h1 p (.inl hp), h2⟩⟩

/-- What a listing lists, as a history of its own. -/
theorem latest_listed {h bs : List α} (hn : (bs.map getID).Nodup) (hm : ∀ r, r ∈ bs ↔ Latest h (getID r) r)
    (id : Str) (o : α) : Latest bs id o ↔ Latest h id o := by
  constructor
  · intro hl
    obtain ⟨-, hi, hb⟩ := latest_acceptable hl
    rw [← hi]
    exact (hm o).1 hb
  · intro hl
    obtain ⟨ha, hi, -⟩ := latest_acceptable hl
    subst hi
    have hb := (hm o).2 hl
    obtain ⟨pre, post, rfl⟩ := List.append_of_mem hb
    refine ⟨pre, post, rfl, ha, rfl, fun p hp hid => ?_⟩
    simp only [List.map_append, List.map_cons, List.nodup_append, List.nodup_cons] at hn
    exact absurd (List.mem_map.2 ⟨p, hp, hid⟩) hn.2.1.1

theorem addAll_addAll (c : Coll α) (h h' : List α) : (c.addAll h).addAll h' = c.addAll (h ++ h') := by
  simp [Coll.addAll, List.foldl_append]

theorem getAll_append (ns ns' : Bool) (h h' : List α) (id : Str) :
    ((Coll.new ns).addAll (h ++ h')).get id = (((Coll.new ns').addAll h').get id).or (((Coll.new ns).addAll h).get id) := by
  cases e : ((Coll.new ns').addAll h').get id with
  | some o =>
    rw [Option.some_or]
    exact (c01_get_latest ..).2 ((latest_append ..).2 (.inl ((c01_get_latest ..).1 e)))
  | none =>
    rw [Option.none_or]
    have hno := (c01_get_nil ..).1 e
    ext o
    simp only [c01_get_latest, latest_append]
    constructor
    · rintro (h | h)
      · obtain ⟨h1, h2, h3⟩ := latest_acceptable h
        exact absurd h1 (hno o h3 h2)
      · exact h.2
    · exact fun h => .inr ⟨hno, h⟩

/-- **C79** (values).  Adding to a collection everything another one lists gives, for each identifier, the
other one's object, or else the object that was there; none of the additions is refused. -/
theorem c79_merge_get (ns ns' : Bool) (h h' : List α) (out : List (Option α))
    (ho : ((Coll.new ns').addAll h').AllObjects out) : ∃ bs : List α, out = bs.map some ∧
      (∀ c : Coll α, ∀ b ∈ bs, (c.add b).2 = false) ∧
      ∀ id, (((Coll.new ns).addAll h).addAll bs).get id =
        (((Coll.new ns').addAll h').get id).or (((Coll.new ns).addAll h).get id) := by
  obtain ⟨bs, rfl, hn, hm⟩ := allObjects_latest ns' h' out ho
  refine ⟨bs, rfl, fun c b hb => ?_, fun id => ?_⟩
  · obtain ⟨ha, -⟩ := latest_acceptable ((hm b).1 hb)
    exact (c04_accepts c b).2 ha
  · rw [addAll_addAll, getAll_append ns ns']
    congr 1
    ext o
    simp only [c01_get_latest]
    exact latest_listed hn hm id o

theorem firstBefore_append {h h' : List α} {id id' : Str} (hf : FirstBefore h id id') : FirstBefore (h ++ h') id id' := by
  obtain ⟨b, a, rfl, h1, h2, o', h3, h4⟩ := hf
  exact ⟨b, a ++ h', by simp, h1, h2, o', by simp [h3], h4⟩

/-- The listing of a history that goes on. -/
theorem listing_append {h h' : List α} {ia ib : List Str} (ha : ia.Nodup) (hb : ib.Nodup)
    (pa : ia.Pairwise (FirstBefore h)) (pb : ib.Pairwise (FirstBefore h'))
    (ca : ∀ id, id ∈ ia ↔ ∃ o ∈ h, Acceptable o ∧ getID o = id)
    (cb : ∀ id, id ∈ ib ↔ ∃ o ∈ h', Acceptable o ∧ getID o = id) :
    Listing (h ++ h') (ia ++ ib.filter (· ∉ ia)) ((ia ++ ib.filter (· ∉ ia)).map ((Coll.new false).addAll (h ++ h')).get) := by
  have hc : ∀ id, id ∈ ia ++ ib.filter (· ∉ ia) ↔ ∃ o ∈ h ++ h', Acceptable o ∧ getID o = id := by
    intro id
    simp only [List.mem_append, List.mem_filter, decide_not, Bool.not_eq_true', decide_eq_false_iff_not]
    constructor
    · rintro (h1 | ⟨h1, -⟩)
      · obtain ⟨o, h2, h3⟩ := (ca id).1 h1; exact ⟨o, .inl h2, h3⟩
      · obtain ⟨o, h2, h3⟩ := (cb id).1 h1; exact ⟨o, .inr h2, h3⟩
    · rintro ⟨o, h1, h2⟩
      by_cases hi : id ∈ ia
      · exact .inl hi
      · rcases h1 with h1 | h1
        · exact absurd ((ca id).2 ⟨o, h1, h2⟩) hi
        · exact .inr ⟨(cb id).2 ⟨o, h1, h2⟩, hi⟩
  have hnot : ∀ {id}, id ∈ ib.filter (· ∉ ia) → ∀ o ∈ h, Acceptable o → getID o ≠ id := by
    intro id hid o ho hacc e
    simp only [List.mem_filter, decide_not, Bool.not_eq_true', decide_eq_false_iff_not] at hid
    exact hid.2 ((ca id).2 ⟨o, ho, hacc, e⟩)
  refine ⟨?_, ?_, hc, ?_⟩
  · rw [List.nodup_append]
    refine ⟨ha, hb.filter _, fun a h1 b h2 e => ?_⟩
    subst e
    simp only [List.mem_filter, decide_not, Bool.not_eq_true', decide_eq_false_iff_not] at h2
    exact h2.2 h1
  · rw [List.pairwise_append]
    refine ⟨pa.imp firstBefore_append, ?_, ?_⟩
    · refine (pb.filter _).imp_of_mem ?_
      rintro id id' h1 h2 ⟨b, a, rfl, g1, g2, g3⟩
      obtain ⟨o, g1, g4⟩ := g1
      refine ⟨h ++ b, a, by simp, ⟨o, by simp [g1], g4⟩, ?_, g3⟩
      intro p hp hacc
      rcases List.mem_append.1 hp with hp | hp
      · exact hnot h2 p hp hacc
      · exact g2 p hp hacc
    · intro id h1 id' h2
      obtain ⟨o, g1, g2⟩ := (ca id).1 h1
      have h3 := List.mem_of_mem_filter h2
      exact ⟨h, h', rfl, ⟨o, g1, g2⟩, fun p hp hacc => hnot h2 p hp hacc, (cb id').1 h3⟩
  · rw [List.forall₂_map_right_iff, List.forall₂_same]
    intro id hid
    obtain ⟨o, ho⟩ := (exists_latest_iff _ id).2 ((hc id).1 hid)
    exact ⟨o, (c01_get_latest ..).2 ho, ho⟩

theorem listing_ids {h : List α} {ids : List Str} {as : List α} (hl : Listing h ids (as.map some)) : as.map getID = ids := by
  have := hl.entries
  rw [List.forall₂_map_right_iff] at this
  clear hl
  induction this with
  | nil => rfl
  | cons h1 _ ih =>
    obtain ⟨o, e, h1⟩ := h1
    cases e
    obtain ⟨-, hi, -⟩ := latest_acceptable h1
    simp [hi, ih]

theorem listed_order : ∀ (bs : List α), (∀ b ∈ bs, Acceptable b) → (bs.map getID).Nodup →
    (bs.map getID).Pairwise (FirstBefore bs)
  | [], _, _ => .nil
  | b :: bs, ha, hn => by
    simp only [List.map_cons, List.nodup_cons] at hn
    refine .cons ?_ ?_
    · intro id hid
      obtain ⟨o, ho, rfl⟩ := List.mem_map.1 hid
      refine ⟨[b], bs, rfl, ⟨b, by simp, ha b (by simp), rfl⟩, ?_, o, ho, ha o (by simp [ho]), rfl⟩
      intro p hp _ e
      simp only [List.mem_singleton] at hp
      subst hp
      exact hn.1 (List.mem_map.2 ⟨o, ho, e.symm⟩)
    · refine (listed_order bs (fun x hx => ha x (by simp [hx])) hn.2).imp_of_mem ?_
      rintro id id' h1 h2 ⟨pre, post, rfl, ⟨o, g1, g2⟩, g3, g4⟩
      refine ⟨b :: pre, post, rfl, ⟨o, by simp [g1], g2⟩, ?_, g4⟩
      intro p hp hacc e
      rcases List.mem_cons.1 hp with rfl | hp
      · exact hn.1 (e ▸ h2)
      · exact g3 p hp hacc e

/-- **C79** (order).  The merged collection lists the objects of the first one, in their order, and then
those of the second one that the first one does not have, in theirs; and it cannot be told from the
collection to which the second one's objects were added as they came. -/
theorem c79_merge_order (h h' : List α) (as bs : List α)
    (ha : ((Coll.new false).addAll h).AllObjects (as.map some)) (hb : ((Coll.new false).addAll h').AllObjects (bs.map some)) :
    (∀ out, (((Coll.new false).addAll h).addAll bs).AllObjects out ↔ (((Coll.new false).addAll h).addAll h').AllObjects out) ∧
    (∀ id, (((Coll.new false).addAll h).addAll bs).get id = (((Coll.new false).addAll h).addAll h').get id) ∧
    ∀ out, (((Coll.new false).addAll h).addAll bs).AllObjects out → ∃ ms : List α, out = ms.map some ∧
      ms.map getID = as.map getID ++ (bs.map getID).filter (· ∉ as.map getID) := by
  obtain ⟨ia, la⟩ := c02_allObjects_order h _ ha
  obtain ⟨ib, lb⟩ := c02_allObjects_order h' _ hb
  have ea := listing_ids la
  have eb := listing_ids lb
  subst ea eb
  obtain ⟨bs', e, hn, hm⟩ := allObjects_latest false h' _ hb
  rw [List.map_inj_right fun _ _ h => Option.some.inj h] at e
  subst e
  have hacc : ∀ b ∈ bs, Acceptable b := fun b hb => (latest_acceptable ((hm b).1 hb)).1
  have h1 := listing_append la.nodup lb.nodup la.ordered lb.ordered la.complete lb.complete
  have h2 := listing_append la.nodup lb.nodup la.ordered (listed_order bs hacc hn) la.complete (fun id => by
    simp only [List.mem_map]
    exact ⟨fun ⟨o, h, e⟩ => ⟨o, h, hacc o h, e⟩, fun ⟨o, h, _, e⟩ => ⟨o, h, e⟩⟩)
  have hget : ∀ id, ((Coll.new false).addAll (h ++ bs)).get id = ((Coll.new false).addAll (h ++ h')).get id := by
    intro id
    ext o
    simp only [c01_get_latest, latest_append, latest_listed hn hm]
    have : (∀ p ∈ bs, getID p = id → ¬ Acceptable p) ↔ ∀ p ∈ h', getID p = id → ¬ Acceptable p := by
      have e1 := exists_latest_iff bs id
      have e2 := exists_latest_iff h' id
      simp only [latest_listed hn hm] at e1
      have e3 := e1.symm.trans e2
      constructor
      · intro g p hp hi ha
        obtain ⟨o, k1, k2, k3⟩ := e3.2 ⟨p, hp, ha, hi⟩
        exact g o k1 k3 k2
      · intro g p hp hi ha
        obtain ⟨o, k1, k2, k3⟩ := e3.1 ⟨p, hp, ha, hi⟩
        exact g o k1 k3 k2
    rw [this]
  have hlist : ∀ (x : List α) out, Listing (h ++ x) (as.map getID ++ (bs.map getID).filter (· ∉ as.map getID))
      ((as.map getID ++ (bs.map getID).filter (· ∉ as.map getID)).map ((Coll.new false).addAll (h ++ x)).get) →
      (((Coll.new false).addAll (h ++ x)).AllObjects out ↔
        out = (as.map getID ++ (bs.map getID).filter (· ∉ as.map getID)).map ((Coll.new false).addAll (h ++ x)).get) := by
    intro x out hl
    have hone : ∀ {out}, ((Coll.new false).addAll (h ++ x)).AllObjects out →
        out = (as.map getID ++ (bs.map getID).filter (· ∉ as.map getID)).map ((Coll.new false).addAll (h ++ x)).get := by
      intro out ho
      obtain ⟨ids, hl'⟩ := c02_allObjects_order _ _ ho
      exact (c02_listing_unique _ _ _ _ _ hl' hl).2
    refine ⟨hone, ?_⟩
    rintro rfl
    obtain ⟨out, ho, -⟩ := c02_allObjects_deterministic (h ++ x)
    rw [← hone ho]
    exact ho
  simp only [addAll_addAll]
  refine ⟨fun out => ?_, hget, fun out ho => ?_⟩
  · rw [hlist bs out h2, hlist h' out h1]
    simp only [funext hget]
  · obtain ⟨ms, rfl, -⟩ := allObjects_latest false _ _ ho
    refine ⟨ms, rfl, ?_⟩
    obtain ⟨ids, hl⟩ := c02_allObjects_order _ _ ho
    rw [listing_ids hl]
    exact (c02_listing_unique _ _ _ _ _ hl h2).1

end

/-! ### Documents -/

variable {F : Canon.FloatFmt} {U : Type} [UserType U]

theorem steps_append {cfg : Config U} {p p' p'' : Peak} {l r : List Json} {as bs : List (Option (Any U))}
    (h : Steps F cfg p l as p') (h' : Steps F cfg p' r bs p'') : Steps F cfg p (l ++ r) (as ++ bs) p'' := by
  induction h with
  | nil => exact h'
  | cons h1 h2 _ ih => exact .cons h1 h2 (ih h')

theorem steps_split {cfg : Config U} : ∀ {l r : List Json} {p p'' : Peak} {cs : List (Option (Any U))},
    Steps F cfg p (l ++ r) cs p'' → ∃ as bs p', cs = as ++ bs ∧ Steps F cfg p l as p' ∧ Steps F cfg p' r bs p''
  | [], r, p, p'', cs, h => ⟨[], cs, p, rfl, .nil p, h⟩
  | j :: l, r, p, p'', _, .cons h1 h2 h3 => by
    obtain ⟨as, bs, p', rfl, g1, g2⟩ := steps_split h3
    exact ⟨_ :: as, bs, p', rfl, .cons h1 h2 g1, g2⟩

theorem steps_det {cfg : Config U} {p : Peak} {l : List Json} {as bs : List (Option (Any U))} {p' p'' : Peak}
    (h : Steps F cfg p l as p') (h' : Steps F cfg p l bs p'') : as = bs ∧ p' = p'' := by
  induction h generalizing bs with
  | nil => cases h'; exact ⟨rfl, rfl⟩
  | cons h1 _ _ ih =>
    cases h' with
    | cons g1 _ g3 =>
      rw [h1] at g1
      simp only [Res.ok.injEq, Prod.mk.injEq] at g1
      obtain ⟨rfl, rfl⟩ := g1
      obtain ⟨rfl, rfl⟩ := ih g3
      exact ⟨rfl, rfl⟩

theorem steps_peak {opts : List (CollOption U)} (hn : NoParsers opts) {l : List Json} {before : List Json}
    {p p' : Peak} {as : List (Option (Any U))} (hp : PeakHas F ((Config.new opts).dropCustom = true) before p)
    (h : Steps F (Config.new opts) p l as p') : PeakHas F ((Config.new opts).dropCustom = true) (before ++ l) p' := by
  induction l generalizing before p as with
  | nil => cases h; simpa using hp
  | cons j l ih =>
    cases h with
    | cons h1 h2 h3 =>
      have := ih (becomes_step (handlers_none hn) hp h1).1 h3
      simpa using this

/-- Elements with types of their own are read the same after other ones, as far as `f` sees. -/
theorem steps_seen {β} (f : Any U → β) (hpan : ∀ a b : Any U, f a = f b → a.panics = b.panics)
    (hacc : ∀ a b : Any U, f a = f b → (Acceptable a ↔ Acceptable b)) {cfg : Config U}
    (hf : ∀ a p p', ((if cfg.dropCustom then (p, some a) else extend (some a) p).2).map f =
      ((if cfg.dropCustom then (p', some a) else extend (some a) p').2).map f)
    {l : List Json} (hl : ∀ j ∈ l, OwnType j) {p p' : Peak} {as : List (Option (Any U))} (h : Steps F cfg p l as p') :
    ∀ q, ∃ as' q', Steps F cfg q l as' q' ∧ as'.map (Option.map f) = as.map (Option.map f) := by
  induction h with
  | nil => exact fun q => ⟨[], q, .nil q, rfl⟩
  | @cons p p' p'' j l a as h1 h2 h3 ih =>
    intro q
    have hs := (parseOne_seen (F := F) f cfg hf (hl j (by simp)) q).trans
      (parseOne_seen (F := F) f cfg hf (hl j (by simp)) p).symm
    rw [h1] at hs
    cases hq : parseOne F cfg q j with
    | err e => rw [hq] at hs; simp [seen, Res.bind] at hs
    | panic => rw [hq] at hs; simp [seen, Res.bind] at hs
    | ok x =>
      obtain ⟨q1, a'⟩ := x
      rw [hq] at hs
      simp only [seen, Res.bind, Res.ok.injEq] at hs
      obtain ⟨as', q', g1, g2⟩ := ih (fun j hj => hl j (by simp [hj])) q1
      refine ⟨a' :: as', q', .cons hq ?_ g1, by simp [hs, g2]⟩
      rintro x rfl
      cases a with
      | none => simp at hs
      | some y =>
        simp only [Option.map_some, Option.some.injEq] at hs
        obtain ⟨k1, k2⟩ := h2 y rfl
        exact ⟨by rw [hpan x y hs, k1], (hacc x y hs).2 k2⟩

theorem steps_clean {cfg : Config U} {l : List Json} {p : Peak} (hp : p.getD [] = []) {as : List (Option (Any U))} :
    (∃ p', Steps F cfg p l as p') ↔ ∃ p', Steps F cfg none l as p' := by
  constructor
  · rintro ⟨p', h⟩
    cases h with
    | nil => exact ⟨_, .nil _⟩
    | cons h1 h2 h3 => exact ⟨_, .cons (by rw [← parseOne_clean cfg p hp]; exact h1) h2 h3⟩
  · rintro ⟨p', h⟩
    cases h with
    | nil => exact ⟨_, .nil _⟩
    | cons h1 h2 h3 => exact ⟨_, .cons (by rw [parseOne_clean cfg p hp]; exact h1) h2 h3⟩

theorem acceptable_core {a b : Any U} (e : core a = core b) : Acceptable a ↔ Acceptable b := by
  unfold Acceptable
  rw [← getID_core a, ← getType_core a, ← getID_core b, ← getType_core b, e]

theorem get_core (ns : Bool) (h h' : List (Any U)) (e : h.map core = h'.map core) (id : Str) :
    (((Coll.new ns).addAll h).get id).map core = (((Coll.new ns).addAll h').get id).map core := by
  have key : ∀ {h h' : List (Any U)} {o}, h.map core = h'.map core → Latest h id o → ∃ o', Latest h' id o' ∧ core o' = core o := by
    rintro h h' o e ⟨b, a, rfl, h1, h2, h3⟩
    simp only [List.map_append, List.map_cons] at e
    obtain ⟨b', r, rfl, e1, e2⟩ := List.map_eq_append_iff.1 e.symm
    obtain ⟨o', a', rfl, e3, e4⟩ := List.map_eq_cons_iff.1 e2
    refine ⟨o', ⟨b', a', rfl, (acceptable_core e3).2 h1, by rw [← getID_core, e3, getID_core, h2], ?_⟩, e3⟩
    intro p hp hi ha
    have : core p ∈ a.map core := by rw [← e4]; exact List.mem_map_of_mem hp
    obtain ⟨p', hp', e5⟩ := List.mem_map.1 this
    exact h3 p' hp' (by rw [← getID_core, e5, getID_core, hi]) ((acceptable_core e5).2 ha)
  cases e1 : ((Coll.new ns).addAll h).get id with
  | some o =>
    obtain ⟨o', h1, h2⟩ := key e ((c01_get_latest ..).1 e1)
    rw [(c01_get_latest ..).2 h1]
    simp [h2]
  | none =>
    cases e2 : ((Coll.new ns).addAll h').get id with
    | none => rfl
    | some o =>
      obtain ⟨o', h1, -⟩ := key e.symm ((c01_get_latest ..).1 e2)
      rw [(c01_get_latest ..).2 h1] at e1
      cases e1

/-- The second collection's objects, as `AllObjects` lists them, added to the first one give the third,
as far as `Get` and `AllObjects` tell. -/
def Spec.MergesTo (a b c : Coll (Any U)) : Prop :=
  ∀ bs : List (Any U), b.AllObjects (bs.map some) → (∀ id, (a.addAll bs).get id = c.get id) ∧
    (c.noSort = false → ∀ out, (a.addAll bs).AllObjects out ↔ c.AllObjects out)

theorem mergesTo_append (ns : Bool) (h h' : List (Any U)) :
    MergesTo ((Coll.new ns).addAll h) ((Coll.new ns).addAll h') ((Coll.new ns).addAll (h ++ h')) := by
  intro bs hb
  refine ⟨fun id => ?_, fun hns => ?_⟩
  · obtain ⟨bs', e, -, h3⟩ := c79_merge_get ns ns h h' _ hb
    rw [List.map_inj_right fun _ _ h => Option.some.inj h] at e
    subst e
    rw [h3, getAll_append ns ns]
  · have : ns = false := by rw [← (collInv_addAll ns (h ++ h')).nsEq]; exact hns
    subst this
    obtain ⟨out, ho, -⟩ := c02_allObjects_deterministic h
    obtain ⟨as, rfl, -⟩ := allObjects_latest false h out ho
    have := (c79_merge_order h h' as bs ho hb).1
    simp only [addAll_addAll] at this ⊢
    exact this

theorem fromJSON_holds {opts : List (CollOption U)} {doc : Json} {l : List Json} (hl : Holds doc l) (c : Coll (Any U)) :
    fromJSON F opts (some doc) = .ok c ↔ ∃ as p', Steps F (Config.new opts) none l as p' ∧
      c = (Coll.new (Config.new opts).noSort).addAll (as.filterMap id) := by
  rw [(c75_shape opts doc).1 l hl, fromJSON_arr, processObjects_ok]

/-- **C79** (documents).  If the elements of the second document have types of their own, the two documents
as one are accepted exactly if both are; then each identifier has the object of the second one, or else
the one of the first, but for extended properties; and with dropped custom properties importing both as
one is the same as merging the collections. -/
theorem c79_documents (opts : List (CollOption U)) (docA docB doc : Json) (l l' : List Json) (hA : Holds docA l)
    (hB : Holds docB l') (hl : Holds doc (l ++ l')) (hown : ∀ ms, .obj ms ∈ l' → (b!"type") ∈ amKeys ms) :
    ((∃ c, fromJSON F opts (some doc) = .ok c) ↔
      (∃ a, fromJSON F opts (some docA) = .ok a) ∧ ∃ b, fromJSON F opts (some docB) = .ok b) ∧
    ∀ a b c, fromJSON F opts (some docA) = .ok a → fromJSON F opts (some docB) = .ok b → fromJSON F opts (some doc) = .ok c →
      (∀ ident, (c.get ident).map core = ((b.get ident).or (a.get ident)).map core) ∧
      (CollOption.dropCustom ∈ opts → MergesTo a b c) := by
  have own : ∀ j ∈ l', OwnType j := fun j hj ms e => hown ms (e ▸ hj)
  have hcore := fun {p p' : Peak} {as : List (Option (Any U))} (h : Steps F (Config.new opts) p l' as p') (q : Peak) =>
    steps_seen (F := F) core (fun a b e => by rw [← panics_core a, ← panics_core b, e]) (fun a b => acceptable_core)
      (cfg := Config.new opts) (extend_core _) own h q
  simp only [fromJSON_holds hA, fromJSON_holds hB, fromJSON_holds hl]
  constructor
  · constructor
    · rintro ⟨c, cs, p, hst, rfl⟩
      obtain ⟨as, bs, p', rfl, h1, h2⟩ := steps_split hst
      obtain ⟨bs', q, h3, -⟩ := hcore h2 none
      exact ⟨⟨_, as, p', h1, rfl⟩, _, bs', q, h3, rfl⟩
    · rintro ⟨⟨a, as, p, h1, rfl⟩, b, bs, q, h2, rfl⟩
      obtain ⟨bs', q', h3, -⟩ := hcore h2 p
      exact ⟨_, _, q', steps_append h1 h3, rfl⟩
  · rintro _ _ _ ⟨as, p, h1, rfl⟩ ⟨bs, q, h2, rfl⟩ ⟨cs, r, h3, rfl⟩
    obtain ⟨as', bs', p', rfl, h4, h5⟩ := steps_split h3
    obtain ⟨rfl, rfl⟩ := steps_det h4 h1
    constructor
    · intro ident
      obtain ⟨bs2, q2, h6, e⟩ := hcore h5 none
      obtain ⟨rfl, rfl⟩ := steps_det h6 h2
      have hmap : ∀ (x : List (Option (Any U))), (x.filterMap id).map core = (x.map (Option.map core)).filterMap id := by
        intro x
        rw [List.map_filterMap, List.filterMap_map]
        rfl
      have := get_core (Config.new opts).noSort (as'.filterMap id ++ bs'.filterMap id) (as'.filterMap id ++ bs2.filterMap id)
        (by simp only [List.map_append, hmap, e]) ident
      rw [List.filterMap_append, this, getAll_append _ (Config.new opts).noSort]
    · intro hd
      obtain ⟨bs2, q2, h6, e⟩ := steps_seen (F := F) (id : Any U → Any U) (fun a b e => by rw [show a = b from e])
        (fun a b e => by rw [show a = b from e]) (cfg := Config.new opts) (by rw [(dropCustom_iff opts).2 hd]; simp) own h5 none
      obtain ⟨rfl, rfl⟩ := steps_det h6 h2
      simp only [Option.map_id_fun, List.map_id_fun, id_eq] at e
      subst e
      rw [List.filterMap_append]
      exact mergesTo_append _ _ _

/-- **C79** (nothing left over).  If nothing is left over of the members of the first document, importing
both as one is the same as merging the collections, whatever the second document. -/
theorem c79_nothing_left (opts : List (CollOption U)) (hn : NoParsers opts) (docA docB doc : Json) (l l' : List Json)
    (hA : Holds docA l) (hB : Holds docB l') (hl : Holds doc (l ++ l'))
    (hno : ∀ k v, ¬ LeftOver (CollOption.dropCustom ∈ opts) l k v) (a : Coll (Any U))
    (ha : fromJSON F opts (some docA) = .ok a) :
    ((∃ c, fromJSON F opts (some doc) = .ok c) ↔ ∃ b, fromJSON F opts (some docB) = .ok b) ∧
    ∀ b c, fromJSON F opts (some docB) = .ok b → fromJSON F opts (some doc) = .ok c → MergesTo a b c := by
  simp only [fromJSON_holds hB, fromJSON_holds hl]
  obtain ⟨as, p, h1, rfl⟩ := (fromJSON_holds hA a).1 ha
  have hp : p.getD [] = [] := by
    have := steps_peak hn peakHas_none h1
    rw [List.nil_append] at this
    rw [eq_nil_iff_lookup]
    intro k
    cases e : amLookup k (p.getD []) with
    | none => rfl
    | some d =>
      obtain ⟨v, hv, -⟩ := (this.val k d).1 e
      rw [dropCustom_iff] at hv
      exact absurd hv (hno k v)
  constructor
  · constructor
    · rintro ⟨c, cs, r, hst, rfl⟩
      obtain ⟨as', bs, p', rfl, h2, h3⟩ := steps_split hst
      obtain ⟨rfl, rfl⟩ := steps_det h2 h1
      obtain ⟨q, h4⟩ := (steps_clean hp).1 ⟨_, h3⟩
      exact ⟨_, bs, q, h4, rfl⟩
    · rintro ⟨b, bs, q, h2, rfl⟩
      obtain ⟨r, h4⟩ := (steps_clean hp).2 ⟨_, h2⟩
      exact ⟨_, _, r, steps_append h1 h4, rfl⟩
  · rintro _ _ ⟨bs, q, h2, rfl⟩ ⟨cs, r, h3, rfl⟩
    obtain ⟨as', bs', p', rfl, h4, h5⟩ := steps_split h3
    obtain ⟨rfl, rfl⟩ := steps_det h4 h1
    obtain ⟨q', h6⟩ := (steps_clean hp).1 ⟨_, h5⟩
    obtain ⟨rfl, -⟩ := steps_det h6 h2
    rw [List.filterMap_append]
    exact mergesTo_append _ _ _

/-- Without one of these conditions the collections may differ: a tool after an object with an unknown
member has that member, and merging the collections of the two gives a tool without it. -/
theorem c79_not_exact : ∃ a b c : Coll (Any Empty), fromJSON toy [] (some (.arr (exLeak.take 1))) = .ok a ∧
    fromJSON toy [] (some (.arr (exLeak.drop 1))) = .ok b ∧
    fromJSON toy [] (some (.arr (exLeak.take 1 ++ exLeak.drop 1))) = .ok c ∧ ¬ MergesTo a b c := by
  obtain ⟨c, b, hc, hb, h1, h2⟩ := c30_leak
  have h3 : (fromJSON (U := Empty) toy [] (some (.arr (exLeak.take 1)))).okWith (fun _ => true) = true := by
    decide +kernel
  obtain ⟨a, ha, -⟩ := Res.okWith_iff.1 h3
  refine ⟨a, b, c, ha, hb, hc, fun hm => ?_⟩
  obtain ⟨as, -, -, rfl⟩ := (fromJSON_holds (.array _) a).1 ha
  obtain ⟨bs, -, -, rfl⟩ := (fromJSON_holds (.array _) b).1 hb
  obtain ⟨out, ho, -⟩ := c02_allObjects_deterministic (bs.filterMap id)
  obtain ⟨xs, rfl, -, hg⟩ := c79_merge_get false false (as.filterMap id) _ _ ho
  have e := (hm xs ho).1 (exId (b!"tool"))
  have e' := (hg (exId (b!"tool"))).symm.trans e
  unfold exToolExtended at h1 h2
  rw [← e'] at h1
  have hns : (Config.new ([] : List (CollOption Empty))).noSort = false := rfl
  rw [hns] at h2
  cases k : ((Coll.new false).addAll (bs.filterMap id)).get (exId (b!"tool")) with
  | none => rw [k] at h2; simp at h2
  | some x =>
    rw [k] at h1 h2
    rw [Option.some_or, h2] at h1
    cases h1

set_option maxRecDepth 100000 in
/-- C79 (nothing left over): the tool of `exLeak` first. -/
example : (∀ k v, ¬ LeftOver (CollOption.dropCustom (U := Empty) ∈ []) (exLeak.drop 1) k v) ∧
    NoParsers (U := Empty) [] ∧ Holds (.arr (exLeak.drop 1 ++ exLeak)) (exLeak.drop 1 ++ exLeak) ∧
    (fromJSON (U := Empty) toy [] (some (.arr (exLeak.drop 1)))).okWith (fun _ => true) = true ∧
    (fromJSON (U := Empty) toy [] (some (.arr exLeak))).okWith (fun _ => true) = true := by
  refine ⟨fun k v h => ?_, fun o ho => (by cases ho), .array _, by decide +kernel, by decide +kernel⟩
  obtain ⟨ms, e, h1, h2⟩ := (leftOver_snoc (before := [])).1 h
  simp only [Json.obj.injEq] at e
  subst e
  have hk : k = (b!"type") ∨ k = (b!"id") := by
    rcases h2 with h2 | ⟨-, h2⟩
    · by_contra hk
      rw [not_or] at hk
      simp [member, Ne.symm hk.1, Ne.symm hk.2] at h2
    · exact absurd h2 leftOver_nil
  refine h1 ⟨by simp, (b!"tool"), .Tool, .own (text_obj_iff.2 ⟨_, rfl, _, rfl⟩), by decide, ?_⟩
  rcases hk with rfl | rfl <;> decide

/-- C79 (documents): two documents whose elements have types of their own, accepted together, with an
object of each. -/
example : (∀ ms, .obj ms ∈ exLeak.drop 1 → (b!"type") ∈ amKeys ms) ∧
    (fromJSON (U := Empty) toy [.dropCustom] (some (.arr (exLeak.take 1 ++ exLeak.drop 1)))).okWith (fun c =>
      (c.get (exId (b!"malware"))).isSome && (c.get (exId (b!"tool"))).isSome) = true := by
  refine ⟨fun ms h => ?_, by decide +kernel⟩
  simp only [exLeak, List.drop_succ_cons, List.drop_zero, List.mem_singleton, Json.obj.injEq] at h
  subst h
  decide

/-- C79 (values and order): what `exHist` lists, added to a collection with an older version of its malware
and another tool, puts the newer malware in the place of the older one. -/
example : ∃ h bs : List ExObj, ((Coll.new false).addAll exHist).AllObjects (bs.map some) ∧
    (((Coll.new false).addAll h).addAll bs).get (b!"malware--" ++ exUUID) = some ⟨b!"malware--" ++ exUUID, b!"malware", 2⟩ ∧
    ((Coll.new false).addAll h).get (b!"malware--" ++ exUUID) = some ⟨b!"malware--" ++ exUUID, b!"malware", 0⟩ ∧
    (((Coll.new false).addAll h).addAll bs).AllObjects
      [some ⟨b!"malware--" ++ exUUID, b!"malware", 2⟩, some ⟨b!"tool--" ++ exUUID, b!"tool", 4⟩] := by
  refine ⟨[⟨b!"malware--" ++ exUUID, b!"malware", 0⟩],
    [⟨b!"tool--" ++ exUUID, b!"tool", 4⟩, ⟨b!"malware--" ++ exUUID, b!"malware", 2⟩], ?_, by decide +kernel,
    by decide +kernel, ?_⟩
  · unfold Coll.AllObjects
    rw [if_pos (by decide +kernel)]
    decide +kernel
  · unfold Coll.AllObjects
    rw [if_pos (by decide +kernel)]
    decide +kernel

end Stix
