import Verif.Lemmas.Collection

/-!
# Collection properties: C01 – C05

`(Coll.new ns).addAll h` is the collection after the history `h` of `Add` calls, with or
without `NoSortOption`.
-/

namespace Stix
open Spec StixObject Coll

variable {α : Type _} [StixObject α]

/-- **C01.** `Get(id)` is the object of the most recent accepted `Add` for that id. -/
theorem c01_get_latest (ns : Bool) (h : List α) (id : Str) (o : α) :
    ((Coll.new ns).addAll h).get id = some o ↔ Latest h id o :=
  (collInv_addAll ns h).get id o

/-- **C01.** `Get(id)` is nil exactly when no acceptable object with that id was added. -/
theorem c01_get_nil (ns : Bool) (h : List α) (id : Str) :
    ((Coll.new ns).addAll h).get id = none ↔ ∀ o ∈ h, getID o = id → ¬ Acceptable o := by
  rw [Option.eq_none_iff_forall_not_mem]
  simp only [Option.mem_def, c01_get_latest]
  rw [← not_exists, exists_latest_iff]
  push Not
  exact ⟨fun H o ho hi ha => H o ho ha hi, fun H o ho ha hi => H o ho hi ha⟩

/-- What `AllObjects` must return for a history: one entry per accepted id, in order of first
acceptance, each the latest version of its object. -/
structure Spec.Listing (h : List α) (ids : List Str) (out : List (Option α)) : Prop where
  nodup : ids.Nodup
  ordered : ids.Pairwise (FirstBefore h)
  complete : ∀ id, id ∈ ids ↔ ∃ o ∈ h, Acceptable o ∧ getID o = id
  entries : List.Forall₂ (fun id e => ∃ o, e = some o ∧ Latest h id o) ids out

theorem allObjects_sorted_eq (h : List α) (out : List (Option α))
    (ho : ((Coll.new false).addAll h).AllObjects out) :
    out = ((Coll.new false).addAll h).order.map ((Coll.new false).addAll h).get := by
  have inv := collInv_addAll false h
  unfold Coll.AllObjects at ho
  split at ho
  · exact ho
  · rename_i hc
    have h0 : ((Coll.new false).addAll h).order = [] := by
      by_contra hne
      exact hc ⟨inv.nsEq, by simpa [List.length_eq_zero_iff] using hne⟩
    have hobj : ((Coll.new false).addAll h).objects = [] := by
      by_contra hne
      obtain ⟨e, he⟩ := List.exists_mem_of_ne_nil _ hne
      obtain ⟨x, hx⟩ := List.exists_mem_of_ne_nil _ (inv.bne e he)
      have h1 : ((Coll.new false).addAll h).getObject e.1 x.1 = some x.2 := by
        unfold Coll.getObject
        rw [amLookup_eq_some_of_mem e.1 e.2 _ inv.keys he]
        exact amLookup_eq_some_of_mem x.1 x.2 _ (inv.bkeys e he) hx
      have := (inv.omem rfl x.1).2 ⟨_, ((inv.lookup _ _ _).1 h1).1⟩
      rw [h0] at this; simp at this
    obtain ⟨bs, hbs, vs, hvs, rfl⟩ := ho
    rw [hobj] at hbs
    have := List.Perm.eq_nil hbs
    subst this
    cases hvs
    simp [h0]

/-- **C02.** Every result of `AllObjects` on a collection without `NoSortOption` lists the
accepted ids once each in order of first acceptance with their latest, non-nil object. -/
theorem c02_allObjects_order (h : List α) (out : List (Option α))
    (ho : ((Coll.new false).addAll h).AllObjects out) : ∃ ids, Listing h ids out := by
  have inv := collInv_addAll false h
  refine ⟨_, inv.onodup rfl, inv.opair rfl, fun id => (inv.omem rfl id).trans (exists_latest_iff h id), ?_⟩
  rw [allObjects_sorted_eq h out ho, List.forall₂_map_right_iff, List.forall₂_same]
  intro id hid
  obtain ⟨o, hl⟩ := (inv.omem rfl id).1 hid
  exact ⟨o, (inv.get id o).2 hl, hl⟩

/-- **C02.** `AllObjects` always returns, and without `NoSortOption` its result is determined
by the history. -/
theorem c02_allObjects_deterministic (h : List α) :
    ∃! out, ((Coll.new false).addAll h).AllObjects out := by
  refine ⟨((Coll.new false).addAll h).order.map ((Coll.new false).addAll h).get, ?_,
    fun out ho => allObjects_sorted_eq h out ho⟩
  have inv := collInv_addAll false h
  have ex : ∃ out, ((Coll.new false).addAll h).AllObjects out := by
    unfold Coll.AllObjects
    split
    · exact ⟨_, rfl⟩
    · exact ⟨_, _, List.Perm.refl _, ((Coll.new false).addAll h).objects.map Prod.snd,
        by rw [List.forall₂_map_right_iff, List.forall₂_same]; exact fun _ _ => List.Perm.refl _, rfl⟩
  obtain ⟨out, ho⟩ := ex
  rw [← allObjects_sorted_eq h out ho]; exact ho

/-- The listing of a history is unique, so C02 says everything about the result. -/
theorem c02_listing_unique (h : List α) (ids ids' : List Str) (out out' : List (Option α))
    (h1 : Listing h ids out) (h2 : Listing h ids' out') : ids = ids' ∧ out = out' := by
  have asym : ∀ a b, FirstBefore h a b → FirstBefore h b a → False := by
    rintro a b ⟨p, s, e, ⟨x, hx, hxa, hxi⟩, hn, _⟩ ⟨p', s', e', ⟨y, hy, hya, hyi⟩, hn', _⟩
    rw [e] at e'
    rcases List.append_eq_append_iff.1 e' with ⟨z, hz, _⟩ | ⟨z, hz, _⟩
    · exact hn' x (by rw [hz]; simp [hx]) hxa hxi
    · exact hn y (by rw [hz]; simp [hy]) hya hyi
  have hp : ids.Perm ids' := (List.perm_ext_iff_of_nodup h1.nodup h2.nodup).2
    (fun a => (h1.complete a).trans (h2.complete a).symm)
  have hids : ids = ids' :=
    hp.eq_of_pairwise (fun a b _ _ hab hba => (asym a b hab hba).elim) h1.ordered h2.ordered
  subst hids
  refine ⟨rfl, ?_⟩
  have g : ∀ (l : List Str) (o o' : List (Option α)),
      List.Forall₂ (fun id e => ∃ o, e = some o ∧ Latest h id o) l o →
      List.Forall₂ (fun id e => ∃ o, e = some o ∧ Latest h id o) l o' → o = o' := by
    intro l
    induction l with
    | nil => rintro o o' ⟨⟩ ⟨⟩; rfl
    | cons a l ih =>
      rintro o o' (_ | ⟨⟨x, rfl, hx⟩, ht⟩) (_ | ⟨⟨y, rfl, hy⟩, ht'⟩)
      rw [latest_unique hx hy, ih _ _ ht ht']
  exact g ids out out' h1.entries h2.entries

theorem flatten_perm {β : Type _} (bs : List (Str × List β)) (vs : List (List β))
    (h : List.Forall₂ (fun b v => v.Perm b.2) bs vs) :
    vs.flatten.Perm (bs.map Prod.snd).flatten := by
  induction h with
  | nil => exact List.Perm.refl _
  | cons h _ ih => simpa using h.append ih

/-- Members of an unordered listing: exactly the latest objects, each once. -/
theorem allObjects_nosort (h : List α) (out : List (Option α))
    (ho : ((Coll.new true).addAll h).AllObjects out) :
    ∃ l : List (Str × α), out = l.map (fun e => some e.2) ∧ (amKeys l).Nodup ∧
      ∀ id o, (id, o) ∈ l ↔ Latest h id o := by
  have inv := collInv_addAll true h
  unfold Coll.AllObjects at ho
  rw [if_neg (by rw [inv.nsEq]; simp)] at ho
  obtain ⟨bs, hbs, vs, hvs, rfl⟩ := ho
  have hp : vs.flatten.Perm (((Coll.new true).addAll h).objects.map Prod.snd).flatten :=
    (flatten_perm bs vs hvs).trans ((List.Perm.map _ hbs).flatten)
  have hmem : ∀ id o, (id, o) ∈ vs.flatten ↔ Latest h id o := by
    intro id o
    rw [hp.mem_iff]
    simp only [List.mem_flatten, List.mem_map]
    constructor
    · rintro ⟨b, ⟨e, he, rfl⟩, hm⟩
      have : ((Coll.new true).addAll h).getObject e.1 id = some o := by
        unfold Coll.getObject
        rw [amLookup_eq_some_of_mem e.1 e.2 _ inv.keys he]
        exact amLookup_eq_some_of_mem _ _ _ (inv.bkeys e he) hm
      exact ((inv.lookup _ _ _).1 this).1
    · intro hl
      have := (inv.lookup (getType o) id o).2 ⟨hl, rfl⟩
      unfold Coll.getObject at this
      split at this
      · simp at this
      · rename_i b hb
        exact ⟨b, ⟨_, mem_of_amLookup _ _ _ hb, rfl⟩, mem_of_amLookup _ _ _ this⟩
  refine ⟨vs.flatten, rfl, ?_, hmem⟩
  -- no duplicate ids: within a bucket by the invariant, across buckets because the id fixes the type
  unfold amKeys
  rw [(hp.map Prod.fst).nodup_iff, List.map_flatten, List.nodup_flatten]
  refine ⟨?_, ?_⟩
  · simp only [List.map_map, List.mem_map]
    rintro l ⟨e, he, rfl⟩
    exact inv.bkeys e he
  · rw [List.map_map, List.pairwise_map]
    have hk := inv.keys
    unfold amKeys at hk
    rw [List.Nodup, List.pairwise_map] at hk
    refine List.Pairwise.imp_of_mem ?_ hk
    intro e e' he he' hne id h1 h2
    obtain ⟨x, hx, rfl⟩ := List.mem_map.1 h1
    obtain ⟨y, hy, hxy⟩ := List.mem_map.1 h2
    have g : ∀ e ∈ ((Coll.new true).addAll h).objects, ∀ x ∈ e.2,
        Latest h x.1 x.2 ∧ getType x.2 = e.1 := by
      intro e he x hx
      refine (inv.lookup _ _ _).1 ?_
      unfold Coll.getObject
      rw [amLookup_eq_some_of_mem e.1 e.2 _ inv.keys he]
      exact amLookup_eq_some_of_mem _ _ _ (inv.bkeys e he) hx
    obtain ⟨l1, t1⟩ := g e he x hx
    obtain ⟨l2, t2⟩ := g e' he' y hy
    rw [hxy] at l2
    rw [latest_unique l1 l2, t2] at t1
    exact hne t1.symm

/-- **C03.** With `NoSortOption`, whatever order the maps are visited in, `AllObjects` is a
permutation of what the same history gives without the option. -/
theorem c03_nosort_permutation (h : List α) (out out' : List (Option α))
    (h1 : ((Coll.new true).addAll h).AllObjects out)
    (h2 : ((Coll.new false).addAll h).AllObjects out') : out.Perm out' := by
  obtain ⟨l, rfl, hn, hm⟩ := allObjects_nosort h out h1
  have inv := collInv_addAll false h
  rw [allObjects_sorted_eq h out' h2]
  have hp : (amKeys l).Perm ((Coll.new false).addAll h).order := by
    rw [List.perm_ext_iff_of_nodup hn (inv.onodup rfl)]
    intro id
    rw [inv.omem rfl]
    unfold amKeys
    constructor
    · intro hx
      obtain ⟨e, he, rfl⟩ := List.mem_map.1 hx
      exact ⟨e.2, (hm e.1 e.2).1 he⟩
    · rintro ⟨o, ho⟩
      exact List.mem_map.2 ⟨(id, o), (hm id o).2 ho, rfl⟩
  have he : l.map (fun e => some e.2) = (amKeys l).map ((Coll.new false).addAll h).get := by
    unfold amKeys
    rw [List.map_map, List.map_inj_left]
    intro e he
    exact ((inv.get e.1 e.2).2 ((hm e.1 e.2).1 he)).symm
  rw [he]
  exact hp.map _

/-- **C05.** `GetAll(t)` is nil exactly when no stored object has type `t`; otherwise it
contains exactly the stored (latest) objects of type `t`, each once.  This holds with and
without `NoSortOption` (the other half of C03). -/
theorem c05_getAll (ns : Bool) (h : List α) (t : Str) (out : Option (List α))
    (hg : ((Coll.new ns).addAll h).GetAll t out) :
    (out = none ↔ ¬ ∃ id o, Latest h id o ∧ getType o = t) ∧
    ∀ l, out = some l → (l.map getID).Nodup ∧
      ∀ o, o ∈ l ↔ Latest h (getID o) o ∧ getType o = t := by
  have inv := collInv_addAll ns h
  unfold Coll.GetAll at hg
  cases hb : amLookup t ((Coll.new ns).addAll h).objects with
  | none =>
    rw [hb] at hg
    subst hg
    refine ⟨by
      simp only [true_iff]
      rintro ⟨id, o, hl, ht⟩
      have := (inv.lookup t id o).2 ⟨hl, ht⟩
      simp [Coll.getObject, hb] at this, by simp⟩
  | some b =>
    rw [hb] at hg
    obtain ⟨vs, hvs, rfl⟩ := hg
    have hbm := mem_of_amLookup _ _ _ hb
    have hlk : ∀ id o, (id, o) ∈ b ↔ Latest h id o ∧ getType o = t := by
      intro id o
      rw [← inv.lookup, ← amLookup_eq_some_iff _ _ _ (inv.bkeys _ hbm)]
      simp [Coll.getObject, hb]
    refine ⟨?_, ?_⟩
    · simp only [reduceCtorEq, false_iff, not_not]
      obtain ⟨x, hx⟩ := List.exists_mem_of_ne_nil _ (inv.bne _ hbm)
      exact ⟨x.1, x.2, (hlk _ _).1 hx⟩
    · intro l hl
      simp only [Option.some.injEq] at hl
      subst hl
      have hkey : (vs.map Prod.snd).map getID = vs.map Prod.fst := by
        rw [List.map_map, List.map_inj_left]
        intro e he
        exact (latest_acceptable ((hlk e.1 e.2).1 (hvs.mem_iff.1 he)).1).2.1
      refine ⟨?_, ?_⟩
      · rw [hkey, (hvs.map Prod.fst).nodup_iff]; exact inv.bkeys _ hbm
      · intro o
        constructor
        · intro ho
          obtain ⟨e, he, rfl⟩ := List.mem_map.1 ho
          have := (hlk e.1 e.2).1 (hvs.mem_iff.1 he)
          rw [(latest_acceptable this.1).2.1]; exact this
        · intro ho
          exact List.mem_map.2 ⟨(getID o, o), hvs.mem_iff.2 ((hlk _ _).2 ho), rfl⟩

/-- **C05.** Every object `AllObjects` returns is in `GetAll` of its type and of no other. -/
theorem c05_partition (ns : Bool) (h : List α) (out : List (Option α))
    (ho : ((Coll.new ns).addAll h).AllObjects out) (o : α) :
    some o ∈ out ↔ ∃ t l, ((Coll.new ns).addAll h).GetAll t (some l) ∧ o ∈ l := by
  have inv := collInv_addAll ns h
  have hmem : some o ∈ out ↔ Latest h (getID o) o := by
    cases ns with
    | true =>
      obtain ⟨l, rfl, hn, hm⟩ := allObjects_nosort h out ho
      simp only [List.mem_map, Option.some.injEq]
      constructor
      · rintro ⟨e, he, rfl⟩
        have := (hm e.1 e.2).1 he
        rw [(latest_acceptable this).2.1]; exact this
      · exact fun hl => ⟨(getID o, o), (hm _ _).2 hl, rfl⟩
    | false =>
      rw [allObjects_sorted_eq h out ho]
      simp only [List.mem_map, inv.get]
      constructor
      · rintro ⟨id, _, hl⟩
        rw [(latest_acceptable hl).2.1]; exact hl
      · exact fun hl => ⟨getID o, (inv.omem rfl _).2 ⟨o, hl⟩, hl⟩
  rw [hmem]
  constructor
  · intro hl
    have hex : ∃ out, ((Coll.new ns).addAll h).GetAll (getType o) out := by
      unfold Coll.GetAll
      split
      · exact ⟨_, rfl⟩
      · exact ⟨_, _, List.Perm.refl _, rfl⟩
    obtain ⟨out', ho'⟩ := hex
    obtain ⟨g1, g2⟩ := c05_getAll ns h _ _ ho'
    cases out' with
    | none => exact absurd ⟨_, o, hl, rfl⟩ (g1.1 rfl)
    | some l => exact ⟨_, l, ho', ((g2 l rfl).2 o).2 ⟨hl, rfl⟩⟩
  · rintro ⟨t, l, hg, hm⟩
    exact (((c05_getAll ns h t _ hg).2 l rfl).2 o).1 hm |>.1

/-- **C05.** ... of exactly one type. -/
theorem c05_one_type (ns : Bool) (h : List α) (o : α) (t t' : Str) (l l' : List α)
    (h1 : ((Coll.new ns).addAll h).GetAll t (some l)) (h1' : o ∈ l)
    (h2 : ((Coll.new ns).addAll h).GetAll t' (some l')) (h2' : o ∈ l') : t = t' := by
  have g1 := (((c05_getAll ns h t _ h1).2 l rfl).2 o).1 h1'
  have g2 := (((c05_getAll ns h t' _ h2).2 l' rfl).2 o).1 h2'
  exact g1.2.symm.trans g2.2

/-- **C03.** `GetAll` gives the same objects with and without `NoSortOption`, in any order. -/
theorem c03_getAll (ns ns' : Bool) (h : List α) (t : Str) (o o' : Option (List α))
    (h1 : ((Coll.new ns).addAll h).GetAll t o) (h2 : ((Coll.new ns').addAll h).GetAll t o') :
    (o = none ↔ o' = none) ∧ ∀ l l', o = some l → o' = some l' → l.Perm l' := by
  obtain ⟨a1, b1⟩ := c05_getAll ns h t o h1
  obtain ⟨a2, b2⟩ := c05_getAll ns' h t o' h2
  refine ⟨a1.trans a2.symm, ?_⟩
  intro l l' hl hl'
  obtain ⟨n1, m1⟩ := b1 l hl
  obtain ⟨n2, m2⟩ := b2 l' hl'
  rw [List.perm_ext_iff_of_nodup (List.Nodup.of_map _ n1) (List.Nodup.of_map _ n2)]
  exact fun x => (m1 x).trans (m2 x).symm

/-- **C04.** `Add` returns an error exactly when the id does not identify an object of the
object's own type. -/
theorem c04_accepts (c : Coll α) (o : α) :
    (c.add o).2 = false ↔ Identifies (getType o) (getID o) := by
  rw [← hasValidIdentifier_iff]
  unfold Coll.add
  cases hasValidIdentifier (getID o) (getType o) <;> simp

/-- **C04.** A rejected `Add` leaves no trace: the rest of any history gives the same
collection as if the call had not been made, so no later observation can differ. -/
theorem c04_no_trace (c : Coll α) (before after : List α) (o : α)
    (h : ((c.addAll before).add o).2 = true) :
    c.addAll (before ++ o :: after) = c.addAll (before ++ after) := by
  have hn : ¬ Acceptable o := by
    intro ha
    have := (c04_accepts (c.addAll before) o).2 ha
    rw [this] at h; simp at h
  simp only [addAll, List.foldl_append, List.foldl_cons]
  rw [add_rejected _ o hn]

/-! ### Non-trivial cases -/

/-- A small object for the examples. -/
structure ExObj where
  id : Str
  typ : Str
  n : Nat
  deriving DecidableEq, Repr

instance : StixObject ExObj := ⟨ExObj.id, ExObj.typ⟩

/-- Two versions of one object, another object and a rejected one. -/
def exHist : List ExObj :=
  [⟨b!"tool--" ++ exUUID, b!"tool", 1⟩, ⟨b!"malware--" ++ exUUID, b!"malware", 2⟩,
   ⟨b!"tool--" ++ exUUID, b!"malware", 3⟩, ⟨b!"tool--" ++ exUUID, b!"tool", 4⟩]

example : ((Coll.new false).addAll exHist).get (b!"tool--" ++ exUUID) =
    some ⟨b!"tool--" ++ exUUID, b!"tool", 4⟩ := by decide +kernel

example : ((Coll.new false).addAll exHist).order = [b!"tool--" ++ exUUID, b!"malware--" ++ exUUID] := by
  decide +kernel

example : Latest exHist (b!"tool--" ++ exUUID) ⟨b!"tool--" ++ exUUID, b!"tool", 4⟩ :=
  (c01_get_latest false _ _ _).1 (by decide +kernel)

example : ((Coll.new true).addAll exHist).AllObjects
    [some ⟨b!"malware--" ++ exUUID, b!"malware", 2⟩, some ⟨b!"tool--" ++ exUUID, b!"tool", 4⟩] := by
  unfold Coll.AllObjects
  rw [if_neg (by decide +kernel)]
  refine ⟨[(b!"malware", [(b!"malware--" ++ exUUID, ⟨b!"malware--" ++ exUUID, b!"malware", 2⟩)]),
    (b!"tool", [(b!"tool--" ++ exUUID, ⟨b!"tool--" ++ exUUID, b!"tool", 4⟩)])], ?_, _,
    .cons (List.Perm.refl _) (.cons (List.Perm.refl _) .nil), rfl⟩
  have : ((Coll.new true).addAll exHist).objects =
    [(b!"tool", [(b!"tool--" ++ exUUID, ⟨b!"tool--" ++ exUUID, b!"tool", 4⟩)]),
     (b!"malware", [(b!"malware--" ++ exUUID, ⟨b!"malware--" ++ exUUID, b!"malware", 2⟩)])] := by
    decide +kernel
  rw [Coll.Iter, this]
  exact List.Perm.swap _ _ _

example : ((Coll.new false).add (⟨b!"tool--x", b!"tool", 0⟩ : ExObj)).2 = true ∧
    (((Coll.new false).addAll exHist).add ⟨b!"tool--" ++ exUUID, b!"tool", 9⟩).2 = false := by
  decide +kernel

example : ((Coll.new false).addAll exHist).GetAll (b!"tool")
    (some [⟨b!"tool--" ++ exUUID, b!"tool", 4⟩]) := by
  have : amLookup (b!"tool") ((Coll.new false).addAll exHist).objects =
      some [(b!"tool--" ++ exUUID, ⟨b!"tool--" ++ exUUID, b!"tool", 4⟩)] := by decide +kernel
  unfold Coll.GetAll
  rw [this]
  exact ⟨_, List.Perm.refl _, rfl⟩

end Stix
