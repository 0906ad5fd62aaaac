import Verif.Lemmas.Bundle
import Verif.Props.RoundTrip

/-!
# Bundles (C35, C36)
-/

namespace Stix
open Spec StixObject
open Props.Canon (toy)

variable {F : Canon.FloatFmt} {U : Type} [UserType U]

/-! ## C35 -/

/-- **C35.** `ToBundle` succeeds exactly when every object of the collection marshals, and does not
panic. -/
theorem c35_succeeds (ns : Bool) (h : List (Any U)) (hp : ∀ a ∈ h, a.panics = false)
    (rnd : List UInt8) (b : Res GV) (hb : toBundle F rnd ((Coll.new ns).addAll h) b) :
    b ≠ .panic ∧ ((∃ v, b = .ok v) ↔ ∀ id a, ((Coll.new ns).addAll h).get id = some a →
      ∃ j, marshalAny F a = some j) := by
  obtain ⟨objs, ho, rfl⟩ := hb
  obtain ⟨as, rfl, -, h2⟩ := allObjects_spec ns h objs ho
  have hmem : ∀ a, some a ∈ as.map some ↔ a ∈ as := by simp
  rw [newBundle_eq]
  constructor
  · have := bundleObjects_noPanic (F := F) (as.map some) fun a ha => by
      have ha' := (h2 _ a).2 ⟨(hmem a).1 ha, rfl⟩
      rw [c01_get_latest] at ha'
      exact idPanics_of a (hp a (latest_acceptable ha').2.2)
    cases hb : bundleObjects F (as.map some) <;> simp_all [Res.bind]
  · constructor
    · rintro ⟨v, hv⟩ id a ha
      obtain ⟨js, hj, -⟩ := Res.bind_ok_iff.1 hv
      have hE := (bundleObjects_ok _ _).1 hj
      obtain ⟨j, -, hj'⟩ := forall₂_mem_left hE ((hmem a).2 ((h2 id a).1 ha).1)
      rcases hj' with ⟨e, -⟩ | ⟨a', e, hm⟩
      · simp at e
      · obtain rfl := Option.some.inj e
        exact ⟨j, hm⟩
    · intro hall
      obtain ⟨js, hj⟩ := bundleObjects_total (F := F) (as.map some) fun a ha => by
        obtain ⟨j, hj⟩ := hall _ a ((h2 _ a).2 ⟨(hmem a).1 ha, rfl⟩)
        rw [hj]; rfl
      rw [hj]
      exact ⟨_, rfl⟩

theorem hexRun_ascii {n : Nat} {s : Str} (h : HexRun n s) : s.all (fun c => c < 128) = true := by
  rw [List.all_eq_true]
  intro c hc
  have := h.2 c hc
  unfold IsHex at this
  rw [decide_eq_true_eq, UInt8.lt_iff_toNat_lt]
  simp only [UInt8.le_iff_toNat_le] at this
  have e : (128 : UInt8).toNat = 128 := rfl
  rw [e]
  rcases this with ⟨-, h⟩ | ⟨-, h⟩ | ⟨-, h⟩
  · exact Nat.lt_of_le_of_lt h (by decide)
  · exact Nat.lt_of_le_of_lt h (by decide)
  · exact Nat.lt_of_le_of_lt h (by decide)

theorem unicode_newIdentifier (rnd : List UInt8) (hr : rnd.length = 16) (t : Str)
    (ht : t.all (fun c => c < 128) = true) : Canon.Unicode (newIdentifier rnd t) := by
  apply unicode_ascii
  obtain ⟨a, b, c, d, e, h1, h2, h3, h4, h5, h6⟩ :=
    uuidCanon_uuidString (uuidStamp 4 rnd) (by rw [uuidStamp_length, hr])
  rw [newIdentifier, h6]
  simp only [List.all_append, hexRun_ascii h1, hexRun_ascii h2, hexRun_ascii h3, hexRun_ascii h4,
    hexRun_ascii h5, ht]
  decide

/-- The members of the JSON of a bundle. -/
theorem bundleDoc_spec (rnd : List UInt8) (hr : rnd.length = 16) (js : List Json) :
    Text (bundleDoc rnd js) (b!"type") (b!"bundle") ∧
      (∃ id, Text (bundleDoc rnd js) (b!"id") id ∧ Identifies (b!"bundle") id) ∧
      (js ≠ [] → IsBundle (bundleDoc rnd js) js) ∧
      (js = [] → ∀ j, ¬ Member (bundleDoc rnd js) (b!"objects") j) := by
  have hid := (c08_new_identifier rnd TypeBundle hr (by decide) (c08_library_types _ (by decide)).2).2.2.2
  have hsan := sanitize_unicode (unicode_newIdentifier rnd hr TypeBundle (by decide))
  have e1 : member (b!"type") ([(b!"type", Json.ofStr TypeBundle),
      (b!"id", .ofStr (newIdentifier rnd TypeBundle))] ++
        if js = [] then [] else [(b!"objects", .arr js)]) = some (.ofStr TypeBundle) := by
    split <;> simp [member]
  have e2 : member (b!"id") ([(b!"type", Json.ofStr TypeBundle),
      (b!"id", .ofStr (newIdentifier rnd TypeBundle))] ++
        if js = [] then [] else [(b!"objects", .arr js)]) =
      some (.ofStr (newIdentifier rnd TypeBundle)) := by
    split <;> simp [member]
  have t1 : Text (bundleDoc rnd js) (b!"type") (b!"bundle") :=
    ⟨_, ⟨_, rfl, e1⟩, by
      rw [Json.ofStr, sanitize_unicode (unicode_ascii TypeBundle (by decide))]; exact ⟨_, rfl⟩⟩
  refine ⟨t1, ⟨_, ⟨_, ⟨_, rfl, e2⟩, by rw [Json.ofStr, hsan]; exact ⟨_, rfl⟩⟩, hid⟩, ?_, ?_⟩
  · intro hne
    have hb : bundleDoc rnd js = .obj [(b!"type", Json.ofStr TypeBundle),
      (b!"id", .ofStr (newIdentifier rnd TypeBundle)), (b!"objects", .arr js)] := by
      simp [bundleDoc, hne]
    refine ⟨?_, ⟨_, hb, by simp [member]⟩, ?_, ?_, ?_⟩
    · intro ms e
      rw [hb] at e
      obtain rfl := Json.obj.inj e
      simp [amKeys]
    · rintro v ⟨ms, e, hm⟩
      obtain rfl := Json.obj.inj e
      rw [e1] at hm
      rw [← Option.some.inj hm]
      exact ⟨_, _, rfl⟩
    · rintro v ⟨ms, e, hm⟩
      obtain rfl := Json.obj.inj e
      rw [e2] at hm
      rw [← Option.some.inj hm]
      exact ⟨_, _, rfl⟩
    · rw [hb]
      refine ⟨noVariant_of ?_, noVariant_of ?_, noVariant_of ?_⟩ <;> simp only [amKeys, List.map] <;>
        decide +kernel
  · rintro rfl j ⟨ms, e, hm⟩
    obtain rfl := Json.obj.inj e
    simp [member] at hm

/-- **C35.** The JSON of the bundle has the type `bundle`, a valid id of that type, and, if there are
any, the encodings of the objects that `AllObjects` returns, in its order. -/
theorem c35_bundle (ns : Bool) (h : List (Any U)) (rnd : List UInt8) (hr : rnd.length = 16) (v : GV)
    (hb : toBundle F rnd ((Coll.new ns).addAll h) (.ok v)) :
    ∃ objs js doc, ((Coll.new ns).addAll h).AllObjects objs ∧
      List.Forall₂ (fun o j => ∃ a, o = some a ∧ marshalAny F a = some j) objs js ∧
      enc F tyBundle v = some doc ∧ Text doc (b!"type") (b!"bundle") ∧
      (∃ id, Text doc (b!"id") id ∧ Identifies (b!"bundle") id) ∧
      (js ≠ [] → IsBundle doc js) ∧ (js = [] → ∀ j, ¬ Member doc (b!"objects") j) := by
  obtain ⟨objs, ho, hb⟩ := hb
  obtain ⟨as, rfl, -, h2⟩ := allObjects_spec ns h objs ho
  rw [newBundle_eq] at hb
  obtain ⟨js, hj, hv⟩ := Res.bind_ok_iff.1 hb.symm
  simp only [Res.ok.injEq] at hv
  subst hv
  have hE := (bundleObjects_ok _ _).1 hj
  refine ⟨_, js, bundleDoc rnd js, ho, ?_, enc_bundle rnd js, bundleDoc_spec rnd hr js⟩
  unfold Encodings at hE
  rw [List.forall₂_map_left_iff] at hE ⊢
  refine hE.imp ?_
  rintro a j (⟨e, -⟩ | h)
  · simp at e
  · exact h

/-! ## C36 -/

theorem carriedAll_identity {drop : Prop} {earlier os os' : List Obj} (h : CarriedAll drop earlier os os')
    (hs : ∀ o ∈ os, Sound o) :
    os'.map getID = os.map getID ∧ os'.map getType = os.map getType := by
  induction h with
  | nil => exact ⟨rfl, rfl⟩
  | cons h1 _ ih =>
    obtain ⟨e1, e2⟩ := identity_survives (hs _ (by simp)) h1.survives
    obtain ⟨i1, i2⟩ := ih fun o ho => hs o (by simp [ho])
    simp [e1, e2, i1, i2]

theorem carriedAll_acceptable {drop : Prop} {earlier os os' : List Obj} (h : CarriedAll drop earlier os os')
    (hs : ∀ o ∈ os, Sound o) : ∀ o' ∈ os', Acceptable o' := by
  induction h with
  | nil => simp
  | cons h1 _ ih =>
    have hso := hs _ List.mem_cons_self
    obtain ⟨e1, e2⟩ := identity_survives hso h1.survives
    intro o' ho'
    rcases List.mem_cons.1 ho' with rfl | ho'
    · show Identifies _ _
      rw [e1, e2]
      exact hso.ident
    · exact ih (fun o ho => hs o (by simp [ho])) o' ho'

theorem allObjects_self (as : List (Any U)) (hacc : ∀ a ∈ as, Acceptable a)
    (hnd : (as.map getID).Nodup) (out : List (Option (Any U))) :
    ((Coll.new false).addAll as).AllObjects out ↔ out = as.map some := by
  have key : ∀ out, ((Coll.new false).addAll as).AllObjects out → out = as.map some := by
    intro out ho
    obtain ⟨ids, hl⟩ := c02_allObjects_order _ _ ho
    rw [(c02_listing_unique _ _ _ _ _ hl (listing_self _ hacc hnd)).2]
  refine ⟨key out, ?_⟩
  rintro rfl
  obtain ⟨out, ho, -⟩ := c02_allObjects_deterministic as
  rw [← key out ho]
  exact ho

/-- **C36.** The bundle of a collection of library objects that can be sent is made, its JSON is
accepted, and the collection it gives has the same ids, `AllObjects` returns the objects in the
order of the bundle, and each is of the same Go type with the same properties as far as JSON keeps
them, and has its extended properties and those left over from objects before it (`Leaks`).

Missing: the latter should not be there. `c36_exact_partial` says when there are none. -/
theorem c36_round_trip_partial (L : Canon.FloatLaws F) (hI : IntegersParse F) (ns : Bool)
    (h : List (Any U))
    (hs : ∀ id a, ((Coll.new ns).addAll h).get id = some a → ∃ o, a = .lib o ∧ Sound o)
    (rnd : List UInt8) (hr : rnd.length = 16) (b : Res GV)
    (hb : toBundle F rnd ((Coll.new ns).addAll h) b) (opts : List (CollOption U))
    (hn : NoParsers opts) :
    ∃ v doc c os os', b = .ok v ∧ enc F tyBundle v = some doc ∧ fromJSON F opts (some doc) = .ok c ∧
      ((Coll.new ns).addAll h).AllObjects (os.map fun o => some (.lib o)) ∧
      CarriedAll (CollOption.dropCustom ∈ opts) [] os os' ∧
      os'.map getID = os.map getID ∧
      (∀ id a, c.get id = some a ↔ ∃ o' ∈ os', a = .lib o' ∧ getID o' = id) ∧
      (CollOption.noSort ∉ opts → ∀ out, c.AllObjects out ↔ out = os'.map fun o => some (.lib o)) := by
  obtain ⟨objs, ho, rfl⟩ := hb
  obtain ⟨as, rfl, h1, h2⟩ := allObjects_spec ns h objs ho
  have hos : ∃ os : List Obj, as = os.map .lib ∧ ∀ o ∈ os, Sound o := by
    have : ∀ a ∈ as, ∃ o, a = .lib o ∧ Sound o := fun a ha => hs _ a ((h2 _ a).2 ⟨ha, rfl⟩)
    clear h1 h2 ho
    induction as with
    | nil => exact ⟨[], rfl, by simp⟩
    | cons a as ih =>
      obtain ⟨o, rfl, hso⟩ := this a (by simp)
      obtain ⟨os, rfl, g⟩ := ih fun a ha => this a (by simp [ha])
      exact ⟨o :: os, rfl, by simpa [hso] using g⟩
  obtain ⟨os, rfl, hso⟩ := hos
  have hjs : ∃ js, List.Forall₂ (fun o j => marshalObj F o = some j) os js := by
    clear h1 h2 ho
    induction os with
    | nil => exact ⟨[], .nil⟩
    | cons o os ih =>
      obtain ⟨js, hj⟩ := ih fun o ho => hso o (by simp [ho])
      obtain ⟨ms, hm, -⟩ := marshal_spec (F := F) (hso o (by simp))
      exact ⟨_ :: js, .cons hm hj⟩
  obtain ⟨js, hjs⟩ := hjs
  have hE : bundleObjects F ((os.map (Any.lib (U := U))).map some) = .ok js := by
    rw [bundleObjects_ok, Encodings, List.map_map, List.forall₂_map_left_iff]
    exact hjs.imp fun o j hj => .inr ⟨_, rfl, hj⟩
  obtain ⟨os', p', g1, g2⟩ := steps_marshal L hI opts os js hjs
    (fun o ho => ⟨hso o ho, (noParser_iff opts _).2 (handlers_none hn _)⟩) none [] sortedKeys_nil (by simp [Leaks])
  obtain ⟨i1, i2⟩ := carriedAll_identity g2 hso
  have hfrom : fromJSON F opts (some (bundleDoc rnd js)) =
      .ok ((Coll.new (Config.new opts).noSort).addAll (os'.map .lib)) := by
    obtain ⟨-, -, hne, he⟩ := bundleDoc_spec rnd hr js
    have hl : fromJSON F opts (some (bundleDoc rnd js)) =
        processObjects F (Config.new opts) none (Coll.new (Config.new opts).noSort) js := by
      by_cases hj : js = []
      · subst hj
        rw [← fromJSON_arr]
        refine c31_no_objects opts _ ?_ ?_
        · simp only [if_true, List.append_nil, amKeys, List.map, SameUpToCase]
          decide +kernel
        · intro k v hk _
          simp only [if_true, List.append_nil, List.mem_cons, Prod.mk.injEq, List.not_mem_nil,
            or_false] at hk
          rcases hk with ⟨-, rfl⟩ | ⟨-, rfl⟩ <;> exact ⟨_, _, rfl⟩
      · exact fromJSON_bundle opts (hne hj)
    rw [hl, processObjects_ok]
    refine ⟨_, p', g1, ?_⟩
    congr 1
    simp
  have hacc : ∀ a ∈ os'.map (Any.lib (U := U)), Acceptable a := by
    intro a ha
    obtain ⟨o', ho', rfl⟩ := List.mem_map.1 ha
    exact carriedAll_acceptable g2 hso o' ho'
  have hnd : ((os'.map (Any.lib (U := U))).map getID).Nodup := by
    have e : (os'.map (Any.lib (U := U))).map getID = os'.map getID := by rw [List.map_map]; rfl
    have e' : (os.map (Any.lib (U := U))).map getID = os.map getID := by rw [List.map_map]; rfl
    rw [e, i1, ← e']
    exact h1
  refine ⟨_, bundleDoc rnd js, _, os, os', by rw [newBundle_eq, hE]; rfl, enc_bundle rnd js, hfrom,
    by rw [List.map_map] at ho; exact ho, g2, i1, fun id a => ?_, fun hsort out => ?_⟩
  · rw [get_self _ _ hacc hnd]
    simp only [List.mem_map]
    constructor
    · rintro ⟨⟨o', h1, rfl⟩, h2⟩; exact ⟨o', h1, rfl, h2⟩
    · rintro ⟨o', h1, rfl, h2⟩; exact ⟨⟨o', h1, rfl⟩, h2⟩
  · have hf : (Config.new opts).noSort = false := by
      rw [← Bool.not_eq_true, noSort_iff]; exact hsort
    rw [hf]
    rw [allObjects_self _ hacc hnd, List.map_map]
    rfl

/-- **C36.** When no object has extended properties, or they are dropped, the parsed objects have
none. -/
theorem c36_no_extended {drop : Prop} {os os' : List Obj} (h : CarriedAll drop [] os os')
    (hc : drop ∨ ∀ o ∈ os, o.sid = .ExtensionDefinition ∨ extras o = []) :
    List.Forall₂ (fun o o' => Survives o o' ∧ o'.extra = none) os os' := by
  have key : ∀ {earlier os os'}, CarriedAll drop earlier os os' →
      (drop ∨ ∀ o, o ∈ os ∨ o ∈ earlier → o.sid = .ExtensionDefinition ∨ extras o = []) →
      List.Forall₂ (fun o o' => Survives o o' ∧ o'.extra = none) os os' := by
    intro earlier os os' h
    induction h with
    | nil => intro _; exact .nil
    | cons h1 _ ih =>
      intro hc
      refine .cons ⟨h1.survives, h1.extra_none (hc.imp_right fun h x hx => h x ?_)⟩
        (ih (hc.imp_right fun h x hx => h x ?_))
      · rcases hx with rfl | hx
        · simp
        · simp [hx]
      · rcases hx with hx | hx
        · simp [hx]
        · rcases List.mem_cons.1 hx with rfl | hx <;> simp [*]
  exact key h (hc.imp_right fun h x hx => h x (by simpa using hx))

/-- Each extended property of the first object is one of the second, too, or has the name of a property
of the type of the second. -/
def Spec.Passes (x y : Obj) : Prop :=
  ∀ e ∈ extras x, e.1 ∈ amKeys (extras y) ∨ ∃ r ∈ objFields y.sid, r.key = e.1

theorem carried_chain {drop : Prop} (hd : ¬ drop) {earlier os os' : List Obj}
    (h : CarriedAll drop earlier os os') (hs : ∀ o ∈ os, SortedKeys (extras o) ∧ o.sid ≠ .ExtensionDefinition)
    (prev : List Obj) (hp : prev = [] ∧ earlier = [] ∨
      ∃ x, prev = [x] ∧ x.sid ≠ .ExtensionDefinition ∧ ∀ e, Leaks earlier e ↔ e ∈ extras x) :
    List.Forall₂ (fun o o' => extras o' = extras o) os os' ↔ (prev ++ os).IsChain Passes := by
  induction h generalizing prev with
  | nil =>
    rcases hp with ⟨rfl, -⟩ | ⟨x, rfl, -⟩ <;> simp
  | @cons earlier o o' l l' h1 h2 ih =>
    obtain ⟨hso, hno⟩ := hs o (by simp)
    have hl : extras o' = extras o ↔ ∀ e, Leaks (o :: earlier) e ↔ e ∈ extras o := by
      constructor
      · intro he e
        rw [← h1.exact hd hno, he]
      · exact fun he => mem_ext h1.sorted hso fun e => (h1.exact hd hno e).trans (he e)
    have hpass : (∀ e, Leaks (o :: earlier) e ↔ e ∈ extras o) ↔ (prev ++ [o]).IsChain Passes := by
      rcases hp with ⟨rfl, rfl⟩ | ⟨x, rfl, -, hx⟩
      · simp [Leaks, Extra, hno]
      · simp only [List.cons_append, List.nil_append, List.isChain_cons_cons, List.IsChain.singleton,
          and_true, Leaks, hx]
        constructor
        · intro hall e he
          by_contra hc
          rw [not_or] at hc
          refine hc.1 (List.mem_map.2 ⟨e, (hall e).1 (.inr ⟨he, fun d hx => hc.1 ?_, fun r hr er => hc.2 ⟨r, hr, er⟩⟩), rfl⟩)
          exact List.mem_map.2 ⟨_, hx.2, rfl⟩
        · intro hpx e
          refine ⟨?_, fun he => .inl ⟨hno, he⟩⟩
          rintro (he | ⟨he, hn, hr⟩)
          · exact he.2
          · rcases hpx e he with hk | ⟨r, hr', er⟩
            · obtain ⟨e', he', ek⟩ := List.mem_map.1 hk
              exact absurd (⟨hno, by rw [← ek]; exact he'⟩ : Extra o (e.1, e'.2)) (hn e'.2)
            · exact absurd er (hr r hr')
    have hsplit : (prev ++ o :: l).IsChain Passes ↔ (prev ++ [o]).IsChain Passes ∧ ([o] ++ l).IsChain Passes := by
      rcases hp with ⟨rfl, -⟩ | ⟨x, rfl, -⟩ <;> simp [List.isChain_cons_cons]
    rw [List.forall₂_cons, hsplit, hl, ← hpass]
    refine and_congr_right fun he => ?_
    exact ih (fun x hx => hs x (by simp [hx])) [o] (.inr ⟨o, rfl, hno, he⟩)

/-- **C36**, exactly: if no object is an extension definition and nothing is to be dropped, all objects
come back with exactly the extended properties they had if and only if each extended property of an
object is one of the next object in the bundle, too, or has the name of one of its properties.

Missing: other collections do not survive. -/
theorem c36_exact_partial (L : Canon.FloatLaws F) (hI : IntegersParse F) (ns : Bool)
    (h : List (Any U))
    (hs : ∀ id a, ((Coll.new ns).addAll h).get id = some a →
      ∃ o, a = .lib o ∧ Sound o ∧ o.sid ≠ .ExtensionDefinition)
    (rnd : List UInt8) (hr : rnd.length = 16) (b : Res GV)
    (hb : toBundle F rnd ((Coll.new ns).addAll h) b) (opts : List (CollOption U))
    (hn : NoParsers opts) (hd : CollOption.dropCustom ∉ opts) :
    ∃ v doc c, ∃ os : List Obj, b = .ok v ∧ enc F tyBundle v = some doc ∧
      fromJSON F opts (some doc) = .ok c ∧
      ((Coll.new ns).addAll h).AllObjects (os.map fun o => some (.lib o)) ∧
      ((∀ o ∈ os, ∃ o', c.get (getID o) = some (.lib o') ∧ Survives o o' ∧ extras o' = extras o) ↔
        os.IsChain Passes) := by
  obtain ⟨v, doc, c, os, os', h1, h2, h3, h4, h5, h6, h7, -⟩ := c36_round_trip_partial L hI ns h
    (fun id a ha => by obtain ⟨o, e, g, -⟩ := hs id a ha; exact ⟨o, e, g⟩) rnd hr b hb opts hn
  refine ⟨v, doc, c, os, h1, h2, h3, h4, ?_⟩
  obtain ⟨as, e, hnd, hmem⟩ := allObjects_spec ns h _ h4
  have e' : as = os.map .lib := by
    have : as.map some = (os.map (Any.lib (U := U))).map some := by rw [← e, List.map_map]; rfl
    exact List.map_injective_iff.2 (Option.some_injective _) this
  subst e'
  have hos : ∀ o ∈ os, Sound o ∧ o.sid ≠ .ExtensionDefinition := by
    intro o ho
    obtain ⟨o', e, g⟩ := hs _ (.lib o) ((hmem (getID o) _).2 ⟨List.mem_map.2 ⟨o, ho, rfl⟩, rfl⟩)
    cases e
    exact g
  have hndo : (os.map getID).Nodup := by
    rw [List.map_map] at hnd
    exact hnd
  have key := carried_chain hd h5 (fun o ho => ⟨(hos o ho).1.sorted, (hos o ho).2⟩) [] (.inl ⟨rfl, rfl⟩)
  rw [List.nil_append] at key
  rw [← key]
  have hsurv : List.Forall₂ (fun o o' => Survives o o') os os' := by
    clear key h6 h7 h3 h4 hnd hndo hmem e hos h1 h2
    generalize ([] : List Obj) = ear at h5
    induction h5 with
    | nil => exact .nil
    | cons g _ ih => exact .cons g.survives ih
  clear key h5 hmem e h4 hnd
  have hget : ∀ o' ∈ os', c.get (getID o') = some (.lib o') := fun o' ho' => (h7 _ _).2 ⟨o', ho', rfl, rfl⟩
  clear h7 h3 h1 h2 hb
  induction hsurv with
  | nil => simp
  | @cons o o' l l' g _ ih =>
    simp only [List.map_cons, List.cons.injEq] at h6
    have hi := ih h6.2 (fun x hx => hos x (by simp [hx])) (List.nodup_cons.1 hndo).2
      (fun x hx => hget x (by simp [hx]))
    rw [List.forall₂_cons, List.forall_mem_cons]
    refine and_congr ?_ hi
    rw [← h6.1, hget o' (by simp)]
    constructor
    · rintro ⟨x, e, -, ex⟩
      cases e
      exact ex
    · exact fun ex => ⟨o', rfl, g, ex⟩

/-! ### Examples -/

/-- A collection with a malware that has an extended property and a tool that has none. -/
def exColl : List (Any Empty) := [.lib exSample, .lib exTool]

theorem exColl_acceptable : ∀ a ∈ exColl, Acceptable a := by
  intro a ha
  simp only [exColl, List.mem_cons, List.not_mem_nil, or_false] at ha
  rcases ha with rfl | rfl
  · exact exSample_sound.ident
  · exact exTool_sound.ident

theorem exColl_nodup : (exColl.map getID).Nodup := by decide +kernel

/-- C35, C36: it meets the hypotheses. -/
theorem exColl_sound : ∀ id a, ((Coll.new false).addAll exColl).get id = some a →
    ∃ o, a = .lib o ∧ Sound o := by
  intro id a h
  rw [c01_get_latest] at h
  have := (latest_acceptable h).2.2
  simp only [exColl, List.mem_cons, List.not_mem_nil, or_false] at this
  rcases this with rfl | rfl
  · exact ⟨_, rfl, exSample_sound⟩
  · exact ⟨_, rfl, exTool_sound⟩

/-- C36: the tool before the malware, every object comes back as it was; after it, one does not. -/
example : [exTool, exSample].IsChain Passes ∧ ¬ [exSample, exTool].IsChain Passes := by
  have h : (b!"rank") ∈ amKeys (extras exSample) ∧ extras exTool = [] ∧
      ((objFields exTool.sid).all fun r => r.key != (b!"rank")) = true := by decide +kernel
  obtain ⟨h1, h2, h3⟩ := h
  simp only [List.isChain_cons_cons, List.IsChain.singleton, and_true]
  refine ⟨fun e he => by rw [h2] at he; simp at he, fun hp => ?_⟩
  obtain ⟨e, he, ek⟩ := List.mem_map.1 h1
  rcases hp e he with h | ⟨r, hr, er⟩
  · rw [h2] at h; simp [amKeys] at h
  · rw [List.all_eq_true] at h3
    have := h3 r hr
    rw [er, ek] at this
    simp at this

/-- C35: one that cannot be bundled, since a required property is missing. -/
example : (newBundle (U := Empty) toy (List.replicate 16 0)
    [some (.lib (Obj.lit .Tool [(b!"Type", .str (b!"tool")), (b!"ID", .str (exId (b!"tool")))]))]).okWith
      (fun _ => true) = false := by decide +kernel

/-- **C36 is false**: the tool comes back with the extended property of the malware before it. -/
theorem c36_false : ∃ (v : GV) (doc : Json) (c : Coll (Any Empty)) (o' : Obj),
    toBundle toy (List.replicate 16 0) ((Coll.new false).addAll exColl) (.ok v) ∧
    enc toy tyBundle v = some doc ∧ fromJSON toy [] (some doc) = .ok c ∧
    c.get (getID exTool) = some (.lib o') ∧ extras exTool = [] ∧ (b!"rank") ∈ amKeys (extras o') := by
  have hall : ((Coll.new false).addAll exColl).AllObjects (exColl.map some) :=
    (allObjects_self _ exColl_acceptable exColl_nodup _).2 rfl
  have h : (newBundle (U := Empty) toy (List.replicate 16 0) (exColl.map some)).okWith (fun v =>
      match enc toy tyBundle v with
      | none => false
      | some doc => (fromJSON (U := Empty) toy [] (some doc)).okWith fun c =>
        match c.get (getID exTool) with
        | some (.lib o') => (amKeys (extras o')).contains (b!"rank")
        | _ => false) = true := by decide +kernel
  obtain ⟨v, h1, h2⟩ := Res.okWith_iff.1 h
  cases hd : enc toy tyBundle v with
  | none => simp [hd] at h2
  | some doc =>
    simp only [hd] at h2
    obtain ⟨c, h3, h4⟩ := Res.okWith_iff.1 h2
    cases hg : c.get (getID exTool) with
    | none => simp [hg] at h4
    | some a =>
      cases a with
      | lib o' =>
        simp only [hg] at h4
        exact ⟨v, doc, c, o', ⟨_, hall, h1.symm⟩, hd, h3, hg, rfl, by simpa using h4⟩
      | _ => simp [hg] at h4

end Stix
