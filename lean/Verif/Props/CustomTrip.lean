import Verif.Spec.CustomTrip
import Verif.Props.Relay
import Verif.Props.Rebuilt

/-!
# Custom objects arrive as they were sent (C88)
-/

namespace Stix
open Spec StixObject
open Canon Props.Canon
open Spec.Text (WritesNumbers height)

variable {F : Canon.FloatFmt} {U : Type} [UserType U]

theorem lookup_member {m : List (Str × Dyn)} (hs : SortedKeys m) {k : Str} {d : Dyn} (h : (k, d) ∈ m) :
    amLookup k m = some d := amLookup_eq_some_of_mem _ _ _ hs.nodup h

theorem soundCustom_type {m : List (Str × Dyn)} (h : SoundCustom m) :
    ∃ t id, amLookup (b!"type") m = some (.str t) ∧ amLookup (b!"id") m = some (.str id) ∧ Identifies t id ∧
      ∀ s, (t, s) ∉ goTypes := by
  obtain ⟨t, id, h1, h2, h3, h4⟩ := h.ident
  exact ⟨t, id, lookup_member h.sorted h1, lookup_member h.sorted h2, h3, h4⟩

theorem soundCustom_accepted {m : List (Str × Dyn)} (h : SoundCustom m) :
    (Any.custom (some m) : Any U).panics = false ∧ Acceptable (Any.custom (some m) : Any U) := by
  obtain ⟨t, id, h1, h2, h3, -⟩ := soundCustom_type h
  have e1 : customText (some m) (b!"type") = .ok t := by simp only [customText, Option.getD_some, h1]
  have e2 : customText (some m) (b!"id") = .ok id := by simp only [customText, Option.getD_some, h2]
  refine ⟨by simp [Any.panics, e1, e2], ?_⟩
  show Identifies _ _
  simp only [getID, getType, e1, e2]
  exact h3

theorem marshal_custom (L : Canon.FloatLaws F) {m : List (Str × Dyn)} (h : SoundCustom m) :
    ∃ ms, marshalAny (U := U) F (.custom (some m)) = some (.obj ms) ∧ dynMerge F [] ms = m ∧
      (ms.any fun e => dynSoft F e.2) = false := by
  obtain ⟨js, h1, h2⟩ := dynObj_round_trip L m (dynAllEntries_iff.2 h.members)
  have := h2 [] (by simpa using h.sorted)
  rw [decDynObj_eq] at this
  simp only [List.nil_append, D.ok.injEq] at this
  refine ⟨js, by simp only [marshalAny, encDyn, h1, Option.map_some], this.1, this.2⟩

/-- Parsing the JSON of a custom object, whatever is left from the objects before it. -/
theorem parseOne_custom (L : Canon.FloatLaws F) {opts : List (CollOption U)} (hn : NoParsers opts)
    {m : List (Str × Dyn)} (h : SoundCustom m) {j : Json} (hj : marshalAny (U := U) F (.custom (some m)) = some j)
    (p : Peak) (hp : SortedKeys (p.getD [])) :
    ∃ p' out, parseOne F (Config.new opts) p j = .ok (p', out) ∧ SortedKeys (p'.getD []) ∧
      Arrives (CollOption.dropCustom ∈ opts) (.custom (some m)) out := by
  obtain ⟨ms, h1, h2, h3⟩ := marshal_custom (U := U) L h
  rw [hj] at h1
  cases h1
  obtain ⟨t, id, ht, -, -, hs⟩ := soundCustom_type h
  have hlook : amLookup (b!"type") (dynMerge F (p.getD []) ms) = some (.str t) := by
    have := amLookup_dynMerge (F := F) (b!"type") [] ms
    rw [h2, ht] at this
    rw [amLookup_dynMerge]
    cases hm : member (b!"type") ms with
    | none => rw [hm] at this; simp [amLookup] at this
    | some w => rw [hm] at this; exact this.symm
  have hone : parseOne F (Config.new opts) p (.obj ms) = if (Config.new opts).dropCustom then
      .ok (some (dynMerge F (p.getD []) ms), none) else
      .ok (some (dynMerge F (p.getD []) ms), some (.custom (some m) : Any U)) := by
    simp only [parseOne, decCustom_obj, h3, D.res, Res.bind, Option.getD_some, hlook, newObject, handlers_none hn,
      (dispatch_none t).2 hs]
    cases (Config.new opts).dropCustom <;> simp [decAny, decCustom_obj, h3, h2, D.bind, extend]
  by_cases hd : CollOption.dropCustom ∈ opts
  · exact ⟨some (dynMerge F (p.getD []) ms), none, by rw [hone, if_pos ((dropCustom_iff opts).2 hd)],
      sorted_dynMerge hp ms, .dropped hd⟩
  · exact ⟨some (dynMerge F (p.getD []) ms), some (.custom (some m)),
      by rw [hone, if_neg fun e => hd ((dropCustom_iff opts).1 e)], sorted_dynMerge hp ms, .custom hd⟩

/-- An object of either kind that can be sent. -/
def SoundAny (a : Any U) : Prop :=
  (∃ o, a = .lib o ∧ Sound o) ∨ ∃ m, a = .custom (some m) ∧ SoundCustom m

theorem parseOne_any (L : Canon.FloatLaws F) (hI : IntegersParse F) {opts : List (CollOption U)} (hn : NoParsers opts)
    {a : Any U} (h : SoundAny a) {j : Json} (hj : marshalAny F a = some j) (p : Peak) (hp : SortedKeys (p.getD [])) :
    ∃ p' out, parseOne F (Config.new opts) p j = .ok (p', out) ∧ SortedKeys (p'.getD []) ∧
      Arrives (CollOption.dropCustom ∈ opts) a out ∧
      ∀ x, out = some x → x.panics = false ∧ Acceptable x ∧ getID x = getID a := by
  rcases h with ⟨o, rfl, h⟩ | ⟨m, rfl, h⟩
  · obtain ⟨p', o', h1, h2, h3, h4, h5⟩ :=
      parseOne_marshal L hI h opts ((noParser_iff opts _).2 (handlers_none hn _)) hj p hp
    obtain ⟨e1, e2⟩ := identity_survives h h2
    refine ⟨p', _, h1, h3, .lib h2 h4 ?_, ?_⟩
    · rintro hd hs ⟨k, d⟩ he
      obtain ⟨h5, h6⟩ := h5 hd
      obtain ⟨a1, a2⟩ := h.apart _ he
      have hk : k ∉ libKeys o.sid := by
        intro hk
        simp only [libKeys, (canHave_iff _).2 hs, if_true, List.mem_append, List.mem_map, List.mem_singleton] at hk
        rcases hk with ⟨r, hr, e⟩ | e
        · exact a2 r hr (by rw [e]; rfl)
        · exact a1 e
      have hl : amLookup k (p'.getD []) = some d := by
        rw [h5, restOf, if_neg hk, if_pos ⟨hs, List.mem_map.2 ⟨_, he, rfl⟩⟩]
        exact lookup_member h.sorted he
      have hm := mem_of_amLookup _ _ _ hl
      rw [extras, h6, if_pos ⟨List.ne_nil_of_mem hm, hs⟩]
      exact hm
    · intro x hx
      obtain rfl := Option.some.inj hx
      refine ⟨rfl, ?_, e2⟩
      show Identifies (getType o') (getID o')
      rw [e1, e2]
      exact h.ident
  · obtain ⟨p', out, h1, h2, h3⟩ := parseOne_custom L hn h hj p hp
    refine ⟨p', out, h1, h2, h3, ?_⟩
    rintro x rfl
    cases h3
    exact ⟨(soundCustom_accepted h).1, (soundCustom_accepted h).2, rfl⟩

theorem steps_any (L : Canon.FloatLaws F) (hI : IntegersParse F) {opts : List (CollOption U)} (hn : NoParsers opts) :
    ∀ (as : List (Any U)) (js : List Json), List.Forall₂ (fun a j => marshalAny F a = some j) as js →
    (∀ a ∈ as, SoundAny a) → ∀ p : Peak, SortedKeys (p.getD []) →
    ∃ outs p', Steps F (Config.new opts) p js outs p' ∧
      List.Forall₂ (fun a out => Arrives (CollOption.dropCustom ∈ opts) a out ∧
        ∀ x, out = some x → Acceptable x ∧ getID x = getID a) as outs
  | [], _, .nil, _, p, _ => ⟨[], p, .nil p, .nil⟩
  | a :: as, _, .cons h1 h2, hs, p, hp => by
    obtain ⟨p1, out, g1, g2, g3, g4⟩ := parseOne_any L hI hn (hs a (by simp)) h1 p hp
    obtain ⟨outs, p', g5, g6⟩ := steps_any L hI hn as _ h2 (fun x hx => hs x (by simp [hx])) p1 g2
    exact ⟨out :: outs, p', .cons g1 (fun x hx => ⟨(g4 x hx).1, (g4 x hx).2.1⟩) g5,
      .cons ⟨g3, fun x hx => (g4 x hx).2⟩ g6⟩

theorem marshal_any (L : Canon.FloatLaws F) {a : Any U} (h : SoundAny a) : ∃ j, marshalAny F a = some j := by
  rcases h with ⟨o, rfl, h⟩ | ⟨m, rfl, h⟩
  · obtain ⟨ms, hm, -⟩ := marshal_spec (F := F) h
    exact ⟨_, hm⟩
  · obtain ⟨ms, hm, -⟩ := marshal_custom (U := U) L h
    exact ⟨_, hm⟩

theorem printable_any (W : WritesNumbers F) {a : Any U} (h : SoundAny a) {j : Json} (hj : marshalAny F a = some j) :
    Text.Printable j := by
  rcases h with ⟨o, rfl, -⟩ | ⟨m, rfl, -⟩
  · exact Text.marshalObj_printable W hj
  · exact Text.encDyn_printable W _ _ hj

theorem ids_kept {drop : Prop} {as : List (Any U)} {outs : List (Option (Any U))}
    (h : List.Forall₂ (fun a out => Arrives drop a out ∧ ∀ x, out = some x → Acceptable x ∧ getID x = getID a) as outs) :
    ((outs.filterMap id).map getID).Sublist (as.map getID) ∧ ∀ x ∈ outs.filterMap id, Acceptable x := by
  induction h with
  | nil => exact ⟨.slnil, by simp⟩
  | @cons a out as outs h _ ih =>
    cases out with
    | none =>
      refine ⟨?_, by simpa using ih.2⟩
      simpa using ih.1.cons (getID a)
    | some x =>
      obtain ⟨h1, h2⟩ := h.2 x rfl
      refine ⟨?_, by simpa using ⟨h1, by simpa using ih.2⟩⟩
      simpa [h2] using ih.1

theorem arrived_unique {drop : Prop} {as : List (Any U)} {outs : List (Option (Any U))} (hnd : (as.map getID).Nodup)
    (h : List.Forall₂ (fun a out => Arrives drop a out ∧ ∀ x, out = some x → Acceptable x ∧ getID x = getID a) as outs) :
    ∀ a ∈ as, ∃ out, Arrives drop a out ∧ ∀ x, x ∈ outs.filterMap id ∧ getID x = getID a ↔ out = some x := by
  induction h with
  | nil => intro a ha; cases ha
  | @cons a out as outs h hr ih =>
    simp only [List.map_cons, List.nodup_cons] at hnd
    have hsub := (ids_kept hr).1
    intro b hb
    rcases List.mem_cons.1 hb with rfl | hb
    · refine ⟨out, h.1, fun x => ?_⟩
      have hnot : ¬ (x ∈ outs.filterMap id ∧ getID x = getID b) := fun hx =>
        hnd.1 (hsub.subset (by rw [← hx.2]; exact List.mem_map.2 ⟨x, hx.1, rfl⟩))
      cases out with
      | none => simpa using hnot
      | some y =>
        simp only [List.filterMap_cons, id, List.mem_cons, Option.some.injEq]
        constructor
        · rintro ⟨rfl | hx, e⟩
          · rfl
          · exact absurd ⟨hx, e⟩ hnot
        · rintro rfl
          exact ⟨.inl rfl, (h.2 y rfl).2⟩
    · obtain ⟨out', g1, g2⟩ := ih hnd.2 b hb
      refine ⟨out', g1, fun x => ?_⟩
      rw [← g2 x]
      cases out with
      | none => simp
      | some y =>
        simp only [List.filterMap_cons, id, List.mem_cons]
        constructor
        · rintro ⟨rfl | hx, e⟩
          · exact absurd (List.mem_map.2 ⟨b, hb, by rw [← e, (h.2 x rfl).2]⟩) hnd.1
          · exact ⟨hx, e⟩
        · exact fun hx => ⟨.inr hx.1, hx.2⟩

/-- **C88.** The bundle of a collection of objects that can be sent, of the library and custom ones, is
made, its JSON is accepted, and a custom object in what is received is the one that was sent, or there is
none if custom objects are dropped; objects of the library survive with their extended properties.  Nothing
else is received, and the order is that of the bundle. -/
theorem c88_arrives (L : Canon.FloatLaws F) (W : WritesNumbers F) (hI : IntegersParse F) (ns : Bool) (h : List (Any U))
    (hs : ∀ id a, ((Coll.new ns).addAll h).get id = some a →
      (∃ o, a = .lib o ∧ Sound o) ∨ ∃ m, a = .custom (some m) ∧ SoundCustom m)
    (rnd : List UInt8) (hr : rnd.length = 16) (b : Res GV) (hb : toBundle F rnd ((Coll.new ns).addAll h) b)
    (hh : ∀ v doc, b = .ok v → enc F tyBundle v = some doc → height doc ≤ 10000)
    (opts : List (CollOption U)) (hn : NoParsers opts) :
    ∃ v doc c, b = .ok v ∧ enc F tyBundle v = some doc ∧ fromJSONText F opts doc.raw = .ok c ∧
      (∀ id, match ((Coll.new ns).addAll h).get id with
        | some a => Arrives (CollOption.dropCustom ∈ opts) a (c.get id)
        | none => c.get id = none) ∧
      ∃ as outs, ((Coll.new ns).addAll h).AllObjects (as.map some) ∧
        List.Forall₂ (fun a out => Arrives (CollOption.dropCustom ∈ opts) a out ∧
          ∀ x, out = some x → getID x = getID a) as outs ∧
        (CollOption.noSort ∉ opts → ∀ out, c.AllObjects out ↔ out = (outs.filterMap id).map some) := by
  obtain ⟨objs, ho, rfl⟩ := hb
  obtain ⟨as, rfl, h1, h2⟩ := allObjects_spec ns h objs ho
  have hso : ∀ a ∈ as, SoundAny a := fun a ha => hs _ a ((h2 _ a).2 ⟨ha, rfl⟩)
  have hjs : ∃ js, List.Forall₂ (fun a j => marshalAny F a = some j) as js := by
    clear h1 h2 ho hh
    induction as with
    | nil => exact ⟨[], .nil⟩
    | cons a as ih =>
      obtain ⟨js, hj⟩ := ih fun a ha => hso a (by simp [ha])
      obtain ⟨j, hm⟩ := marshal_any L (hso a (by simp))
      exact ⟨j :: js, .cons hm hj⟩
  obtain ⟨js, hjs⟩ := hjs
  have hE : bundleObjects F (as.map some) = .ok js := by
    rw [bundleObjects_ok, Encodings, List.forall₂_map_left_iff]
    exact hjs.imp fun a j hj => .inr ⟨_, rfl, hj⟩
  obtain ⟨outs, p', g1, g2⟩ := steps_any L hI hn as js hjs hso none sortedKeys_nil
  have hfrom : fromJSON F opts (some (bundleDoc rnd js)) =
      .ok ((Coll.new (Config.new opts).noSort).addAll (outs.filterMap id)) := by
    obtain ⟨-, -, hne, he⟩ := bundleDoc_spec rnd hr js
    have hl : fromJSON F opts (some (bundleDoc rnd js)) =
        processObjects F (Config.new opts) none (Coll.new (Config.new opts).noSort) js := by
      by_cases hj : js = []
      · subst hj
        rw [← fromJSON_arr]
        refine c31_no_objects opts _ ?_ ?_
        · simp only [if_true, List.append_nil, amKeys, List.map, SameUpToCase]
          decide +kernel
        · intro k v hk _
          simp only [if_true, List.append_nil, List.mem_cons, Prod.mk.injEq, List.not_mem_nil,
            or_false] at hk
          rcases hk with ⟨-, rfl⟩ | ⟨-, rfl⟩ <;> exact ⟨_, _, rfl⟩
      · exact fromJSON_bundle opts (hne hj)
    rw [hl, processObjects_ok]
    exact ⟨_, p', g1, rfl⟩
  obtain ⟨i1, hacc⟩ := ids_kept g2
  have hnd : ((outs.filterMap id).map getID).Nodup := h1.sublist i1
  have hpr : Text.Printable (bundleDoc rnd js) := by
    refine printable_bundle rnd js fun j hj => ?_
    obtain ⟨a, ha, hm⟩ := forall₂_mem_right hjs hj
    exact printable_any W (hso a ha) hm
  have hht := hh _ (bundleDoc rnd js) (by rw [newBundle_eq, hE]; rfl) (enc_bundle rnd js)
  have ht := Text.isText_raw hpr hht
  have huniq := arrived_unique h1 g2
  have hget : ∀ a ∈ as, Arrives (CollOption.dropCustom ∈ opts) a
      (((Coll.new (Config.new opts).noSort).addAll (outs.filterMap id)).get (getID a)) := by
    intro a ha
    obtain ⟨out, q1, q2⟩ := huniq a ha
    have : ((Coll.new (Config.new opts).noSort).addAll (outs.filterMap id)).get (getID a) = out := by
      apply Option.ext
      intro x
      rw [get_self _ _ hacc hnd, q2]
    rw [this]
    exact q1
  refine ⟨_, bundleDoc rnd js, _, by rw [newBundle_eq, hE]; rfl, enc_bundle rnd js,
    by rw [c52_value opts ht]; exact hfrom, fun i => ?_, as, outs, ho,
    g2.imp fun _ _ h => ⟨h.1, fun x hx => (h.2 x hx).2⟩, fun hsort out => ?_⟩
  · cases hg : ((Coll.new ns).addAll h).get i with
    | some a =>
      obtain ⟨ha, rfl⟩ := (h2 i a).1 hg
      exact hget a ha
    | none =>
      show _ = none
      rw [Option.eq_none_iff_forall_ne_some]
      intro x hx
      obtain ⟨hm, rfl⟩ := (get_self _ _ hacc hnd _ _).1 hx
      obtain ⟨a, ha, e⟩ := List.mem_map.1 (i1.subset (List.mem_map.2 ⟨x, hm, rfl⟩))
      rw [← e, (h2 _ a).2 ⟨ha, rfl⟩] at hg
      cases hg
  · have hf : (Config.new opts).noSort = false := by
      rw [← Bool.not_eq_true, noSort_iff]; exact hsort
    rw [hf, allObjects_self _ hacc hnd]

/-- **C88.** The same with the number formats of Go, for custom objects alone: what is received is the
map that was sent. -/
theorem c88_custom_strconv (ns : Bool) (h : List (Any U))
    (hs : ∀ id a, ((Coll.new ns).addAll h).get id = some a →
      (∃ o, a = .lib o ∧ Sound o) ∨ ∃ m, a = .custom (some m) ∧ SoundCustom m)
    (rnd : List UInt8) (hr : rnd.length = 16) (b : Res GV) (hb : toBundle strconv rnd ((Coll.new ns).addAll h) b)
    (hh : ∀ v doc, b = .ok v → enc strconv tyBundle v = some doc → height doc ≤ 10000)
    (opts : List (CollOption U)) (hn : NoParsers opts) (hd : CollOption.dropCustom ∉ opts) :
    ∃ v doc c, b = .ok v ∧ enc strconv tyBundle v = some doc ∧ fromJSONText strconv opts doc.raw = .ok c ∧
      (∀ id, (c.get id).isSome = (((Coll.new ns).addAll h).get id).isSome) ∧
      ∀ id m, c.get id = some (.custom m) ↔ ((Coll.new ns).addAll h).get id = some (.custom m) := by
  obtain ⟨v, doc, c, h1, h2, h3, h4, -⟩ := c88_arrives Strconv.strconv_laws Strconv.strconv_writes
    Strconv.strconv_integers ns h hs rnd hr b hb hh opts hn
  refine ⟨v, doc, c, h1, h2, h3, fun id => ?_, fun id m => ?_⟩
  · have := h4 id
    cases hg : ((Coll.new ns).addAll h).get id with
    | none => rw [hg] at this; simpa using this
    | some a =>
      rw [hg] at this
      have this : Arrives _ a (c.get id) := this
      generalize c.get id = out at this
      cases this with
      | dropped e => exact absurd e hd
      | _ => rfl
  · have := h4 id
    cases hg : ((Coll.new ns).addAll h).get id with
    | none => rw [hg] at this; simp [this]
    | some a =>
      rw [hg] at this
      have this : Arrives _ a (c.get id) := this
      generalize c.get id = out at this
      cases this with
      | dropped e => exact absurd e hd
      | lib _ _ _ => simp
      | custom _ => rfl

/-- What `interface{}` values read from JSON are. -/
def jsonLeaves : Leaves where
  str := Canon.Unicode
  int _ := True
  flt := F64Finite
  enum _ _ := True
  time _ := True
  native := true
  ownKey := false

theorem readOk_json (hF : ReadsFinite F) : ReadOk F false jsonLeaves Written where
  zero := ⟨unicode_ascii _ (by decide), trivial, by show F64Finite 0; unfold F64Finite; decide, fun _ => trivial⟩
  zeroTime := trivial
  str h := reads_unicode (written_str h)
  elem h := h.arr
  member h e he := ⟨written_name h e he, h.obj e he⟩
  int _ := trivial
  flt h hx := hF _ _ (written_num h) hx
  enum _ _ := trivial
  bytes _ _ := trivial
  time _ _ := trivial

/-- **C88.** Every custom object that is read from JSON text, of any accepted document, is one that can be
sent. -/
theorem c88_read (hF : ReadsFinite F) (opts : List (CollOption U)) (hn : NoParsers opts) (text : Str)
    (c : Coll (Any U)) (h : fromJSONText F opts text = .ok c) (id : Str) (m : Option (List (Str × Dyn)))
    (hm : c.get id = some (.custom m)) : ∃ m', m = some m' ∧ SoundCustom m' := by
  obtain ⟨hacc, hk⟩ := (text_kept (readOk_json hF) hn h fun _ _ h1 h2 => written_held (written_text h1) h2).2 id _ hm
  obtain ⟨doc, l, -, -, h3⟩ := c75_text opts text c h
  rw [fromJSON_arr] at h3
  obtain ⟨-, -, j, -, p1, p2, hp⟩ := processObjects_mem h3 hm
  obtain ⟨ms, typ, -, ht, hb⟩ := parseOne_builtin hp
  rcases hb (handlers_none hn typ) with ⟨_, _, _, _, e, _⟩ | ⟨hd, -, e⟩
  · simp [core] at e
  · cases e
    have hacc : Identifies (getType (.custom (some (dynMerge F [] ms)) : Any U))
      (getID (.custom (some (dynMerge F [] ms)) : Any U)) := hacc
    have key : ∀ k, (match customText (some (dynMerge F [] ms)) k with
        | .ok s => s
        | _ => []) ≠ [] → ∃ s, (match customText (some (dynMerge F [] ms)) k with
        | .ok s => s
        | _ => []) = s ∧ (k, Dyn.str s) ∈ dynMerge F [] ms := by
      intro k hne
      simp only [customText, Option.getD_some] at hne ⊢
      cases hl : amLookup k (dynMerge F [] ms) with
      | none => rw [hl] at hne; exact absurd rfl hne
      | some d =>
        rw [hl] at hne
        cases d with
        | str s => exact ⟨s, rfl, mem_of_amLookup _ _ _ hl⟩
        | _ => exact absurd rfl hne
    obtain ⟨t, e1, m1⟩ := key (b!"type") hacc.1
    obtain ⟨i, e2, m2⟩ := key (b!"id") (identifies_ne_nil hacc)
    have hacc : Identifies t i := by rw [← e1, ← e2]; exact hacc
    have hs : SortedKeys (dynMerge F [] ms) := hk.1
    refine ⟨_, rfl, hs, hk.2, t, i, m1, m2, hacc, (dispatch_none t).1 ?_⟩
    have hl := lookup_member hs m1
    rw [amLookup_dynMerge] at hl ht
    cases hmm : member (b!"type") ms with
    | none => rw [hmm] at hl; simp [amLookup] at hl
    | some w =>
      rw [hmm] at hl ht
      simp only [hl, Option.some.injEq, Dyn.str.injEq] at ht
      rw [ht]; exact hd

/-- **C88.** What is received is passed on: a text with custom objects is imported and the collection is
bundled; if its objects of the library can be sent (C86 says when), then the bundle is made and accepted,
and the custom objects under the same ids are equal to those that were received first. -/
theorem c88_relay (L : Canon.FloatLaws F) (W : WritesNumbers F) (hI : IntegersParse F) (hF : ReadsFinite F)
    (opts : List (CollOption U)) (hn : NoParsers opts) (text : Str) (c : Coll (Any U))
    (h : fromJSONText F opts text = .ok c) (hs : ∀ id o, c.get id = some (.lib o) → Sound o)
    (rnd : List UInt8) (hr : rnd.length = 16) (b : Res GV) (hb : toBundle F rnd c b)
    (hh : ∀ v doc, b = .ok v → enc F tyBundle v = some doc → height doc ≤ 10000)
    (opts' : List (CollOption U)) (hn' : NoParsers opts') :
    ∃ v doc c', b = .ok v ∧ enc F tyBundle v = some doc ∧ fromJSONText F opts' doc.raw = .ok c' ∧
      ∀ id, match c.get id with
        | some a => Arrives (CollOption.dropCustom ∈ opts') a (c'.get id)
        | none => c'.get id = none := by
  obtain ⟨⟨as, rfl⟩, hk⟩ := text_kept (readOk_json hF) hn h fun _ _ h1 h2 => written_held (written_text h1) h2
  obtain ⟨v, doc, c', h1, h2, h3, h4, -⟩ := c88_arrives L W hI _ as (fun id a ha => by
    cases a with
    | lib o => exact .inl ⟨o, rfl, hs id o ha⟩
    | custom m =>
      obtain ⟨m', rfl, hm⟩ := c88_read hF opts hn text _ h id m ha
      exact .inr ⟨m', rfl, hm⟩
    | user u x => exact (hk id _ ha).2.elim) rnd hr b hb hh opts' hn'
  exact ⟨v, doc, c', h1, h2, h3, h4⟩

/-! ### A case -/

/-- Something with a list in it. -/
def exThing : List (Str × Dyn) :=
  [(b!"id", .str (exId (b!"x-thing"))), (b!"parts", .arr [.str (b!"a"), .nil, .obj [(b!"b", .bool true)]]),
   (b!"type", .str (b!"x-thing"))]

theorem exThing_sound : SoundCustom exThing := by
  refine ⟨by simp only [exThing, SortedKeys]; decide +kernel, ?_, b!"x-thing", exId (b!"x-thing"), by simp [exThing],
    by simp [exThing], ?_, fun s hs => ?_⟩
  · have hu : ∀ s : Str, s.all (fun c => c < 128) = true → Canon.Unicode s := fun s hs => unicode_ascii s hs
    intro e he
    simp only [exThing, List.mem_cons, List.not_mem_nil, or_false] at he
    rcases he with rfl | rfl | rfl
    · exact ⟨hu _ (by decide), hu _ (by decide +kernel)⟩
    · refine ⟨hu _ (by decide), ?_⟩
      simp only [Leaves.dyn, DynAll, DynAllList, DynAllEntries, and_true, true_and]
      exact ⟨hu _ (by decide), List.pairwise_singleton _ _, hu _ (by decide)⟩
    · exact ⟨hu _ (by decide), hu _ (by decide)⟩
  · rw [← hasValidIdentifier_iff]
    decide +kernel
  · have h : ∀ e ∈ goTypes, e.1 ≠ b!"x-thing" := by decide +kernel
    exact h _ hs rfl

/-- C88: it is sent after a domain name, and received. -/
example : ∃ (v : GV) (doc : Json) (c : Coll (Any Empty)),
    newBundle toy (List.replicate 16 0) [some (Any.lib (U := Empty) exDomain), some (.custom (some exThing))] = .ok v ∧
      enc toy tyBundle v = some doc ∧ fromJSONText toy [] doc.raw = .ok c ∧
      c.get (exId (b!"x-thing")) = some (.custom (some exThing)) := by
  have hsnd : ∀ a ∈ [Any.lib (U := Empty) exDomain, .custom (some exThing)], SoundAny a := by
    intro a ha
    simp only [List.mem_cons, List.not_mem_nil, or_false] at ha
    rcases ha with rfl | rfl
    · exact .inl ⟨_, rfl, (c64_sound _ (makes_built exDomain_makes.1 exDomain_makes.2)).1⟩
    · exact .inr ⟨_, rfl, exThing_sound⟩
  have hacc : ∀ a ∈ [Any.lib (U := Empty) exDomain, .custom (some exThing)], Acceptable a := by
    intro a ha
    rcases hsnd a ha with ⟨o, rfl, h⟩ | ⟨m, rfl, h⟩
    · exact h.ident
    · exact (soundCustom_accepted h).2
  have hnd : ([Any.lib (U := Empty) exDomain, .custom (some exThing)].map getID).Nodup := by decide +kernel
  have hall := (allObjects_self _ hacc hnd _).2 rfl
  have hh : (newBundle (U := Empty) toy (List.replicate 16 0)
      ([Any.lib (U := Empty) exDomain, .custom (some exThing)].map some)).okWith (fun v =>
        (enc toy tyBundle v).all fun doc => decide (height doc ≤ 10000)) = true := by decide +kernel
  obtain ⟨v, doc, c, h1, h2, h3, h4, -⟩ := c88_arrives (U := Empty) Props.Canon.toy_laws toy_writes
    toy_integers false [Any.lib exDomain, .custom (some exThing)]
    (fun id a ha => hsnd a ((get_self _ _ hacc hnd _ _).1 ha).1)
    (List.replicate 16 0) rfl _ ⟨_, hall, rfl⟩ (fun v doc e1 e2 => by
      obtain ⟨v', e, h⟩ := Res.okWith_iff.1 hh
      rw [e] at e1
      cases e1
      rw [e2] at h
      simpa using h) [] (by rintro o ho; simp at ho)
  refine ⟨v, doc, c, h1, h2, h3, ?_⟩
  have := h4 (exId (b!"x-thing"))
  rw [(get_self false _ hacc hnd (exId (b!"x-thing")) (.custom (some exThing))).2 ⟨by simp, by decide +kernel⟩] at this
  have this : Arrives _ (Any.custom (some exThing)) (c.get (exId (b!"x-thing"))) := this
  generalize c.get (exId (b!"x-thing")) = out at this
  cases this with
  | dropped e => simp at e
  | custom _ => rfl

/-- The text of a list with a custom object. -/
def exThingText : Str :=
  b!"[{\"type\":\"x-thing\",\"id\":\"x-thing--00abedb4-aa42-466c-9c01-fed23315a9b7\",\"size\":[1,2.5]}]"

def exThingCheck (c : Coll (Any Empty)) : Bool :=
  c.noSort == false && c.order == [exId (b!"x-thing")] &&
    (match c.get (exId (b!"x-thing")) with
      | some (.custom (some _)) => true
      | _ => false) &&
    (newBundle strconv exSevens (c.order.map c.get)).okWith fun v =>
      match enc strconv tyBundle v with
      | some out => decide (height out ≤ 10000)
      | none => false

set_option maxRecDepth 20000 in
/-- C88: a custom object is received, and passed on. -/
example : ∃ (c : Coll (Any Empty)) (m : List (Str × Dyn)) (v : GV), fromJSONText strconv [] exThingText = .ok c ∧
    c.get (exId (b!"x-thing")) = some (.custom (some m)) ∧ toBundle strconv exSevens c (.ok v) ∧
    ∀ out, enc strconv tyBundle v = some out → height out ≤ 10000 := by
  have h : (fromJSONText (U := Empty) strconv [] exThingText).okWith exThingCheck = true := by
    decide +kernel
  obtain ⟨c, h1, h2⟩ := Res.okWith_iff.1 h
  simp only [exThingCheck, Bool.and_eq_true, beq_iff_eq, Res.okWith_iff] at h2
  obtain ⟨⟨⟨h3, h4⟩, h7⟩, v, h5, h6⟩ := h2
  have hm : ∃ m, c.get (exId (b!"x-thing")) = some (.custom (some m)) := by
    revert h7
    split
    · next m e => exact fun _ => ⟨m, e⟩
    · intro h7; cases h7
  obtain ⟨m, hm⟩ := hm
  refine ⟨c, m, v, h1, hm, ⟨_, ?_, h5.symm⟩, fun out ho => ?_⟩
  · rw [Coll.AllObjects, if_pos ⟨h3, by rw [h4]; decide⟩]
  · rw [ho] at h6
    simpa using h6

end Stix
