import Verif.Lemmas.Says
import Verif.Props.Bundle

/-!
# What documents say (C60, C61, C62)
-/

namespace Stix
open Spec StixObject
open Props.Canon (toy)

variable {F : Canon.FloatFmt} {U : Type} [UserType U]

/-! ### One element -/

theorem zeroVal_other {fs : List FieldInfo} {x : Str} (h : ∀ r ∈ fs, r.name ≠ x) :
    zeroVal fs x = default := by
  induction fs with
  | nil => rfl
  | cons f fs ih =>
    simp only [List.mem_cons, forall_eq_or_imp] at h
    simp only [zeroVal, Ne.symm h.1, if_false]
    exact ih h.2

theorem saysObj_keys {ms : List (Str × Json)} {o : Obj} (h : SaysObj F ms o) {k : Str}
    (hk : k ∈ amKeys ms) : (∃ r ∈ objFields o.sid, r.key = k) ∨ k ∈ amKeys (extras o) := by
  by_cases hr : ∃ r ∈ objFields o.sid, r.key = k
  · exact .inl hr
  · obtain ⟨⟨k', j⟩, hj, rfl⟩ := List.mem_map.1 hk
    obtain ⟨d, hd, -⟩ := h.extra k' j hj fun r hr' e => hr ⟨r, hr', e⟩
    exact .inr (List.mem_map_of_mem hd)

/-- Reading the members into a new struct. -/
theorem decObj_says {o : Obj} {ms : List (Str × Json)} (h : SaysObj F ms o) :
    decObj F (zeroObj o.sid) (.obj ms) = .ok { o with extra := none } false := by
  have hnames := objFields_names_nodup o.sid
  have hkeys := objFields_keys_nodup o.sid
  have hd : decStruct (objFields o.sid) (decField F (mkFields (objFields o.sid))) (zeroObj o.sid).val ms =
      .ok o.val false := by
    refine decStruct_says hnames hkeys h.distinct ?_ ?_ ?_
    · intro k hk r hm
      rcases saysObj_keys h hk with ⟨r', hr', rfl⟩ | hx
      · rw [matchKey_self hkeys hr'] at hm
        rw [Option.some.inj hm]
      · obtain ⟨⟨k', d⟩, hd, e⟩ := List.mem_map.1 hx
        simp only at e
        subst e
        exact absurd (matchKey_fold hm) ((h.apart _ hd).2 r (matchKey_mem hm))
    · intro r hr
      have hz : (zeroObj o.sid).val r.name = zero r.ty := zeroVal_row hnames hr
      rw [hz]
      refine (h.fields r hr).imp_left fun ⟨j, h1, h2⟩ => ⟨j, h1, ?_⟩
      rw [decField_row (by rw [mkFields_toList]; exact hnames) (by rw [mkFields_toList]; exact hr)]
      exact says_dec _ _ _ (sane_row (objFields_sane o.sid) (by rw [mkFields_toList]; exact hr)) h2
    · intro x hx
      rw [h.noOther x hx]
      exact (zeroVal_other hx).symm
  have : (zeroObj o.sid).sid = o.sid := rfl
  simp only [decObj, this, hd, D.bind, Bool.or_false]
  rfl

theorem goTypes_nonempty {t : Str} {s : SId} (h : (t, s) ∈ goTypes) : t ≠ [] := by
  have : ∀ e ∈ goTypes, e.1 ≠ [] := by decide +kernel
  exact this _ h

/-- The member `type`. -/
theorem saysObj_type {o : Obj} {ms : List (Str × Json)} (h : SaysObj F ms o)
    (ht : (getType o, o.sid) ∈ goTypes) : ∃ raw, (b!"type", Json.str raw (getType o)) ∈ ms := by
  obtain ⟨r, hr, h1, h2, -, h4⟩ := type_row o.sid
  cases hty : r.ty <;> simp only [hty, Ty.isStr, Bool.false_eq_true] at h4
  rcases h.fields r hr with ⟨j, g1, g2⟩ | ⟨-, g2⟩
  · rw [hty] at g2
    simp only [Says] at g2
    obtain ⟨raw, s, rfl, g3⟩ := g2
    rw [h1] at g3
    have : getType o = s := by simp only [getType, Obj.getStr, g3]
    rw [this, ← h2]
    exact ⟨raw, g1⟩
  · rw [hty, h1] at g2
    refine absurd ?_ (goTypes_nonempty ht)
    simp only [getType, Obj.getStr, g2, zero]

theorem saysObj_clean (hI : IntegersParse F) {o : Obj} {ms : List (Str × Json)} (h : SaysObj F ms o) :
    (ms.any fun e => dynSoft F e.2) = false := by
  rw [List.any_eq_false]
  rintro ⟨k, j⟩ he
  rw [Bool.not_eq_true]
  by_cases hr : ∃ r ∈ objFields o.sid, r.key = k
  · obtain ⟨r, hr, rfl⟩ := hr
    rcases h.fields r hr with ⟨j', g1, g2⟩ | ⟨g1, -⟩
    · have a := amLookup_eq_some_of_mem _ _ _ h.distinct he
      have b := amLookup_eq_some_of_mem _ _ _ h.distinct g1
      rw [a] at b
      obtain rfl := Option.some.inj b
      exact says_clean hI _ _ _ (objFields_noRaw _ r hr) g2
    · exact absurd (List.mem_map_of_mem he) g1
  · obtain ⟨d, -, hd⟩ := h.extra k j he fun r hr' e => hr ⟨r, hr', e⟩
    exact saysDyn_clean hd

/-- What is left in `peak`. -/
theorem rest_says {o : Obj} {ms : List (Str × Json)} (h : SaysObj F ms o) (p : List (Str × Dyn)) (k : Str) :
    amLookup k (deleteKeys (libKeys o.sid) (dynMerge F p ms)) =
      if k ∈ libKeys o.sid then none
      else if k ∈ amKeys (extras o) then amLookup k (extras o) else amLookup k p := by
  rw [amLookup_deleteKeys]
  split
  · rfl
  next hk =>
  rw [amLookup_dynMerge]
  have hkey : ∀ r ∈ objFields o.sid, r.key ≠ k := fun r hr e =>
    hk (List.mem_append.2 (.inl (List.mem_map.2 ⟨r, hr, e⟩)))
  split
  · next j hj =>
    obtain ⟨d, hd, hs⟩ := h.extra k j (member_mem hj) hkey
    rw [if_pos (show k ∈ amKeys (extras o) from List.mem_map.2 ⟨_, hd, rfl⟩), amLookup_eq_some_of_mem _ _ _ h.sorted.nodup hd]
    simp [dynOf, saysDyn_dec d j hs]
  · next hj =>
    rw [if_neg]
    intro hx
    obtain ⟨⟨k', d⟩, hd, e⟩ := List.mem_map.1 hx
    simp only at e
    subst e
    exact (member_none_iff _ _).1 hj (h.extraOnly _ d hd)

/-- Parsing an element that describes an object, whatever is left in `peak`. -/
theorem parseOne_says (hI : IntegersParse F) {j : Json} {o : Obj} (h : Describes F j o)
    (opts : List (CollOption U)) (hp : NoParser opts (getType o)) (p : Peak) :
    ∃ p' o', parseOne F (Config.new opts) p j = .ok (p', some (.lib o')) ∧ o'.sid = o.sid ∧
      o'.val = o.val ∧ (SortedKeys (p.getD []) → SortedKeys (p'.getD [])) ∧
      (CollOption.dropCustom ∈ opts → o'.extra = none) ∧
      (CollOption.dropCustom ∉ opts →
        (∀ k, amLookup k (p'.getD []) = if k ∈ libKeys o.sid then none
          else if k ∈ amKeys (extras o) then amLookup k (extras o) else amLookup k (p.getD [])) ∧
        o'.extra = if p'.getD [] ≠ [] ∧ o.sid ≠ .ExtensionDefinition then some (p'.getD []) else none) := by
  obtain ⟨ms, rfl, hm⟩ := h.members
  obtain ⟨raw, ht⟩ := saysObj_type hm h.type
  have hd := decObj_says hm
  have htyp : amLookup (b!"type") (dynMerge F (p.getD []) ms) = some (.str (getType o)) := by
    rw [amLookup_dynMerge, member_of_mem hm.distinct ht]
    simp [dynOf, decDyn]
  have hgo : amLookup (getType o) dispatchTable = some o.sid := (dispatch_mem _ _).2 h.type
  have hparse : parseOne F (Config.new opts) p (.obj ms) =
      .ok (if (Config.new opts).dropCustom then
          (some (dynMerge F (p.getD []) ms), some (.lib { o with extra := none }))
        else extend (some (.lib { o with extra := none })) (some (dynMerge F (p.getD []) ms))) := by
    unfold parseOne
    rw [decCustom_obj, saysObj_clean hI hm]
    simp only [D.res, Res.bind, Option.getD_some, htyp, newObject, (noParser_iff opts _).1 hp, hgo,
      decAny, hd, D.bind]
    cases hdr : (Config.new opts).dropCustom <;> simp [extend]
  rw [hparse]
  have hsd : SortedKeys (p.getD []) → SortedKeys (dynMerge F (p.getD []) ms) :=
    fun hps => sorted_dynMerge (F := F) hps ms
  by_cases hdrop : CollOption.dropCustom ∈ opts
  · simp only [(dropCustom_iff opts).2 hdrop, if_true]
    exact ⟨_, _, rfl, rfl, rfl, hsd, fun _ => rfl, fun hc => absurd hdrop hc⟩
  · have : (Config.new opts).dropCustom = false := by
      rw [← Bool.not_eq_true, dropCustom_iff]; exact hdrop
    simp only [this, Bool.false_eq_true, if_false, extend, Option.getD_some, Option.map_some]
    refine ⟨_, _, rfl, ?_, ?_, ?_, fun hc => absurd hc hdrop, fun _ => ⟨?_, ?_⟩⟩
    · split <;> rfl
    · split <;> rfl
    · exact fun hps => (hsd hps).filter _
    · exact fun k => rest_says hm _ k
    · simp only [canHave_iff, Option.getD_some]
      split <;> rfl

/-! ### Several elements -/

theorem readAs_of (hI : IntegersParse F) {j : Json} {o : Obj} (h : Describes F j o)
    (opts : List (CollOption U)) (hp : NoParser opts (getType o)) (p : Peak)
    (hps : SortedKeys (p.getD [])) (earlier : List Obj)
    (hpe : CollOption.dropCustom ∉ opts → ∀ k d, (k, d) ∈ p.getD [] ↔ Inherits earlier k d)
    (hne : ∀ k d, Inherits earlier k d → k ≠ []) :
    ∃ p' o', parseOne F (Config.new opts) p j = .ok (p', some (.lib o')) ∧
      ReadAs (CollOption.dropCustom ∈ opts) earlier o o' ∧ SortedKeys (p'.getD []) ∧
      (CollOption.dropCustom ∉ opts → ∀ k d, (k, d) ∈ p'.getD [] ↔ Inherits (o :: earlier) k d) ∧
      ∀ k d, Inherits (o :: earlier) k d → k ≠ [] := by
  obtain ⟨ms, rfl, hm⟩ := h.members
  obtain ⟨p', o', h1, h2, h3, h4, h5, h6⟩ := parseOne_says hI h opts hp p
  have hsorted := h4 hps
  have hne' : ∀ k d, Inherits (o :: earlier) k d → k ≠ [] := by
    rintro k d (hx | ⟨-, -, hx⟩)
    · exact (hm.apart _ hx).1
    · exact hne k d hx
  have hin : CollOption.dropCustom ∉ opts →
      ∀ k d, (k, d) ∈ p'.getD [] ↔ Inherits (o :: earlier) k d := by
    intro hd k d
    rw [← amLookup_eq_some_iff _ _ _ hsorted.nodup, (h6 hd).1]
    have hlib : ∀ k, k ∈ libKeys o.sid → k ∈ properties o.sid ∨ k = [] := by
      intro k hk
      simp only [libKeys, List.mem_append] at hk
      refine hk.imp id fun hk => ?_
      split at hk
      · simpa using hk
      · simp at hk
    have hlib' : ∀ k, k ∈ properties o.sid → k ∈ libKeys o.sid := fun k hk =>
      List.mem_append.2 (.inl hk)
    constructor
    · intro hl
      split at hl
      · simp at hl
      next hk =>
      split at hl
      · exact .own (mem_of_amLookup _ _ _ hl)
      · next hx => exact .older hx (fun hc => hk (hlib' k hc)) ((hpe hd k d).1 (mem_of_amLookup _ _ _ hl))
    · intro hi
      have hk0 := hne' k d hi
      rcases hi with hx | ⟨hx, hpr, hi⟩
      · have hk : k ∉ libKeys o.sid := by
          intro hk
          rcases hlib k hk with hk | hk
          · obtain ⟨r, hr, e⟩ := List.mem_map.1 hk
            exact (hm.apart _ hx).2 r hr (by rw [← e]; rfl)
          · exact hk0 hk
        rw [if_neg hk, if_pos (show k ∈ amKeys (extras o) from List.mem_map.2 ⟨_, hx, rfl⟩)]
        exact amLookup_eq_some_of_mem _ _ _ hm.sorted.nodup hx
      · have hk : k ∉ libKeys o.sid := by
          intro hk
          rcases hlib k hk with hk | hk
          · exact hpr hk
          · exact hk0 hk
        rw [if_neg hk, if_neg hx]
        exact amLookup_eq_some_of_mem _ _ _ hps.nodup ((hpe hd k d).2 hi)
  refine ⟨p', o', h1, ⟨h2, h3, h5, ?_, ?_, ?_, ?_⟩, hsorted, hin, hne'⟩
  · intro hs
    by_cases hd : CollOption.dropCustom ∈ opts
    · exact h5 hd
    · rw [(h6 hd).2, if_neg]
      exact fun hc => hc.2 hs
  · intro hd hs k d
    rw [← hin hd, extras, (h6 hd).2]
    split
    · rfl
    · next hc =>
      have : p'.getD [] = [] := by
        by_contra hc'
        exact hc ⟨hc', hs⟩
      simp [this]
  · by_cases hd : CollOption.dropCustom ∈ opts
    · rw [extras, h5 hd]; exact sortedKeys_nil
    · rw [extras, (h6 hd).2]
      split
      · exact hsorted
      · exact sortedKeys_nil
  · by_cases hd : CollOption.dropCustom ∈ opts
    · simp [h5 hd]
    · rw [(h6 hd).2]
      split
      · next hc => simpa using hc.1
      · simp

theorem steps_says (hI : IntegersParse F) (opts : List (CollOption U)) :
    ∀ (js : List Json) (os : List Obj), List.Forall₂ (Describes F) js os →
    (∀ o ∈ os, NoParser opts (getType o)) → ∀ (p : Peak) (earlier : List Obj), SortedKeys (p.getD []) →
    (CollOption.dropCustom ∉ opts → ∀ k d, (k, d) ∈ p.getD [] ↔ Inherits earlier k d) →
    (∀ k d, Inherits earlier k d → k ≠ []) →
    ∃ os' p', Steps F (Config.new opts) p js (os'.map fun o => some (.lib o)) p' ∧
      ReadAllAs (CollOption.dropCustom ∈ opts) earlier os os'
  | [], _, .nil, _, p, earlier, _, _, _ => ⟨[], p, .nil p, .nil _⟩
  | j :: js, o :: os, .cons h1 h2, hp, p, earlier, hs, he, hne => by
    obtain ⟨p1, o', g1, g2, g3, g4, g5⟩ := readAs_of hI h1 opts (hp o (by simp)) p hs earlier he hne
    obtain ⟨os', p', g6, g7⟩ := steps_says hI opts js os h2 (fun x hx => hp x (by simp [hx])) p1
      (o :: earlier) g3 g4 g5
    refine ⟨o' :: os', p', .cons g1 ?_ g6, .cons g2 g7⟩
    intro x hx
    obtain rfl := Option.some.inj hx
    refine ⟨rfl, ?_⟩
    have hid := h1.ident
    show Identifies (getType o') (getID o')
    have e1 : getType o' = getType o := by simp only [getType, Obj.getStr, g2.val]
    have e2 : getID o' = getID o := by simp only [getID, Obj.getStr, g2.val]
    rw [e1, e2]
    exact hid

/-! ## C60 -/

/-- **C60.** A document whose elements describe objects of types of the library is accepted, and the
collection has the objects that were described, in order of the document: of the Go type, with every
property as its member says and the other properties zero; and with the extended properties that the
elements say, and those inherited from earlier elements (C30), unless they are dropped. -/
theorem c60_document (hI : IntegersParse F) (opts : List (CollOption U)) (doc : Json) (js : List Json)
    (hl : Lists doc js) (os : List Obj) (h : List.Forall₂ (Describes F) js os)
    (hp : ∀ o ∈ os, NoParser opts (getType o)) :
    ∃ os' ns, ReadAllAs (CollOption.dropCustom ∈ opts) [] os os' ∧
      (ns = true ↔ CollOption.noSort ∈ opts) ∧
      fromJSON F opts (some doc) = .ok ((Coll.new ns).addAll (os'.map .lib)) := by
  obtain ⟨os', p', g1, g2⟩ := steps_says hI opts js os h hp none [] sortedKeys_nil
    (fun _ k d => ⟨fun h => by simp at h, fun h => by cases h⟩) (fun k d h => by cases h)
  refine ⟨os', _, g2, noSort_iff opts, ?_⟩
  rw [fromJSON_lists opts hl, processObjects_ok]
  refine ⟨_, p', g1, ?_⟩
  congr 1
  simp

/-- **C60.** If no element has extended properties, or they are dropped, the objects in the collection
are those described, without them. -/
theorem c60_plain (hI : IntegersParse F) (opts : List (CollOption U)) (doc : Json) (js : List Json)
    (hl : Lists doc js) (os : List Obj) (h : List.Forall₂ (Describes F) js os)
    (hp : ∀ o ∈ os, NoParser opts (getType o))
    (hc : CollOption.dropCustom ∈ opts ∨ ∀ o ∈ os, extras o = []) :
    ∃ ns, (ns = true ↔ CollOption.noSort ∈ opts) ∧ fromJSON F opts (some doc) =
      .ok ((Coll.new ns).addAll (os.map fun o => .lib { o with extra := none })) := by
  obtain ⟨os', ns, h1, h2, h3⟩ := c60_document hI opts doc js hl os h hp
  refine ⟨ns, h2, ?_⟩
  have key : ∀ {earlier os os'}, ReadAllAs (CollOption.dropCustom ∈ opts) earlier os os' →
      (CollOption.dropCustom ∈ opts ∨ ∀ o, o ∈ os ∨ o ∈ earlier → extras o = []) →
      os' = os.map fun o => { o with extra := none } := by
    intro earlier os os' h
    induction h with
    | nil => intro _; rfl
    | @cons earlier o o' l l' h1 _ ih =>
      intro hc
      rw [List.map_cons, ih (hc.imp_right fun h x hx => h x (by
        rcases hx with hx | hx
        · simp [hx]
        · rcases List.mem_cons.1 hx with rfl | hx <;> simp [*]))]
      congr 1
      have hx : o'.extra = none := by
        rcases hc with hc | hc
        · exact h1.dropped hc
        · by_cases hd : CollOption.dropCustom ∈ opts
          · exact h1.dropped hd
          by_cases hs : o.sid = .ExtensionDefinition
          · exact h1.definition hs
          have hno : ∀ (l : List Obj), (∀ x ∈ l, extras x = []) → ∀ k d, ¬ Inherits l k d := by
            intro l hl k d hi
            induction hi with
            | own hx => rw [hl _ (by simp)] at hx; simp at hx
            | older _ _ _ ih => exact ih fun x hx => hl x (by simp [hx])
          have hnil : extras o' = [] := by
            rw [List.eq_nil_iff_forall_not_mem]
            rintro ⟨k, d⟩ he
            refine hno (o :: earlier) ?_ k d ((h1.extra hd hs k d).1 he)
            intro x hx
            exact hc x (by rcases List.mem_cons.1 hx with rfl | hx <;> simp [*])
          cases hx : o'.extra with
          | none => rfl
          | some l =>
            simp only [extras, hx, Option.getD_some] at hnil
            subst hnil
            exact absurd hx h1.nonempty
      cases o'
      cases o
      simp only [Obj.mk.injEq]
      exact ⟨h1.sid, h1.val, hx⟩
  rw [h3, key h1 (hc.imp_right fun h x hx => h x (by simpa using hx)), List.map_map]
  rfl

/-- **C60.** In any accepted document, whatever its other elements are, an object of a type of the
library that its last element describes has every property as the element says. -/
theorem c60_last (hI : IntegersParse F) (opts : List (CollOption U)) (doc : Json) (js : List Json) (j : Json)
    (hl : Lists doc (js ++ [j])) (o : Obj) (h : Describes F j o) (hp : NoParser opts (getType o))
    (c : Coll (Any U)) (hc : fromJSON F opts (some doc) = .ok c) :
    ∃ o', c.get (getID o) = some (.lib o') ∧ o'.sid = o.sid ∧ o'.val = o.val := by
  rw [fromJSON_lists opts hl, processObjects_ok] at hc
  obtain ⟨as, p', hst, rfl⟩ := hc
  have hlast : ∀ {p : Peak} {js : List Json} {as : List (Option (Any U))} {p' : Peak},
      Steps F (Config.new opts) p (js ++ [j]) as p' → ∃ as' o', as = as' ++ [some (.lib o')] ∧
        o'.sid = o.sid ∧ o'.val = o.val := by
    intro p js
    induction js generalizing p with
    | nil =>
      intro as p' hst
      cases hst with
      | cons h1 h2 h3 =>
        cases h3
        obtain ⟨p1, o', g1, g2, g3, -⟩ := parseOne_says hI h opts hp p
        rw [g1] at h1
        simp only [Res.ok.injEq, Prod.mk.injEq] at h1
        exact ⟨[], o', by rw [← h1.2]; rfl, g2, g3⟩
    | cons x js ih =>
      intro as p' hst
      cases hst with
      | @cons _ _ _ _ _ a _ h1 h2 h3 =>
        obtain ⟨as', o', rfl, g⟩ := ih h3
        exact ⟨a :: as', o', rfl, g⟩
  obtain ⟨as', o', rfl, g1, g2⟩ := hlast hst
  refine ⟨o', ?_, g1, g2⟩
  rw [c01_get_latest]
  have e1 : getType o' = getType o := by simp only [getType, Obj.getStr, g2]
  have e2 : getID o' = getID o := by simp only [getID, Obj.getStr, g2]
  refine ⟨as'.filterMap id, [], by simp, ?_, ?_, by simp⟩
  · show Identifies (getType o') (getID o')
    rw [e1, e2]
    exact h.ident
  · exact e2

/-! ## C61 -/

theorem enc_row (L : Canon.FloatLaws F) {o : Obj} (h : Sound o) {r : FieldInfo} (hr : r ∈ objFields o.sid)
    {j : Json} (hj : enc F r.ty (o.val r.name) = some j) : Says F r.ty j (settled r.ty (o.val r.name)) :=
  enc_says L _ _ _ (sane_row (objFields_sane o.sid) (by rw [mkFields_toList]; exact hr)) (h.fields r hr) hj

theorem enc_row_some (L : Canon.FloatLaws F) {o : Obj} (h : Sound o) {r : FieldInfo}
    (hr : r ∈ objFields o.sid) : ∃ j, enc F r.ty (o.val r.name) = some j := by
  obtain ⟨j, hj, -⟩ := codec_round_trip L r.ty (o.val r.name)
    (sane_row (objFields_sane o.sid) (by rw [mkFields_toList]; exact hr)) (h.fields r hr)
  exact ⟨j, hj⟩

theorem fieldKey_inj {s : SId} {r r' : FieldInfo} (hr : r ∈ objFields s) (hr' : r' ∈ objFields s)
    (h : r.key = r'.key) : r = r' := by
  have h1 := matchKey_self (objFields_keys_nodup s) hr
  rw [h, matchKey_self (objFields_keys_nodup s) hr'] at h1
  exact (Option.some.inj h1).symm

/-- **C61.** The JSON of an object that can be sent says what the object is: each property that is set
has a member which says its value (to the millisecond), there is no member for the others, and the
extended properties are the other members. -/
theorem c61_says (L : Canon.FloatLaws F) (o : Obj) (h : Sound o) :
    ∃ ms, marshalObj F o = some (.obj ms) ∧ ∀ o', Survives o o' →
      (∀ x, (∀ r ∈ objFields o.sid, r.name ≠ x) → o'.val x = default) →
      extras o' = (if o.sid = .ExtensionDefinition then [] else extras o) → SaysObj F ms o' := by
  obtain ⟨ms, h1, hn, hm⟩ := marshal_spec (F := F) h
  refine ⟨ms, h1, fun o' hs ho hx => ?_⟩
  have hsub : ∀ e ∈ extras o', e ∈ extras o := by
    intro e he
    rw [hx] at he
    split at he
    · simp at he
    · exact he
  have hfree : ∀ r ∈ objFields o.sid, ∀ d, (r.key, d) ∉ extras o := fun r hr d hd =>
    (h.apart _ hd).2 r hr rfl
  refine ⟨hn, ?_, ?_, ?_, ?_, ?_, ?_⟩
  · intro r hr
    rw [hs.sid] at hr
    by_cases he : Emitted o r
    · obtain ⟨j, hj⟩ := enc_row_some L h hr
      refine .inl ⟨j, (hm _ _).2 (.inl ⟨r, hr, rfl, he, hj⟩), ?_⟩
      rw [hs.emitted r hr he]
      exact enc_row L h hr hj
    · refine .inr ⟨?_, hs.hidden r hr he⟩
      intro hk
      obtain ⟨⟨k, j⟩, hj, e⟩ := List.mem_map.1 hk
      simp only at e
      subst e
      rcases (hm _ _).1 hj with ⟨r', hr', e, he', -⟩ | ⟨-, d, hd, -⟩
      · rw [fieldKey_inj hr' hr e] at he'
        exact he he'
      · exact hfree r hr d hd
  · intro x hx'
    rw [hs.sid] at hx'
    exact ho x hx'
  · rw [hx]
    split
    · exact sortedKeys_nil
    · exact h.sorted
  · intro k j hj hk
    rw [hs.sid] at hk
    rcases (hm _ _).1 hj with ⟨r, hr, e, -⟩ | ⟨hd, d, hd', hj'⟩
    · exact absurd e (hk r hr)
    · rw [hx, if_neg hd]
      exact ⟨d, hd', encDyn_says L d j (h.extra _ hd').2 hj'⟩
  · intro k d hd
    have hne : o.sid ≠ .ExtensionDefinition := by
      intro hc
      rw [hx, if_pos hc] at hd
      simp at hd
    have hd' := hsub _ hd
    obtain ⟨j, hj⟩ := Option.isSome_iff_exists.1 (encDyn_isSome (F := F) (h.extra _ hd').2)
    exact List.mem_map.2 ⟨(k, j), (hm _ _).2 (.inr ⟨hne, d, hd', hj⟩), rfl⟩
  · intro e he
    rw [hs.sid]
    exact h.apart e (hsub e he)

/-! ## C62 -/

theorem unset_zero (t : Ty) (hs : t.sane = true) (h : t ≠ .bool) : Unset t (zero t) := by
  cases t <;> simp only [Unset]
  · exact h rfl
  case struct nm fs =>
    simp only [Ty.sane, Bool.and_eq_true, decide_eq_true_eq] at hs
    exact ⟨_, by rw [zero], fun r hr => zeroFields_row hs.1.1 hr⟩

/-- What is written for an object whose members are given. -/
theorem rewritten_of (L : Canon.FloatLaws F) {o : Obj} {ms : List (Str × Json)} (hm : SaysObj F ms o)
    (h : Sound o) (hs : o.sid ≠ .ExtensionDefinition) :
    ∃ ms', marshalObj F o = some (.obj ms') ∧ Rewritten F o ms ms' := by
  obtain ⟨ms', h1, hn, hm'⟩ := marshal_spec (F := F) h
  have hem : ∀ r, Emitted o r ↔ ¬ Unset r.ty (o.val r.name) := fun r => by simp only [Emitted, hs, if_false]
  refine ⟨ms', h1, hn, ?_, ?_, ?_⟩
  · intro r hr j hj
    by_cases hu : Unset r.ty (o.val r.name)
    · exact .inl hu
    obtain ⟨j', hj'⟩ := enc_row_some L h hr
    refine .inr ⟨j', (hm' _ _).2 (.inl ⟨r, hr, rfl, (hem r).2 hu, hj'⟩), ?_, enc_row L h hr hj'⟩
    rcases hm.fields r hr with ⟨j0, g1, g2⟩ | ⟨g1, -⟩
    · have a := amLookup_eq_some_of_mem _ _ _ hm.distinct hj
      rw [amLookup_eq_some_of_mem _ _ _ hm.distinct g1] at a
      obtain rfl := Option.some.inj a
      exact g2
    · exact absurd (List.mem_map.2 ⟨_, hj, rfl⟩) g1
  · intro k j hj hk
    obtain ⟨d, hd, hs'⟩ := hm.extra k j hj hk
    obtain ⟨j', hj'⟩ := Option.isSome_iff_exists.1 (encDyn_isSome (F := F) (h.extra _ hd).2)
    exact ⟨d, j', (hm' _ _).2 (.inr ⟨hs, d, hd, hj'⟩), hs', encDyn_says L d j' (h.extra _ hd).2 hj'⟩
  · intro k j' hj'
    rcases (hm' _ _).1 hj' with ⟨r, hr, rfl, he, hj⟩ | ⟨-, d, hd, -⟩
    · rcases hm.fields r hr with ⟨j0, g1, -⟩ | ⟨-, g⟩
      · exact .inl (List.mem_map.2 ⟨_, g1, rfl⟩)
      · rw [hem, g] at he
        have hb : r.ty = .bool := by
          by_contra hc
          exact he (unset_zero _ (sane_row (objFields_sane o.sid) (by rw [mkFields_toList]; exact hr)) hc)
        rw [g, hb] at hj
        simp only [zero, enc, Option.some.injEq] at hj
        exact .inr ⟨hj.symm, r, hr, rfl, hb⟩
    · exact .inl (hm.extraOnly k d hd)

/-- **C62.** A document with one object that can be sent is read, and what is written for it has the
members of the document: those of properties with values other than zero say the same (times to the
millisecond), so do the extended properties, and new are only booleans that are false.

Missing: members with zero values, the parts of times below a millisecond, members of nested objects
that the standard does not have, and extension definitions. -/
theorem c62_kept_partial (L : Canon.FloatLaws F) (hI : IntegersParse F) (opts : List (CollOption U))
    (doc : Json) (ms : List (Str × Json)) (hl : Lists doc [.obj ms]) (o : Obj) (hm : SaysObj F ms o)
    (h : Sound o) (hs : o.sid ≠ .ExtensionDefinition) (hp : NoParser opts (getType o))
    (hd : CollOption.dropCustom ∉ opts) :
    ∃ c o' ms', fromJSON F opts (some doc) = .ok c ∧ c.get (getID o) = some (.lib o') ∧
      marshalObj F o' = some (.obj ms') ∧ Rewritten F o ms ms' := by
  obtain ⟨os', ns, h1, -, h3⟩ := c60_document hI opts doc [.obj ms] hl [o]
    (.cons ⟨⟨ms, rfl, hm⟩, h.type, h.ident⟩ .nil) (by simpa using hp)
  cases h1 with
  | @cons _ _ o' _ _ h1 h2 =>
  cases h2
  have hx : extras o' = extras o := by
    refine mem_ext h1.sorted h.sorted ?_
    rintro ⟨k, d⟩
    rw [h1.extra hd hs]
    constructor
    · rintro (hx | ⟨-, -, hx⟩)
      · exact hx
      · cases hx
    · exact .own
  have hm2 : SaysObj F ms o' := by
    obtain ⟨a1, a2, a3, a4, a5, a6, a7⟩ := hm
    refine ⟨a1, ?_, ?_, ?_, ?_, ?_, ?_⟩
    · rw [h1.sid, h1.val]; exact a2
    · rw [h1.sid, h1.val]; exact a3
    · rw [hx]; exact a4
    · rw [hx, h1.sid]; exact a5
    · rw [hx]; exact a6
    · rw [hx, h1.sid]; exact a7
  have e1 : getType o' = getType o := by simp only [getType, Obj.getStr, h1.val]
  have e2 : getID o' = getID o := by simp only [getID, Obj.getStr, h1.val]
  have hid : Acceptable o' := by
    show Identifies (getType o') (getID o')
    rw [e1, e2]
    exact h.ident
  have hs2 : Sound o' := by
    obtain ⟨a1, a2, a3, a4, a5, a6, a7⟩ := h
    refine ⟨?_, hid, ?_, ?_, ?_, ?_, ?_⟩
    · rw [e1, h1.sid]; exact a1
    · rw [h1.sid, h1.val]; exact a3
    · rw [h1.sid, h1.val]; exact a4
    · rw [hx]; exact a5
    · rw [hx]; exact a6
    · rw [hx, h1.sid]; exact a7
  obtain ⟨ms', g1, g2⟩ := rewritten_of L hm2 hs2 (by rw [h1.sid]; exact hs)
  refine ⟨_, o', ms', h3, ?_, g1, ?_⟩
  · rw [c01_get_latest]
    exact ⟨[], [], rfl, hid, e2, by simp⟩
  · obtain ⟨b1, b2, b3, b4⟩ := g2
    rw [h1.sid] at b2 b3 b4
    rw [h1.val] at b2
    exact ⟨b1, b2, b3, b4⟩

/-! ### Examples -/

theorem litLookup_mem {x : Str} {v : GV} {fs : List (Str × GV)} (h : litLookup x fs = some v) : (x, v) ∈ fs := by
  induction fs with
  | nil => simp [litLookup] at h
  | cons e fs ih =>
    simp only [litLookup] at h
    split at h
    · next h1 =>
      rw [h] at h1
      exact .tail _ (ih h1)
    · split at h
      · next h2 =>
        simp only [Option.some.injEq] at h
        rw [h2, ← h]
        exact .head _
      · simp at h

theorem litLookup_none {x : Str} {fs : List (Str × GV)} (h : litLookup x fs = none) : x ∉ amKeys fs := by
  induction fs with
  | nil => simp [amKeys]
  | cons e fs ih =>
    simp only [litLookup] at h
    split at h
    · simp at h
    · next h1 =>
      split at h
      · simp at h
      · next h2 =>
        simp only [amKeys, List.map_cons, List.mem_cons, not_or]
        exact ⟨h2, ih h1⟩

theorem find?_fieldName {l : List FieldInfo} (hn : (l.map FieldInfo.name).Nodup) {f : FieldInfo} (hf : f ∈ l) :
    l.find? (fun g => g.name = f.name) = some f := by
  induction l with
  | nil => cases hf
  | cons g l ih =>
    simp only [List.map_cons, List.nodup_cons] at hn
    rcases List.mem_cons.1 hf with rfl | hf
    · simp
    · have : ¬ g.name = f.name := fun e => hn.1 (e ▸ List.mem_map.2 ⟨f, hf, rfl⟩)
      rw [List.find?_cons, decide_eq_false this]
      exact ih hn.2 hf

/-- Members for a composite literal. -/
theorem lit_says (s : SId) (fs : List (Str × GV)) (ms : List (Str × Json))
    (hk : ∀ r ∈ objFields s, r.name ∈ amKeys fs ∨ r.key ∉ amKeys ms)
    (h : ∀ e ∈ fs, ∀ r, (objFields s).find? (fun r => r.name = e.1) = some r →
      ∃ j, (r.key, j) ∈ ms ∧ Says F r.ty j e.2) :
    ∀ r ∈ objFields s, (∃ j, (r.key, j) ∈ ms ∧ Says F r.ty j ((Obj.lit s fs).val r.name)) ∨
      (r.key ∉ amKeys ms ∧ (Obj.lit s fs).val r.name = zero r.ty) := by
  intro r hr
  rw [lit_val]
  cases hl : litLookup r.name fs with
  | none =>
    refine .inr ⟨(hk r hr).resolve_left (litLookup_none hl), ?_⟩
    rw [Option.getD_none, zeroVal_row (objFields_names_nodup s) hr]
  | some v =>
    refine .inl (h _ (litLookup_mem hl) r ?_)
    exact find?_fieldName (objFields_names_nodup s) hr

/-- The fields of a tool. -/
def exReadFields : List (Str × GV) :=
  [(b!"Type", .str (b!"tool")), (b!"ID", .str (b!"tool--31b940d4-6f7f-459a-80ea-9c1f17b5891b")),
   (b!"SpecVersion", .str (b!"2.1")), (b!"Created", gvTime ⟨exStamp.nanos, exStamp.zone.seconds⟩),
   (b!"Modified", gvTime ⟨exStamp.nanos, exStamp.zone.seconds⟩), (b!"Name", .str (b!"nmap")),
   (b!"Confidence", .int (-7)), (b!"Aliases", .slice (some [.str (b!"a"), .str (b!"b")]))]

/-- A tool with an extended property. -/
def exRead : Obj := { Obj.lit .Tool exReadFields with extra := some [(b!"x_a", .bool true)] }

/-- The text of the stamp, in JSON. -/
def exReadTime : Json := .str exStamp.text exStamp.text

/-- Members that say so. -/
def exReadMembers : List (Str × Json) :=
  [(b!"name", .str (b!"nm\\u0061p") (b!"nmap")), (b!"type", .str (b!"tool") (b!"tool")),
   (b!"id", .str [] (b!"tool--31b940d4-6f7f-459a-80ea-9c1f17b5891b")), (b!"x_a", .bool true),
   (b!"spec_version", .str [] (b!"2.1")), (b!"created", exReadTime), (b!"modified", exReadTime),
   (b!"aliases", .arr [.str [] (b!"a"), .str [] (b!"b")]), (b!"confidence", .num (b!"-7"))]

theorem exReadTime_says : Says F (.ptr .time) exReadTime (gvTime ⟨exStamp.nanos, exStamp.zone.seconds⟩) := by
  refine .inr ⟨_, by simp [exReadTime], rfl, ?_⟩
  refine ⟨_, _, exStamp, ?_, ⟨by decide, by decide⟩, ⟨_, 46, .inl rfl, .inl rfl, rfl⟩, rfl, rfl⟩
  exact exStamp_valid

theorem exRead_says : SaysObj F exReadMembers exRead where
  distinct := by decide +kernel
  fields := by
    refine lit_says .Tool exReadFields exReadMembers (by decide +kernel) ?_
    intro e he r hr
    simp only [exReadFields, List.mem_cons, List.not_mem_nil, or_false] at he
    rcases he with rfl | rfl | rfl | rfl | rfl | rfl | rfl | rfl
    · obtain rfl : _ = r := Option.some.inj hr; exact ⟨_, .tail _ (.head _), _, _, rfl, rfl⟩
    · obtain rfl : _ = r := Option.some.inj hr; exact ⟨_, .tail _ (.tail _ (.head _)), _, _, rfl, rfl⟩
    · obtain rfl : _ = r := Option.some.inj hr
      exact ⟨_, .tail _ (.tail _ (.tail _ (.tail _ (.head _)))), _, _, rfl, rfl⟩
    · obtain rfl : _ = r := Option.some.inj hr
      exact ⟨_, .tail _ (.tail _ (.tail _ (.tail _ (.tail _ (.head _))))), exReadTime_says⟩
    · obtain rfl : _ = r := Option.some.inj hr
      exact ⟨_, .tail _ (.tail _ (.tail _ (.tail _ (.tail _ (.tail _ (.head _)))))), exReadTime_says⟩
    · obtain rfl : _ = r := Option.some.inj hr; exact ⟨_, .head _, _, _, rfl, rfl⟩
    · obtain rfl : _ = r := Option.some.inj hr
      refine ⟨_, .tail _ (.tail _ (.tail _ (.tail _ (.tail _ (.tail _ (.tail _ (.tail _ (.head _)))))))),
        b!"-7", -7, rfl, rfl, ⟨[7], by decide, by decide, by decide, .inr ⟨by decide, by decide⟩⟩,
        by decide, by decide⟩
    · obtain rfl : _ = r := Option.some.inj hr
      refine ⟨_, .tail _ (.tail _ (.tail _ (.tail _ (.tail _ (.tail _ (.tail _ (.head _))))))), .inr ⟨_, _, rfl, rfl, ?_⟩⟩
      exact .cons ⟨_, _, rfl, rfl⟩ (.cons ⟨_, _, rfl, rfl⟩ .nil)
  noOther := by
    intro x hx
    show (Obj.lit .Tool exReadFields).val x = default
    rw [lit_val]
    cases hl : litLookup x exReadFields with
    | none => exact zeroVal_other hx
    | some v =>
      have : ∀ n ∈ amKeys exReadFields, ∃ r ∈ objFields .Tool, r.name = n := by decide +kernel
      obtain ⟨r, hr, e⟩ := this x (List.mem_map.2 ⟨_, litLookup_mem hl, rfl⟩)
      exact absurd e (hx r hr)
  sorted := by simp [extras, exRead, SortedKeys]
  extra := by
    intro k j hj hk
    have : ∀ e ∈ exReadMembers, (∃ r ∈ objFields .Tool, r.key = e.1) ∨ e.1 = b!"x_a" := by decide +kernel
    rcases this _ hj with ⟨r, hr, e⟩ | e
    · exact absurd e (hk r hr)
    · simp only at e
      subst e
      have : (b!"x_a", Json.bool true) ∈ exReadMembers := .tail _ (.tail _ (.tail _ (.head _)))
      have hn : (amKeys exReadMembers).Nodup := by decide +kernel
      have a := amLookup_eq_some_of_mem _ _ _ hn hj
      rw [amLookup_eq_some_of_mem _ _ _ hn this] at a
      rw [← Option.some.inj a]
      exact ⟨.bool true, .head _, rfl⟩
  extraOnly := by
    intro k d hd
    simp only [extras, exRead, Option.getD_some, List.mem_cons, Prod.mk.injEq, List.not_mem_nil, or_false] at hd
    rw [hd.1]
    decide +kernel
  apart := by
    intro e he
    simp only [extras, exRead, Option.getD_some, List.mem_cons, List.not_mem_nil, or_false] at he
    subst he
    have : (b!"x_a") ≠ [] ∧ ∀ r ∈ objFields .Tool, ¬ foldName (b!"x_a") = foldName r.key := by decide +kernel
    exact this

theorem exRead_ident : Acceptable exRead := by
  show Identifies _ _
  rw [← hasValidIdentifier_iff]
  decide +kernel

/-- C60: an element that describes a tool. -/
theorem exRead_describes : Describes F (.obj exReadMembers) exRead :=
  ⟨⟨_, rfl, exRead_says⟩, by decide +kernel, exRead_ident⟩

/-- C60: a document with an extended property, which the second object inherits. -/
example : List.Forall₂ (Describes toy) [.obj exReadMembers, .obj exReadMembers] [exRead, exRead] ∧
    Inherits [{ exRead with extra := none }, exRead] (b!"x_a") (.bool true) ∧
    (∀ o ∈ [exRead, exRead], NoParser ([] : List (CollOption Empty)) (getType o)) :=
  ⟨.cons exRead_describes (.cons exRead_describes .nil),
    .older (by simp [extras, amKeys]) (by decide +kernel) (.own (.head _)),
    fun o _ h => by rintro ⟨b, a, e, -⟩; simp at e⟩

/-- C61: an object with extended properties that can be sent. -/
example : Sound exSample := exSample_sound

theorem exRead_carriable : ∀ r ∈ objFields .Tool, Carriable r.ty (exRead.val r.name) := by
  refine lit_fields carriable_zeroOk .Tool exReadFields fun e he t ht => ?_
  simp only [exReadFields, List.mem_cons, List.not_mem_nil, or_false] at he
  rcases he with rfl | rfl | rfl | rfl | rfl | rfl | rfl | rfl
  · obtain rfl : _ = t := Option.some.inj ht; exact ⟨_, rfl, unicode_ascii _ (by decide)⟩
  · obtain rfl : _ = t := Option.some.inj ht; exact ⟨_, rfl, unicode_ascii _ (by decide)⟩
  · obtain rfl : _ = t := Option.some.inj ht; exact ⟨_, rfl, unicode_ascii _ (by decide)⟩
  · obtain rfl : _ = t := Option.some.inj ht
    exact .inr ⟨_, rfl, _, rfl, by simp only [carriable]; decide +kernel⟩
  · obtain rfl : _ = t := Option.some.inj ht
    exact .inr ⟨_, rfl, _, rfl, by simp only [carriable]; decide +kernel⟩
  · obtain rfl : _ = t := Option.some.inj ht; exact ⟨_, rfl, unicode_ascii _ (by decide)⟩
  · obtain rfl : _ = t := Option.some.inj ht; exact ⟨_, rfl, by simp only [carriable]; decide⟩
  · obtain rfl : _ = t := Option.some.inj ht
    refine .inr ⟨_, rfl, ?_⟩
    intro x hx
    simp only [List.mem_cons, List.not_mem_nil, or_false] at hx
    rcases hx with rfl | rfl
    · exact ⟨_, rfl, unicode_ascii _ (by decide)⟩
    · exact ⟨_, rfl, unicode_ascii _ (by decide)⟩

/-- C62: the document says an object that can be sent. -/
theorem exRead_sound : Sound exRead where
  type := by decide +kernel
  ident := exRead_ident
  fields := exRead_carriable
  required := by
    intro _ r hr h hu
    have := (isUnset_iff (objFields_plain _ r hr) (carriable_typed (exRead_carriable r hr))).2 hu
    have hall : (objFields .Tool).all
        (fun r => r.omitE || !isUnset r.ty (exRead.val r.name)) = true := by decide +kernel
    have := List.all_eq_true.1 hall r hr
    simp_all
  sorted := exRead_says (F := toy).sorted
  extra := by
    intro e he
    simp only [extras, exRead, Option.getD_some, List.mem_cons, List.not_mem_nil, or_false] at he
    subst he
    exact ⟨unicode_ascii _ (by decide), trivial⟩
  apart := (exRead_says (F := toy)).apart

example : Lists (.arr [.obj exReadMembers]) [.obj exReadMembers] ∧ SaysObj toy exReadMembers exRead ∧
    Sound exRead := ⟨.inl rfl, exRead_says, exRead_sound⟩

/-- The members that are written for the object with the identifier after the document is read. -/
def exAgain (doc : Json) (id : Str) : Option (List (Str × Json)) :=
  match fromJSON (U := Empty) toy [] (some doc) with
  | .ok c => match c.get id with
    | some (.lib o) => match marshalObj toy o with
      | some (.obj ms) => some ms
      | _ => none
    | _ => none
  | _ => none

theorem exAgain_iff {doc : Json} {id : Str} {p : List (Str × Json) → Bool}
    (h : ((exAgain doc id).map p) = some true) : ∃ c o ms, fromJSON (U := Empty) toy [] (some doc) = .ok c ∧
      c.get id = some (.lib o) ∧ marshalObj toy o = some (.obj ms) ∧ p ms = true := by
  unfold exAgain at h
  split at h
  · next c hc =>
    split at h
    · next o ho =>
      split at h
      · next ms hms => exact ⟨c, o, ms, hc, ho, hms, by simpa using h⟩
      · simp at h
    · simp at h
  · simp at h

/-- A minimal tool with one more member. -/
def exWith (k : Str) (j : Json) : List (Str × Json) :=
  [(b!"type", .str [] (b!"tool")), (b!"id", .str [] (b!"tool--31b940d4-6f7f-459a-80ea-9c1f17b5891b")),
   (b!"spec_version", .str [] (b!"2.1")), (b!"name", .str [] (b!"nmap")),
   (b!"created", .str (b!"2020-01-01T00:00:00.000Z") []), (b!"modified", .str (b!"2020-01-01T00:00:00.000Z") []),
   (k, j)]

/-- **C62 is false** for a member with a zero value: it is lost. -/
theorem c62_false : ∃ c o ms, fromJSON (U := Empty) toy []
      (some (.arr [.obj (exWith (b!"confidence") (.num (b!"0")))])) = .ok c ∧
    c.get (b!"tool--31b940d4-6f7f-459a-80ea-9c1f17b5891b") = some (.lib o) ∧
    marshalObj toy o = some (.obj ms) ∧ (b!"name") ∈ amKeys ms ∧ (b!"confidence") ∉ amKeys ms := by
  obtain ⟨c, o, ms, h1, h2, h3, h4⟩ := exAgain_iff
    (doc := .arr [.obj (exWith (b!"confidence") (.num (b!"0")))])
    (id := b!"tool--31b940d4-6f7f-459a-80ea-9c1f17b5891b")
    (p := fun ms => decide ((b!"name") ∈ amKeys ms ∧ (b!"confidence") ∉ amKeys ms)) (by decide +kernel)
  exact ⟨c, o, ms, h1, h2, h3, by simpa using h4⟩

/-- The names of the members of the objects in an array. -/
def exInner : Option Json → List (List Str)
  | some (.arr l) => l.map fun j => match j with
    | .obj ms => amKeys ms
    | _ => []
  | _ => []

/-- **C62 is false** for a member of a nested object that the standard does not have: it is lost. -/
theorem c62_false_nested : ∃ c o ms, fromJSON (U := Empty) toy []
      (some (.arr [.obj (exWith (b!"external_references") (.arr [.obj [(b!"source_name", .str [] (b!"a")),
        (b!"x_more", .str [] (b!"b"))]]))])) = .ok c ∧
    c.get (b!"tool--31b940d4-6f7f-459a-80ea-9c1f17b5891b") = some (.lib o) ∧
    marshalObj toy o = some (.obj ms) ∧
    exInner (amLookup (b!"external_references") ms) = [[b!"source_name"]] := by
  obtain ⟨c, o, ms, h1, h2, h3, h4⟩ := exAgain_iff
    (doc := .arr [.obj (exWith (b!"external_references") (.arr [.obj [(b!"source_name", .str [] (b!"a")),
        (b!"x_more", .str [] (b!"b"))]]))])
    (id := b!"tool--31b940d4-6f7f-459a-80ea-9c1f17b5891b")
    (p := fun ms => decide (exInner (amLookup (b!"external_references") ms) = [[b!"source_name"]]))
    (by decide +kernel)
  exact ⟨c, o, ms, h1, h2, h3, by simpa using h4⟩

end Stix
