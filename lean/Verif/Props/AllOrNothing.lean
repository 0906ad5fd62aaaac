import Verif.Props.ParseMany

/-!
# All or nothing (C34)
-/

namespace Stix
open Spec StixObject Stix.Canon Stix.Props.Canon

variable {F : Canon.FloatFmt} {U : Type} [UserType U]

/-- A member that belongs to one field, and occurs once, is what the field is decoded from. -/
theorem decStruct_inv {fs : List FieldInfo} {d : Str → GV → Json → D GV} {f : FieldInfo}
    (hn : (fs.map FieldInfo.name).Nodup) (hk : (fs.map FieldInfo.key).Nodup) (hf : f ∈ fs)
    (ms : List (Str × Json)) : ∀ (cur g : Str → GV), (amKeys ms).Nodup →
    (∀ k ∈ amKeys ms, foldName k = foldName f.key → k = f.key) →
    decStruct fs d cur ms = .ok g false →
      (∀ v, (f.key, v) ∈ ms → d f.name (cur f.name) v = .ok (g f.name) false) ∧
      (f.key ∉ amKeys ms → g f.name = cur f.name) := by
  induction ms with
  | nil =>
    intro cur g _ _ h
    simp only [decStruct, D.ok.injEq] at h
    simp [h.1]
  | cons e ms ih =>
    obtain ⟨k, j⟩ := e
    intro cur g hnd hv h
    have hv' : ∀ k ∈ amKeys ms, foldName k = foldName f.key → k = f.key :=
      fun k hk => hv k (List.mem_cons_of_mem _ hk)
    simp only [amKeys, List.map_cons, List.nodup_cons] at hnd
    simp only [decStruct] at h
    cases hm : matchKey fs k with
    | none =>
      rw [hm] at h
      have hne : k ≠ f.key := by
        rintro rfl
        rw [matchKey_self hk hf] at hm
        simp at hm
      obtain ⟨h1, h2⟩ := ih cur g hnd.2 hv' h
      refine ⟨fun v hvm => ?_, fun hno => h2 fun hc => hno (List.mem_cons_of_mem _ hc)⟩
      rcases List.mem_cons.1 hvm with e | e
      · simp only [Prod.mk.injEq] at e; exact absurd e.1.symm hne
      · exact h1 v e
    | some f' =>
      rw [hm] at h
      simp only at h
      obtain ⟨v', hv1, h2⟩ := D.bind_ok_iff.1 h
      obtain ⟨i1, i2⟩ := ih _ g hnd.2 hv' h2
      by_cases e : k = f.key
      · subst e
        rw [matchKey_self hk hf] at hm
        simp only [Option.some.injEq] at hm
        subst hm
        have hg := i2 hnd.1
        simp only [if_true] at hg
        refine ⟨fun v hvm => ?_, fun hno => absurd (by simp [amKeys]) hno⟩
        rcases List.mem_cons.1 hvm with e | e
        · simp only [Prod.mk.injEq, true_and] at e
          rw [e, hg]; exact hv1
        · exact absurd (List.mem_map_of_mem e) hnd.1
      · have hne : f'.name ≠ f.name := by
          intro hh
          have := inj_of_nodup hn (matchKey_mem hm) hf hh
          subst this
          exact e (hv k (by simp [amKeys]) (matchKey_fold hm))
        simp only [if_neg (Ne.symm hne)] at i1 i2
        refine ⟨fun v hvm => ?_, fun hno => i2 fun hc => hno (List.mem_cons_of_mem _ hc)⟩
        rcases List.mem_cons.1 hvm with e' | e'
        · simp only [Prod.mk.injEq] at e'; exact absurd e'.1.symm e
        · exact i1 v e'

/-- A member that its field does not accept makes the whole object unacceptable. -/
theorem decStruct_bad {fs : List FieldInfo} {d : Str → GV → Json → D GV} {f : FieldInfo}
    (ms : List (Str × Json)) {k : Str} {j : Json} (hmem : (k, j) ∈ ms) (hm : matchKey fs k = some f)
    (hbad : ∀ cur v, d f.name cur j ≠ .ok v false) :
    ∀ cur g : Str → GV, decStruct fs d cur ms ≠ .ok g false := by
  induction ms with
  | nil => simp at hmem
  | cons e ms ih =>
    obtain ⟨k', j'⟩ := e
    intro cur g h
    simp only [decStruct] at h
    rcases List.mem_cons.1 hmem with e | e
    · simp only [Prod.mk.injEq] at e
      obtain ⟨rfl, rfl⟩ := e
      rw [hm] at h
      obtain ⟨v, h1, _⟩ := D.bind_ok_iff.1 h
      exact hbad _ _ h1
    · split at h
      · exact ih e _ _ h
      · obtain ⟨v, _, h1⟩ := D.bind_ok_iff.1 h
        exact ih e _ _ h1

theorem identifies_ne_nil {t id : Str} (h : Identifies t id) : id ≠ [] := by
  obtain ⟨h1, _, u, _, rfl⟩ := h
  simp

/-- The id of an object that comes from the parser is the `id` member. -/
theorem parseOne_id {cfg : Config U} {p p' : Peak} {j : Json} {a : Any U}
    (h : parseOne F cfg p j = .ok (p', some a)) (ha : Acceptable a)
    (hn : ∀ t, cfg.handlers t = none) (hd : ∀ ms, j = .obj ms → (amKeys ms).Nodup)
    (hv : NoVariant j (b!"id")) : Text j (b!"id") (getID a) := by
  have hne := identifies_ne_nil ha
  obtain ⟨ms, typ, rfl, ht, hk⟩ := parseOne_builtin h
  rcases hk (hn typ) with ⟨s, o, h1, h2, h3, _⟩ | ⟨h1, h2, rfl⟩
  · obtain ⟨o', rfl⟩ := core_lib h3
    simp only [core, Any.lib.injEq] at h3
    have hgt : getID (.lib o' : Any U) = o.getStr (b!"ID") := by rw [← h3]; rfl
    obtain ⟨⟨r, hr, hn1, hk1, hty⟩, _⟩ := id_type_rows s
    have hzero : ∀ s ∈ allSIds, (match (zeroObj s).val (b!"ID") with
        | .str s => s
        | _ => []) = [] := by decide +kernel
    have h2' := h2
    simp only [decObj, D.bind_ok_iff, D.ok.injEq, and_true] at h2'
    obtain ⟨g, hg, rfl⟩ := h2'
    have hrs : r ∈ objFields (zeroObj s).sid := hr
    obtain ⟨i1, i2⟩ := decStruct_inv (objFields_names_nodup _) (objFields_keys_nodup _) hrs ms _ _
      (hd ms rfl) (by rw [hk1]; exact hv ms rfl) hg
    rw [hgt] at hne ⊢
    cases hm : member (b!"id") ms with
    | none =>
      rw [hk1, hn1] at i2
      refine absurd ?_ hne
      simp only [Obj.getStr]
      rw [i2 ((member_none_iff _ _).1 hm)]
      exact hzero s (mem_allSIds s)
    | some v =>
      have := i1 v (by rw [hk1]; exact member_mem hm)
      rw [decField_row (by rw [mkFields_toList]; exact objFields_names_nodup _)
        (by rw [mkFields_toList]; exact hrs)] at this
      have hstr : ∃ n, r.ty = .str n := by
        cases hrt : r.ty <;> rw [hrt] at hty <;> simp [Ty.isStr] at hty
        exact ⟨_, rfl⟩
      obtain ⟨n, hstr⟩ := hstr
      rw [hstr, hn1] at this
      refine ⟨v, ⟨ms, rfl, hm⟩, ?_⟩
      cases v with
      | str raw s' =>
        simp only [dec, D.ok.injEq, and_true] at this
        refine ⟨raw, ?_⟩
        simp only [Obj.getStr, ← this]
      | null =>
        simp only [dec, D.ok.injEq, and_true] at this
        refine absurd ?_ hne
        rw [Obj.getStr]
        simp only
        rw [← this]
        exact hzero s (mem_allSIds s)
      | _ => simp [dec] at this
  · have hl := amLookup_dynMerge (F := F) (b!"id") [] ms
    simp only [getID] at hne ⊢
    cases hm : member (b!"id") ms with
    | none => rw [hm] at hl; simp [customText, hl, amLookup] at hne
    | some v =>
      rw [hm] at hl
      simp only at hl
      refine ⟨v, ⟨ms, rfl, hm⟩, ?_⟩
      simp only [customText, Option.getD_some, hl] at hne ⊢
      cases hv : dynOf F v with
      | str s' => simp only; exact dynOf_str hv
      | _ => rw [hv] at hne; simp at hne

/-- When the parser makes nothing of an element. -/
theorem parseOne_none {cfg : Config U} {p p' : Peak} {j : Json}
    (h : parseOne F cfg p j = .ok (p', none)) (hn : ∀ t, cfg.handlers t = none) :
    j = .null ∨ ∃ ms, j = .obj ms ∧ ((b!"type") ∉ amKeys ms ∨
      (cfg.dropCustom = true ∧ ∃ t, Text j (b!"type") t ∧ ∀ s, (t, s) ∉ goTypes)) := by
  unfold parseOne at h
  obtain ⟨q, h4, h5⟩ := Res.bind_ok_iff.1 h
  rw [D.res_ok_iff] at h4
  cases j with
  | null => exact .inl rfl
  | obj ms =>
    refine .inr ⟨ms, rfl, ?_⟩
    rw [decCustom_obj] at h4
    simp only [D.ok.injEq] at h4
    obtain ⟨rfl, _⟩ := h4
    rw [Option.getD_some, amLookup_dynMerge] at h5
    cases hm : member (b!"type") ms with
    | none => exact .inl ((member_none_iff _ _).1 hm)
    | some v =>
      rw [hm] at h5
      simp only at h5
      cases hv : dynOf F v with
      | str t =>
        rw [hv] at h5
        simp only at h5
        obtain ⟨a', h6, h7⟩ := Res.bind_ok_iff.1 h5
        simp only [newObject, hn] at h6
        have hdone : a' = none := by
          cases a' with
          | none => rfl
          | some a' =>
            simp only at h7
            obtain ⟨a2, h8, h9⟩ := Res.bind_ok_iff.1 h7
            split at h9 <;> simp at h9
        subst hdone
        refine .inr ?_
        split at h6
        · simp at h6
        · next hd =>
          split at h6
          · next hdr => exact ⟨hdr, t, ⟨v, ⟨ms, rfl, hm⟩, dynOf_str hv⟩, (dispatch_none t).1 hd⟩
          · simp at h6
      | _ => rw [hv] at h5; simp at h5
  | _ => simp [decCustom] at h4

/-- An element without repeated members, none of which differs from `type` or `id` in case
only. -/
structure Distinct (j : Json) : Prop where
  distinct : ∀ ms, j = .obj ms → (amKeys ms).Nodup
  typ : NoVariant j (b!"type")
  id : NoVariant j (b!"id")

/-- The element is to be in the collection: it has a type, and is not dropped as custom. -/
def Wanted (opts : List (CollOption U)) (j : Json) : Prop :=
  ∃ v, Member j (b!"type") v ∧
    ∀ t, IsText v t → CollOption.dropCustom ∈ opts → ∃ s, (t, s) ∈ goTypes

/-- The parser's account of an element: a well-identified object with the element's id and type, if
it is wanted, and nothing for an element that is not. -/
def Accounts (opts : List (CollOption U)) (j : Json) : Option (Any U) → Prop
  | some a => Wanted opts j ∧ Text j (b!"type") (getType a) ∧ Text j (b!"id") (getID a) ∧ Acceptable a
  | none => ¬ Wanted opts j ∧ (j = .null ∨ ∃ ms, j = .obj ms)

theorem text_unique {j : Json} {k a b : Str} (h : Text j k a) (h' : Text j k b) : a = b := by
  obtain ⟨v, ⟨ms, rfl, hm⟩, raw, rfl⟩ := h
  obtain ⟨v', ⟨ms', e, hm'⟩, raw', rfl⟩ := h'
  simp only [Json.obj.injEq] at e
  subst e
  rw [hm] at hm'
  simp only [Option.some.injEq, Json.str.injEq] at hm'
  exact hm'.2

/-- **C34.** If `FromJSON` succeeds, the collection is what adding one object after the other gives,
one for each element that has a type and is not dropped; each has the id and the type of its
element; elements without a type are objects or null. -/
theorem c34_accounts (opts : List (CollOption U)) (hn : NoParsers opts) (doc : Json) (l : List Json)
    (hl : Lists doc l) (hd : ∀ j ∈ l, Distinct j) (c : Coll (Any U))
    (h : fromJSON F opts (some doc) = .ok c) :
    ∃ as, List.Forall₂ (Accounts opts) l as ∧
      c = (Coll.new (Config.new opts).noSort).addAll (as.filterMap id) := by
  rw [fromJSON_lists opts hl] at h
  obtain ⟨as, p', hst, rfl⟩ := processObjects_ok.1 h
  refine ⟨as, ?_, rfl⟩
  clear h hl
  have hh := handlers_none hn
  generalize (none : Peak) = p at hst
  induction hst with
  | nil => exact .nil
  | cons h1 h2 h3 ih =>
    rename_i a as
    refine .cons ?_ (ih fun j hj => hd j (by simp [hj]))
    obtain ⟨d1, d2, d3⟩ := hd _ (List.mem_cons_self ..)
    cases a with
    | some a =>
      obtain ⟨hp, hacc⟩ := h2 a rfl
      obtain ⟨ht, hk⟩ := parseOne_type h1 hacc hh d2
      refine ⟨?_, ht, parseOne_id h1 hacc hh d1 d3, hacc⟩
      obtain ⟨v, hv1, hv2⟩ := ht
      refine ⟨v, hv1, fun t htx hdr => ?_⟩
      have := text_unique ⟨v, hv1, hv2⟩ ⟨v, hv1, htx⟩
      subst this
      rcases hk with ⟨o, _, ho⟩ | ⟨hc, _⟩
      · exact ⟨_, ho⟩
      · rw [(dropCustom_iff opts).2 hdr] at hc
        simp at hc
    | none =>
      have := parseOne_none h1 hh
      refine ⟨?_, this.imp_right fun ⟨ms, e, _⟩ => ⟨ms, e⟩⟩
      rintro ⟨v, ⟨ms, rfl, hm⟩, hw⟩
      rcases this with e | ⟨ms', e, hno | ⟨hdr, t, ht, hu⟩⟩
      · simp at e
      · simp only [Json.obj.injEq] at e
        subst e
        rw [(member_none_iff _ _).2 hno] at hm
        simp at hm
      · obtain ⟨v', ⟨ms'', e', hm'⟩, htx⟩ := ht
        simp only [Json.obj.injEq] at e'
        subst e'
        rw [hm] at hm'
        simp only [Option.some.injEq] at hm'
        subst hm'
        obtain ⟨s, hs⟩ := hw t htx ((dropCustom_iff opts).1 hdr)
        exact hu s hs

theorem forall₂_mem_left {α β} {R : α → β → Prop} {l : List α} {m : List β}
    (h : List.Forall₂ R l m) {a : α} (ha : a ∈ l) : ∃ b ∈ m, R a b := by
  induction h with
  | nil => simp at ha
  | cons h1 h2 ih =>
    rcases List.mem_cons.1 ha with rfl | ha
    · exact ⟨_, by simp, h1⟩
    · obtain ⟨b, hb, hr⟩ := ih ha
      exact ⟨b, by simp [hb], hr⟩

theorem forall₂_mem_right {α β} {R : α → β → Prop} {l : List α} {m : List β}
    (h : List.Forall₂ R l m) {b : β} (hb : b ∈ m) : ∃ a ∈ l, R a b := by
  induction h with
  | nil => simp at hb
  | cons h1 h2 ih =>
    rcases List.mem_cons.1 hb with rfl | hb
    · exact ⟨_, by simp, h1⟩
    · obtain ⟨a, ha, hr⟩ := ih hb
      exact ⟨a, by simp [ha], hr⟩

/-- Something was accepted for an id: then there is a latest one. -/
theorem latest_exists {α} [StixObject α] (h : List α) (a : α) (ha : a ∈ h) (hacc : Acceptable a) :
    ∃ b, Latest h (getID a) b := by
  induction h using List.reverseRecOn with
  | nil => simp at ha
  | append_singleton h x ih =>
    by_cases hx : getID x = getID a ∧ Acceptable x
    · exact ⟨x, h, [], rfl, hx.2, hx.1, by simp⟩
    · rcases List.mem_append.1 ha with ha | ha
      · obtain ⟨b, p, q, rfl, h1, h2, h3⟩ := ih ha
        refine ⟨b, p, q ++ [x], by simp, h1, h2, ?_⟩
        intro y hy e hac
        rcases List.mem_append.1 hy with hy | hy
        · exact h3 y hy e hac
        · simp only [List.mem_singleton] at hy
          subst hy
          exact hx ⟨e, hac⟩
      · simp only [List.mem_singleton] at ha
        subst ha
        exact absurd ⟨rfl, hacc⟩ hx

theorem identifies_type_unique {t t' id : Str} (h : Identifies t id) (h' : Identifies t' id) : t = t' := by
  obtain ⟨_, h1, u, hu, rfl⟩ := h
  obtain ⟨_, h2, u', hu', e⟩ := h'
  exact (c07_unique_parts t t' u u' h1 h2 hu hu' e).1

/-- **C34** (all).  If `FromJSON` succeeds, every element that has a type and is not dropped is
well identified, and `Get` of its id finds an object of its type. -/
theorem c34_all (opts : List (CollOption U)) (hn : NoParsers opts) (doc : Json) (l : List Json)
    (hl : Lists doc l) (hd : ∀ j ∈ l, Distinct j) (c : Coll (Any U))
    (h : fromJSON F opts (some doc) = .ok c) (j : Json) (hj : j ∈ l) (hw : Wanted opts j) :
    ∃ t id a, Text j (b!"type") t ∧ Text j (b!"id") id ∧ Identifies t id ∧ c.get id = some a ∧
      getID a = id ∧ getType a = t := by
  obtain ⟨as, h1, rfl⟩ := c34_accounts opts hn doc l hl hd c h
  obtain ⟨oa, hoa, hr⟩ := forall₂_mem_left h1 hj
  cases oa with
  | none => exact absurd hw hr.1
  | some a =>
    obtain ⟨_, h2, h3, h4⟩ := hr
    have hmem : a ∈ as.filterMap id := List.mem_filterMap.2 ⟨_, hoa, rfl⟩
    obtain ⟨b, hb⟩ := latest_exists _ a hmem h4
    obtain ⟨hb1, hb2, _⟩ := latest_acceptable hb
    refine ⟨_, _, b, h2, h3, h4, (c01_get_latest _ _ _ _).2 hb, hb2, ?_⟩
    refine identifies_type_unique (id := getID a) ?_ h4
    rw [← hb2]
    exact hb1

/-- **C34** (nothing else).  Everything in the collection comes from an element that has a type and
is not dropped, with its id and type. -/
theorem c34_nothing_else (opts : List (CollOption U)) (hn : NoParsers opts) (doc : Json)
    (l : List Json) (hl : Lists doc l) (hd : ∀ j ∈ l, Distinct j) (c : Coll (Any U))
    (h : fromJSON F opts (some doc) = .ok c) (id : Str) (a : Any U) (ha : c.get id = some a) :
    ∃ j ∈ l, Wanted opts j ∧ Text j (b!"type") (getType a) ∧ Text j (b!"id") id := by
  obtain ⟨as, h1, rfl⟩ := c34_accounts opts hn doc l hl hd c h
  obtain ⟨_, hb2, hb3⟩ := latest_acceptable ((c01_get_latest _ _ _ _).1 ha)
  obtain ⟨oa, hoa, e⟩ := List.mem_filterMap.1 hb3
  simp only [id_eq] at e
  subst e
  obtain ⟨j, hj, hw, ht, hi, _⟩ := forall₂_mem_right h1 hoa
  exact ⟨j, hj, hw, ht, hb2 ▸ hi⟩

/-- **C34** (badly identified).  If an element is neither an object nor null, or has a type and is
not dropped but is not identified by its id, no collection is returned. -/
theorem c34_badly_identified (opts : List (CollOption U)) (hn : NoParsers opts) (doc : Json)
    (l : List Json) (hl : Lists doc l) (hd : ∀ j ∈ l, Distinct j) (j : Json) (hj : j ∈ l)
    (hbad : (j ≠ .null ∧ ∀ ms, j ≠ .obj ms) ∨
      (Wanted opts j ∧ ∀ t id, Text j (b!"type") t → Text j (b!"id") id → ¬ Identifies t id)) :
    ∀ c, fromJSON F opts (some doc) ≠ .ok c := by
  intro c h
  rcases hbad with ⟨h1, h2⟩ | ⟨h1, h2⟩
  · obtain ⟨as, h3, _⟩ := c34_accounts opts hn doc l hl hd c h
    obtain ⟨oa, _, hr⟩ := forall₂_mem_left h3 hj
    cases oa with
    | none => rcases hr.2 with e | ⟨ms, e⟩; exacts [h1 e, h2 ms e]
    | some a =>
      obtain ⟨_, ⟨v, ⟨ms, e, _⟩, _⟩, _⟩ := hr
      exact h2 ms e
  · obtain ⟨t, id, a, ht, hi, hid, _⟩ := c34_all opts hn doc l hl hd c h j hj h1
    exact h2 t id ht hi hid

/-- The JSON value has a kind that a property of the Go type does not take. -/
def WrongKind : Ty → Json → Prop
  | .str _, j => j ≠ .null ∧ ∀ r s, j ≠ .str r s
  | .bool, j => j ≠ .null ∧ ∀ b, j ≠ .bool b
  | .int _, j => j ≠ .null ∧ ∀ l, j ≠ .num l
  | .flt, j => j ≠ .null ∧ ∀ l, j ≠ .num l
  | .slice _, j => j ≠ .null ∧ (∀ l, j ≠ .arr l) ∧ ∀ r s, j ≠ .str r s
  | .map _ _ _, j => j ≠ .null ∧ ∀ m, j ≠ .obj m
  | .struct _ _, j => j ≠ .null ∧ ∀ m, j ≠ .obj m
  | .ext _, j => j ≠ .null ∧ ∀ m, j ≠ .obj m
  | .ptr t, j => WrongKind t j
  | _, _ => False

theorem wrongKind_null : ∀ t : Ty, ¬ WrongKind t .null
  | .ptr t => fun h => wrongKind_null t h
  | .str _ | .bool | .int _ | .flt | .slice _ | .map _ _ _ | .struct _ _ | .ext _ => by
    simp [WrongKind]
  | .enum _ | .bin | .time | .dyn | .raw => by simp [WrongKind]

theorem dec_wrongKind (t : Ty) (j : Json) (h : WrongKind t j) (cur v : GV) :
    dec F t cur j ≠ .ok v false := by
  match t with
  | .str _ =>
    obtain ⟨h1, h2⟩ := h
    cases j <;> simp_all [dec]
  | .bool => obtain ⟨h1, h2⟩ := h; cases j <;> simp_all [dec]
  | .int _ => obtain ⟨h1, h2⟩ := h; cases j <;> simp_all [dec]
  | .flt => obtain ⟨h1, h2⟩ := h; cases j <;> simp_all [dec]
  | .slice _ => obtain ⟨h1, h2, h3⟩ := h; cases j <;> simp_all [dec, decSliceOther]
  | .map _ _ _ => obtain ⟨h1, h2⟩ := h; cases j <;> simp_all [dec]
  | .struct _ _ => obtain ⟨h1, h2⟩ := h; cases j <;> simp_all [dec]
  | .ext _ => obtain ⟨h1, h2⟩ := h; cases j <;> simp_all [dec]
  | .ptr t =>
    intro hd
    have hnn : j ≠ .null := by
      rintro rfl
      exact wrongKind_null _ h
    have h' : WrongKind t j := h
    have key : ∃ cur' v', dec F t cur' j = .ok v' false := by
      cases j with
      | null => exact absurd rfl hnn
      | _ =>
        simp only [dec] at hd
        obtain ⟨v', h1, _⟩ := D.bind_ok_iff.1 hd
        exact ⟨_, v', h1⟩
    obtain ⟨cur', v', h1⟩ := key
    exact dec_wrongKind t j h' cur' v' h1
  | .enum _ | .bin | .time | .dyn | .raw => exact absurd h (by simp [WrongKind])

/-- **C34** (malformed).  If an element of a type of the library has a property whose value has the
wrong kind, no collection is returned. -/
theorem c34_malformed (opts : List (CollOption U)) (hn : NoParsers opts) (doc : Json)
    (l : List Json) (hl : Lists doc l) (ms : List (Str × Json)) (hj : .obj ms ∈ l) (t : Str)
    (s : SId) (ht : Text (.obj ms) (b!"type") t) (hs : (t, s) ∈ goTypes) (r : FieldInfo)
    (hr : r ∈ objFields s) (v : Json) (hv : (r.key, v) ∈ ms) (hw : WrongKind r.ty v) :
    ∀ c, fromJSON F opts (some doc) ≠ .ok c := by
  intro c h
  rw [fromJSON_lists opts hl] at h
  obtain ⟨as, p', hst, rfl⟩ := processObjects_ok.1 h
  clear h
  have hone : ∀ p p' a, parseOne F (Config.new opts) p (.obj ms) ≠ .ok (p', a) := by
    intro p p' a h
    obtain ⟨w, ⟨ms', e, hm⟩, raw, rfl⟩ := ht
    simp only [Json.obj.injEq] at e
    subst e
    unfold parseOne at h
    obtain ⟨q, h4, h5⟩ := Res.bind_ok_iff.1 h
    rw [D.res_ok_iff, decCustom_obj] at h4
    simp only [D.ok.injEq] at h4
    obtain ⟨rfl, _⟩ := h4
    rw [Option.getD_some, amLookup_dynMerge, hm] at h5
    simp only [dynOf, decDyn, newObject, handlers_none hn, (dispatch_mem t s).2 hs] at h5
    obtain ⟨x, h6, h7⟩ := Res.bind_ok_iff.1 h5
    simp only [Res.ok.injEq] at h6
    subst h6
    simp only at h7
    obtain ⟨y, h8, _⟩ := Res.bind_ok_iff.1 h7
    rw [D.res_ok_iff] at h8
    simp only [decAny, decObj, D.bind_ok_iff] at h8
    obtain ⟨o, ⟨g, h9, _⟩, _⟩ := h8
    have hrs : r ∈ objFields (zeroObj s).sid := hr
    refine decStruct_bad ms hv (matchKey_self (objFields_keys_nodup _) hrs) ?_ _ _ h9
    intro cur v'
    rw [decField_row (by rw [mkFields_toList]; exact objFields_names_nodup _)
        (by rw [mkFields_toList]; exact hrs)]
    exact dec_wrongKind _ _ hw _ _
  clear hl
  generalize (none : Peak) = p at hst
  induction hst with
  | nil => simp at hj
  | cons h1 h2 h3 ih =>
    rcases List.mem_cons.1 hj with rfl | hj
    · exact hone _ _ _ h1
    · exact ih hj

/-- C34: the bundle with a malware object, an object of an unknown type and null is accepted; the
first is wanted whatever the options, the second unless custom objects are dropped. -/
example : (∀ j ∈ exObjects, Distinct j) ∧ Wanted (U := Empty) [.dropCustom] (exObjects.getD 0 .null) ∧
    Wanted (U := Empty) [] (exObjects.getD 1 .null) ∧
    ¬ Wanted (U := Empty) [.dropCustom] (exObjects.getD 1 .null) ∧
    Lists exBundle exObjects ∧
    (fromJSON (U := Empty) toy [.dropCustom] (some exBundle)).okWith (fun _ => true) = true := by
  refine ⟨?_, ⟨_, ⟨_, rfl, rfl⟩, ?_⟩, ⟨_, ⟨_, rfl, rfl⟩, by simp⟩, ?_, .inr exBundle_isBundle,
    by decide +kernel⟩
  · intro j hj
    simp only [exObjects, List.mem_cons, List.not_mem_nil, or_false] at hj
    rcases hj with rfl | rfl | rfl
    · refine ⟨?_, noVariant_of (by decide), noVariant_of (by decide)⟩
      intro ms e; simp only [Json.obj.injEq] at e; subst e; decide
    · refine ⟨?_, noVariant_of (by decide), noVariant_of (by decide)⟩
      intro ms e; simp only [Json.obj.injEq] at e; subst e; decide
    · exact ⟨by simp, by intro ms e; simp at e, by intro ms e; simp at e⟩
  · rintro t ⟨raw, e⟩ _
    simp only [exText, Json.str.injEq] at e
    exact ⟨.Malware, e.2 ▸ by decide⟩
  · rintro ⟨v, ⟨ms, e, hm⟩, h⟩
    simp only [exObjects, List.getD_cons_succ, List.getD_cons_zero, Json.obj.injEq] at e
    subst e
    have : v = exText (b!"x-thing") := (Option.some.inj hm).symm
    subst this
    obtain ⟨s, hs⟩ := h (b!"x-thing") ⟨_, rfl⟩ (by simp)
    have : ∀ e ∈ goTypes, e.1 ≠ b!"x-thing" := by decide
    exact this _ hs rfl

/-- C34: bad elements: a number; an object whose id is of another type; a name that is a number. -/
example : (Json.num (b!"5") ≠ .null ∧ ∀ ms, Json.num (b!"5") ≠ .obj ms) ∧
    (∃ j, Wanted (U := Empty) [] j ∧ ∃ t id, Text j (b!"type") t ∧ Text j (b!"id") id ∧
      ¬ Identifies t id) ∧
    (∃ r ∈ objFields .Malware, r.key = b!"name" ∧ WrongKind r.ty (.num (b!"5"))) := by
  refine ⟨by simp, ⟨.obj [(b!"type", exText (b!"tool")), (b!"id", exText (exId (b!"malware")))],
    ⟨_, ⟨_, rfl, rfl⟩, by simp⟩, b!"tool", exId (b!"malware"), ⟨_, ⟨_, rfl, rfl⟩, _, rfl⟩,
    ⟨_, ⟨_, rfl, rfl⟩, _, rfl⟩, ?_⟩, ?_⟩
  · rintro ⟨_, _, u, _, e⟩
    simp [exId] at e
  · have : ((objFields .Malware).any fun r => r.key == b!"name" && r.ty.isStr) = true := by
      decide +kernel
    obtain ⟨r, hr, h⟩ := List.any_eq_true.1 this
    simp only [Bool.and_eq_true, beq_iff_eq] at h
    refine ⟨r, hr, h.1, ?_⟩
    cases hrt : r.ty with
    | str n => simp [WrongKind]
    | _ => rw [hrt] at h; simp [Ty.isStr] at h

end Stix
