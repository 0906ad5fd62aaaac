import Verif.Props.Relay

/-!
# Passing on adds nothing (C86)
-/

namespace Stix
open Spec StixObject Stix.Canon Stix.Props.Canon
open Spec.Text (WritesNumbers height)

variable {F : Canon.FloatFmt} {U : Type} [UserType U]

theorem peak_steps {opts : List (CollOption U)} (hn : NoParsers opts) {l : List Json} {before : List Json}
    {p p' : Peak} {as : List (Option (Any U))} (hp : PeakHas F ((Config.new opts).dropCustom = true) before p)
    (h : Steps F (Config.new opts) p l as p') (i : Nat) (hi : i ≤ l.length) :
    ∃ q, PeakHas F ((Config.new opts).dropCustom = true) (before ++ l.take i) q := by
  induction l generalizing before p as i with
  | nil => exact ⟨p, by simpa using hp⟩
  | cons j l ih =>
    cases i with
    | zero => exact ⟨p, by simpa using hp⟩
    | succ i =>
      cases h with
      | cons h1 h2 h3 =>
        obtain ⟨g1, -⟩ := becomes_step (handlers_none hn) hp h1
        obtain ⟨q, hq⟩ := ih g1 h3 i (by simpa using hi)
        exact ⟨q, by simpa using hq⟩

theorem steps_acceptable {cfg : Config U} {l : List Json} {p p' : Peak} {as : List (Option (Any U))}
    (hst : Steps F cfg p l as p') : ∀ x, some x ∈ as → Acceptable x := by
  intro x hx
  induction hst with
  | nil => cases hx
  | cons _ h _ ih =>
    rcases List.mem_cons.1 hx with e | hx
    · exact (h x e.symm).2
    · exact ih hx

theorem known_go {t : Str} (h : t ∈ amKeys standard) : ¬ ∀ s, (t, s) ∉ goTypes := by
  obtain ⟨e, he, rfl⟩ := List.mem_map.1 h
  obtain ⟨-, -, ⟨gt, gs⟩, hg, eg⟩ := standard_types e he
  simp only at eg
  subst eg
  exact fun h => h gs hg

omit [UserType U] in
theorem all_lib : ∀ {as : List (Option (Any U))}, (∀ a ∈ as, ∃ o, a = some (.lib o)) →
    ∃ os : List Obj, as = os.map fun o => some (.lib o)
  | [], _ => ⟨[], rfl⟩
  | a :: as, h => by
    obtain ⟨o, rfl⟩ := h a (by simp)
    obtain ⟨os, rfl⟩ := all_lib (as := as) fun a ha => h a (by simp [ha])
    exact ⟨o :: os, rfl⟩

theorem lookup_of_mem {m : List (Str × Dyn)} {e : Str × Dyn} (h : e ∈ m) : ∃ d, amLookup e.1 m = some d := by
  cases hc : amLookup e.1 m with
  | some d => exact ⟨d, rfl⟩
  | none => exact absurd (List.mem_map_of_mem h) ((amLookup_eq_none_iff _ _).1 hc)

theorem text_one {j : Json} {k x y : Str} (h : Text j k x) (h' : Text j k y) : x = y := by
  obtain ⟨v, ⟨_, rfl, hv⟩, raw, rfl⟩ := h
  obtain ⟨v', ⟨_, e, hv'⟩, raw', rfl⟩ := h'
  cases e
  rw [hv] at hv'
  cases hv'
  rfl

/-- **C86** (extended properties).  When, moreover, no two objects in the text have the same identifier, none is
an extension definition, the first collection is ordered and the second import drops nothing, then every object
arrives with exactly the extended properties that it had: what the first import added to it from the objects
before it (C36) is all that is ever added. -/
theorem c86_exact (L : Canon.FloatLaws F) (W : WritesNumbers F) (hI : IntegersParse F) (hF : ReadsFinite F)
    (opts : List (CollOption U)) (hn : NoParsers opts) (hs : CollOption.noSort ∉ opts) (text : Str) (doc : Json)
    (l : List Json) (ht : Spec.Text.IsText 10000 text doc) (hl : StixDocument doc l)
    (he : ∀ j ∈ l, (∃ t id, t ∈ amKeys standard ∧ t ≠ b!"extension-definition" ∧ StixElement Timestamp t id j) ∧ InYears j)
    (hid : ∃ ids : List Str, ids.Nodup ∧ List.Forall₂ (fun j id => Text j (b!"id") id) l ids)
    (c : Coll (Any U)) (h : fromJSONText F opts text = .ok c)
    (rnd : List UInt8) (hr : rnd.length = 16) (v : GV) (hb : toBundle F rnd c (.ok v))
    (hh : ∀ out, enc F tyBundle v = some out → height out ≤ 10000)
    (opts' : List (CollOption U)) (hn' : NoParsers opts') (hd' : CollOption.dropCustom ∉ opts') :
    ∃ out c', enc F tyBundle v = some out ∧ fromJSONText F opts' out.raw = .ok c' ∧
      ∀ id a, c.get id = some a → ∃ o o', a = .lib o ∧ c'.get id = some (.lib o') ∧ Survives o o' ∧ extras o' = extras o := by
  have he0 : ∀ j ∈ l, (∃ t id, t ∈ amKeys standard ∧ StixElement Timestamp t id j) ∧ InYears j := fun j hj => by
    obtain ⟨⟨t, id, h1, -, h2⟩, h3⟩ := he j hj
    exact ⟨⟨t, id, h1, h2⟩, h3⟩
  obtain ⟨out, c', g1, g2, g3, g4, g5, -⟩ :=
    c86_relay L W hI hF opts hn text doc l ht hl he0 c h rnd hr v hb hh opts' hn'
  refine ⟨out, c', g1, g3, ?_⟩
  have hcomp : ∀ id o, c.get id = some (.lib o) → Complete o :=
    (c85_export_partial hF opts hn text c h rnd _ hb).2.1 ⟨v, out, rfl, g1⟩
  have hsound : ∀ id a, c.get id = some a → ∃ o, a = .lib o ∧ Sound o := fun id a ha => by
    obtain ⟨o, rfl, hs⟩ := c86_sound hF opts hn text doc l ht hl he0 c h id a ha
    exact ⟨o, rfl, hs (hcomp id o ha)⟩
  have hl' := holds_of_stix hl
  rw [c52_value opts ht, (c75_shape opts doc).1 l hl', fromJSON_arr, processObjects_ok] at h
  obtain ⟨as, p', hst, rfl⟩ := h
  obtain ⟨e1, e2⟩ := becomes_steps hn peakHas_none hst
  have hpk := peak_steps hn peakHas_none hst
  have hacc := steps_acceptable hst
  have hns : (Config.new opts).noSort = false := by
    cases hc : (Config.new opts).noSort with
    | false => rfl
    | true => exact absurd ((noSort_iff opts).1 hc) hs
  simp only [dropCustom_iff, List.nil_append] at e2 hpk
  -- every element has become an object
  have hobj : ∀ (i : Nat) (hi : i < l.length), ∃ o ms t, as[i]? = some (some (.lib o)) ∧ l[i] = .obj ms ∧
      (∀ e ∈ ms, ∀ c ∈ e.1, NameChar c) ∧ TypedAs (CollOption.dropCustom ∈ opts) (l.take i) ms t ∧ (t, o.sid) ∈ goTypes ∧
      Text (.obj ms) (b!"type") t ∧
      o.sid ≠ .ExtensionDefinition ∧ Text l[i] (b!"id") (getID o) ∧
      (CollOption.dropCustom ∈ opts → extras o = []) ∧
      (CollOption.dropCustom ∉ opts → ∀ k, (∃ d, amLookup k (extras o) = some d) ↔
        ∃ v, LeftOver (CollOption.dropCustom ∈ opts) (l.take (i + 1)) k v) := by
    intro i hi
    obtain ⟨⟨t, id', hkn, hne, hx⟩, -⟩ := he l[i] (List.getElem_mem hi)
    obtain ⟨ms, ej, hnm, hnd, hty, hidt, hident, -⟩ := element_named hkn hx
    have hi' : i < as.length := by omega
    have hb := (e2 i l[i] _ (List.getElem?_eq_getElem hi) (List.getElem?_eq_getElem hi')).1
    obtain ⟨q, hq⟩ := hpk (i + 1) hi
    rw [List.take_succ_eq_append_getElem hi] at hq ⊢
    rw [List.getElem?_eq_getElem hi']
    generalize as[i] = a at hb
    rw [ej] at hb hq ⊢
    cases hb with
    | untyped hno _ =>
      obtain ⟨v, ⟨_, e0, hv⟩, -⟩ := hty
      cases e0
      rw [hno] at hv
      cases hv
    | dropped h5 h6 =>
      obtain rfl := typedAs_unique_own hty h5
      exact absurd h6 (known_go hkn)
    | custom h5 h6 =>
      obtain rfl := typedAs_unique_own hty h5
      exact absurd h6 (known_go hkn)
    | @object _ _ o h5 h6 h7 h8 h9 h10 h11 =>
      obtain rfl := typedAs_unique_own hty h5
      have hsid : o.sid ≠ .ExtensionDefinition := fun e => hne (goTypes_definition (by rw [← e]; exact h6))
      have hex : Any.extended (U := U) (.lib o) = o.extra := if_neg hsid
      rw [hex] at h9 h10
      refine ⟨o, ms, _, rfl, rfl, hnm, h5, h6, hty, hsid, ?_, fun hd => ?_, fun hd k => ?_⟩
      · have hid0 := hidt
        obtain ⟨v, ⟨_, e0, hv⟩, raw, rfl⟩ := hidt
        cases e0
        rw [lastText_own (by decide) hnm hnd hv] at h7
        rw [show getID o = _ from h7]
        exact hid0
      · simp [extras, h9 hd]
      · constructor
        · rintro ⟨d, hk⟩
          obtain ⟨v, hv, -⟩ := (h10 hd hsid k d).1 hk
          exact ⟨v, hv⟩
        · rintro ⟨v, hv⟩
          exact ⟨_, (h10 hd hsid k _).2 ⟨v, hv, (meansDyn_small (hq.small k v hv)).2 rfl⟩⟩
  obtain ⟨os, rfl⟩ : ∃ os : List Obj, as = os.map fun o => some (.lib o) := by
    refine all_lib fun a ha => ?_
    obtain ⟨i, hi, rfl⟩ := List.mem_iff_getElem.1 ha
    obtain ⟨o, -, -, h1, -⟩ := hobj i (by omega)
    rw [List.getElem?_eq_getElem hi, Option.some.injEq] at h1
    exact ⟨o, h1⟩
  simp only [List.length_map] at e1
  have hf : (os.map fun o => some (Any.lib (U := U) o)).filterMap id = os.map .lib := by
    rw [List.filterMap_map]
    exact congrFun List.filterMap_eq_map os
  rw [hf, hns] at hb hsound g4 g5 ⊢
  have hidn : (os.map getID).Nodup := by
    obtain ⟨ids, hnd, hfa⟩ := hid
    have : os.map getID = ids := by
      apply List.ext_getElem
      · rw [List.length_map, e1, hfa.length_eq]
      · intro i h1 h2
        simp only [List.length_map] at h1
        obtain ⟨o, -, -, k1, -, -, -, -, -, -, k2, -⟩ := hobj i (by omega)
        simp only [List.getElem?_map, List.getElem?_eq_getElem h1, Option.map_some, Option.some.injEq, Any.lib.injEq] at k1
        subst k1
        rw [List.getElem_map]
        exact text_one k2 ((List.forall₂_iff_get.1 hfa).2 i (by omega) h2)
    rw [this]
    exact hnd
  have hacc' : ∀ a ∈ os.map (Any.lib (U := U)), Acceptable a := fun a ha => by
    obtain ⟨o, ho, rfl⟩ := List.mem_map.1 ha
    exact hacc _ (List.mem_map.2 ⟨o, ho, rfl⟩)
  have hself := allObjects_self (os.map (Any.lib (U := U))) hacc' (by rw [List.map_map]; exact hidn)
  have hchain : os.IsChain Passes := by
    rw [List.isChain_iff_getElem]
    intro i hi e hm
    obtain ⟨x, msx, tx, x1, x2, x3, x4, x5, -, x6, -, x7, x8⟩ := hobj i (by omega)
    obtain ⟨y, msy, ty, y1, y2, y3, y4, y5, y0, y6, -, y7, y8⟩ := hobj (i + 1) (by omega)
    simp only [List.getElem?_map, List.getElem?_eq_getElem hi, List.getElem?_eq_getElem (Nat.lt_of_succ_lt hi), Option.map_some,
      Option.some.injEq, Any.lib.injEq] at x1 y1
    rw [x1] at hm
    rw [y1]
    by_cases hd : CollOption.dropCustom ∈ opts
    · rw [x7 hd] at hm; cases hm
    · obtain ⟨v, hv⟩ := (x8 hd e.1).1 (lookup_of_mem hm)
      have hx : ¬ TakesAway (CollOption.dropCustom ∈ opts) (l.take i) msx e.1 := by
        rw [List.take_succ_eq_append_getElem (by omega), x2] at hv
        obtain ⟨_, e0, h0, -⟩ := leftOver_snoc.1 hv
        cases e0
        exact h0
      by_cases hta : TakesAway (CollOption.dropCustom ∈ opts) (l.take (i + 1)) msy e.1
      · obtain ⟨-, t, s, h1, h2, h3⟩ := hta
        rcases h3 with h3 | ⟨h3, -⟩
        · right
          obtain rfl := typedAs_unique_own y0 h1
          rw [← dispatch_mem] at h2 y5
          rw [h2, Option.some.injEq] at y5
          subst y5
          obtain ⟨r, hr', er⟩ := List.mem_map.1 h3
          exact ⟨r, hr', er⟩
        · exact absurd ⟨hd, _, _, x4, x5, .inr ⟨h3, x6⟩⟩ hx
      · left
        have : ∃ v, LeftOver (CollOption.dropCustom ∈ opts) (l.take (i + 1 + 1)) e.1 v := by
          rw [List.take_succ_eq_append_getElem (by omega), y2]
          cases hmm : member e.1 msy with
          | none => exact ⟨v, .past hv hmm hta⟩
          | some v' => exact ⟨v', .here hmm hta⟩
        obtain ⟨d, hk⟩ := (y8 hd e.1).2 this
        exact List.mem_map.2 ⟨_, mem_of_amLookup _ _ _ hk, rfl⟩
  obtain ⟨v', doc', c2, os2, k1, k2, k3, k4, k5⟩ := c36_exact_partial L hI false _ (fun id a ha => by
    obtain ⟨o, rfl, ho⟩ := hsound id a ha
    refine ⟨o, rfl, ho, ?_⟩
    have hm := (latest_acceptable ((c01_get_latest _ _ id _).1 ha)).2.2
    obtain ⟨o', hm, e0⟩ := List.mem_map.1 hm
    cases e0
    obtain ⟨i, hi, rfl⟩ := List.mem_iff_getElem.1 hm
    obtain ⟨x, msx, tx, x1, x2, x3, x4, x5, -, x6, -⟩ := hobj i (by omega)
    simp only [List.getElem?_map, List.getElem?_eq_getElem hi, Option.map_some, Option.some.injEq, Any.lib.injEq] at x1
    rw [x1]
    exact x6) rnd hr _ hb opts' hn' hd'
  cases k1
  rw [g1] at k2
  cases k2
  rw [c52_value opts' g2, k3] at g3
  cases g3
  have e3 : os2 = os := by
    have := (hself _).1 k4
    rw [List.map_map] at this
    exact List.map_injective_iff.2 (fun x y h => by simpa using h) this
  subst e3
  intro id a ha
  have hm := (latest_acceptable ((c01_get_latest _ _ id _).1 ha)).2
  obtain ⟨o, ho, rfl⟩ := List.mem_map.1 hm.2
  obtain ⟨o', q1, q2, q3⟩ := k5.2 hchain o ho
  exact ⟨o, o', rfl, by rw [← hm.1]; exact q1, q2, q3⟩

/-- Two directories, of which the first has a custom property. -/
def exTwoText : Str :=
  b!"[{\"type\":\"directory\",\"id\":\"directory--00000000-0000-4000-8000-000000000000\",\"path\":\"C\",\"x_y\":\"A\"},{\"type\":\"directory\",\"id\":\"directory--00000000-0000-4000-8000-000000000001\",\"path\":\"D\"}]"

/-- They. -/
def exTwo : List Json :=
  [.obj [(b!"type", exText (b!"directory")), (b!"id", exText (b!"directory--00000000-0000-4000-8000-000000000000")),
    (b!"path", exText (b!"C")), (b!"x_y", exText (b!"A"))],
   .obj [(b!"type", exText (b!"directory")), (b!"id", exText (b!"directory--00000000-0000-4000-8000-000000000001")),
    (b!"path", exText (b!"D"))]]

set_option maxRecDepth 8000 in
theorem exTwo_element : ∀ j ∈ exTwo, ∃ t id, t ∈ amKeys standard ∧ t ≠ b!"extension-definition" ∧ StixElement Timestamp t id j := by
  obtain ⟨ps, hps, h1, h2, h3, h4, h5⟩ : ∃ ps, amLookup (b!"directory") standard = some ps ∧
      amLookup (b!"type") ps = some (true, .text) ∧ amLookup (b!"id") ps = some (true, .text) ∧
      amLookup (b!"path") ps = some (true, .text) ∧ amLookup (b!"x_y") ps = none ∧
      ∀ p ∈ ps, p.2.1 = true → p.1 ∈ [b!"type", b!"id", b!"path"] :=
    ⟨_, rfl, rfl, rfl, rfl, rfl, by decide⟩
  have hu : UUIDCanon (b!"00000000-0000-4000-8000-000000000001") :=
    ⟨b!"00000000", b!"0000", b!"4000", b!"8000", b!"000000000001", ⟨rfl, by decide⟩, ⟨rfl, by decide⟩, ⟨rfl, by decide⟩,
      ⟨rfl, by decide⟩, ⟨rfl, by decide⟩, rfl⟩
  have hreq : ∀ ms : List (Str × Json), (∀ k ∈ [b!"type", b!"id", b!"path"], k ∈ amKeys ms) →
      ∀ p ∈ ps, p.2.1 = true → p.1 ∈ amKeys ms := fun ms h p hp hr => h _ (h5 p hp hr)
  simp only [exTwo, List.forall_mem_cons, List.not_mem_nil, false_imp_iff, implies_true, and_true]
  constructor
  · refine ⟨b!"directory", _, by decide +kernel, by decide, .known (u := b!"00000000-0000-4000-8000-000000000000")
      (mem_of_amLookup _ _ _ hps) (.object _ _ ?_ ?_ (hreq _ ?_)) ?_ ⟨_, ⟨_, rfl, rfl⟩, _, rfl⟩ ⟨_, ⟨_, rfl, rfl⟩, _, rfl⟩ canonZeros rfl⟩
    · simp only [List.forall_mem_cons, List.not_mem_nil, false_imp_iff, implies_true, and_true]
      decide
    · simp only [List.forall_mem_cons, List.not_mem_nil, false_imp_iff, implies_true, and_true, h1, h2, h3, h4,
        Option.some.injEq, forall_eq', reduceCtorEq]
      exact ⟨.text _ _, .text _ _, .text _ _⟩
    · simp only [amKeys, List.map_cons, List.map_nil]; decide
    · simp only [amKeys, List.map_cons, List.map_nil]; decide
  · refine ⟨b!"directory", _, by decide +kernel, by decide, .known (u := b!"00000000-0000-4000-8000-000000000001")
      (mem_of_amLookup _ _ _ hps) (.object _ _ ?_ ?_ (hreq _ ?_)) ?_ ⟨_, ⟨_, rfl, rfl⟩, _, rfl⟩ ⟨_, ⟨_, rfl, rfl⟩, _, rfl⟩ hu rfl⟩
    · simp only [List.forall_mem_cons, List.not_mem_nil, false_imp_iff, implies_true, and_true]
      decide
    · simp only [List.forall_mem_cons, List.not_mem_nil, false_imp_iff, implies_true, and_true, h1, h2, h3,
        Option.some.injEq, forall_eq']
      exact ⟨.text _ _, .text _ _, .text _ _⟩
    · simp only [amKeys, List.map_cons, List.map_nil]; decide
    · simp only [amKeys, List.map_cons, List.map_nil]; decide

set_option maxRecDepth 20000 in
theorem exTwo_inYears : ∀ j ∈ exTwo, InYears j := by
  simp only [exTwo, List.forall_mem_cons, List.not_mem_nil, false_imp_iff, implies_true, and_true]
  constructor <;>
  · refine inYears_strings fun raw dec hi => ?_
    have leaf : ∀ {a b}, Inside (.str raw dec) (.str a b) → raw = a := fun h => by cases h; rfl
    cases hi with
    | member he h =>
      simp only [List.mem_cons, List.not_mem_nil, or_false] at he
      rcases he with rfl | rfl | rfl | rfl <;> rw [leaf h] <;> decide +kernel

def exTwoCheck (c : Coll (Any Empty)) : Bool :=
  c.noSort == false && c.order.length != 0 &&
    (match c.get (b!"directory--00000000-0000-4000-8000-000000000001") with
      | some (.lib o) => amKeys (extras o) == [b!"x_y"]
      | _ => false) &&
    (newBundle strconv exSevens (c.order.map c.get)).okWith fun v =>
      match enc strconv tyBundle v with
      | some out => decide (height out ≤ 10000)
      | none => false

set_option maxRecDepth 20000 in
/-- C86: the two directories, of which the second now has the property, too, meet what is asked for. -/
example : ∃ (c : Coll (Any Empty)) (v : GV), Spec.Text.IsText 10000 exTwoText (.arr exTwo) ∧
    StixDocument (.arr exTwo) exTwo ∧
    (∀ j ∈ exTwo, (∃ t id, t ∈ amKeys standard ∧ t ≠ b!"extension-definition" ∧ StixElement Timestamp t id j) ∧ InYears j) ∧
    (∃ ids : List Str, ids.Nodup ∧ List.Forall₂ (fun j id => Text j (b!"id") id) exTwo ids) ∧
    fromJSONText strconv [] exTwoText = .ok c ∧ exTwoCheck c = true ∧ toBundle strconv exSevens c (.ok v) ∧
    ∀ out, enc strconv tyBundle v = some out → height out ≤ 10000 := by
  have h : (fromJSONText (U := Empty) strconv [] exTwoText).okWith exTwoCheck = true := by
    decide +kernel
  obtain ⟨c, h1, h2⟩ := Res.okWith_iff.1 h
  have h0 := h2
  simp only [exTwoCheck, Bool.and_eq_true, beq_iff_eq, bne_iff_ne, Res.okWith_iff] at h2
  obtain ⟨⟨⟨h3, h4⟩, -⟩, v, h5, h6⟩ := h2
  refine ⟨c, v, (Text.parse_iff _ _).1 rfl, .array _, fun j hj => ⟨exTwo_element j hj, exTwo_inYears j hj⟩,
    ⟨[_, _], ?_, .cons ⟨_, ⟨_, rfl, rfl⟩, _, rfl⟩ (.cons ⟨_, ⟨_, rfl, rfl⟩, _, rfl⟩ .nil)⟩, h1, h0, ⟨_, ?_, h5.symm⟩, fun out ho => ?_⟩
  · decide
  · rw [Coll.AllObjects, if_pos ⟨h3, h4⟩]
  · rw [ho] at h6
    simpa using h6

end Stix
