import Verif.Spec.Tlp
import Verif.Props.Bundle

/-!
# The TLP markings (C50)
-/

namespace Stix
open Spec StixObject

variable {F : Canon.FloatFmt} {U : Type} [UserType U]

theorem tlp_unset {l : Tlp} {o : Obj} (hs : o.sid = .MarkingDefinition)
    (h : ∀ n ∈ [b!"CreatedBy", b!"ExternalReferences", b!"ObjectMarking", b!"GranularMarking",
      b!"Extensions"], o.val n = zeroVal (objFields .MarkingDefinition) n) :
    ∀ r ∈ objFields o.sid, r.key ∉ (tlpProps l).map Prod.fst → o.val r.name = zero r.ty := by
  intro r hr hk
  rw [hs] at hr
  rw [← zeroVal_row (objFields_names_nodup _) hr]
  refine h _ ?_
  have e : (tlpProps l).map Prod.fst = [b!"type", b!"spec_version", b!"id", b!"created",
    b!"definition_type", b!"name", b!"definition"] := rfl
  rw [e] at hk
  have hall : ∀ r ∈ objFields .MarkingDefinition, r.key ∉ [b!"type", b!"spec_version", b!"id",
    b!"created", b!"definition_type", b!"name", b!"definition"] → r.name ∈ [b!"CreatedBy",
      b!"ExternalReferences", b!"ObjectMarking", b!"GranularMarking", b!"Extensions"] := by
    decide +kernel
  exact hall r hr hk

theorem tlp_millis : tlpCreated.millis = 736714 * 86400 * 1000 := by decide +kernel

/-- **C50.** The package is initialised without a panic, and the variables are the markings of the
STIX specification. -/
theorem c50_values (F : Canon.FloatFmt) (l : Tlp) : ∃ o, tlpVar F l = .ok o ∧ IsTlp l o := by
  cases l
  all_goals
    refine ⟨_, rfl, rfl, ?_, tlp_unset rfl ?_, rfl⟩
    · simp only [tlpProps, tlp_millis, List.forall_mem_cons]
      exact ⟨rfl, rfl, rfl, rfl, rfl, rfl, rfl, by simp⟩
    · simp only [List.forall_mem_cons]
      exact ⟨rfl, rfl, rfl, rfl, rfl, by simp⟩

theorem tlp_getID {l : Tlp} {o : Obj} (h : IsTlp l o) : getID o = tlpId l := by
  have := h.set (b!"id", .str (tlpId l)) (by simp [tlpProps])
  rw [prop_id] at this
  simp [getID, Obj.getStr, Option.some.inj this]

/-- **C50.** The ids are distinct. -/
theorem c50_ids {l l' : Tlp} {o o' : Obj} (h : IsTlp l o) (h' : IsTlp l' o')
    (he : getID o = getID o') : l = l' := by
  rw [tlp_getID h, tlp_getID h'] at he
  cases l <;> cases l' <;> first | rfl | exact absurd he (by decide +kernel)

/-! ### A marking can be sent -/

/-- The marking as a composite literal. -/
def tlpFields (l : Tlp) : List (Str × GV) :=
  [(b!"Type", .str (b!"marking-definition")), (b!"ID", .str (tlpId l)), (b!"SpecVersion", .str (b!"2.1")),
   (b!"Created", gvTime ⟨736714 * 86400 * 10 ^ 9, 0⟩), (b!"Name", .str (tlpName l)),
   (b!"DefinitionType", .str (b!"tlp")), (b!"Definition", .dyn (.obj [(b!"tlp", .str (tlpLevel l))]))]

/-- The object with these fields. -/
def tlpLit (l : Tlp) : Obj := Obj.lit .MarkingDefinition (tlpFields l)

theorem tlpLit_is (l : Tlp) : IsTlp l (tlpLit l) := by
  refine ⟨rfl, ?_, tlp_unset rfl ?_, rfl⟩
  · simp only [tlpProps, tlp_millis, List.forall_mem_cons]
    exact ⟨rfl, rfl, rfl, rfl, rfl, rfl, rfl, by simp⟩
  · simp only [List.forall_mem_cons]
    exact ⟨rfl, rfl, rfl, rfl, rfl, by simp⟩

/-- The specification leaves no choice. -/
theorem isTlp_unique {l : Tlp} {o o' : Obj} (h : IsTlp l o) (h' : IsTlp l o') :
    ∀ r ∈ objFields .MarkingDefinition, o.val r.name = o'.val r.name := by
  intro r hr
  by_cases hk : r.key ∈ (tlpProps l).map Prod.fst
  · obtain ⟨⟨k, v⟩, hv, e⟩ := List.mem_map.1 hk
    have h1 := h.set _ hv
    have h2 := h'.set _ hv
    simp only at e h1 h2
    rw [e, prop_field (h.kind ▸ hr)] at h1
    rw [e, prop_field (h'.kind ▸ hr)] at h2
    exact Option.some.inj (h1.trans h2.symm)
  · rw [h.unset r (h.kind ▸ hr) hk, h'.unset r (h'.kind ▸ hr) hk]

theorem tlpLit_fields (l : Tlp) : ∀ r ∈ objFields .MarkingDefinition,
    Carriable r.ty ((tlpLit l).val r.name) := by
  refine lit_fields carriable_zeroOk .MarkingDefinition (tlpFields l) fun e he t ht => ?_
  simp only [tlpFields, List.mem_cons, List.not_mem_nil, or_false] at he
  rcases he with rfl | rfl | rfl | rfl | rfl | rfl | rfl
  · obtain rfl : _ = t := Option.some.inj ht; exact ⟨_, rfl, unicode_ascii _ (by decide)⟩
  · obtain rfl : _ = t := Option.some.inj ht
    exact ⟨_, rfl, unicode_ascii _ (by cases l <;> decide)⟩
  · obtain rfl : _ = t := Option.some.inj ht; exact ⟨_, rfl, unicode_ascii _ (by decide)⟩
  · obtain rfl : _ = t := Option.some.inj ht
    exact .inr ⟨_, rfl, _, rfl, by simp only [carriable, endOfYears]; omega⟩
  · obtain rfl : _ = t := Option.some.inj ht
    exact ⟨_, rfl, unicode_ascii _ (by cases l <;> decide)⟩
  · obtain rfl : _ = t := Option.some.inj ht; exact ⟨_, rfl, unicode_ascii _ (by decide)⟩
  · obtain rfl : _ = t := Option.some.inj ht
    refine ⟨_, rfl, by simp [SortedKeys], ⟨unicode_ascii _ (by decide), unicode_ascii _ ?_⟩, trivial⟩
    cases l <;> decide

theorem tlpLit_sound (l : Tlp) : Sound (tlpLit l) where
  type := by cases l <;> decide +kernel
  ident := by
    show Identifies _ _
    rw [← hasValidIdentifier_iff]
    cases l <;> decide +kernel
  fields := tlpLit_fields l
  required := by
    intro _ r hr h hu
    have := (isUnset_iff (objFields_plain _ r hr) (tlpLit_fields l r hr)).2 hu
    have hall : (objFields .MarkingDefinition).all
        (fun r => r.omitE || !isUnset r.ty ((tlpLit l).val r.name)) = true := by
      cases l <;> decide +kernel
    have := List.all_eq_true.1 hall r hr
    simp_all
  sorted := sortedKeys_nil
  extra := by rw [show extras (tlpLit l) = [] from rfl]; simp
  apart := by rw [show extras (tlpLit l) = [] from rfl]; simp

theorem Spec.Sound.congr {o o' : Obj} (h : Sound o) (hs : o'.sid = o.sid)
    (hv : ∀ r ∈ objFields o.sid, o'.val r.name = o.val r.name) (hx : o'.extra = o.extra) : Sound o' := by
  have e1 : getType o' = getType o ∧ getID o' = getID o := by
    obtain ⟨r, hr, h1, -⟩ := type_row o.sid
    obtain ⟨q, hq, g1, -⟩ := id_row o.sid
    have e1 := hv r hr
    have e2 := hv q hq
    rw [h1] at e1
    rw [g1] at e2
    simp only [getType, getID, Obj.getStr, e1, e2]
    trivial
  have e2 : extras o' = extras o := by simp [extras, hx]
  refine ⟨?_, ?_, fun r hr => ?_, fun hne r hr => ?_, ?_, ?_, ?_⟩
  · rw [e1.1, hs]; exact h.type
  · show Identifies _ _
    rw [e1.1, e1.2]; exact h.ident
  · rw [hs] at hr; rw [hv r hr]; exact h.fields r hr
  · rw [hs] at hr; rw [hv r hr]; exact h.required (hs ▸ hne) r hr
  · rw [e2]; exact h.sorted
  · rw [e2]; exact h.extra
  · rw [e2, hs]; exact h.apart

theorem tlp_sound {l : Tlp} {o : Obj} (h : IsTlp l o) : Sound o :=
  (tlpLit_sound l).congr (h.kind.trans rfl) (fun r hr => isTlp_unique h (tlpLit_is l) r hr)
    (h.plain.trans rfl)

/-- A round trip leaves the properties as they are. -/
theorem tlp_survives {l : Tlp} {o o' : Obj} (h : IsTlp l o) (hs : Survives o o') :
    (∀ r ∈ objFields .MarkingDefinition, o'.val r.name = o.val r.name) ∧
      IsTlp l { o' with extra := none } := by
  have hne : o.sid ≠ .ExtensionDefinition := by rw [h.kind]; decide
  have hv : ∀ r ∈ objFields .MarkingDefinition, o'.val r.name = o.val r.name := by
    intro r hr
    have hr' : r ∈ objFields o.sid := h.kind ▸ hr
    have hns : ∀ n fs, r.ty ≠ .struct n fs := by
      intro n fs e
      have hall : ∀ r ∈ objFields .MarkingDefinition, (match r.ty with
        | .struct _ _ => false
        | _ => true) = true := by decide +kernel
      have := hall r hr
      rw [e] at this
      simp at this
    have hnb : r.ty ≠ .bool := by
      intro e
      have hall : ∀ r ∈ objFields .MarkingDefinition, (match r.ty with
        | .bool => false
        | _ => true) = true := by decide +kernel
      have := hall r hr
      rw [e] at this
      simp at this
    have hu : Unset r.ty (o.val r.name) ↔ o.val r.name = zero r.ty := by
      cases ht : r.ty with
      | struct n fs => exact absurd ht (hns n fs)
      | bool => exact absurd ht hnb
      | _ => rfl
    have hE : Emitted o r ↔ o.val r.name ≠ zero r.ty := by
      rw [Emitted, if_neg hne, hu]
    by_cases he : Emitted o r
    · rw [hs.emitted r hr' he]
      have hk : r.key ∈ (tlpProps l).map Prod.fst := by
        by_contra hk
        exact hE.1 he (h.unset r hr' hk)
      have hall : ∀ r ∈ objFields .MarkingDefinition, r.key ∈ [b!"type", b!"spec_version", b!"id",
          b!"created", b!"definition_type", b!"name", b!"definition"] → (match r.ty with
        | .str _ => true
        | .dyn => true
        | .ptr .time => r.key == b!"created"
        | _ => false) = true := by decide +kernel
      have := hall r hr hk
      split at this
      · next ht => rw [ht]; rfl
      · next ht => rw [ht]; rfl
      · next ht =>
        have hv := h.set (b!"created", .ptr (some (.time
          { ns := tlpCreated.millis * 1000000, off := 0 }))) (by simp [tlpProps])
        simp only [beq_iff_eq] at this
        rw [← this, prop_field hr'] at hv
        rw [Option.some.inj hv, ht]
        simp only [settled, tlp_millis]
        rfl
      · simp at this
    · rw [hs.hidden r hr' he]
      by_contra hc
      exact he (hE.2 fun e => hc e.symm)
  refine ⟨hv, hs.sid.trans h.kind, fun e he => ?_, fun r hr hk => ?_, rfl⟩
  · rw [← h.set e he]
    have hs' : o'.sid = o.sid := hs.sid
    simp only [prop, hs']
    cases hf : (objFields o.sid).find? (fun f => f.key == e.1) with
    | none => rfl
    | some f =>
      have := List.mem_of_find?_eq_some hf
      simp [hv f (h.kind ▸ this)]
  · have hr' : r ∈ objFields .MarkingDefinition := by
      have : o'.sid = .MarkingDefinition := hs.sid.trans h.kind
      rw [← this]; exact hr
    show o'.val r.name = _
    rw [hv r hr', h.unset r (h.kind ▸ hr') hk]

/-! ### The rest of the property -/

theorem perm_seven {α} (a b c d e f g : α) : [a, b, c, d, e, f, g].Perm [g, f, d, a, c, e, b] := by
  have h : [0, 1, 2, 3, 4, 5, 6].Perm [6, 5, 3, 0, 2, 4, 1] := by decide
  exact h.map fun n => [a, b, c, d, e, f, g][n]?.getD a

/-- **C50.** Each can be added to any collection, whatever was added before, and is there then. -/
theorem c50_collection {l : Tlp} {o : Obj} (h : IsTlp l o) (ns : Bool) (hist : List (Any U)) :
    (((Coll.new ns).addAll hist).add (.lib o)).2 = false ∧
      (((Coll.new ns).addAll hist).add (.lib o)).1.get (tlpId l) = some (.lib o) := by
  have hacc : Acceptable (Any.lib o : Any U) := (tlp_sound h).ident
  have e : (((Coll.new ns).addAll hist).add (.lib o)).1 = (Coll.new ns).addAll (hist ++ [.lib o]) := by
    simp [Coll.addAll]
  refine ⟨(c04_accepts _ _).2 hacc, ?_⟩
  rw [e, c01_get_latest]
  exact ⟨hist, [], rfl, hacc, tlp_getID h, by simp⟩

set_option maxRecDepth 20000 in
/-- **C50.** It is marshalled into the JSON it was read from, up to the order of the members. -/
theorem c50_marshal (l : Tlp) : ∃ o ms ms', tlpVar F l = .ok o ∧ marshalObj F o = some (.obj ms) ∧
    tlpDoc l = .obj ms' ∧ ms.Perm ms' := by
  have key : ∃ o, tlpVar F l = .ok o ∧ marshalObj F o = some (.obj
      [(b!"created", plainStr (b!"2017-01-20T00:00:00.000Z")),
       (b!"definition", .obj [(b!"tlp", plainStr (tlpLevel l))]),
       (b!"definition_type", plainStr (b!"tlp")), (b!"id", plainStr (tlpId l)),
       (b!"name", plainStr (tlpName l)), (b!"spec_version", plainStr (b!"2.1")),
       (b!"type", plainStr (b!"marking-definition"))]) := by
    cases l <;> exact ⟨_, rfl, rfl⟩
  obtain ⟨o, h1, h2⟩ := key
  have hd : tlpDoc l = tlpJson (tlpId l) (tlpName l) (tlpLevel l) := by cases l <;> rfl
  exact ⟨o, _, _, h1, h2, hd, perm_seven _ _ _ _ _ _ _⟩

/-- **C50.** It is parsed as what it was. -/
theorem c50_round_trip (L : Canon.FloatLaws F) (hI : IntegersParse F) {l : Tlp} {o : Obj}
    (h : IsTlp l o) (opts : List (CollOption U)) (hp : NoParser opts (b!"marking-definition")) :
    ∃ j, marshalObj F o = some j ∧ ∃ c o', fromJSON F opts (some (.arr [j])) = .ok c ∧ IsTlp l o' ∧
      ∀ id a, c.get id = some a ↔ id = tlpId l ∧ a = .lib o' := by
  have ht : getType o = b!"marking-definition" := by
    have := h.set (b!"type", .str (b!"marking-definition")) (by simp [tlpProps])
    rw [prop_type] at this
    simp [getType, Obj.getStr, Option.some.inj this]
  have hx : extras o = [] := by simp [extras, h.plain]
  obtain ⟨j, h1, c, o', h2, h3, h4, -, h6⟩ :=
    c29_round_trip_partial (U := U) L hI o (tlp_sound h) opts (by rw [ht]; exact hp)
  have h5 := (tlp_survives h h4).2
  have e : { o' with extra := none } = o' := by
    have := h6 (.inr (.inr hx))
    cases o'
    simp only at this
    rw [this]
  rw [e] at h5
  refine ⟨j, h1, c, o', h2, h5, ?_⟩
  rw [← tlp_getID h]
  exact h3

/-- **C50.** In the bundle of a collection of objects that can be sent, it keeps its properties; it
has no extended ones if no object has. -/
theorem c50_bundle (L : Canon.FloatLaws F) (hI : IntegersParse F) {l : Tlp} {o : Obj}
    (h : IsTlp l o) (ns : Bool) (hist : List (Any U))
    (hs : ∀ id a, ((Coll.new ns).addAll hist).get id = some a → ∃ o, a = .lib o ∧ Sound o)
    (hg : ((Coll.new ns).addAll hist).get (tlpId l) = some (.lib o))
    (rnd : List UInt8) (hr : rnd.length = 16) (b : Res GV)
    (hb : toBundle F rnd ((Coll.new ns).addAll hist) b) (opts : List (CollOption U))
    (hn : NoParsers opts) :
    ∃ v doc c o', b = .ok v ∧ enc F tyBundle v = some doc ∧ fromJSON F opts (some doc) = .ok c ∧
      c.get (tlpId l) = some (.lib o') ∧ IsTlp l { o' with extra := none } ∧
      ((∀ id x, ((Coll.new ns).addAll hist).get id = some (.lib x) → extras x = []) → o'.extra = none) := by
  obtain ⟨v, doc, c, os, os', rfl, h1, h2, h3, h4, h5, h6, -⟩ :=
    c36_round_trip_partial L hI ns hist hs rnd hr b hb opts hn
  obtain ⟨as, e, -, hmem⟩ := allObjects_spec ns hist _ h3
  have e' : as = os.map .lib := by
    have : as.map some = (os.map (Any.lib (U := U))).map some := by rw [← e, List.map_map]; rfl
    exact List.map_injective_iff.2 (Option.some_injective _) this
  subst e'
  have ho : o ∈ os := by
    have := ((hmem _ _).1 hg).1
    simpa using this
  have hall : ∀ {earlier os os'}, CarriedAll (CollOption.dropCustom ∈ opts) earlier os os' → o ∈ os →
      ∃ o' ∈ os', ∃ ear, (∀ x ∈ ear, x ∈ earlier ∨ x ∈ os) ∧
        Carried (CollOption.dropCustom ∈ opts) ear o o' := by
    intro earlier os os' hc
    induction hc with
    | nil => simp
    | @cons ear x x' l l' c1 _ ih =>
      intro hm
      rcases List.mem_cons.1 hm with rfl | hm
      · exact ⟨x', by simp, ear, fun y hy => .inl hy, c1⟩
      · obtain ⟨o', h1, ear', h2, h3⟩ := ih hm
        refine ⟨o', by simp [h1], ear', fun y hy => ?_, h3⟩
        rcases h2 y hy with g | g
        · rcases List.mem_cons.1 g with rfl | g
          · simp
          · exact .inl g
        · simp [g]
  obtain ⟨o', ho', ear, hear, hcar⟩ := hall h4 ho
  have hid : getID o' = tlpId l := by
    rw [(identity_survives (tlp_sound h) hcar.survives).2, tlp_getID h]
  refine ⟨v, doc, c, o', rfl, h1, h2, (h6 _ _).2 ⟨o', ho', rfl, hid⟩,
    (tlp_survives h hcar.survives).2, fun hx => ?_⟩
  refine hcar.extra_none (.inr fun x hxm => .inr ?_)
  have hxo : x ∈ os := by
    rcases hxm with rfl | hxm
    · exact ho
    · exact (hear x hxm).resolve_left (by simp)
  exact hx (getID x) x ((hmem _ _).2 ⟨by simpa using hxo, rfl⟩)

/-- C50: a collection with a marking and a malware that meets the hypotheses. -/
example : let hist : List (Any Empty) := [.lib exSample, .lib (tlpLit .red)]
    (∀ id a, ((Coll.new false).addAll hist).get id = some a → ∃ o, a = .lib o ∧ Sound o) ∧
      ((Coll.new false).addAll hist).get (tlpId .red) = some (.lib (tlpLit .red)) ∧
      IsTlp .red (tlpLit .red) := by
  intro hist
  refine ⟨fun id a h => ?_, (c50_collection (tlpLit_is .red) false [.lib exSample]).2, tlpLit_is .red⟩
  rw [c01_get_latest] at h
  have := (latest_acceptable h).2.2
  simp only [hist, List.mem_cons, List.not_mem_nil, or_false] at this
  rcases this with rfl | rfl
  · exact ⟨_, rfl, exSample_sound⟩
  · exact ⟨_, rfl, tlpLit_sound .red⟩

end Stix
