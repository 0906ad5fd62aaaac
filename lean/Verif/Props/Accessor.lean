import Verif.Model.Accessor
import Verif.Spec.Accessor
import Verif.Props.Custom
import Verif.Props.Ctor
import Verif.Props.Stamp

/-!
# The time accessors (C54)
-/

namespace Stix
open Spec StixObject Stix.Canon Stix.Props.Canon

variable {F : Canon.FloatFmt} {U : Type} [UserType U]

/-! ### Parts of documents -/

theorem treeElems_mem {j : Json} : ∀ {es : Spec.Canon.Elems}, Text.ValidElems es →
    j ∈ Text.treeElems es → ∃ s, Text.Valid s ∧ j = Text.tree s
  | .nil, _, hj => by simp [Text.treeElems] at hj
  | .cons w₁ v w₂ r, ⟨_, hv, _, hr⟩, hj => by
    simp only [Text.treeElems, List.mem_cons] at hj
    rcases hj with rfl | hj
    · exact ⟨v, hv, rfl⟩
    · exact treeElems_mem hr hj

theorem treeMembers_mem {k : Str} {j : Json} : ∀ {ms : Spec.Canon.Members}, Text.ValidMembers ms →
    (k, j) ∈ Text.treeMembers ms → ∃ s, Text.Valid s ∧ j = Text.tree s
  | .nil, _, hj => by simp [Text.treeMembers] at hj
  | .cons w₁ b d w₂ w₃ v w₄ r, ⟨_, _, _, _, hv, _, hr⟩, hj => by
    simp only [Text.treeMembers, List.mem_cons, Prod.mk.injEq] at hj
    rcases hj with ⟨-, rfl⟩ | hj
    · exact ⟨v, hv, rfl⟩
    · exact treeMembers_mem hr hj

theorem valid_elem {l : List Json} {j : Json} (h : ∃ s, Text.Valid s ∧ .arr l = Text.tree s)
    (hj : j ∈ l) : ∃ s, Text.Valid s ∧ j = Text.tree s := by
  obtain ⟨s, hs, e⟩ := h
  cases s with
  | arr w es =>
    simp only [Text.tree, Json.arr.injEq] at e
    subst e
    exact treeElems_mem hs.2 hj
  | lit t => rcases hs with rfl | rfl | rfl <;> cases e
  | _ => cases e

theorem valid_member {ms : List (Str × Json)} {k : Str} {j : Json}
    (h : ∃ s, Text.Valid s ∧ .obj ms = Text.tree s) (hj : (k, j) ∈ ms) :
    ∃ s, Text.Valid s ∧ j = Text.tree s := by
  obtain ⟨s, hs, e⟩ := h
  cases s with
  | obj w es =>
    simp only [Text.tree, Json.obj.injEq] at e
    subst e
    exact treeMembers_mem hs.2 hj
  | lit t => rcases hs with rfl | rfl | rfl <;> cases e
  | _ => cases e

/-- The objects of a document that has a text have one. -/
theorem valid_listed {doc : Json} {l : List Json} (hl : Lists doc l) {d : Nat} {text : Str}
    (hd : Text.IsText d text doc) {j : Json} (hj : j ∈ l) : ∃ s, Text.Valid s ∧ j = Text.tree s := by
  obtain ⟨-, -, s, -, -, hs, -, rfl, -⟩ := hd
  rcases hl with e | hb
  · exact valid_elem ⟨s, hs, e.symm⟩ hj
  · obtain ⟨ms, e, hm⟩ := hb.objects
    exact valid_elem (valid_member ⟨s, hs, e.symm⟩ (member_mem hm)) hj

/-! ### Fields -/

/-- `*Timestamp` -/
def Ty.isTimePtr : Ty → Bool
  | .ptr .time => true
  | _ => false

theorem Ty.isTimePtr_eq {t : Ty} (h : t.isTimePtr = true) : t = .ptr .time := by
  unfold Ty.isTimePtr at h
  split at h
  · rfl
  · simp at h

/-- The kinds with a time have it in a field. -/
theorem time_rows (s : SId) :
    (hasCreated s = true →
      ∃ r ∈ objFields s, r.name = b!"Created" ∧ r.key = b!"created" ∧ r.ty = .ptr .time) ∧
    (hasModified s = true →
      ∃ r ∈ objFields s, r.name = b!"Modified" ∧ r.key = b!"modified" ∧ r.ty = .ptr .time) := by
  have h : ∀ s ∈ allSIds,
      (!hasCreated s || (objFields s).any fun r =>
        r.name == b!"Created" && r.key == b!"created" && r.ty.isTimePtr) = true ∧
      (!hasModified s || (objFields s).any fun r =>
        r.name == b!"Modified" && r.key == b!"modified" && r.ty.isTimePtr) = true := by
    decide +kernel
  obtain ⟨h1, h2⟩ := h s (mem_allSIds s)
  constructor
  · intro hc
    simp only [hc, Bool.not_true, Bool.false_or, List.any_eq_true, Bool.and_eq_true, beq_iff_eq] at h1
    obtain ⟨r, hr, ⟨e1, e2⟩, e3⟩ := h1
    exact ⟨r, hr, e1, e2, Ty.isTimePtr_eq e3⟩
  · intro hc
    simp only [hc, Bool.not_true, Bool.false_or, List.any_eq_true, Bool.and_eq_true, beq_iff_eq] at h2
    obtain ⟨r, hr, ⟨e1, e2⟩, e3⟩ := h2
    exact ⟨r, hr, e1, e2, Ty.isTimePtr_eq e3⟩

/-- The accessors, by whether the kind has the property. -/
theorem accessors_eq (o : Obj) :
    o.getCreated = (if hasCreated o.sid then
      (if o.sid = .ExtensionDefinition then o.timeUnchecked (b!"Created")
        else .ok (o.getTime (b!"Created"))) else .ok none) ∧
    o.getModified = (if hasModified o.sid then
      (if o.sid = .ExtensionDefinition then o.timeUnchecked (b!"Modified")
        else .ok (o.getTime (b!"Modified"))) else .ok none) := by
  simp only [Obj.getCreated, Obj.getModified]
  cases o.sid <;> exact ⟨rfl, rfl⟩

theorem timeUnchecked_eq (o : Obj) (n : Str) : o.timeUnchecked n =
    if o.getTime n = none then .panic else .ok (o.getTime n) := by
  unfold Obj.timeUnchecked Obj.getTime
  split
  · next h => simp [h]
  · next h =>
    split
    · next h' => exact absurd h' (h _)
    · rfl

theorem dec_timePtr {cur v : GV} {w : Json} (hw : w ≠ .null)
    (h : dec F (.ptr .time) cur w = .ok v false) :
    ∃ t, timestampUnmarshal w = .ok t ∧ v = .ptr (some (.time t)) := by
  have e : ∃ old, dec F (.ptr .time) cur w =
      (dec F .time old w).bind fun v => .ok (.ptr (some v)) false := by
    cases w <;> first | exact absurd rfl hw | exact ⟨.str [], by simp only [dec]⟩
  obtain ⟨old, e⟩ := e
  rw [e] at h
  simp only [D.bind_ok_iff, dec, D.ok.injEq, and_true] at h
  obtain ⟨v', ⟨t, h1, rfl⟩, rfl⟩ := h
  refine ⟨t, ?_, rfl⟩
  cases ht : timestampUnmarshal w with
  | ok t' => rw [ht] at h1; simpa [D.ofRes] using h1
  | err e => rw [ht] at h1; simp [D.ofRes] at h1
  | panic => rw [ht] at h1; simp [D.ofRes] at h1

/-- What a field for a time is decoded to. -/
theorem decObj_time {s : SId} {o : Obj} {ms : List (Str × Json)}
    (h : decObj F (zeroObj s) (.obj ms) = .ok o false) {r : FieldInfo} (hr : r ∈ objFields s)
    (hrt : r.ty = .ptr .time) (hd : (amKeys ms).Nodup) (hv : NoVariant (.obj ms) r.key)
    (hw : ∃ s, Text.Valid s ∧ .obj ms = Text.tree s) :
    SaysTime r.key ms (o.getTime r.name) := by
  simp only [decObj, D.bind_ok_iff, D.ok.injEq, and_true] at h
  obtain ⟨g, h2, rfl⟩ := h
  obtain ⟨i1, i2⟩ := decStruct_inv (objFields_names_nodup _) (objFields_keys_nodup _) hr ms _ _
    hd (hv ms rfl) h2
  cases hm : member r.key ms with
  | none =>
    have hz : (zeroObj s).val r.name = zero r.ty := zeroVal_row (objFields_names_nodup _) hr
    have := i2 ((member_none_iff _ _).1 hm)
    rw [hz, hrt] at this
    have e : Obj.getTime ({ zeroObj s with val := g }) r.name = none := by
      simp only [Obj.getTime, this, zero]
    rw [e]
    exact .absent hm
  | some w =>
    have hw' := i1 w (member_mem hm)
    rw [decField_row (by rw [mkFields_toList]; exact objFields_names_nodup _)
      (by rw [mkFields_toList]; exact hr), hrt] at hw'
    obtain ⟨sy, hsy, e⟩ := valid_member hw (member_mem hm)
    by_cases hnull : w = .null
    · subst hnull
      simp only [dec, D.ok.injEq, and_true] at hw'
      have e : Obj.getTime ({ zeroObj s with val := g }) r.name = none := by
        simp only [Obj.getTime, ← hw']
      rw [e]
      exact .null hm
    · obtain ⟨t, ht, hg⟩ := dec_timePtr hnull hw'
      have hit : Text.IsText (Text.depth sy) sy.text w :=
        ⟨[], [], sy, by simp [Spec.Canon.White], by simp [Spec.Canon.White], hsy, le_refl _, e, by simp⟩
      obtain ⟨raw, dec, rfl⟩ := c55_only_strings _ _ _ hit t ht
      obtain ⟨x, hx, hz, hlo, rfl⟩ := ((c55_exact raw dec).1 t).1 ht
      have e : Obj.getTime ({ zeroObj s with val := g }) r.name =
          some { ns := x.nanos, off := x.zone.seconds } := by
        simp only [Obj.getTime, hg]
      rw [e]
      exact .stamp hm hx hz hlo

/-! ## C54 -/

/-- **C54 (what holds).** `GetCreated` and `GetModified` of an object the parser has made of a document
return the time that the object in the document says, and nil if it says none or its kind has no such
property; except that they panic, instead of returning nil, for an extension definition. -/
theorem c54_document_partial (opts : List (CollOption U)) (hn : NoParsers opts) (doc : Json)
    (l : List Json) (hl : Lists doc l) (d : Nat) (text : Str) (ht : Text.IsText d text doc)
    (hd : ∀ ms, .obj ms ∈ l → (amKeys ms).Nodup)
    (hv : ∀ j ∈ l, NoVariant j (b!"created") ∧ NoVariant j (b!"modified") ∧ NoVariant j (b!"id"))
    (c : Coll (Any U)) (h : fromJSON F opts (some doc) = .ok c) (id : Str) (o : Obj)
    (ho : c.get id = some (.lib o)) :
    ∃ ms, .obj ms ∈ l ∧ Text (.obj ms) (b!"id") id ∧
      (hasCreated o.sid = false → o.getCreated = .ok none) ∧
      (hasModified o.sid = false → o.getModified = .ok none) ∧
      (hasCreated o.sid = true → ∃ t, SaysTime (b!"created") ms t ∧
        o.getCreated = if o.sid = .ExtensionDefinition ∧ t = none then .panic else .ok t) ∧
      (hasModified o.sid = true → ∃ t, SaysTime (b!"modified") ms t ∧
        o.getModified = if o.sid = .ExtensionDefinition ∧ t = none then .panic else .ok t) := by
  rw [fromJSON_lists opts hl] at h
  obtain ⟨hac, hid, j, hj, p1, p2, hp⟩ := processObjects_mem h ho
  obtain ⟨ms, typ, rfl, -, hk⟩ := parseOne_builtin hp
  replace hd := hd ms hj
  obtain ⟨hvc, hvm, hvi⟩ := hv _ hj
  refine ⟨ms, hj, ?_⟩
  have hw := valid_listed hl ht hj
  rcases hk (handlers_none hn typ) with ⟨s, o', h1, h2, h3, -⟩ | ⟨-, -, hc⟩
  · simp only [core, Any.lib.injEq] at h3
    have hval : o.val = o'.val := by rw [← h3]
    have hsid : o.sid = s := by
      have := (decObj_ok h2).1
      rw [← h3] at this
      exact this
    have hgt : ∀ n, o.getTime n = o'.getTime n := fun n => by simp only [Obj.getTime, hval]
    have key : ∀ n t, o.getTime n = t → (if o.sid = .ExtensionDefinition then o.timeUnchecked n
        else .ok (o.getTime n)) = if o.sid = .ExtensionDefinition ∧ t = none then .panic else .ok t := by
      rintro n t rfl
      rw [timeUnchecked_eq]
      by_cases h4 : o.sid = .ExtensionDefinition <;> by_cases h5 : o.getTime n = none <;> simp [h4, h5]
    obtain ⟨a1, a2⟩ := accessors_eq o
    obtain ⟨r1, r2⟩ := time_rows s
    refine ⟨?_, fun e => ?_, fun e => ?_, fun e => ?_, fun e => ?_⟩
    · have hgi : StixObject.getID o' = id := by
        rw [← hid]
        show Obj.getStr o' _ = Obj.getStr o _
        simp only [Obj.getStr, hval]
      rw [← hgi]
      refine decObj_named h2 hd hvi fun e => ?_
      rw [hgi] at e
      simp only [Acceptable, hid, e] at hac
      exact identifies_ne_nil hac rfl
    · rw [a1, e]; rfl
    · rw [a2, e]; rfl
    · obtain ⟨r, hr, hrn, hrk, hrt⟩ := r1 (hsid ▸ e)
      have := decObj_time h2 hr hrt hd (by rw [hrk]; exact hvc) hw
      rw [hrn, hrk, ← hgt] at this
      exact ⟨_, this, by rw [a1, e, if_pos rfl]; exact key _ _ rfl⟩
    · obtain ⟨r, hr, hrn, hrk, hrt⟩ := r2 (hsid ▸ e)
      have := decObj_time h2 hr hrt hd (by rw [hrk]; exact hvm) hw
      rw [hrn, hrk, ← hgt] at this
      exact ⟨_, this, by rw [a2, e, if_pos rfl]; exact key _ _ rfl⟩
  · simp at hc

theorem dynOf_not_text {v : Json} (hv : ∀ s, ¬ IsText v s) (s : Str) : dynOf F v ≠ .str s := by
  cases v with
  | null => simp [dynOf, decDyn]
  | bool b => simp [dynOf, decDyn]
  | num lit => simp only [dynOf, decDyn]; cases F.parse lit <;> simp
  | str raw dec => exact absurd ⟨raw, rfl⟩ (hv dec)
  | arr l =>
    obtain ⟨d, b, h⟩ := decDynArr_total (F := F) l
    simp [dynOf, decDyn, h, D.bind]
  | obj ms =>
    obtain ⟨d, b, h⟩ := decDynObj_total (F := F) ms []
    simp [dynOf, decDyn, h, D.bind]

/-- **C54 (what holds).** The accessors of a custom object the parser has made return nil if there is
no such member in the document or its text is no timestamp, and the time that it denotes if it is one;
they panic exactly if the member is not a string. -/
theorem c54_custom_partial (opts : List (CollOption U)) (hn : NoParsers opts) (doc : Json)
    (l : List Json) (hl : Lists doc l) (c : Coll (Any U)) (h : fromJSON F opts (some doc) = .ok c)
    (id : Str) (m : Custom) (ho : c.get id = some (.custom m)) :
    ∃ ms, .obj ms ∈ l ∧ Text (.obj ms) (b!"id") id ∧ ∀ key,
      (member key ms = none → m.getTime key = .ok none) ∧
      (∀ raw dec, member key ms = some (.str raw dec) →
        (∀ x : Stamp, x.Valid → x.zone.Within 24 60 → x.Loose dec →
          m.getTime key = .ok (some { ns := x.nanos, off := x.zone.seconds })) ∧
        ((¬ ∃ x : Stamp, x.Valid ∧ x.zone.Within 24 60 ∧ x.Loose dec) → m.getTime key = .ok none)) ∧
      (∀ v, member key ms = some v → (∀ s, ¬ IsText v s) → m.getTime key = .panic) := by
  rw [fromJSON_lists opts hl] at h
  obtain ⟨hac, hid, j, hj, p1, p2, hp⟩ := processObjects_mem h ho
  obtain ⟨ms, typ, rfl, -, hk⟩ := parseOne_builtin hp
  rcases hk (handlers_none hn typ) with ⟨s, o', h1, h2, h3, -⟩ | ⟨-, -, hc⟩
  · simp [core] at h3
  · simp only [Any.custom.injEq] at hc
    subst hc
    refine ⟨ms, hj, ?_, fun key => ?_⟩
    · have hne : id ≠ [] := by
        rintro rfl
        simp only [Acceptable, hid] at hac
        exact identifies_ne_nil hac rfl
      have hl := amLookup_dynMerge (F := F) (b!"id") [] ms
      simp only [StixObject.getID, customText, Option.getD_some, hl] at hid
      cases hm : member (b!"id") ms with
      | none => rw [hm] at hid; simp [amLookup] at hid; exact absurd hid hne
      | some v =>
        rw [hm] at hid
        simp only at hid
        by_cases hv : ∃ s, IsText v s
        · obtain ⟨s, raw, rfl⟩ := hv
          simp only [dynOf, decDyn] at hid
          subst hid
          exact ⟨_, ⟨ms, rfl, hm⟩, raw, rfl⟩
        · have := dynOf_not_text (F := F) (fun s h => hv ⟨s, h⟩)
          cases hx : dynOf F v with
          | str s => exact absurd hx (this s)
          | _ => rw [hx] at hid; exact absurd hid.symm hne
    have hl := amLookup_dynMerge (F := F) key [] ms
    simp only [Custom.getTime, Option.getD_some, hl]
    refine ⟨fun hm => ?_, fun raw dec hm => ?_, fun v hm hv => ?_⟩
    · simp [hm, amLookup]
    · simp only [hm]
      have e : dynOf F (.str raw dec) = .str dec := by simp [dynOf, decDyn]
      simp only [e, Res.ok.injEq]
      refine ⟨fun x h1 h2 h3 => (goParse_iff _ _).2 ⟨x, h1, h2, h3, rfl⟩, fun h => ?_⟩
      cases hg : goParse dec with
      | none => rfl
      | some t =>
        obtain ⟨x, h1, h2, h3, -⟩ := (goParse_iff _ _).1 hg
        exact absurd ⟨x, h1, h2, h3⟩ h
    · simp only [hm]
      have := dynOf_not_text (F := F) hv
      cases hx : dynOf F v with
      | str s => exact absurd hx (this s)
      | _ => rfl

/-- **C54.** On an object from a constructor, with no option for the time, the accessors return the time
of the call, if its kind has such a property. -/
theorem c54_constructed (env : Env) (he : Sane env) (c : Ctor) (opts : List (Option Opt))
    (hl : AllLibrary opts) (o : Obj) (h : c.run env opts = .ret (some o) none) :
    (Untouched (promise c).kind opts (b!"created") →
      o.getCreated = .ok (if hasCreated (promise c).kind then some env.now else none)) ∧
    (Untouched (promise c).kind opts (b!"modified") →
      o.getModified = .ok (if hasModified (promise c).kind then some env.now else none)) := by
  obtain ⟨o', e, hs, -, -, -, -, -, hdef⟩ := c37_wellformed env he c opts hl _ h
  simp only [Option.some.injEq] at e
  subst e
  obtain ⟨a1, a2⟩ := accessors_eq o
  obtain ⟨r1, r2⟩ := time_rows o.sid
  rw [← hs] at hdef ⊢
  have key : ∀ n k, (∃ r ∈ objFields o.sid, r.name = n ∧ r.key = k ∧ r.ty = .ptr .time) →
      prop o k = some (.ptr (some (.time env.now))) → o.getTime n = some env.now := by
    rintro n k ⟨r, hr, rfl, rfl, -⟩ hp
    rw [prop_field hr] at hp
    simp only [Obj.getTime, Option.some.inj hp]
  constructor
  · intro hu
    rw [a1]
    cases hc : hasCreated o.sid with
    | false => rfl
    | true =>
      have hr := r1 hc
      have := key _ _ hr (hdef (b!"created", _) (by simp [defaults]) ?_ hu)
      · simp only [if_true, timeUnchecked_eq, this]
        simp
      · obtain ⟨r, hr, -, hk, -⟩ := hr
        exact List.mem_map.2 ⟨r, hr, hk⟩
  · intro hu
    rw [a2]
    cases hc : hasModified o.sid with
    | false => rfl
    | true =>
      have hr := r2 hc
      have := key _ _ hr (hdef (b!"modified", _) (by simp [defaults]) ?_ hu)
      · simp only [if_true, timeUnchecked_eq, this]
        simp
      · obtain ⟨r, hr, -, hk, -⟩ := hr
        exact List.mem_map.2 ⟨r, hr, hk⟩

/-- An extension definition without times, and an object of a custom type whose `created` is a
number. -/
def exTimeless : List (Str × Json) :=
  [(b!"type", exText (b!"extension-definition")), (b!"id", exText (exId (b!"extension-definition")))]

def exCounted : List (Str × Json) :=
  [(b!"type", exText (b!"x-thing")), (b!"id", exText (exId (b!"x-thing"))), (b!"created", .num (b!"5"))]

/-- **C54 is false of the code**: the parser makes objects of which `GetCreated` panics. -/
theorem c54_panics :
    (∃ (c : Coll (Any Empty)) (o : Obj),
      fromJSON toy ([] : List (CollOption Empty)) (some (.arr [.obj exTimeless])) = .ok c ∧
      c.get (exId (b!"extension-definition")) = some (.lib o) ∧
      o.getCreated = .panic ∧ o.getModified = .panic) ∧
    (∃ (c : Coll (Any Empty)) (m : Custom),
      fromJSON toy ([] : List (CollOption Empty)) (some (.arr [.obj exCounted])) = .ok c ∧
      c.get (exId (b!"x-thing")) = some (.custom m) ∧ m.getTime (b!"created") = .panic) :=
  ⟨⟨_, _, rfl, rfl, rfl, rfl⟩, ⟨_, _, rfl, rfl, rfl⟩⟩

/-- C54: a tool with a time in a zone. -/
def exTimed : List (Str × Json) :=
  [(b!"type", exText (b!"tool")), (b!"id", exText (exId (b!"tool"))),
   (b!"created", exText exStamp.text)]

example : (amKeys exTimed).Nodup ∧ NoVariant (.obj exTimed) (b!"created") ∧
    NoVariant (.obj exTimed) (b!"modified") ∧ NoVariant (.obj exTimed) (b!"id") ∧
    SaysTime (b!"created") exTimed (some { ns := exStamp.nanos, off := 9000 }) ∧
    (fromJSON toy ([] : List (CollOption Empty)) (some (.arr [.obj exTimed]))).okWith (fun c =>
      match c.get (exId (b!"tool")) with
      | some (.lib o) => o.getCreated == .ok (some { ns := exStamp.nanos, off := 9000 }) &&
        o.getModified == .ok none
      | _ => false) = true := by
  refine ⟨by decide +kernel, noVariant_of (by decide +kernel), noVariant_of (by decide +kernel),
    noVariant_of (by decide +kernel), ?_, by decide +kernel⟩
  exact .stamp (raw := exStamp.text) (dec := exStamp.text) rfl exStamp_valid
    ⟨by decide, by decide⟩ ⟨_, _, .inl rfl, .inl rfl, rfl⟩

/-- C54: it has a text. -/
example : ∃ text, Text.IsText 2 text (.arr [.obj exTimed]) := by
  have plain : ∀ s : Str, (∀ c ∈ s, 32 ≤ c ∧ c < 128 ∧ c ≠ 34 ∧ c ≠ 92) → Text.Reads s s :=
    fun s h => Stix.Text.reads_plain h
  refine ⟨_, Stix.Text.isText_raw (j := .arr [.obj exTimed]) ⟨⟨?_, plain _ ?_, ?_, plain _ ?_, ?_,
    plain _ ?_, trivial⟩, trivial⟩ (by decide)⟩
  all_goals decide +kernel

end Stix
