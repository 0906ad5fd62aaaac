import Verif.Lemmas.Held
import Verif.Lemmas.StrconvText
import Verif.Lemmas.Es6Read
import Verif.Props.Custom

/-!
# Objects that are read have values of their types
-/

namespace Stix
open Stix.Spec StixObject

variable {F : Canon.FloatFmt} {U : Type} [UserType U]

/-- The properties of the object, and its extended ones, are as asked for; an extension definition has none
of the latter. -/
def KeptObj (P : Leaves) (o : Obj) : Prop :=
  (∀ r ∈ objFields o.sid, Val P r.ty (o.val r.name)) ∧ DynMembers P (extras o) ∧
    (o.sid = .ExtensionDefinition → extras o = [])

/-- Those of any object of the library or of another type. -/
def Kept (P : Leaves) : Any U → Prop
  | .lib o => KeptObj P o
  | .custom m => DynMembers P (m.getD [])
  | .user _ _ => False

theorem dynMembers_nil {P : Leaves} : DynMembers P [] := ⟨sortedKeys_nil, by simp⟩

theorem dynMembers_delete {P : Leaves} {ks : List Str} {m : List (Str × Dyn)} (h : DynMembers P m) :
    DynMembers P (deleteKeys ks m) :=
  ⟨h.1.sublist List.filter_sublist, fun e he => h.2 e (List.mem_of_mem_filter he)⟩

/-- No list of extension types is given as text. -/
def ByteFree (j : Json) : Prop :=
  ∀ ms, j = .obj ms → ∀ e ∈ ms, foldName e.1 = foldName (b!"extension_types") → ∀ raw s, e.2 ≠ .str raw s

/-- A list of names of an enumeration that is not given as text. -/
theorem held_names {q : Bool} {P : Leaves} {T : Json → Prop} (h : ReadOk F q P T) {n : EnumId} {cur v : GV} {j : Json}
    (hx : ∀ raw s, j ≠ .str raw s) (ht : T j) (hc : Val P (.slice (.enum n)) cur)
    (hd : dec F (.slice (.enum n)) cur j = .ok v false) : Val P (.slice (.enum n)) v := by
  cases j with
  | null => cases hd; exact .inl rfl
  | arr l =>
    simp only [dec, D.bind_ok_iff] at hd
    obtain ⟨vs, h1, h2⟩ := hd
    cases h2
    refine .inr ⟨vs, rfl, held_elems (held_zero h (.enum n) rfl) (held h (.enum n) rfl rfl) l _ vs (h.elem ht) ?_ h1⟩
    rcases hc with rfl | ⟨l', rfl, hc⟩
    · simp
    · exact hc
  | str raw s => exact absurd rfl (hx raw s)
  | _ => simp [dec, decSliceOther] at hd

theorem types_sid {s : SId} {r : FieldInfo} (hr : r ∈ objFields s) (hk : r.key = b!"extension_types") : s = .ExtensionDefinition := by
  have : ∀ s ∈ allSIds, ∀ r ∈ objFields s, r.key = b!"extension_types" → s = .ExtensionDefinition := by decide +kernel
  exact this s (mem_allSIds s) r hr hk

theorem kept_decObj {q : Bool} {P : Leaves} {T : Json → Prop} (h : ReadOk F q P T) {o o' : Obj} {j : Json} (ht : T j)
    (hx : q = true → o'.sid = .ExtensionDefinition → ByteFree j) (ho : KeptObj P o) (hd : decObj F o j = .ok o' false) : KeptObj P o' := by
  cases j with
  | null => cases hd; exact ho
  | obj ms =>
    rw [decObj, D.bind_ok_iff] at hd
    obtain ⟨f, h1, h2⟩ := hd
    cases h2
    refine ⟨fun r hr => ?_, ho.2⟩
    have h1 : decStruct (mkFields (objFields o.sid)).toList (decField F (mkFields (objFields o.sid))) o.val ms = .ok f false := by
      rw [mkFields_toList]; exact h1
    have hb := objFields_bytewise _ hr
    have hr0 := hr
    have hcur := ho.1 r hr
    have hn : ((mkFields (objFields o.sid)).toList.map FieldInfo.name).Nodup := by
      rw [mkFields_toList]; exact objFields_names_nodup _
    rw [← mkFields_toList (objFields o.sid)] at hr
    have easy : r.ty.bytewise q = true → Val P r.ty (f r.name) := fun hq =>
      held_decStruct (T := T) hn hr (held h r.ty hb.1 hq) ms _ f (fun e he _ => (h.member ht e he).2) hcur h1
    cases q with
    | false => exact easy hb.2.1
    | true =>
      rcases hb.2.2 with hq | ⟨hk, hq⟩
      · exact easy hq
      · obtain ⟨n, e⟩ := listOfBytes_enum hq
        refine held_decStruct (T := fun j => T j ∧ ∀ raw s, j ≠ .str raw s) hn hr (fun cur j v ht hc hd => ?_) ms _ f
          (fun x hm hk' => ⟨(h.member ht x hm).2, hx rfl (types_sid hr0 hk) ms rfl x hm (by rw [matchKey_fold hk', hk])⟩) hcur h1
        rw [e] at hc hd ⊢
        exact held_names h ht.2 ht.1 hc hd
  | _ => cases hd

theorem kept_zero {q : Bool} {P : Leaves} {T : Json → Prop} (h : ReadOk F q P T) (s : SId) : KeptObj P (zeroObj s) := by
  refine ⟨fun r hr => ?_, dynMembers_nil, fun _ => rfl⟩
  have : (zeroObj s).val r.name = zero r.ty := zeroVal_row (objFields_names_nodup s) hr
  rw [this]
  exact held_zero h r.ty (objFields_bytewise s hr).1

theorem kept_parseOne {q : Bool} {P : Leaves} {T : Json → Prop} (h : ReadOk F q P T) {cfg : Config U}
    (hn : ∀ t, cfg.handlers t = none) {p p' : Peak} {j : Json} {a : Option (Any U)} (ht : T j)
    (hb : q = true → ∀ o, a = some (.lib o) → o.sid = .ExtensionDefinition → ByteFree j)
    (hp : DynMembers P (p.getD [])) (hr : parseOne F cfg p j = .ok (p', a)) :
    DynMembers P (p'.getD []) ∧ ∀ x, a = some x → Kept P x := by
  rw [parseOne, Res.bind_ok_iff] at hr
  obtain ⟨p1, h1, h2⟩ := hr
  have hp1 := held_custom h ht hp (D.res_ok_iff.1 h1)
  split at h2
  · cases h2; exact ⟨hp1, by simp⟩
  · next typ _ =>
    rw [Res.bind_ok_iff] at h2
    obtain ⟨o, h3, h4⟩ := h2
    have hnew : ∀ a, o = some a → ∃ x, a = some x ∧ Kept P x := by
      rw [newObject, hn] at h3
      simp only at h3
      rintro a rfl
      split at h3
      · cases h3; exact ⟨_, rfl, kept_zero h _⟩
      · split at h3
        · cases h3
        · cases h3; exact ⟨_, rfl, dynMembers_nil⟩
    cases o with
    | none => cases h4; exact ⟨hp1, by simp⟩
    | some a0 =>
      simp only [Res.bind_ok_iff] at h4
      obtain ⟨a1, h5, h6⟩ := h4
      obtain ⟨x, rfl, hx⟩ := hnew a0 rfl
      have hsid : ∀ o, a1 = some (.lib o) → ∃ o', a = some (.lib o') ∧ o'.sid = o.sid := by
        rintro o rfl
        by_cases hdr : cfg.dropCustom = true
        · simp only [hdr, if_true] at h6
          cases h6
          exact ⟨o, rfl, rfl⟩
        · simp only [hdr, extend] at h6
          cases h6
          refine ⟨_, rfl, ?_⟩
          split <;> rfl
      have hd : ∃ y, a1 = some y ∧ Kept P y := by
        have h5 := D.res_ok_iff.1 h5
        cases x with
        | lib o =>
          rw [decAny, D.bind_ok_iff] at h5
          obtain ⟨o', g1, g2⟩ := h5
          cases g2
          refine ⟨_, rfl, kept_decObj h ht (fun e hs => ?_) hx g1⟩
          obtain ⟨o2, e1, e2⟩ := hsid _ rfl
          exact hb e o2 e1 (e2.trans hs)
        | custom m =>
          rw [decAny, D.bind_ok_iff] at h5
          obtain ⟨m', g1, g2⟩ := h5
          cases g2
          exact ⟨_, rfl, held_custom h ht hx g1⟩
        | user u x => exact absurd hx id
      obtain ⟨y, rfl, hy⟩ := hd
      by_cases hdr : cfg.dropCustom = true
      · simp only [hdr, if_true] at h6
        cases h6
        exact ⟨hp1, fun z hz => by cases hz; exact hy⟩
      · simp only [hdr] at h6
        cases y with
        | lib o =>
          simp only [extend] at h6
          cases h6
          refine ⟨?_, fun z hz => ?_⟩
          · cases p1 with
            | none => exact dynMembers_nil
            | some m => exact dynMembers_delete hp1
          · cases hz
            show KeptObj P _
            split
            · next hc => exact ⟨hy.1, dynMembers_delete hp1, fun e => absurd hc.2 (by simp only at e; rw [e]; decide)⟩
            · exact hy
        | custom m =>
          cases h6
          exact ⟨hp1, fun z hz => by cases hz; exact hy⟩
        | user u x => exact absurd hy id
  · cases h2

theorem kept_steps {q : Bool} {P : Leaves} {T : Json → Prop} (h : ReadOk F q P T) {cfg : Config U}
    (hn : ∀ t, cfg.handlers t = none) {p p' : Peak} {l : List Json} {as : List (Option (Any U))}
    (hs : Steps F cfg p l as p') (ht : ∀ j ∈ l, T j)
    (hb : q = true → ∀ (i : Nat) j o, l[i]? = some j → as[i]? = some (some (.lib o)) → o.sid = .ExtensionDefinition → ByteFree j)
    (hp : DynMembers P (p.getD [])) :
    ∀ x, some x ∈ as → Kept P x := by
  induction hs with
  | nil => simp
  | cons h1 _ _ ih =>
    obtain ⟨g1, g2⟩ := kept_parseOne h hn (ht _ (by simp)) (fun e o ho => hb e 0 _ o (by simp) (by simp [ho])) hp h1
    intro x hx
    rcases List.mem_cons.1 hx with rfl | hx
    · exact g2 x rfl
    · exact ih (fun j hj => ht j (by simp [hj])) (fun e i j o hj ho => hb e (i + 1) j o (by simpa using hj) (by simpa using ho)) g1 x hx

/-- Every object in a collection that was read. -/
theorem kept_get {P : Leaves} {T : Json → Prop} (h : ReadOk F false P T) {cfg : Config U}
    (hn : ∀ t, cfg.handlers t = none) {l : List Json} (ht : ∀ j ∈ l, T j) {ns : Bool} {c : Coll (Any U)}
    (hc : processObjects F cfg none (Coll.new ns) l = .ok c) {id : Str} {a : Any U} (ha : c.get id = some a) : Kept P a := by
  obtain ⟨as, p', h1, rfl⟩ := processObjects_ok.1 hc
  have hl := (c01_get_latest ns _ id a).1 ha
  obtain ⟨-, -, h4⟩ := latest_acceptable hl
  exact kept_steps h hn h1 ht (fun e => by cases e) dynMembers_nil a (by simpa using h4)

theorem f64Finite_of_lt {k : Nat} (h : k < 0x7ff0000000000000) :
    F64Finite (UInt64.ofNat k) ∧ F64Finite (UInt64.ofNat k ||| 0x8000000000000000) := by
  have h1 : F64Finite (UInt64.ofNat k) := by
    unfold F64Finite f64Exp
    rw [UInt64.toNat_ofNat_of_lt' (by simp [UInt64.size]; omega)]
    omega
  have e : ∀ x : UInt64, (x ||| 0x8000000000000000) &&& 0x7ff0000000000000 = x &&& 0x7ff0000000000000 := fun x => by
    apply UInt64.eq_of_toBitVec_eq
    simp only [UInt64.toBitVec_and, UInt64.toBitVec_or]
    rw [BitVec.and_or_distrib_right]
    simp
  refine ⟨h1, ?_⟩
  by_contra h
  rw [← Strconv.nonfinite_iff, e, Strconv.nonfinite_iff] at h
  exact h h1

/-- Numbers of JSON are finite. -/
theorem strconv_finite {t : Str} {x : UInt64} (h : Text.Number t) (hx : strconv.parse t = some x) : F64Finite x := by
  have hs : Strconv.special t = none := by
    obtain ⟨sgn, i, f, e, rfl, hsgn, hi, -, -⟩ := h
    obtain ⟨c, r, rfl, hc⟩ : ∃ c r, i = c :: r ∧ 48 ≤ c ∧ c ≤ 57 := by
      rcases hi with rfl | ⟨⟨hne, hd⟩, -⟩
      · exact ⟨48, [], rfl, by decide⟩
      · cases i with
        | nil => exact absurd rfl hne
        | cons c r => exact ⟨c, r, rfl, hd c (by simp)⟩
    rcases hsgn with rfl | rfl
    · exact Strconv.special_digit hc
    · exact Strconv.special_minus hc
  change Strconv.parse t = some x at hx
  rw [Strconv.parse, hs] at hx
  simp only at hx
  split at hx
  · cases hx
  · split at hx
    · next hk =>
      cases hx
      split
      · exact (f64Finite_of_lt hk).2
      · exact (f64Finite_of_lt hk).1
    · cases hx

theorem written_num {t : Str} (h : Written (.num t)) : Text.Number t := by
  obtain ⟨s, h1, h2⟩ := h
  cases s with
  | num t' => rw [Text.tree] at h2; cases h2; exact h1
  | lit t' => rw [Text.tree] at h2; split at h2 <;> [cases h2; (split at h2 <;> cases h2)]
  | _ => rw [Text.tree] at h2; cases h2

/-- The reader gives finite numbers. -/
def ReadsFinite (F : Canon.FloatFmt) : Prop := ∀ t x, Text.Number t → F.parse t = some x → F64Finite x

theorem readOk_typed (hF : ReadsFinite F) : ReadOk F false typed Written where
  zero := ⟨trivial, trivial, by show F64Finite 0; unfold F64Finite; decide, fun _ => trivial⟩
  zeroTime := trivial
  str _ := trivial
  elem h := h.arr
  member h e he := ⟨trivial, h.obj e he⟩
  int _ := trivial
  flt h hx := hF _ _ (written_num h) hx
  enum _ _ := trivial
  bytes _ _ := trivial
  time _ _ := trivial

end Stix
