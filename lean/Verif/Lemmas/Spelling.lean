import Verif.Spec.Spelling
import Verif.Lemmas.Stamp
import Verif.Lemmas.TextPrint
import Verif.Lemmas.TextEnc
import Verif.Props.NoPanic
import Verif.Props.Stamp

/-!
# Decoding does not look at the spelling of strings, but for some
-/

namespace Stix
open Spec

variable {F : Canon.FloatFmt} {U : Type} [UserType U]

theorem unspelledArr_eq (l : List Json) : unspelledArr l = l.map unspelled := by
  induction l with
  | nil => rfl
  | cons j l ih => simp [unspelledArr, ih]

theorem unspelledObj_eq (m : List (Str × Json)) :
    unspelledObj m = m.map fun e => (e.1, unspelled e.2) := by
  induction m with
  | nil => rfl
  | cons e m ih => simp [unspelledObj, ih]

theorem allStringsArr_iff (P : Str → Str → Prop) (l : List Json) :
    AllStringsArr P l ↔ ∀ j ∈ l, AllStrings P j := by
  induction l with
  | nil => simp [AllStringsArr]
  | cons j l ih => simp [AllStringsArr, ih]

theorem allStringsObj_iff (P : Str → Str → Prop) (m : List (Str × Json)) :
    AllStringsObj P m ↔ ∀ e ∈ m, AllStrings P e.2 := by
  induction m with
  | nil => simp [AllStringsObj]
  | cons e m ih => simp [AllStringsObj, ih]

/-! ### Names and timestamps -/

/-- The bytes of names and timestamps are printable ASCII without quotes and backslashes. -/
theorem special_plain {s : Str} (h : Special s) : Text.Plain s := by
  rcases h with ⟨e, n, h⟩ | ⟨x, hx, hz, hl⟩
  · have : ∀ e : EnumId, ∀ p ∈ vocabulary e, ∀ c ∈ p.2, 32 ≤ c ∧ c < 128 ∧ c ≠ 34 ∧ c ≠ 92 := by
      intro e
      cases e <;> decide +kernel
    exact this e _ h
  · obtain ⟨hour, mark, hh, hm, rfl⟩ := hl
    obtain ⟨h1, ⟨h2, h2'⟩, ⟨h3, h3'⟩, h4, h5, h6, h7⟩ := hx
    have hdm : daysInMonth x.year x.month ≤ 31 := by
      unfold daysInMonth; split <;> (try split) <;> omega
    have dig : ∀ n, n ≤ 9 → 32 ≤ digit n ∧ digit n < 128 ∧ digit n ≠ 34 ∧ digit n ≠ 92 := by
      intro n hn
      interval_cases n <;> decide
    have t : ∀ n, n ≤ 99 → Text.Plain (two n) := by
      intro n hn c hc
      simp only [two, List.mem_cons, List.not_mem_nil, or_false] at hc
      rcases hc with rfl | rfl
      · exact dig _ (by omega)
      · exact dig _ (by omega)
    have lit : ∀ c : UInt8, c ∈ [45, 84, 58, 90, 43] → Text.Plain [c] := by
      intro c hc x hx
      simp only [List.mem_singleton] at hx
      subst hx
      revert hc
      revert x
      decide
    unfold Stamp.textWith
    have pz : Text.Plain x.zone.text := by
      cases hzz : x.zone with
      | utc => exact lit _ (by decide)
      | ahead a b =>
        rw [hzz] at hz; obtain ⟨ha, hb⟩ := hz
        exact Text.plain_append (Text.plain_append (Text.plain_append (lit _ (by decide)) (t _ (by omega)))
          (lit _ (by decide))) (t _ (by omega))
      | behind a b =>
        rw [hzz] at hz; obtain ⟨ha, hb⟩ := hz
        exact Text.plain_append (Text.plain_append (Text.plain_append (lit _ (by decide)) (t _ (by omega)))
          (lit _ (by decide))) (t _ (by omega))
    have ph : Text.Plain hour := by
      rcases hh with rfl | ⟨hh, rfl⟩
      · exact t _ (by omega)
      · intro c hc
        simp only [List.mem_singleton] at hc
        subst hc
        exact dig _ hh
    have pf : Text.Plain (if x.fraction = [] then [] else mark :: x.fraction.map digit) := by
      split
      · intro c hc; simp at hc
      · intro c hc
        simp only [List.mem_cons, List.mem_map] at hc
        rcases hc with rfl | ⟨d, hd, rfl⟩
        · rcases hm with rfl | rfl <;> decide
        · exact dig _ (h7 d hd)
    refine Text.plain_append (Text.plain_append (Text.plain_append (Text.plain_append (Text.plain_append
      (Text.plain_append (Text.plain_append (Text.plain_append (Text.plain_append (Text.plain_append
      (Text.plain_append (Text.plain_append (Text.plain_append (t _ ?_) (t _ ?_)) (lit _ ?_)) (t _ ?_))
      (lit _ ?_)) (t _ ?_)) (lit _ ?_)) ph) (lit _ ?_)) (t _ ?_)) (lit _ ?_)) (t _ ?_)) pf) pz
    all_goals first | omega | decide

/-- What is needed of a string and its spelling: they are the same, or neither is special. -/
def Mild (raw dec : Str) : Prop := raw = dec ∨ (¬ Special raw ∧ ¬ Special dec)

theorem mild_of {raw dec : Str} (h : Spec.Text.Reads raw dec) (hs : Special dec → raw = dec) :
    Mild raw dec := by
  by_cases h1 : Special dec
  · exact .inl (hs h1)
  · by_cases h2 : Special raw
    · have := reads_ascii h fun c hc => ⟨(special_plain h2 c hc).2.2.2, (special_plain h2 c hc).2.1⟩
      exact .inl this.symm
    · exact .inr ⟨h2, h1⟩

theorem goParse_not_special {s : Str} (h : ¬ Special s) : goParse s = none := by
  cases hg : goParse s with
  | none => rfl
  | some t =>
    obtain ⟨x, h1, h2, h3, -⟩ := (goParse_iff _ _).1 hg
    exact absurd (.inr ⟨x, h1, h2, h3⟩) h

theorem enumFind_not_special {s : Str} (h : ¬ Special s) (e : EnumId) :
    enumFind (enumTable e) s = 0 :=
  enumFind_other (List.Perm.refl _) fun hn => h (.inl ⟨e, hn⟩)

theorem not_special_quote {s : Str} (h : 34 ∈ s) : ¬ Special s := fun hs =>
  (special_plain hs _ h).2.2.1 rfl

/-! ### Raw texts -/

mutual
theorem raw_unspelled : ∀ j : Json, unspelled j = j ∨ (34 ∈ j.raw ∧ 34 ∈ (unspelled j).raw)
  | .null => .inl rfl
  | .bool _ => .inl rfl
  | .num _ => .inl rfl
  | .str _ _ => .inr ⟨by simp [Json.raw], by simp [unspelled, Json.raw]⟩
  | .arr l => by
    rcases raw_unspelledArr l with h | ⟨h1, h2⟩
    · left; rw [unspelled, h]
    · right; rw [unspelled]; simp [Json.raw, h1, h2]
  | .obj [] => .inl rfl
  | .obj (e :: m) => by
    right
    rw [unspelled]
    constructor
    · cases m <;> simp [Json.raw, Json.rawObj]
    · cases m <;> simp [Json.raw, unspelledObj, Json.rawObj]

theorem raw_unspelledArr : ∀ l : List Json,
    unspelledArr l = l ∨ (34 ∈ Json.rawArr l ∧ 34 ∈ Json.rawArr (unspelledArr l))
  | [] => .inl rfl
  | [j] => by
    rcases raw_unspelled j with h | ⟨h1, h2⟩
    · left; simp [unspelledArr, h]
    · right; simp [unspelledArr, Json.rawArr, h1, h2]
  | j :: k :: l => by
    rcases raw_unspelled j with h | ⟨h1, h2⟩
    · rcases raw_unspelledArr (k :: l) with h' | ⟨h1, h2⟩
      · left; rw [unspelledArr, h, h']
      · right
        rw [unspelledArr]
        refine ⟨by simp [Json.rawArr, h1], ?_⟩
        simp only [unspelledArr] at h2 ⊢
        simp [Json.rawArr, h2]
    · right
      refine ⟨by simp [Json.rawArr, h1], ?_⟩
      simp only [unspelledArr]
      simp [Json.rawArr, h2]
end

/-- The value is a string, unchanged, or both texts have a quote between the first byte and the
last. -/
theorem middle_unspelled (j : Json) : (∃ raw dec, j = .str raw dec) ∨ unspelled j = j ∨
    ∃ s s', goMiddle j.raw = .ok s ∧ goMiddle (unspelled j).raw = .ok s' ∧ 34 ∈ s ∧ 34 ∈ s' ∧
      3 ≤ j.raw.length ∧ 3 ≤ (unspelled j).raw.length ∧ (∀ s, jsonIntoString j ≠ .ok s) ∧
      jsonIntoString j = jsonIntoString (unspelled j) := by
  cases j with
  | str raw dec => exact .inl ⟨raw, dec, rfl⟩
  | arr l =>
    right
    rcases raw_unspelledArr l with h | ⟨h1, h2⟩
    · left; rw [unspelled, h]
    · right
      have hl := List.length_pos_of_mem h1
      have hl' := List.length_pos_of_mem h2
      refine ⟨_, _, ?_, ?_, h1, h2, ?_, ?_, by simp [jsonIntoString], rfl⟩
      · simp [goMiddle, Json.raw]
      · simp [goMiddle, Json.raw, unspelled]
      · simp [Json.raw]; omega
      · simp [Json.raw, unspelled]; omega
  | obj m =>
    right
    cases m with
    | nil => exact .inl rfl
    | cons e m =>
      right
      have h1 : 34 ∈ Json.rawObj (e :: m) := by cases m <;> simp [Json.rawObj]
      have h2 : 34 ∈ Json.rawObj (unspelledObj (e :: m)) := by
        cases m <;> simp [unspelledObj, Json.rawObj]
      have hl := List.length_pos_of_mem h1
      have hl' := List.length_pos_of_mem h2
      refine ⟨_, _, ?_, ?_, h1, h2, ?_, ?_, by simp [jsonIntoString], rfl⟩
      · simp [goMiddle, Json.raw]
      · simp [goMiddle, Json.raw, unspelled]
      · simp [Json.raw]; omega
      · simp [Json.raw, unspelled]; omega
  | _ => exact .inr (.inl rfl)

theorem enumUnmarshal_unspelled (e : EnumId) (j : Json) (h : AllStrings Mild j) :
    enumUnmarshal (enumTable e) e (unspelled j) = enumUnmarshal (enumTable e) e j := by
  rcases middle_unspelled j with ⟨raw, dec, rfl⟩ | hj | ⟨s, s', h1, h2, h3, h4, h5, h6, h7, h8⟩
  · rw [unspelled, enumUnmarshal_str (List.Perm.refl _), enumUnmarshal_str (List.Perm.refl _)]
    unfold enumText
    rcases h with rfl | ⟨h, h'⟩
    · rfl
    · split
      · rfl
      · rw [enumFind_not_special h, enumFind_not_special h']
  · rw [hj]
  · unfold enumUnmarshal
    split
    · rw [h1, h2, Res.bind_ok, Res.bind_ok, enumFind_not_special (not_special_quote h3),
        enumFind_not_special (not_special_quote h4)]
    · rw [if_neg (by omega), if_neg (by omega), h1, h2, Res.bind_ok, Res.bind_ok,
        enumFind_not_special (not_special_quote h3), enumFind_not_special (not_special_quote h4)]
    · rw [h8]

theorem timestampUnmarshal_unspelled (j : Json) (h : AllStrings Mild j) :
    timestampUnmarshal (unspelled j) = timestampUnmarshal j := by
  rcases middle_unspelled j with ⟨raw, dec, rfl⟩ | hj | ⟨s, s', h1, h2, h3, h4, -⟩
  · rw [unspelled, timestampUnmarshal_str, timestampUnmarshal_str]
    rcases h with rfl | ⟨h, h'⟩
    · rfl
    · rw [goParse_not_special h, goParse_not_special h']
  · rw [hj]
  · unfold timestampUnmarshal
    rw [h1, h2, Res.bind_ok, Res.bind_ok, goParse_not_special (not_special_quote h3),
      goParse_not_special (not_special_quote h4)]

theorem byteOfJson_unspelled (j : Json) : byteOfJson (unspelled j) = byteOfJson j := by
  cases j <;> rfl

theorem binaryUnmarshal_unspelled (j : Json) : binaryUnmarshal (unspelled j) = binaryUnmarshal j := by
  cases j with
  | arr l =>
    have : ∀ l : List Json, (l.map unspelled).mapM byteOfJson = l.mapM byteOfJson := by
      intro l
      induction l with
      | nil => rfl
      | cons j l ih => rw [List.map_cons, List.mapM_cons, List.mapM_cons, ih, byteOfJson_unspelled]
    rw [unspelled, unspelledArr_eq, binaryUnmarshal, binaryUnmarshal, this]
  | _ => rfl

mutual
theorem decDyn_unspelled : ∀ j : Json, decDyn F (unspelled j) = decDyn F j
  | .null => rfl
  | .bool _ => rfl
  | .num _ => rfl
  | .str _ _ => by simp only [unspelled, decDyn]
  | .arr l => by rw [unspelled, decDyn, decDyn, decDynArr_unspelled l]
  | .obj m => by rw [unspelled, decDyn, decDyn, decDynObj_unspelled m]

theorem decDynArr_unspelled : ∀ l : List Json, decDynArr F (unspelledArr l) = decDynArr F l
  | [] => rfl
  | j :: l => by rw [unspelledArr, decDynArr, decDynArr, decDyn_unspelled j, decDynArr_unspelled l]

theorem decDynObj_unspelled : ∀ (m : List (Str × Json)) (cur : List (Str × Dyn)),
    decDynObj F cur (unspelledObj m) = decDynObj F cur m
  | [], _ => rfl
  | (k, j) :: m, cur => by
    rw [unspelledObj, decDynObj, decDynObj, decDyn_unspelled j]
    congr 1
    funext d
    exact decDynObj_unspelled m _
end

theorem decCustom_unspelled (cur : Option (List (Str × Dyn))) (j : Json) :
    decCustom F cur (unspelled j) = decCustom F cur j := by
  cases j with
  | obj m => rw [unspelled, decCustom, decCustom, decDynObj_unspelled]
  | _ => rfl

/-! ### Decoding -/

theorem decElems_unspelled {d : GV → Json → D GV} (z : GV) : ∀ (l : List Json) (cur : List GV),
    (∀ x ∈ l, ∀ cur, d cur (unspelled x) = d cur x) →
    decElems d z cur (unspelledArr l) = decElems d z cur l
  | [], _, _ => rfl
  | j :: l, cur, h => by
    rw [unspelledArr, decElems, decElems, h j (by simp)]
    congr 1
    funext v
    rw [decElems_unspelled z l _ fun x hx => h x (by simp [hx])]

theorem decEntries_unspelled {d : Json → D GV} : ∀ (m : List (Str × Json)) (cur : List (Str × GV)),
    (∀ e ∈ m, d (unspelled e.2) = d e.2) →
    decEntries d cur (unspelledObj m) = decEntries d cur m
  | [], _, _ => rfl
  | (k, j) :: m, cur, h => by
    rw [unspelledObj, decEntries, decEntries, h (k, j) (by simp)]
    congr 1
    funext v
    rw [decEntries_unspelled m _ fun x hx => h x (by simp [hx])]

theorem decStruct_unspelled {fs : List FieldInfo} {d : Str → GV → Json → D GV} :
    ∀ (m : List (Str × Json)) (cur : Str → GV),
    (∀ e ∈ m, ∀ n cur, d n cur (unspelled e.2) = d n cur e.2) →
    decStruct fs d cur (unspelledObj m) = decStruct fs d cur m
  | [], _, _ => rfl
  | (k, j) :: m, cur, h => by
    rw [unspelledObj, decStruct, decStruct]
    split
    · exact decStruct_unspelled m _ fun x hx => h x (by simp [hx])
    · rw [h (k, j) (by simp)]
      congr 1
      funext v
      exact decStruct_unspelled m _ fun x hx => h x (by simp [hx])

theorem decExts_unspelled {d : Str → Json → D GV} : ∀ (m : List (Str × Json)),
    (∀ e ∈ m, d e.1 (unspelled e.2) = d e.1 e.2) → decExts d (unspelledObj m) = decExts d m
  | [], _ => rfl
  | (k, j) :: m, h => by
    rw [unspelledObj, decExts, decExts, h (k, j) (by simp),
      decExts_unspelled m fun x hx => h x (by simp [hx])]

theorem smInsert_unspelled (k : Str) (j : Json) : ∀ m : List (Str × Json),
    smInsert k (unspelled j) (unspelledObj m) = unspelledObj (smInsert k j m)
  | [] => rfl
  | (k', j') :: m => by
    rw [unspelledObj, smInsert, smInsert]
    split
    · rw [unspelledObj]
    · split
      · rw [unspelledObj, unspelledObj]
      · rw [unspelledObj, smInsert_unspelled k j m]

theorem smOfList_unspelled (m : List (Str × Json)) :
    smOfList (unspelledObj m) = unspelledObj (smOfList m) := by
  have : ∀ (m acc : List (Str × Json)),
      (unspelledObj m).foldl (fun m e => smInsert e.1 e.2 m) (unspelledObj acc) =
        unspelledObj (m.foldl (fun m e => smInsert e.1 e.2 m) acc) := by
    intro m
    induction m with
    | nil => intro acc; rfl
    | cons e m ih =>
      intro acc
      rw [unspelledObj, List.foldl_cons, List.foldl_cons, smInsert_unspelled, ih]
  exact this m []

mutual
theorem dec_unspelled : ∀ (t : Ty) (j : Json) (cur : GV), Text.Ty.clean t = true →
    AllStrings Mild j → dec F t cur (unspelled j) = dec F t cur j
  | .str _, j, cur, _, _ => by cases j <;> simp [dec, unspelled]
  | .bool, j, cur, _, _ => by cases j <;> simp [dec, unspelled]
  | .int _, j, cur, _, _ => by cases j <;> simp [dec, unspelled]
  | .flt, j, cur, _, _ => by cases j <;> simp [dec, unspelled]
  | .enum e, j, cur, _, h => by simp only [dec, enumUnmarshal_unspelled e j h]
  | .bin, j, cur, _, _ => by simp only [dec, binaryUnmarshal_unspelled]
  | .time, j, cur, _, h => by simp only [dec, timestampUnmarshal_unspelled j h]
  | .slice t, j, cur, hc, h => by
    cases j with
    | arr l =>
      simp only [dec, unspelled]
      rw [AllStrings, allStringsArr_iff] at h
      rw [decElems_unspelled _ l _ fun x hx cur => dec_unspelled t x cur hc (h x hx)]
    | _ => simp [dec, unspelled, decSliceOther]
  | .map _ _ t, j, cur, hc, h => by
    cases j with
    | obj m =>
      simp only [dec, unspelled]
      rw [AllStrings, allStringsObj_iff] at h
      rw [decEntries_unspelled m _ fun e he => dec_unspelled t e.2 _ hc (h e he)]
    | _ => simp [dec, unspelled]
  | .ptr t, j, cur, hc, h => by
    have hj := dec_unspelled t j
    cases j with
    | null => rfl
    | _ =>
      have := fun cur => hj cur hc h
      first
        | rfl
        | simp only [unspelled] at this ⊢; simp only [dec, this]
  | .struct _ fs, j, cur, hc, h => by
    cases j with
    | obj m =>
      simp only [dec, unspelled]
      rw [AllStrings, allStringsObj_iff] at h
      rw [decStruct_unspelled m _ fun e he n cur => decField_unspelled fs e.2 n cur hc (h e he)]
    | _ => simp [dec, unspelled]
  | .dyn, j, cur, _, _ => by
    have := decDyn_unspelled (F := F) j
    cases j with
    | num l => rfl
    | _ =>
      first
        | rfl
        | simp only [unspelled] at this ⊢; simp only [dec, this]
  | .ext ks, j, cur, hc, h => by
    cases j with
    | obj m =>
      simp only [dec, unspelled]
      rw [AllStrings, allStringsObj_iff] at h
      rw [smOfList_unspelled, decExts_unspelled _ fun e he =>
        decExt_unspelled ks e.1 e.2 hc (h e (mem_smOfList' he))]
    | _ => simp [dec, unspelled]
  | .raw, _, _, hc, _ => by simp [Text.Ty.clean] at hc

theorem decField_unspelled : ∀ (fs : Fields) (j : Json) (name : Str) (cur : GV),
    Text.Fields.clean fs = true → AllStrings Mild j →
    decField F fs name cur (unspelled j) = decField F fs name cur j
  | .nil, _, _, _, _, _ => by simp [decField]
  | .cons n k o t rest, j, name, cur, hc, h => by
    simp only [Text.Fields.clean, Bool.and_eq_true] at hc
    simp only [decField]
    split
    · exact dec_unspelled t j cur hc.1.2 h
    · exact decField_unspelled rest j name cur hc.2 h

theorem decExt_unspelled : ∀ (ks : Known) (key : Str) (j : Json), Text.Known.clean ks = true →
    AllStrings Mild j → decExt F ks key (unspelled j) = decExt F ks key j
  | .nil, _, j, _, _ => by simp only [decExt, decCustom_unspelled]
  | .cons k _ fs rest, key, j, hc, h => by
    simp only [Text.Known.clean, Bool.and_eq_true] at hc
    simp only [decExt]
    split
    · cases j with
      | obj m =>
        simp only [unspelled]
        rw [AllStrings, allStringsObj_iff] at h
        rw [decStruct_unspelled m _ fun e he n cur => decField_unspelled fs e.2 n cur hc.1 (h e he)]
      | _ => simp [unspelled]
    · exact decExt_unspelled rest key j hc.2 h
end

theorem mkFields_clean : ∀ rs : List FieldInfo, (∀ r ∈ rs, ValidUTF8 r.key ∧ Text.Ty.clean r.ty = true) →
    Text.Fields.clean (mkFields rs) = true
  | [], _ => rfl
  | r :: rs, h => by
    have h1 := h r (by simp)
    have h2 := mkFields_clean rs fun r hr => h r (by simp [hr])
    simp [mkFields, Text.Fields.clean, h1.1, h1.2, h2]

theorem decObj_unspelled (o : Obj) (j : Json) (h : AllStrings Mild j) :
    decObj F o (unspelled j) = decObj F o j := by
  cases j with
  | obj m =>
    simp only [decObj, unspelled]
    rw [AllStrings, allStringsObj_iff] at h
    rw [decStruct_unspelled m _ fun e he n cur => decField_unspelled _ e.2 n cur
      (mkFields_clean _ (Text.objFields_clean o.sid)) (h e he)]
  | _ => simp [decObj, unspelled]

/-! ### Documents -/

theorem parseOne_unspelled {cfg : Config U} (hc : ∀ t, cfg.handlers t = none) (peak : Peak) (j : Json)
    (h : AllStrings Mild j) : parseOne F cfg peak (unspelled j) = parseOne F cfg peak j := by
  unfold parseOne
  rw [decCustom_unspelled]
  congr 1
  funext p
  split
  · rfl
  · rename_i typ _
    simp only [newObject, hc]
    cases amLookup typ dispatchTable with
    | some s => simp only [Res.bind, decAny, decObj_unspelled _ j h]
    | none =>
      simp only
      split
      · rfl
      · simp only [Res.bind, decAny, decCustom_unspelled]
  · rfl

theorem processObjects_unspelled {cfg : Config U} (hc : ∀ t, cfg.handlers t = none) :
    ∀ (l : List Json) (peak : Peak) (c : Coll (Any U)), (∀ j ∈ l, AllStrings Mild j) →
    processObjects F cfg peak c (l.map unspelled) = processObjects F cfg peak c l
  | [], _, _, _ => rfl
  | j :: l, peak, c, h => by
    rw [List.map_cons, processObjects, processObjects, parseOne_unspelled hc peak j (h j (by simp))]
    congr 1
    funext r
    congr 1
    funext c
    exact processObjects_unspelled hc l _ _ fun x hx => h x (by simp [hx])

/-- On a list of raw values, the spelling of each. -/
def unspelledGV : GV → GV
  | .raw j => .raw (unspelled j)
  | .slice (some l) => .slice (some (l.map fun
    | .raw j => .raw (unspelled j)
    | v => v))
  | v => v

/-- Apply to the result. -/
def D.map {α β} (f : α → β) : D α → D β
  | .ok a s => .ok (f a) s
  | .hard => .hard
  | .panic => .panic

theorem rawList_unspelled (v : GV) : rawList (unspelledGV v) = (rawList v).map unspelled := by
  cases v with
  | slice o =>
    cases o with
    | none => rfl
    | some l =>
      simp only [unspelledGV, rawList]
      induction l with
      | nil => rfl
      | cons a l ih => cases a <;> simp [ih]
  | _ => rfl

theorem dec_rawSlice_unspelled (cur : GV) (j : Json) :
    dec F (.slice .raw) (unspelledGV cur) (unspelled j) = (dec F (.slice .raw) cur j).map unspelledGV := by
  cases j with
  | arr l =>
    rw [unspelled, unspelledArr_eq, dec_rawSlice, dec_rawSlice]
    simp [D.map, unspelledGV]
  | null => simp [unspelled, dec, D.map, unspelledGV]
  | _ => simp [unspelled, dec, decSliceOther, Ty.isByte, D.map]

theorem dec_str_unspelled (n : Str) (cur : GV) (j : Json) :
    dec F (.str n) (unspelledGV cur) (unspelled j) = (dec F (.str n) cur j).map unspelledGV := by
  cases j <;> simp [unspelled, dec, D.map, unspelledGV]

theorem decStruct_bundle_unspelled : ∀ (m : List (Str × Json)) (cur : Str → GV),
    decStruct fieldsBundle.toList (decField F fieldsBundle) (fun x => unspelledGV (cur x))
        (unspelledObj m) =
      (decStruct fieldsBundle.toList (decField F fieldsBundle) cur m).map fun f x =>
        unspelledGV (f x)
  | [], _ => rfl
  | (k, j) :: m, cur => by
    rw [unspelledObj, decStruct, decStruct]
    cases hm : matchKey fieldsBundle.toList k with
    | none => exact decStruct_bundle_unspelled m cur
    | some r =>
      have hr := matchKey_mem hm
      have hf : fieldsBundle.toList = [⟨b!"Type", b!"type", false, .str (b!"STIXType")⟩,
          ⟨b!"ID", b!"id", false, .str (b!"Identifier")⟩,
          ⟨b!"Objects", b!"objects", true, .slice .raw⟩] := rfl
      have h1 : ∀ cur, decField F fieldsBundle r.name (unspelledGV cur) (unspelled j) =
          (decField F fieldsBundle r.name cur j).map unspelledGV := by
        intro cur
        rw [decField_row bundle_nodup.1 hr, decField_row bundle_nodup.1 hr]
        rw [hf] at hr
        simp only [List.mem_cons, List.not_mem_nil, or_false] at hr
        rcases hr with rfl | rfl | rfl
        · exact dec_str_unspelled _ _ _
        · exact dec_str_unspelled _ _ _
        · exact dec_rawSlice_unspelled _ _
      simp only
      rw [h1]
      cases decField F fieldsBundle r.name (cur r.name) j with
      | ok v s =>
        simp only [D.map, D.bind]
        have := decStruct_bundle_unspelled m (fun x => if x = r.name then v else cur x)
        have e : (fun x => unspelledGV (if x = r.name then v else cur x)) =
            fun x => if x = r.name then unspelledGV v else unspelledGV (cur x) := by
          funext x; split <;> rfl
        rw [e] at this
        rw [this]
        cases decStruct fieldsBundle.toList (decField F fieldsBundle)
          (fun x => if x = r.name then v else cur x) m <;> rfl
      | hard => rfl
      | panic => rfl

theorem allStrings_rawList_bundle : ∀ (m : List (Str × Json)) (cur f : Str → GV) (s : Bool),
    (∀ e ∈ m, AllStrings Mild e.2) → (∀ j ∈ rawList (cur (b!"Objects")), AllStrings Mild j) →
    decStruct fieldsBundle.toList (decField F fieldsBundle) cur m = .ok f s →
    ∀ j ∈ rawList (f (b!"Objects")), AllStrings Mild j
  | [], cur, f, s, _, hc, h => by
    simp only [decStruct, D.ok.injEq] at h
    rw [← h.1]; exact hc
  | (k, j) :: m, cur, f, s, hm, hc, h => by
    rw [decStruct] at h
    have hm' : ∀ e ∈ m, AllStrings Mild e.2 := fun e he => hm e (by simp [he])
    cases hk : matchKey fieldsBundle.toList k with
    | none => rw [hk] at h; exact allStrings_rawList_bundle m cur f s hm' hc h
    | some r =>
      rw [hk] at h
      simp only at h
      cases hd : decField F fieldsBundle r.name (cur r.name) j with
      | ok v s' =>
        rw [hd] at h
        simp only [D.bind] at h
        cases hs : decStruct fieldsBundle.toList (decField F fieldsBundle)
            (fun x => if x = r.name then v else cur x) m with
        | ok g s'' =>
          rw [hs] at h
          simp only [D.ok.injEq] at h
          rw [← h.1]
          refine allStrings_rawList_bundle m _ g s'' hm' ?_ hs
          intro x hx
          split at hx
          · rename_i hn
            have hr := matchKey_mem hk
            rw [decField_row bundle_nodup.1 hr] at hd
            have hf : fieldsBundle.toList = [⟨b!"Type", b!"type", false, .str (b!"STIXType")⟩,
                ⟨b!"ID", b!"id", false, .str (b!"Identifier")⟩,
                ⟨b!"Objects", b!"objects", true, .slice .raw⟩] := rfl
            rw [hf] at hr
            simp only [List.mem_cons, List.not_mem_nil, or_false] at hr
            rcases hr with rfl | rfl | rfl
            · exact absurd hn (by decide)
            · exact absurd hn (by decide)
            · have hj := hm (k, j) (by simp)
              cases j with
              | arr l =>
                rw [dec_rawSlice] at hd
                simp only [D.ok.injEq] at hd
                rw [← hd.1, rawList_raw] at hx
                rw [AllStrings, allStringsArr_iff] at hj
                exact hj x hx
              | null =>
                simp only [dec, D.ok.injEq] at hd
                rw [← hd.1] at hx
                simp [rawList] at hx
              | _ =>
                simp only [dec, decSliceOther, Ty.isByte, D.ok.injEq, Bool.false_eq_true, if_false] at hd
                rw [← hd.1] at hx
                exact hc x hx
          · exact hc x hx
        | hard => rw [hs] at h; simp at h
        | panic => rw [hs] at h; simp at h
      | hard => rw [hd] at h; simp [D.bind] at h
      | panic => rw [hd] at h; simp [D.bind] at h

theorem fromJSON_unspelled (opts : List (CollOption U)) (hn : NoParsers opts) (j : Json)
    (h : AllStrings Mild j) : fromJSON F opts (some (unspelled j)) = fromJSON F opts (some j) := by
  have hc := handlers_none hn
  cases j with
  | obj m =>
    have hb := decStruct_bundle_unspelled (F := F) m (zeroFields fieldsBundle)
    have hz : (fun x => unspelledGV (zeroFields fieldsBundle x)) = zeroFields fieldsBundle := by
      funext x
      simp only [fieldsBundle, mkFields, zeroFields]
      split_ifs <;> rfl
    rw [hz] at hb
    have hm := h
    rw [AllStrings, allStringsObj_iff] at hm
    simp only [fromJSON, unspelled, tyBundle, dec, zero, decSliceOther]
    rw [hb]
    cases hd : decStruct fieldsBundle.toList (decField F fieldsBundle) (zeroFields fieldsBundle) m with
    | ok f s =>
      cases s with
      | false =>
        simp only [D.map, D.bind, D.res, Bool.or_false]
        rw [rawList_unspelled, processObjects_unspelled hc]
        exact allStrings_rawList_bundle m _ f _ hm (by simp [fieldsBundle, mkFields, zeroFields, rawList, zero]) hd
      | true => simp [D.map, D.bind, D.res]
    | hard => simp [D.map, D.bind, D.res]
    | panic => simp [D.map, D.bind, D.res]
  | arr l =>
    rw [unspelled, unspelledArr_eq, fromJSON_arr, fromJSON_arr, processObjects_unspelled hc]
    rwa [AllStrings, allStringsArr_iff] at h
  | str raw dec => rfl
  | _ => rfl

end Stix
