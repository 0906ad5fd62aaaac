import Verif.Props.AllOrNothing
import Verif.Props.Enum
import Verif.Props.Time

/-!
# Parsing without panics (C33)
-/

namespace Stix
open Spec StixObject Stix.Canon Stix.Props.Canon

variable {F : Canon.FloatFmt} {U : Type} [UserType U]

namespace Spec

/-- If the value is a number, it is written with more than one character. -/
def NotDigit (j : Json) : Prop := ∀ lit, j = .num lit → 2 ≤ lit.length

mutual
/-- No one-character number stands where the Go type wants a timestamp, an encryption algorithm or
an opinion. -/
def Safe : Ty → Json → Prop
  | .time, j => NotDigit j
  | .enum e, j => e = .EncryptionAlgorithm ∨ e = .OpinionValue → NotDigit j
  | .slice t, j => ∀ l, j = .arr l → ∀ x ∈ l, Safe t x
  | .map _ _ t, j => ∀ m, j = .obj m → ∀ e ∈ m, Safe t e.2
  | .ptr t, j => Safe t j
  | .struct _ fs, j => SafeFields fs j
  | .ext ks, j => SafeKnown ks j
  | .str _, _ | .bool, _ | .int _, _ | .flt, _ | .bin, _ | .dyn, _ | .raw, _ => True

/-- The same for the members that belong to the fields of a struct. -/
def SafeFields : Fields → Json → Prop
  | .nil, _ => True
  | .cons _ k _ t rest, j =>
    (∀ m, j = .obj m → ∀ e ∈ m, SameUpToCase e.1 k → Safe t e.2) ∧ SafeFields rest j

/-- The same for the predefined extensions. -/
def SafeKnown : Known → Json → Prop
  | .nil, _ => True
  | .cons k _ fs rest, j =>
    (∀ m, j = .obj m → ∀ e ∈ m, e.1 = k → SafeFields fs e.2) ∧ SafeKnown rest j
end

/-- An element of a document the parser can take without panicking: the type is a text; so is the id,
unless the type is one of the library's; and there are no one-character numbers in the wrong
places. -/
structure SafeElement (j : Json) : Prop where
  typ : ∀ v, Member j (b!"type") v → ∃ t, IsText v t
  id : (∀ t s, Text j (b!"type") t → (t, s) ∉ goTypes) → ∀ v, Member j (b!"id") v → ∃ t, IsText v t
  fields : ∀ t s, (t, s) ∈ goTypes →
    Text j (b!"type") t ∨ (∀ v, ¬ Member j (b!"type") v) → SafeFields (mkFields (objFields s)) j

/-- What the document may be taken to list: the elements of the array, or of a member `objects`, in
any case. -/
def Element (doc j : Json) : Prop :=
  ∃ l, j ∈ l ∧ (doc = .arr l ∨
    ∃ ms k, doc = .obj ms ∧ (k, .arr l) ∈ ms ∧ SameUpToCase k (b!"objects"))

end Spec

theorem D.bind_noPanic {α β} {x : D α} {f : α → D β} (h1 : x ≠ .panic)
    (h2 : ∀ a, f a ≠ .panic) : x.bind f ≠ .panic := by
  cases x with
  | ok a s =>
    simp only [D.bind]
    cases h : f a with
    | ok b s' => simp
    | hard => simp
    | panic => exact absurd h (h2 a)
  | hard => simp [D.bind]
  | panic => exact absurd rfl h1

theorem D.ofRes_noPanic {α} {x : Res α} (h : x ≠ .panic) : D.ofRes x ≠ .panic := by
  cases x <;> simp_all [D.ofRes]

theorem decElems_noPanic {d : GV → Json → D GV} (z : GV) (l : List Json)
    (h : ∀ x ∈ l, ∀ cur, d cur x ≠ .panic) : ∀ cur, decElems d z cur l ≠ .panic := by
  induction l with
  | nil => intro cur; simp [decElems]
  | cons j l ih =>
    intro cur
    simp only [decElems]
    exact D.bind_noPanic (h j (by simp) _) fun v =>
      D.bind_noPanic (ih (fun x hx => h x (by simp [hx])) _) fun _ => by simp

theorem decEntries_noPanic {d : Json → D GV} (m : List (Str × Json))
    (h : ∀ e ∈ m, d e.2 ≠ .panic) : ∀ cur, decEntries d cur m ≠ .panic := by
  induction m with
  | nil => intro cur; simp [decEntries]
  | cons e m ih =>
    intro cur
    simp only [decEntries]
    exact D.bind_noPanic (h e (by simp)) fun v => ih (fun x hx => h x (by simp [hx])) _

theorem decStruct_noPanic {fs : List FieldInfo} {d : Str → GV → Json → D GV} (ms : List (Str × Json))
    (h : ∀ e ∈ ms, ∀ f ∈ fs, SameUpToCase e.1 f.key → ∀ cur, d f.name cur e.2 ≠ .panic) :
    ∀ cur, decStruct fs d cur ms ≠ .panic := by
  induction ms with
  | nil => intro cur; simp [decStruct]
  | cons e ms ih =>
    intro cur
    simp only [decStruct]
    cases hm : matchKey fs e.1 with
    | none => exact ih (fun x hx => h x (by simp [hx])) _
    | some f =>
      exact D.bind_noPanic (h e (by simp) f (matchKey_mem hm) (matchKey_fold hm) _) fun v =>
        ih (fun x hx => h x (by simp [hx])) _

theorem decExts_noPanic {d : Str → Json → D GV} (m : List (Str × Json))
    (h : ∀ e ∈ m, d e.1 e.2 ≠ .panic) : decExts d m ≠ .panic := by
  induction m with
  | nil => simp [decExts]
  | cons e m ih =>
    have h1 := h e (by simp)
    have h2 := ih fun x hx => h x (by simp [hx])
    simp only [decExts]
    split <;> simp_all

theorem decCustom_noPanic (cur : Option (List (Str × Dyn))) (j : Json) :
    decCustom F cur j ≠ .panic := by
  cases j with
  | obj ms => rw [decCustom_obj]; simp
  | _ => simp [decCustom]

theorem notDigit_nil {j : Json} (h : NotDigit j) : j ≠ .num [] ∧ ∀ d, j ≠ .num [d] := by
  refine ⟨?_, fun d => ?_⟩
  · rintro rfl; exact absurd (h [] rfl) (by decide)
  · rintro rfl; exact absurd (h [d] rfl) (by simp)

theorem enumUnmarshal_noPanic {e : EnumId} {j : Json} (visit : List (UInt8 × Str))
    (h : e = .EncryptionAlgorithm ∨ e = .OpinionValue → NotDigit j) :
    enumUnmarshal visit e j ≠ .panic := by
  by_cases he : e = .EncryptionAlgorithm ∨ e = .OpinionValue
  · obtain ⟨h1, h2⟩ := notDigit_nil (h he)
    intro hp
    obtain ⟨_, d, hd⟩ := (c21_decode_panic_iff_partial e visit j h1).1 hp
    exact h2 d hd
  · by_cases hj : j = .num []
    · subst hj
      have hmode : enumMode e ≠ .sliced := by
        cases e <;> first | decide | exact absurd (by decide) he
      unfold enumUnmarshal
      cases hm : enumMode e with
      | sliced => exact absurd hm hmode
      | _ => simp [jsonIntoString, Json.raw] <;> rfl
    · intro hp
      exact he ((c21_decode_panic_iff_partial e visit j hj).1 hp).1

theorem mem_smOfList' {α} {ms : List (Str × α)} {e : Str × α} (h : e ∈ smOfList ms) : e ∈ ms := by
  have key : ∀ (ms : List (Str × α)) (acc : List (Str × α)),
      e ∈ ms.foldl (fun m x => smInsert x.1 x.2 m) acc → e ∈ acc ∨ e ∈ ms := by
    intro ms
    induction ms with
    | nil => intro acc h; exact .inl h
    | cons x ms ih =>
      intro acc h
      rcases ih _ h with h | h
      · rcases mem_smInsert h with h | h
        · exact .inr (by simp [h])
        · exact .inl h
      · exact .inr (by simp [h])
  rcases key ms [] h with h | h
  · simp at h
  · exact h

mutual
theorem dec_noPanic : ∀ (t : Ty) (j : Json) (cur : GV), t.sane = true → Safe t j →
    dec F t cur j ≠ .panic
  | .str _, j, cur, _, _ => by cases j <;> simp [dec]
  | .bool, j, cur, _, _ => by cases j <;> simp [dec]
  | .int _, j, cur, _, _ => by
    cases j with
    | num l => simp only [dec]; split <;> simp
    | _ => simp [dec]
  | .flt, j, cur, _, _ => by
    cases j with
    | num l => simp only [dec]; split <;> simp
    | _ => simp [dec]
  | .enum e, j, cur, _, h => by
    simp only [dec]
    exact D.bind_noPanic (D.ofRes_noPanic (enumUnmarshal_noPanic _ h)) (by simp)
  | .bin, j, cur, _, _ => by
    simp only [dec]
    refine D.bind_noPanic (D.ofRes_noPanic ?_) (by simp)
    cases j with
    | str r s => simp only [binaryUnmarshal]; split <;> simp
    | arr l => simp only [binaryUnmarshal]; split <;> simp
    | _ => simp [binaryUnmarshal]
  | .time, j, cur, _, h => by
    simp only [dec]
    refine D.bind_noPanic (D.ofRes_noPanic ?_) (by simp)
    obtain ⟨h1, h2⟩ := notDigit_nil h
    intro hp
    obtain ⟨d, hd⟩ := (c25_decode_panic_iff_partial j h1).1 hp
    exact h2 d hd
  | .slice t, j, cur, hsane, h => by
    cases j with
    | arr l =>
      simp only [dec]
      exact D.bind_noPanic (decElems_noPanic _ l (fun x hx cur => dec_noPanic t x cur hsane (h l rfl x hx)) _)
        (by simp)
    | str r s =>
      simp only [dec, decSliceOther]
      split
      · split <;> simp
      · simp
    | _ => simp [dec, decSliceOther]
  | .map _ _ t, j, cur, hsane, h => by
    cases j with
    | obj m =>
      simp only [dec]
      exact D.bind_noPanic (decEntries_noPanic m (fun e he => dec_noPanic t e.2 _ hsane (h m rfl e he)) _)
        (by simp)
    | _ => simp [dec]
  | .ptr t, j, cur, hsane, h => by
    cases j with
    | null => simp [dec]
    | _ =>
      simp only [dec]
      exact D.bind_noPanic (dec_noPanic t _ _ (by simp only [Ty.sane, Bool.and_eq_true] at hsane; exact hsane.2) h) (by simp)
  | .struct _ fs, j, cur, hsane, h => by
    simp only [Ty.sane, Bool.and_eq_true, decide_eq_true_eq] at hsane
    cases j with
    | obj m =>
      simp only [dec]
      exact D.bind_noPanic (decStruct_noPanic m
        (fun e he f hf hk cur => decField_noPanic fs (.obj m) hsane.1.1 hsane.2 h m rfl e he f hf hk cur) _) (by simp)
    | _ => simp [dec]
  | .dyn, j, cur, _, _ => by
    cases j with
    | num l => simp only [dec]; split <;> simp
    | _ =>
      simp only [dec]
      exact D.bind_noPanic (by rw [decDyn_eq]; simp) (by simp)
  | .ext ks, j, cur, hsane, h => by
    cases j with
    | obj m =>
      simp only [dec]
      exact D.bind_noPanic (decExts_noPanic _
        (fun e he => decExt_noPanic ks (.obj m) hsane h m rfl e (mem_smOfList' he))) (by simp)
    | _ => simp [dec]
  | .raw, j, cur, _, _ => by simp [dec]

theorem decField_noPanic : ∀ (fs : Fields) (j : Json),
    (fs.toList.map FieldInfo.name).Nodup → fs.sane = true → SafeFields fs j → ∀ m, j = .obj m → ∀ e ∈ m,
    ∀ f ∈ fs.toList, SameUpToCase e.1 f.key → ∀ cur, decField F fs f.name cur e.2 ≠ .panic
  | .nil, _, _, _, _, _, _, _, _, f, hf, _, _ => by simp [Fields.toList] at hf
  | .cons n k o t rest, j, hn, hsane, h, m, hj, e, he, f, hf, hk, cur => by
    simp only [Fields.toList, List.map_cons, List.nodup_cons] at hn
    simp only [Fields.sane, Bool.and_eq_true] at hsane
    simp only [SafeFields] at h
    simp only [Fields.toList, List.mem_cons] at hf
    rcases hf with rfl | hf
    · simp only [decField, if_true]
      exact dec_noPanic t e.2 cur hsane.1 (h.1 m hj e he hk)
    · have : f.name ≠ n := fun e => hn.1 (by rw [← e]; exact List.mem_map_of_mem hf)
      simp only [decField, this, if_false]
      exact decField_noPanic rest j hn.2 hsane.2 h.2 m hj e he f hf hk cur

theorem decExt_noPanic : ∀ (ks : Known) (j : Json), ks.sane = true → SafeKnown ks j → ∀ m, j = .obj m → ∀ e ∈ m,
    decExt F ks e.1 e.2 ≠ .panic
  | .nil, _, _, _, _, _, e, _ => by
    simp only [decExt]
    exact D.bind_noPanic (decCustom_noPanic _ _) (by simp)
  | .cons k _ fs rest, j, hsane, h, m, hj, e, he => by
    simp only [Known.sane, Bool.and_eq_true, decide_eq_true_eq] at hsane
    simp only [SafeKnown] at h
    simp only [decExt]
    split
    · next hk =>
      have hs := h.1 m hj e he hk
      cases hv : e.2 with
      | obj ms =>
        rw [hv] at hs
        simp only
        exact D.bind_noPanic (decStruct_noPanic ms
          (fun e' he' f hf hk cur => decField_noPanic fs (.obj ms) hsane.1.1.1 hsane.1.2 hs ms rfl e' he' f hf hk cur) _)
          (by simp)
      | _ => simp
    · exact decExt_noPanic rest j hsane.2 h.2 m hj e he
end

theorem objFields_sane (s : SId) : (mkFields (objFields s)).sane = true := by
  have : ∀ s ∈ allSIds, (mkFields (objFields s)).sane = true := by decide +kernel
  exact this s (mem_allSIds s)

theorem decObj_noPanic (o : Obj) (j : Json) (h : SafeFields (mkFields (objFields o.sid)) j) :
    decObj F o j ≠ .panic := by
  cases j with
  | obj ms =>
    simp only [decObj]
    refine D.bind_noPanic (decStruct_noPanic ms (fun e he f hf hk cur => ?_) _) (by simp)
    exact decField_noPanic (mkFields (objFields o.sid)) (.obj ms)
      (by rw [mkFields_toList]; exact objFields_names_nodup _) (objFields_sane _) h ms rfl e he f
      (by rw [mkFields_toList]; exact hf) hk cur
  | _ => simp [decObj]

/-- What is kept of earlier elements has a type that is a text, or none. -/
def PeakOk (p : Peak) : Prop := ∀ d, amLookup (b!"type") (p.getD []) = some d → ∃ t, d = .str t

theorem peakOk_delete {m : List (Str × Dyn)} (h : PeakOk (some m)) (ks : List Str) :
    PeakOk (some (deleteKeys ks m)) := by
  intro d hd
  rw [Option.getD_some, amLookup_deleteKeys] at hd
  split at hd
  · simp at hd
  · exact h d hd

theorem D.res_noPanic {α} {x : D α} (h : x ≠ .panic) : x.res ≠ .panic := by
  cases x with
  | ok a s => cases s <;> simp [D.res]
  | hard => simp [D.res]
  | panic => exact absurd rfl h

theorem Res.bind_noPanic {α β} {x : Res α} {f : α → Res β} (h1 : x ≠ .panic)
    (h2 : ∀ a, x = .ok a → f a ≠ .panic) : x.bind f ≠ .panic := by
  cases x with
  | ok a => exact h2 a rfl
  | err e => simp [Res.bind]
  | panic => exact absurd rfl h1

theorem dynOf_isText {j : Json} {s : Str} (h : IsText j s) : dynOf F j = .str s := by
  obtain ⟨raw, rfl⟩ := h
  simp [dynOf, decDyn]

theorem peakOk_merge {p : Peak} {ms : List (Str × Json)} (hp : PeakOk p)
    (h : SafeElement (.obj ms)) : PeakOk (some (dynMerge F (p.getD []) ms)) := by
  intro d hd
  rw [Option.getD_some, amLookup_dynMerge] at hd
  cases hm : member (b!"type") ms with
  | none => rw [hm] at hd; exact hp d hd
  | some v =>
    rw [hm] at hd
    obtain ⟨t, ht⟩ := h.typ v ⟨ms, rfl, hm⟩
    simp only [dynOf_isText ht, Option.some.injEq] at hd
    exact ⟨t, hd.symm⟩

/-- One element: no panic, and the state stays as it should be. -/
theorem parseOne_noPanic {cfg : Config U} (hn : ∀ t, cfg.handlers t = none) {p : Peak}
    (hp : PeakOk p) {j : Json} (h : SafeElement j) :
    parseOne F cfg p j ≠ .panic ∧
      ∀ p' a, parseOne F cfg p j = .ok (p', a) → PeakOk p' ∧ ∀ x, a = some x → x.panics = false := by
  cases j with
  | obj ms =>
    have hmerge := peakOk_merge (F := F) hp h
    simp only [parseOne, decCustom_obj]
    cases hs : ms.any fun e => dynSoft F e.2 with
    | true => simp [D.res, Res.bind]
    | false =>
      simp only [D.res, Res.bind, Option.getD_some]
      cases hl : amLookup (b!"type") (dynMerge F (p.getD []) ms) with
      | none => simp [hmerge]
      | some d =>
        obtain ⟨t, rfl⟩ := hmerge d (by rw [Option.getD_some]; exact hl)
        simp only [newObject, hn]
        have hown : Text (.obj ms) (b!"type") t ∨ ∀ v, ¬ Member (.obj ms) (b!"type") v := by
          rw [amLookup_dynMerge] at hl
          cases hm : member (b!"type") ms with
          | none =>
            refine .inr ?_
            rintro v ⟨ms', e, hm'⟩
            simp only [Json.obj.injEq] at e
            subst e
            rw [hm] at hm'
            simp at hm'
          | some v =>
            rw [hm] at hl
            simp only [Option.some.injEq] at hl
            exact .inl ⟨v, ⟨ms, rfl, hm⟩, dynOf_str hl⟩
        cases hd : amLookup t dispatchTable with
        | some s =>
          simp only [decAny]
          have hdec := decObj_noPanic (F := F) (zeroObj s) (.obj ms)
            (h.fields t s ((dispatch_mem t s).1 hd) hown)
          cases ho : decObj F (zeroObj s) (.obj ms) with
          | panic => exact absurd ho hdec
          | hard => simp [D.bind]
          | ok o soft =>
            cases soft with
            | true => simp [D.bind]
            | false =>
              simp only [D.bind, Bool.or_false]
              cases hdr : cfg.dropCustom with
              | true =>
                simp only [if_true, ne_eq, reduceCtorEq, not_false_eq_true, true_and, Res.ok.injEq,
                  Prod.mk.injEq]
                rintro p' a ⟨rfl, rfl⟩
                refine ⟨hmerge, ?_⟩
                rintro x e
                simp only [Option.some.injEq] at e
                subst e
                rfl
              | false =>
                simp only [Bool.false_eq_true, if_false, extend, ne_eq, reduceCtorEq, not_false_eq_true,
                  true_and, Res.ok.injEq, Prod.mk.injEq]
                rintro p' a ⟨rfl, rfl⟩
                refine ⟨peakOk_delete hmerge _, ?_⟩
                rintro x e
                simp only [Option.some.injEq] at e
                subst e
                rfl
        | none =>
          have hunk := (dispatch_none t).1 hd
          cases hdr : cfg.dropCustom with
          | true => simp [hmerge]
          | false =>
            simp only [Bool.false_eq_true, if_false, decAny, decCustom_obj, hs, D.bind, Bool.or_self,
              extend, ne_eq, reduceCtorEq, not_false_eq_true,
                  true_and, Res.ok.injEq, Prod.mk.injEq]
            rintro p' a ⟨rfl, rfl⟩
            refine ⟨hmerge, ?_⟩
            rintro x e
            simp only [Option.some.injEq] at e
            subst e
            have htext : ∀ k, (∀ v, Member (.obj ms) k v → ∃ t, IsText v t) →
                ∃ s, customText (some (dynMerge F ((some []).getD []) ms)) k = .ok s := by
              intro k hk
              simp only [customText, Option.getD_some, amLookup_dynMerge]
              cases hm : member k ms with
              | none => exact ⟨[], by simp [amLookup]⟩
              | some v =>
                obtain ⟨s, hs⟩ := hk v ⟨ms, rfl, hm⟩
                exact ⟨s, by simp [dynOf_isText hs]⟩
            obtain ⟨i, hi⟩ := htext (b!"id") (h.id (by
              intro t' s ht'
              rcases hown with ho | ho
              · rw [text_unique ht' ho]; exact hunk s
              · obtain ⟨v, hv, _⟩ := ht'
                exact absurd hv (ho v)))
            obtain ⟨ty, hty⟩ := htext (b!"type") h.typ
            simp only [Any.panics, hi, hty]
            simp
  | null =>
    simp only [parseOne, decCustom, D.res, Res.bind, Option.getD_none]
    simp [amLookup, PeakOk]
  | _ => simp [parseOne, decCustom, D.res, Res.bind]

theorem processObjects_noPanic {cfg : Config U} (hn : ∀ t, cfg.handlers t = none) (l : List Json)
    (h : ∀ j ∈ l, SafeElement j) : ∀ (p : Peak) (c : Coll (Any U)), PeakOk p →
    processObjects F cfg p c l ≠ .panic := by
  induction l with
  | nil => intro p c _; simp [processObjects]
  | cons j l ih =>
    intro p c hp
    obtain ⟨h1, h2⟩ := parseOne_noPanic (F := F) hn hp (h j (by simp))
    simp only [processObjects]
    refine Res.bind_noPanic h1 fun r hr => Res.bind_noPanic ?_ fun c' _ =>
      ih (fun j hj => h j (by simp [hj])) _ _ (h2 r.1 r.2 hr).1
    cases hr2 : r.2 with
    | none => simp [addOne]
    | some x =>
      have := (h2 r.1 r.2 hr).2 x hr2
      simp only [addOne, this, Bool.false_eq_true, if_false]
      split <;> simp

theorem safe_bundle (j : Json) : Safe tyBundle j := by
  simp [tyBundle, Safe, fieldsBundle, mkFields, SafeFields]

theorem rawElements {ms : List (Str × Json)} {f : Str → GV} :
    ∀ (cur : Str → GV), (∀ j ∈ rawList (cur (b!"Objects")), Element (.obj ms) j) →
    ∀ ms', (∀ e ∈ ms', e ∈ ms) →
    decStruct fieldsBundle.toList (decField F fieldsBundle) cur ms' = .ok f false →
    ∀ j ∈ rawList (f (b!"Objects")), Element (.obj ms) j := by
  have hrow : ∀ {r : FieldInfo}, r ∈ fieldsBundle.toList → ∀ cur j,
      decField F fieldsBundle r.name cur j = dec F r.ty cur j :=
    fun hr cur j => decField_row bundle_nodup.1 hr cur j
  have hf : fieldsBundle.toList = [⟨b!"Type", b!"type", false, .str (b!"STIXType")⟩,
      ⟨b!"ID", b!"id", false, .str (b!"Identifier")⟩,
      ⟨b!"Objects", b!"objects", true, .slice .raw⟩] := rfl
  intro cur hc ms'
  induction ms' generalizing cur with
  | nil => intro _ h; simp only [decStruct, D.ok.injEq, and_true] at h; exact h ▸ hc
  | cons e ms' ih =>
    intro hsub h
    obtain ⟨k, j⟩ := e
    simp only [decStruct] at h
    cases hm : matchKey fieldsBundle.toList k with
    | none => rw [hm] at h; exact ih cur hc (fun e he => hsub e (by simp [he])) h
    | some r =>
      rw [hm] at h
      simp only at h
      obtain ⟨v, h1, h2⟩ := D.bind_ok_iff.1 h
      refine ih _ ?_ (fun e he => hsub e (by simp [he])) h2
      have hr := matchKey_mem hm
      rw [hrow hr] at h1
      have hfold := matchKey_fold hm
      rw [hf] at hr
      simp only [List.mem_cons, List.not_mem_nil, or_false] at hr
      rcases hr with rfl | rfl | rfl
      · exact hc
      · exact hc
      · simp only [if_true]
        cases j with
        | arr l =>
          rw [dec_rawSlice] at h1
          simp only [D.ok.injEq, and_true] at h1
          subst h1
          rw [rawList_raw]
          intro x hx
          exact ⟨l, hx, .inr ⟨ms, k, rfl, hsub _ (by simp), hfold⟩⟩
        | null =>
          simp only [dec, D.ok.injEq, and_true] at h1
          subst h1
          simp [rawList]
        | str a b => simp [dec, decSliceOther, Ty.isByte] at h1
        | _ => simp [dec, decSliceOther] at h1

/-- **C33** (what holds).  `FromJSON` does not panic, whatever the bytes, if every element of the
document has a text for a type, a text for an id or a type of the library, and no one-character
number where a timestamp, an encryption algorithm or an opinion belongs, and there are no parsers
of the user's. -/
theorem c33_no_panic_partial (opts : List (CollOption U)) (hn : NoParsers opts) (doc : Option Json)
    (h : ∀ d j, doc = some d → Element d j → SafeElement j) : fromJSON F opts doc ≠ .panic := by
  have hh := handlers_none hn
  have hpk : PeakOk none := by intro d hd; simp [amLookup] at hd
  have hz : rawList (zeroFields fieldsBundle (b!"Objects")) = [] := rfl
  unfold fromJSON
  cases doc with
  | none => simp
  | some j =>
    have hb := D.res_noPanic (dec_noPanic (F := F) tyBundle j (zero tyBundle) (by decide) (safe_bundle j))
    have hs := D.res_noPanic (dec_noPanic (F := F) (.slice .raw) j (.slice none) rfl
      (by simp [Safe]))
    simp only
    split
    · next f hf =>
      refine processObjects_noPanic hh _ (fun x hx => ?_) _ _ hpk
      rw [D.res_ok_iff] at hf
      cases j with
      | obj ms =>
        simp only [tyBundle, dec, D.bind_ok_iff, D.ok.injEq, GV.struct.injEq, and_true] at hf
        obtain ⟨g, hg, rfl⟩ := hf
        exact h _ x rfl (rawElements (zeroFields fieldsBundle) (by rw [hz]; simp) ms
          (fun e he => he) hg x hx)
      | null =>
        simp only [tyBundle, dec, D.ok.injEq, and_true, zero, GV.struct.injEq] at hf
        subst hf
        rw [hz] at hx
        simp at hx
      | _ => simp [tyBundle, dec] at hf
    · next hf => exact absurd hf hb
    · split
      · next v hv =>
        refine processObjects_noPanic hh _ (fun x hx => ?_) _ _ hpk
        rw [D.res_ok_iff] at hv
        cases j with
        | arr l =>
          rw [dec_rawSlice] at hv
          simp only [D.ok.injEq, and_true] at hv
          subst hv
          rw [rawList_raw] at hx
          exact h _ x rfl ⟨l, hx, .inl rfl⟩
        | null =>
          simp only [dec, D.ok.injEq, and_true] at hv
          subst hv
          simp [rawList] at hx
        | str a b => simp [dec, decSliceOther, Ty.isByte] at hv
        | _ => simp [dec, decSliceOther] at hv
      · next hv => exact absurd hv hs
      · simp

/-- **C33 is false**: each of these documents makes `FromJSON` panic.  A type that is no text; an
object of an unknown type whose id is no text; a one-digit timestamp; a one-digit opinion. -/
theorem c33_panics :
    fromJSON (U := Empty) toy [] (some (.arr [.obj [(b!"type", .num (b!"5"))]])) = .panic ∧
    fromJSON (U := Empty) toy [] (some (.arr [.obj [(b!"type", exText (b!"x")),
      (b!"id", .bool true)]])) = .panic ∧
    fromJSON (U := Empty) toy [] (some (.arr [.obj [(b!"type", exText (b!"malware")),
      (b!"created", .num (b!"5"))]])) = .panic ∧
    fromJSON (U := Empty) toy [] (some (.arr [.obj [(b!"type", exText (b!"opinion")),
      (b!"opinion", .num (b!"5"))]])) = .panic := by
  refine ⟨Res.isPanic_iff.1 ?_, Res.isPanic_iff.1 ?_, Res.isPanic_iff.1 ?_, Res.isPanic_iff.1 ?_⟩ <;>
    decide +kernel

/-- The value is a text, a Boolean or null. -/
def Scalar (j : Json) : Prop := (∀ l, j ≠ .num l) ∧ (∀ l, j ≠ .arr l) ∧ ∀ m, j ≠ .obj m

theorem safe_fields_scalar {j : Json} (h : Scalar j) : ∀ fs : Fields, SafeFields fs j
  | .nil => by simp [SafeFields]
  | .cons _ _ _ _ rest => by
    simp only [SafeFields]
    exact ⟨fun m hm => absurd hm (h.2.2 m), safe_fields_scalar h rest⟩

theorem safe_known_scalar {j : Json} (h : Scalar j) : ∀ ks : Known, SafeKnown ks j
  | .nil => by simp [SafeKnown]
  | .cons _ _ _ rest => by
    simp only [SafeKnown]
    exact ⟨fun m hm => absurd hm (h.2.2 m), safe_known_scalar h rest⟩

theorem safe_scalar {j : Json} (h : Scalar j) : ∀ t : Ty, Safe t j
  | .time => fun l hl => absurd hl (h.1 l)
  | .enum _ => fun _ l hl => absurd hl (h.1 l)
  | .slice _ => fun l hl => absurd hl (h.2.1 l)
  | .map _ _ _ => fun l hl => absurd hl (h.2.2 l)
  | .ptr t => safe_scalar h t
  | .struct _ fs => safe_fields_scalar h fs
  | .ext ks => safe_known_scalar h ks
  | .str _ | .bool | .int _ | .flt | .bin | .dyn | .raw => trivial

theorem safeFields_flat {ms : List (Str × Json)} (h : ∀ e ∈ ms, Scalar e.2) :
    ∀ fs : Fields, SafeFields fs (.obj ms)
  | .nil => by simp [SafeFields]
  | .cons _ _ _ t rest => by
    simp only [SafeFields]
    refine ⟨fun m hm e he _ => ?_, safeFields_flat h rest⟩
    simp only [Json.obj.injEq] at hm
    subst hm
    exact safe_scalar (h e he) t

/-- C33: a document with an object of a type of the library and one of another type, which is
accepted. -/
example : (∀ d j, some (Json.arr exObjects) = some d → Element d j → SafeElement j) ∧
    (fromJSON (U := Empty) toy [] (some (.arr exObjects))).okWith (fun _ => true) = true := by
  refine ⟨?_, by decide +kernel⟩
  rintro d j e ⟨l, hj, hl⟩
  simp only [Option.some.injEq] at e
  subst e
  rcases hl with hl | ⟨ms, k, hl, _⟩
  · simp only [Json.arr.injEq] at hl
    subst hl
    simp only [exObjects, List.mem_cons, List.not_mem_nil, or_false] at hj
    have flat : ∀ ms : List (Str × Json), (∀ e ∈ ms, (∃ s, e.2 = exText s) ∨ ∃ b, e.2 = .bool b) →
        (∀ v, member (b!"type") ms = some v → ∃ s, v = exText s) →
        (∀ v, member (b!"id") ms = some v → ∃ s, v = exText s) → SafeElement (.obj ms) := by
      intro ms h1 h2 h3
      refine ⟨?_, ?_, fun t s _ _ => safeFields_flat (fun e he => ?_) _⟩
      · rintro v ⟨ms', e, hv⟩
        simp only [Json.obj.injEq] at e; subst e
        obtain ⟨s, rfl⟩ := h2 v hv
        exact ⟨s, s, rfl⟩
      · rintro _ v ⟨ms', e, hv⟩
        simp only [Json.obj.injEq] at e; subst e
        obtain ⟨s, rfl⟩ := h3 v hv
        exact ⟨s, s, rfl⟩
      · rcases h1 e he with ⟨s, h⟩ | ⟨b, h⟩ <;> rw [h] <;> simp [Scalar, exText]
    rcases hj with rfl | rfl | rfl
    · refine flat _ ?_ ?_ ?_
      · simp [exText]
      · intro v hv; exact ⟨_, (Option.some.inj hv).symm⟩
      · intro v hv; exact ⟨_, (Option.some.inj hv).symm⟩
    · refine flat _ ?_ ?_ ?_
      · simp [exText]
      · intro v hv; exact ⟨_, (Option.some.inj hv).symm⟩
      · intro v hv; exact ⟨_, (Option.some.inj hv).symm⟩
    · refine ⟨?_, ?_, fun t s _ _ => safe_fields_scalar (by simp [Scalar]) _⟩
      · rintro v ⟨ms', e, hv⟩; simp at e
      · rintro _ v ⟨ms', e, hv⟩; simp at e
  · simp at hl

end Stix
