import Verif.Lemmas.Fate
import Verif.Lemmas.Literal

/-!
# Values that are read are values of their types
-/

namespace Stix
open Stix.Spec

variable {F : Canon.FloatFmt}

/-- What is read from values with the property `T` has leaves that satisfy `P`; if `strict`, except for
extension types that are read as bytes. -/
structure ReadOk (F : Canon.FloatFmt) (strict : Bool) (P : Leaves) (T : Json → Prop) : Prop where
  zero : ZeroOk P
  zeroTime : P.time ⟨yearStart 1 * 86400000000000, 0⟩
  str : ∀ {raw s}, T (.str raw s) → P.str s
  elem : ∀ {l}, T (.arr l) → ∀ x ∈ l, T x
  member : ∀ {ms}, T (.obj ms) → ∀ e ∈ ms, P.str e.1 ∧ T e.2
  int : ∀ {l i}, parseInt64 l = some i → P.int i
  flt : ∀ {l x}, T (.num l) → F.parse l = some x → P.flt x
  enum : ∀ {e j n}, T j → enumUnmarshal (enumTable e) e j = .ok n → P.enum e n
  bytes : strict = false → ∀ n, P.enum .ExtensionType n
  time : ∀ {j t}, T j → timestampUnmarshal j = .ok t → P.time t

mutual
/-- No enumeration but extension types is read as bytes, if `q` none at all; extensions have keys. -/
def Ty.bytewise (q : Bool) : Ty → Bool
  | .slice (.enum e) => !q && decide (e = .ExtensionType)
  | .slice t => t.bytewise q
  | .map _ _ t => t.bytewise q
  | .ptr t => t.bytewise q
  | .struct _ fs => fs.bytewise q
  | .ext ks => ks.bytewise q
  | _ => true

/-- Of every field. -/
def Fields.bytewise (q : Bool) : Fields → Bool
  | .nil => true
  | .cons _ _ _ t rest => t.bytewise q && rest.bytewise q

/-- Of every extension struct. -/
def Known.bytewise (q : Bool) : Known → Bool
  | .nil => true
  | .cons k _ fs rest => decide (k ≠ []) && fs.bytewise q && rest.bytewise q
end

mutual
theorem held_zero {q : Bool} {P : Leaves} {T : Json → Prop} (h : ReadOk F q P T) : ∀ (t : Ty), t.sane = true → Val P t (zero t)
  | .str _, _ => ⟨_, rfl, h.zero.str⟩
  | .bool, _ => ⟨_, rfl⟩
  | .int _, _ => ⟨_, rfl, h.zero.int⟩
  | .flt, _ => ⟨_, rfl, h.zero.flt⟩
  | .enum e, _ => ⟨_, rfl, h.zero.enum e⟩
  | .bin, _ => ⟨_, rfl⟩
  | .time, _ => ⟨_, rfl, h.zeroTime⟩
  | .slice _, _ => .inl rfl
  | .map _ _ _, _ => .inl rfl
  | .ptr _, _ => .inl rfl
  | .struct _ fs, hs => by
    simp only [Ty.sane, Bool.and_eq_true, decide_eq_true_eq] at hs
    refine ⟨_, rfl, (valFields_iff _ _ _).2 fun r hr => ?_⟩
    rw [zeroFields_row hs.1.1 hr]
    exact held_zero_row h fs hs.2 r hr
  | .dyn, _ => ⟨_, rfl, trivial⟩
  | .ext _, _ => .inl rfl
  | .raw, _ => ⟨_, rfl⟩

theorem held_zero_row {q : Bool} {P : Leaves} {T : Json → Prop} (h : ReadOk F q P T) : ∀ (fs : Fields), fs.sane = true →
    ∀ r ∈ fs.toList, Val P r.ty (zero r.ty)
  | .nil, _, r, hr => by simp [Fields.toList] at hr
  | .cons n k o t rest, hs, r, hr => by
    simp only [Fields.sane, Bool.and_eq_true] at hs
    simp only [Fields.toList, List.mem_cons] at hr
    rcases hr with rfl | hr
    · exact held_zero h t hs.1
    · exact held_zero_row h rest hs.2 r hr
end

theorem held_zeroFields {q : Bool} {P : Leaves} {T : Json → Prop} (h : ReadOk F q P T) {fs : Fields} (hs : fs.sane = true)
    (hn : (fs.toList.map FieldInfo.name).Nodup) : ValFields P fs (zeroFields fs) :=
  (valFields_iff _ _ _).2 fun r hr => by
    rw [zeroFields_row hn hr]
    exact held_zero_row h fs hs r hr

/-- What is asked of members of a map of extended properties. -/
def DynMembers (P : Leaves) (m : List (Str × Dyn)) : Prop := SortedKeys m ∧ ∀ e ∈ m, P.str e.1 ∧ P.dyn e.2

theorem dynAllEntries_iff {native : Bool} {S : Str → Prop} {N : UInt64 → Prop} : ∀ {m : List (Str × Dyn)},
    DynAllEntries native S N m ↔ ∀ e ∈ m, S e.1 ∧ DynAll native S N e.2
  | [] => by simp [DynAllEntries]
  | (k, d) :: m => by simp only [DynAllEntries, List.forall_mem_cons, dynAllEntries_iff]

theorem dynMembers_iff {P : Leaves} {m : List (Str × Dyn)} : P.dyn (.obj m) ↔ DynMembers P m := by
  simp only [Leaves.dyn, DynAll, DynMembers, dynAllEntries_iff]

mutual
theorem held_dyn {q : Bool} {P : Leaves} {T : Json → Prop} (h : ReadOk F q P T) : ∀ (j : Json) (d : Dyn), T j → decDyn F j = .ok d false → P.dyn d
  | .null, d, _, hd => by cases hd; trivial
  | .bool _, d, _, hd => by cases hd; trivial
  | .num l, d, ht, hd => by
    rw [decDyn] at hd
    split at hd
    · next e => cases hd; exact h.flt ht e
    · cases hd
  | .str _ _, d, ht, hd => by cases hd; exact h.str ht
  | .arr l, d, ht, hd => by
    rw [decDyn, D.bind_ok_iff] at hd
    obtain ⟨ds, h1, h2⟩ := hd
    cases h2
    exact held_dynArr h l ds (h.elem ht) h1
  | .obj ms, d, ht, hd => by
    rw [decDyn, D.bind_ok_iff] at hd
    obtain ⟨m, h1, h2⟩ := hd
    cases h2
    exact dynMembers_iff.2 (held_dynObj h ms [] m (h.member ht) ⟨sortedKeys_nil, by simp⟩ h1)

theorem held_dynArr {q : Bool} {P : Leaves} {T : Json → Prop} (h : ReadOk F q P T) : ∀ (l : List Json) (ds : List Dyn), (∀ x ∈ l, T x) →
    decDynArr F l = .ok ds false → DynAllList P.native P.str P.flt ds
  | [], ds, _, hd => by cases hd; trivial
  | j :: l, ds, ht, hd => by
    simp only [decDynArr, D.bind_ok_iff] at hd
    obtain ⟨d, h1, ds', h2, h3⟩ := hd
    cases h3
    exact ⟨held_dyn h j d (ht j (by simp)) h1, held_dynArr h l ds' (fun x hx => ht x (by simp [hx])) h2⟩

theorem held_dynObj {q : Bool} {P : Leaves} {T : Json → Prop} (h : ReadOk F q P T) : ∀ (ms : List (Str × Json)) (cur m : List (Str × Dyn)),
    (∀ e ∈ ms, P.str e.1 ∧ T e.2) → DynMembers P cur → decDynObj F cur ms = .ok m false → DynMembers P m
  | [], cur, m, _, hc, hd => by cases hd; exact hc
  | (k, j) :: ms, cur, m, ht, hc, hd => by
    rw [decDynObj, D.bind_ok_iff] at hd
    obtain ⟨d, h1, h2⟩ := hd
    have ht' := ht (k, j) (by simp)
    refine held_dynObj h ms _ m (fun e he => ht e (by simp [he])) ⟨sortedKeys_smInsert hc.1, fun e he => ?_⟩ h2
    rcases mem_smInsert he with rfl | he
    · exact ⟨ht'.1, held_dyn h j d ht'.2 h1⟩
    · exact hc.2 e he
end

theorem held_custom {q : Bool} {P : Leaves} {T : Json → Prop} (h : ReadOk F q P T) {j : Json} {cur m : Option (List (Str × Dyn))}
    (ht : T j) (hc : DynMembers P (cur.getD [])) (hd : decCustom F cur j = .ok m false) : DynMembers P (m.getD []) := by
  cases j with
  | null => cases hd; exact ⟨sortedKeys_nil, by simp⟩
  | obj ms =>
    rw [decCustom, D.bind_ok_iff] at hd
    obtain ⟨m', h1, h2⟩ := hd
    cases h2
    exact held_dynObj h ms _ m' (h.member ht) hc h1
  | _ => cases hd

theorem held_decStruct {P : Leaves} {T : Json → Prop} {fs : Fields}
    (hn : (fs.toList.map FieldInfo.name).Nodup) {r : FieldInfo} (hr : r ∈ fs.toList)
    (hrow : ∀ cur j v, T j → Val P r.ty cur → dec F r.ty cur j = .ok v false → Val P r.ty v) :
    ∀ (ms : List (Str × Json)) (cur f : Str → GV), (∀ e ∈ ms, matchKey fs.toList e.1 = some r → T e.2) →
      Val P r.ty (cur r.name) → decStruct fs.toList (decField F fs) cur ms = .ok f false → Val P r.ty (f r.name)
  | [], cur, f, _, hc, hd => by cases hd; exact hc
  | (k, j) :: ms, cur, f, ht, hc, hd => by
    rw [decStruct] at hd
    split at hd
    · exact held_decStruct hn hr hrow ms cur f (fun e he => ht e (by simp [he])) hc hd
    · next r' hm =>
      rw [D.bind_ok_iff] at hd
      obtain ⟨v, h1, h2⟩ := hd
      refine held_decStruct hn hr hrow ms _ f (fun e he => ht e (by simp [he])) ?_ h2
      by_cases e : r.name = r'.name
      · obtain rfl := List.inj_on_of_nodup_map hn hr (matchKey_mem hm) e
        rw [if_pos rfl]
        rw [decField_row hn hr] at h1
        exact hrow _ j v (ht (k, j) (by simp) hm) hc h1
      · rw [if_neg e]
        exact hc

theorem held_struct {P : Leaves} {T : Json → Prop} {fs : Fields}
    (hn : (fs.toList.map FieldInfo.name).Nodup)
    (hrow : ∀ r ∈ fs.toList, ∀ cur j v, T j → Val P r.ty cur → dec F r.ty cur j = .ok v false → Val P r.ty v)
    (ms : List (Str × Json)) (cur f : Str → GV) (ht : ∀ e ∈ ms, T e.2) (hc : ValFields P fs cur)
    (hd : decStruct fs.toList (decField F fs) cur ms = .ok f false) : ValFields P fs f :=
  (valFields_iff _ _ _).2 fun r hr =>
    held_decStruct hn hr (hrow r hr) ms cur f (fun e he _ => ht e he) ((valFields_iff _ _ _).1 hc r hr) hd

theorem held_elems {P : Leaves} {T : Json → Prop} {t : Ty} (hz : Val P t (zero t))
    (hd : ∀ cur j v, T j → Val P t cur → dec F t cur j = .ok v false → Val P t v) :
    ∀ (l : List Json) (cur vs : List GV), (∀ x ∈ l, T x) → (∀ x ∈ cur, Val P t x) →
      decElems (dec F t) (zero t) cur l = .ok vs false → ∀ x ∈ vs, Val P t x
  | [], cur, vs, _, _, h => by cases h; simp
  | j :: l, cur, vs, ht, hc, h => by
    simp only [decElems, D.bind_ok_iff] at h
    obtain ⟨v, h1, vs', h2, h3⟩ := h
    cases h3
    intro x hx
    rcases List.mem_cons.1 hx with rfl | hx
    · refine hd _ j _ (ht j (by simp)) ?_ h1
      cases cur with
      | nil => exact hz
      | cons c cur => exact hc c (by simp)
    · exact held_elems hz hd l cur.tail vs' (fun x hx => ht x (by simp [hx])) (fun x hx => hc x (List.mem_of_mem_tail hx)) h2 x hx

theorem held_entries {P : Leaves} {T : Json → Prop} {t : Ty} (hz : Val P t (zero t))
    (hd : ∀ cur j v, T j → Val P t cur → dec F t cur j = .ok v false → Val P t v) :
    ∀ (ms : List (Str × Json)) (cur m : List (Str × GV)), (∀ e ∈ ms, P.str e.1 ∧ T e.2) →
      (SortedKeys cur ∧ ∀ e ∈ cur, P.str e.1 ∧ Val P t e.2) →
      decEntries (dec F t (zero t)) cur ms = .ok m false → SortedKeys m ∧ ∀ e ∈ m, P.str e.1 ∧ Val P t e.2
  | [], cur, m, _, hc, h => by cases h; exact hc
  | (k, j) :: ms, cur, m, ht, hc, h => by
    rw [decEntries, D.bind_ok_iff] at h
    obtain ⟨v, h1, h2⟩ := h
    have ht' := ht (k, j) (by simp)
    refine held_entries hz hd ms _ m (fun e he => ht e (by simp [he])) ⟨sortedKeys_smInsert hc.1, fun e he => ?_⟩ h2
    rcases mem_smInsert he with rfl | he
    · exact ⟨ht'.1, hd _ j v ht'.2 hz h1⟩
    · exact hc.2 e he

theorem held_exts {P : Leaves} {T : Json → Prop} {d : Str → Json → D GV} {φ : Str → GV → Prop}
    (hd : ∀ k j v, T j → d k j = .ok v false → φ k v) :
    ∀ (ms : List (Str × Json)) (m : List (Str × GV)), (∀ e ∈ ms, P.str e.1 ∧ T e.2) →
      decExts d ms = .ok m false → amKeys m = amKeys ms ∧ ∀ e ∈ m, P.str e.1 ∧ φ e.1 e.2
  | [], m, _, h => by cases h; exact ⟨rfl, by simp⟩
  | (k, j) :: ms, m, ht, h => by
    rw [decExts] at h
    split at h
    · cases h
    · cases h
    · next v vs h1 h2 =>
      cases h
      obtain ⟨g1, g2⟩ := held_exts hd ms vs (fun e he => ht e (by simp [he])) h2
      have ht' := ht (k, j) (by simp)
      refine ⟨by simp only [amKeys, List.map_cons] at g1 ⊢; rw [g1], fun e he => ?_⟩
      rcases List.mem_cons.1 he with rfl | he
      · exact ⟨ht'.1, hd k j v ht'.2 h1⟩
      · exact g2 e he
    · cases h

theorem D.ofRes_ok {α} {x : Res α} {a : α} (h : D.ofRes x = .ok a false) : x = .ok a := by
  cases x <;> simp_all [D.ofRes]

theorem customExt_val {P : Leaves} {m : Option (List (Str × Dyn))} (h : DynMembers P (m.getD [])) :
    ∃ d, customExt m = .iface [] (.dyn d) ∧ IsCustom d ∧ P.dyn d := by
  cases m with
  | none => exact ⟨.nil, rfl, .inl rfl, trivial⟩
  | some m => exact ⟨.obj m, rfl, .inr ⟨m, rfl⟩, dynMembers_iff.2 h⟩

theorem decExt_tag : ∀ (ks : Known) (key : Str) (j : Json) (v : GV), decExt F ks key j = .ok v false →
    ∃ x, v = .iface key x ∨ v = .iface [] x
  | .nil, key, j, v, h => by
    rw [decExt, D.bind_ok_iff] at h
    obtain ⟨m, -, h2⟩ := h
    cases h2
    cases m <;> exact ⟨_, .inr rfl⟩
  | .cons k _ fs rest, key, j, v, h => by
    by_cases e : key = k
    · subst e
      cases j <;> simp only [decExt, if_true, D.bind_ok_iff] at h
      case obj =>
        obtain ⟨f, -, h2⟩ := h
        cases h2
        exact ⟨_, .inl rfl⟩
      all_goals cases h
      exact ⟨_, .inl rfl⟩
    · refine decExt_tag rest key j v ?_
      cases j <;> simpa only [decExt, if_neg e] using h

theorem mem_smOfList_aux {α} : ∀ (l acc : List (Str × α)) (e : Str × α),
    e ∈ l.foldl (fun m e => smInsert e.1 e.2 m) acc → e ∈ l ∨ e ∈ acc
  | [], _, _, h => .inr h
  | a :: l, acc, e, h => by
    rcases mem_smOfList_aux l _ e h with h | h
    · exact .inl (by simp [h])
    · rcases mem_smInsert h with rfl | h
      · exact .inl (by simp)
      · exact .inr h

theorem of_mem_smOfList {α} {l : List (Str × α)} {e : Str × α} (h : e ∈ smOfList l) : e ∈ l := by
  rcases mem_smOfList_aux l [] e h with h | h
  · exact h
  · simp at h

theorem sortedKeys_keys {α β} {m : List (Str × α)} {m' : List (Str × β)} (h : amKeys m' = amKeys m) (hs : SortedKeys m) :
    SortedKeys m' := by
  have e : ∀ {γ : Type _} (l : List (Str × γ)), SortedKeys l ↔ (amKeys l).Pairwise (fun a b => strLt a b = true) :=
    fun l => by rw [amKeys, List.pairwise_map]; rfl
  have e' : ∀ {γ : Type _} (l : List (Str × γ)), SortedKeys l ↔ (amKeys l).Pairwise (fun a b => strLt a b = true) :=
    fun l => by rw [amKeys, List.pairwise_map]; rfl
  rw [e, h]
  exact (e' m).1 hs

mutual
theorem held {q : Bool} {P : Leaves} {T : Json → Prop} (h : ReadOk F q P T) : ∀ (t : Ty), t.sane = true → t.bytewise q = true →
    ∀ (cur : GV) (j : Json) (v : GV), T j → Val P t cur → dec F t cur j = .ok v false → Val P t v
  | .str _, _, _, cur, j, v, ht, hc, hd => by
    cases j <;> cases hd
    · exact hc
    · exact ⟨_, rfl, h.str ht⟩
  | .bool, _, _, cur, j, v, ht, hc, hd => by
    cases j <;> cases hd
    · exact hc
    · exact ⟨_, rfl⟩
  | .int _, _, _, cur, j, v, ht, hc, hd => by
    cases j with
    | null => cases hd; exact hc
    | num l =>
      simp only [dec] at hd
      split at hd
      · next e => cases hd; exact ⟨_, rfl, h.int e⟩
      · cases hd
    | _ => cases hd
  | .flt, _, _, cur, j, v, ht, hc, hd => by
    cases j with
    | null => cases hd; exact hc
    | num l =>
      simp only [dec] at hd
      split at hd
      · next e => cases hd; exact ⟨_, rfl, h.flt ht e⟩
      · cases hd
    | _ => cases hd
  | .enum e, _, _, cur, j, v, ht, hc, hd => by
    simp only [dec, D.bind_ok_iff] at hd
    obtain ⟨n, h1, h2⟩ := hd
    cases h2
    exact ⟨n, rfl, h.enum ht (D.ofRes_ok h1)⟩
  | .bin, _, _, cur, j, v, ht, hc, hd => by
    simp only [dec, D.bind_ok_iff] at hd
    obtain ⟨n, h1, h2⟩ := hd
    cases h2
    exact ⟨n, rfl⟩
  | .time, _, _, cur, j, v, ht, hc, hd => by
    simp only [dec, D.bind_ok_iff] at hd
    obtain ⟨n, h1, h2⟩ := hd
    cases h2
    exact ⟨n, rfl, h.time ht (D.ofRes_ok h1)⟩
  | .slice t, hs, hb, cur, j, v, ht, hc, hd => by
    have other : ∀ j, decSliceOther t cur j = .ok v false → Val P (.slice t) v := by
      intro j hd
      cases j <;> simp only [decSliceOther] at hd
      case str raw s =>
        split at hd
        · next hby =>
          cases t <;> simp only [Ty.isByte, Bool.false_eq_true] at hby
          rename_i hd0 e
          clear hd
          revert hd0
          intro hd
          split at hd
          · next b hb' =>
            cases hd
            simp only [Ty.bytewise, Bool.and_eq_true, Bool.not_eq_true', decide_eq_true_eq] at hb
            refine .inr ⟨_, rfl, fun x hx => ?_⟩
            obtain ⟨n, -, rfl⟩ := List.mem_map.1 hx
            exact ⟨n, rfl, hb.2 ▸ h.bytes hb.1 n⟩
          · cases hd
        · cases hd
      all_goals cases hd
    cases j with
    | null => cases hd; exact .inl rfl
    | arr l =>
      have hb' : t.bytewise q = true := by
        cases t <;> first | rfl | exact hb
      simp only [dec, D.bind_ok_iff] at hd
      obtain ⟨vs, h1, h2⟩ := hd
      cases h2
      refine .inr ⟨vs, rfl, held_elems (held_zero h t hs) (held h t hs hb') l _ vs (h.elem ht) ?_ h1⟩
      rcases hc with rfl | ⟨l', rfl, hc⟩
      · simp
      · exact hc
    | bool _ => exact other _ (by simpa only [dec] using hd)
    | num _ => exact other _ (by simpa only [dec] using hd)
    | str _ _ => exact other _ (by simpa only [dec] using hd)
    | obj _ => exact other _ (by simpa only [dec] using hd)
  | .map _ _ t, hs, hb, cur, j, v, ht, hc, hd => by
    cases j with
    | null => cases hd; exact .inl rfl
    | obj ms =>
      simp only [dec, D.bind_ok_iff] at hd
      obtain ⟨m, h1, h2⟩ := hd
      cases h2
      refine .inr ⟨m, rfl, held_entries (held_zero h t hs) (held h t hs hb) ms _ m (h.member ht) ?_ h1⟩
      rcases hc with rfl | ⟨l', rfl, hc⟩
      · exact ⟨sortedKeys_nil, by simp⟩
      · exact hc
    | _ => cases hd
  | .ptr t, hs, hb, cur, j, v, ht, hc, hd => by
    have hs' : t.sane = true := by
      simp only [Ty.sane, Bool.and_eq_true] at hs
      exact hs.2
    cases j with
    | null => cases hd; exact .inl rfl
    | _ =>
      simp only [dec, D.bind_ok_iff] at hd
      obtain ⟨x, h1, h2⟩ := hd
      cases h2
      refine .inr ⟨x, rfl, held h t hs' hb _ _ x ht ?_ h1⟩
      rcases hc with rfl | ⟨x, rfl, hc⟩
      · exact held_zero h t hs'
      · exact hc
  | .struct _ fs, hs, hb, cur, j, v, ht, hc, hd => by
    simp only [Ty.sane, Bool.and_eq_true, decide_eq_true_eq] at hs
    cases j with
    | null => cases hd; exact hc
    | obj ms =>
      obtain ⟨f, rfl, hc⟩ := hc
      simp only [dec, D.bind_ok_iff] at hd
      obtain ⟨g, h1, h2⟩ := hd
      cases h2
      exact ⟨g, rfl, held_struct hs.1.1 (held_row h fs hs.2 hb) ms f g (fun e he => (h.member ht e he).2) hc h1⟩
    | _ => cases hd
  | .dyn, _, _, cur, j, v, ht, hc, hd => by
    have other : ((decDyn F j).bind fun d => .ok (GV.dyn d) false) = .ok v false → Val P .dyn v := fun hd => by
      rw [D.bind_ok_iff] at hd
      obtain ⟨d, h1, h2⟩ := hd
      cases h2
      exact ⟨d, rfl, held_dyn h j d ht h1⟩
    cases j with
    | num l =>
      simp only [dec] at hd
      split at hd
      · next e => cases hd; exact ⟨_, rfl, h.flt ht e⟩
      · cases hd
    | _ => exact other hd
  | .ext ks, hs, hb, cur, j, v, ht, hc, hd => by
    cases j with
    | null => cases hd; exact .inr ⟨[], rfl, sortedKeys_nil, by simp⟩
    | obj ms =>
      simp only [dec, D.bind_ok_iff] at hd
      obtain ⟨m, h1, h2⟩ := hd
      cases h2
      obtain ⟨g1, g2⟩ := held_exts (P := P) (T := T) (held_ext h ks hs hb) (smOfList ms) m
        (fun e he => h.member ht e (of_mem_smOfList he)) h1
      exact .inr ⟨m, rfl, sortedKeys_keys g1 (sortedKeys_smOfList ms), g2⟩
    | _ => cases hd
  | .raw, _, _, cur, j, v, ht, hc, hd => by cases hd; exact ⟨_, rfl⟩

theorem held_row {q : Bool} {P : Leaves} {T : Json → Prop} (h : ReadOk F q P T) : ∀ (fs : Fields), fs.sane = true → fs.bytewise q = true →
    ∀ r ∈ fs.toList, ∀ (cur : GV) (j : Json) (v : GV), T j → Val P r.ty cur → dec F r.ty cur j = .ok v false → Val P r.ty v
  | .nil, _, _, r, hr => by simp [Fields.toList] at hr
  | .cons n k o t rest, hs, hb, r, hr => by
    simp only [Fields.sane, Bool.and_eq_true] at hs
    simp only [Fields.bytewise, Bool.and_eq_true] at hb
    simp only [Fields.toList, List.mem_cons] at hr
    rcases hr with rfl | hr
    · exact held h t hs.1 hb.1
    · exact held_row h rest hs.2 hb.2 r hr

theorem held_ext {q : Bool} {P : Leaves} {T : Json → Prop} (h : ReadOk F q P T) : ∀ (ks : Known), ks.sane = true → ks.bytewise q = true →
    ∀ (key : Str) (j : Json) (v : GV), T j → decExt F ks key j = .ok v false → ValExt P ks key v
  | .nil, _, _, key, j, v, ht, hd => by
    rw [decExt, D.bind_ok_iff] at hd
    obtain ⟨m, h1, h2⟩ := hd
    cases h2
    exact .inl (customExt_val (held_custom h ht (by exact ⟨sortedKeys_nil, by simp⟩) h1))
  | .cons k _ fs rest, hs, hb, key, j, v, ht, hd => by
    simp only [Known.sane, Bool.and_eq_true, decide_eq_true_eq] at hs
    simp only [Known.bytewise, Bool.and_eq_true, decide_eq_true_eq] at hb
    obtain ⟨⟨⟨hn, -⟩, hf⟩, hrest⟩ := hs
    by_cases e : key = k
    · refine .inl ⟨fun _ => e, ?_⟩
      cases j <;> simp only [decExt, if_pos e, D.bind_ok_iff] at hd
      case obj ms =>
        obtain ⟨g, h1, h2⟩ := hd
        cases h2
        exact ⟨g, rfl, held_struct hn (held_row h fs hf hb.1.2) ms _ g (fun e he => (h.member ht e he).2)
          (held_zeroFields h hf hn) h1⟩
      all_goals cases hd
      exact ⟨_, rfl, held_zeroFields h hf hn⟩
    · have hd : decExt F rest key j = .ok v false := by
        cases j <;> simpa only [decExt, if_neg e] using hd
      refine .inr ⟨fun _ => e, fun x hx => ?_, held_ext h rest hrest hb.2 key j v ht hd⟩
      obtain ⟨y, hy | hy⟩ := decExt_tag rest key j v hd
      · rw [hx] at hy; cases hy; exact e rfl
      · rw [hx] at hy; cases hy; exact hb.1.1 rfl
end

/-- A list of values of one of the types written as bytes. -/
def Ty.listOfBytes : Ty → Bool
  | .slice (.enum _) => true
  | _ => false

theorem listOfBytes_enum {t : Ty} (h : t.listOfBytes = true) : ∃ n, t = .slice (.enum n) := by
  cases t with
  | slice e => cases e with
    | enum n => exact ⟨n, rfl⟩
    | _ => simp [Ty.listOfBytes] at h
  | _ => simp [Ty.listOfBytes] at h

/-- The only rows to which text can be assigned as bytes are those of `extension_types`. -/
theorem objFields_bytewise (s : SId) {r : FieldInfo} (hr : r ∈ objFields s) :
    r.ty.sane = true ∧ r.ty.bytewise false = true ∧
      (r.ty.bytewise true = true ∨ (r.key = b!"extension_types" ∧ r.ty.listOfBytes = true)) := by
  have : ∀ s ∈ allSIds, ∀ r ∈ objFields s, r.ty.sane = true ∧ r.ty.bytewise false = true ∧
      (r.ty.bytewise true = true ∨ (r.key = b!"extension_types" ∧ r.ty.listOfBytes = true)) := by decide +kernel
  exact this s (mem_allSIds s) r hr

end Stix
