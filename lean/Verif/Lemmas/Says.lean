import Verif.Spec.Says
import Verif.Lemmas.ObjTrip
import Verif.Props.Stamp

/-!
# Reading and writing what JSON says

`says_dec`: a JSON value that says what a value is, is read as that value.  `enc_says`: what is
written for a value says what it is, after settling.
-/

namespace Stix
open Spec Spec.Canon Canon

variable {F : FloatFmt}

/-! ### Maps -/

theorem lookup_foldl {α} (k : Str) (ms : List (Str × α)) (cur : List (Str × α)) (hn : (amKeys ms).Nodup) :
    amLookup k (ms.foldl (fun m e => smInsert e.1 e.2 m) cur) =
      match amLookup k ms with
      | some j => some j
      | none => amLookup k cur := by
  induction ms generalizing cur with
  | nil => rfl
  | cons e ms ih =>
    obtain ⟨k', j⟩ := e
    simp only [amKeys, List.map_cons, List.nodup_cons] at hn
    rw [List.foldl_cons, ih _ hn.2]
    by_cases h : k' = k
    · subst h
      rw [(amLookup_eq_none_iff _ _).2 hn.1]
      simp [amLookup, amLookup_smInsert]
    · simp only [amLookup, h, if_false, amLookup_smInsert, Ne.symm h]

theorem lookup_smOfList {α} (k : Str) (ms : List (Str × α)) (hn : (amKeys ms).Nodup) :
    amLookup k (smOfList ms) = amLookup k ms := by
  unfold smOfList
  rw [lookup_foldl k ms [] hn]
  cases amLookup k ms <;> simp [amLookup]

theorem mem_smOfList {α} {ms : List (Str × α)} (hn : (amKeys ms).Nodup) (e : Str × α) :
    e ∈ smOfList ms ↔ e ∈ ms := by
  obtain ⟨k, v⟩ := e
  rw [← amLookup_eq_some_iff _ _ _ (sortedKeys_smOfList ms).nodup, lookup_smOfList _ _ hn,
    amLookup_eq_some_iff _ _ _ hn]

theorem decEntries_members {d : Json → D GV} (ms : List (Str × Json)) (cur : List (Str × GV))
    (hs : SortedKeys cur) (hn : (amKeys ms).Nodup) (h : ∀ e ∈ ms, ∃ v, d e.2 = .ok v false) :
    ∃ m, decEntries d cur ms = .ok m false ∧ SortedKeys m ∧
      (∀ k j, (k, j) ∈ ms → ∃ v, d j = .ok v false ∧ amLookup k m = some v) ∧
      ∀ k, k ∉ amKeys ms → amLookup k m = amLookup k cur := by
  induction ms generalizing cur with
  | nil => exact ⟨cur, rfl, hs, by simp, fun _ _ => rfl⟩
  | cons e ms ih =>
    obtain ⟨k', j'⟩ := e
    simp only [amKeys, List.map_cons, List.nodup_cons] at hn
    obtain ⟨v, hv⟩ := h (k', j') (by simp)
    obtain ⟨m, h1, h2, h3, h4⟩ := ih (smInsert k' v cur) (sortedKeys_smInsert hs) hn.2
      (fun e he => h e (List.mem_cons_of_mem _ he))
    refine ⟨m, by simp only [decEntries, hv, D.bind, h1, Bool.or_false], h2, ?_, ?_⟩
    · intro k j hj
      rcases List.mem_cons.1 hj with e | hj
      · simp only [Prod.mk.injEq] at e
        obtain ⟨rfl, rfl⟩ := e
        exact ⟨v, hv, by rw [h4 k hn.1, amLookup_smInsert]; simp⟩
      · exact h3 k j hj
    · intro k hk
      simp only [amKeys, List.map_cons, List.mem_cons, not_or] at hk
      rw [h4 k hk.2, amLookup_smInsert]
      simp [hk.1]

theorem decEntries_says {d : Json → D GV} {ms : List (Str × Json)} {m : List (Str × GV)}
    {R : Str → Json → GV → Prop} (hR : ∀ k j v, (k, v) ∈ m → R k j v → d j = .ok v false)
    (h : SaysMap R ms m) : decEntries d [] ms = .ok m false := by
  obtain ⟨hn, hs, hk, hv⟩ := h
  have hrow : ∀ k j, (k, j) ∈ ms → ∃ v, (k, v) ∈ m ∧ d j = .ok v false := by
    intro k j hj
    obtain ⟨⟨k', v⟩, hm, e⟩ := List.mem_map.1 ((hk k).1 (List.mem_map_of_mem hj))
    simp only at e
    subst e
    exact ⟨v, hm, hR _ j v hm (hv _ j v hj hm)⟩
  obtain ⟨m', h1, h2, h3, h4⟩ := decEntries_members (d := d) ms [] sortedKeys_nil hn (fun e he => by
    obtain ⟨v, _, hd⟩ := hrow e.1 e.2 he
    exact ⟨v, hd⟩)
  rw [h1]
  congr 1
  refine sorted_ext h2 hs fun k => ?_
  by_cases hkm : k ∈ amKeys ms
  · obtain ⟨⟨k', j⟩, hj, e⟩ := List.mem_map.1 hkm
    simp only at e
    subst e
    obtain ⟨v, g1, g2⟩ := h3 _ j hj
    obtain ⟨v', g3, g4⟩ := hrow _ j hj
    rw [g1] at g4
    simp only [D.ok.injEq, and_true] at g4
    subst g4
    rw [g2, amLookup_eq_some_of_mem _ _ _ hs.nodup g3]
  · rw [h4 k hkm, (amLookup_eq_none_iff k m).2 (fun h => hkm ((hk k).2 h))]
    rfl

theorem decExts_members {d : Str → Json → D GV} (ms : List (Str × Json))
    (h : ∀ e ∈ ms, ∃ v, d e.1 e.2 = .ok v false) :
    ∃ m, decExts d ms = .ok m false ∧ amKeys m = amKeys ms ∧
      ∀ k v, (k, v) ∈ m → ∃ j, (k, j) ∈ ms ∧ d k j = .ok v false := by
  induction ms with
  | nil => exact ⟨[], rfl, rfl, by simp⟩
  | cons e ms ih =>
    obtain ⟨k', j'⟩ := e
    obtain ⟨v, hv⟩ := h (k', j') (by simp)
    obtain ⟨m, h1, h2, h3⟩ := ih (fun e he => h e (List.mem_cons_of_mem _ he))
    simp only at hv
    refine ⟨(k', v) :: m, by simp only [decExts, hv, h1], by simpa [amKeys] using h2, ?_⟩
    intro k w hw
    rcases List.mem_cons.1 hw with e | hw
    · simp only [Prod.mk.injEq] at e
      obtain ⟨rfl, rfl⟩ := e
      exact ⟨j', by simp, hv⟩
    · obtain ⟨j, g1, g2⟩ := h3 k w hw
      exact ⟨j, List.mem_cons_of_mem _ g1, g2⟩

theorem sortedKeys_of_keys {α β} {m : List (Str × α)} {m' : List (Str × β)} (h : SortedKeys m)
    (e : amKeys m' = amKeys m) : SortedKeys m' := by
  have h1 : (amKeys m).Pairwise (fun a b => strLt a b = true) := List.pairwise_map.2 h
  rw [← e] at h1
  exact List.pairwise_map.1 h1

theorem decExts_says {d : Str → Json → D GV} {ms : List (Str × Json)} {m : List (Str × GV)}
    {R : Str → Json → GV → Prop} (hR : ∀ k j v, R k j v → d k j = .ok v false)
    (h : SaysMap R ms m) : decExts d (smOfList ms) = .ok m false := by
  obtain ⟨hn, hs, hk, hv⟩ := h
  have hrow : ∀ k j, (k, j) ∈ ms → ∃ v, (k, v) ∈ m ∧ d k j = .ok v false := by
    intro k j hj
    obtain ⟨⟨k', v⟩, hm, e⟩ := List.mem_map.1 ((hk k).1 (List.mem_map_of_mem hj))
    simp only at e
    subst e
    exact ⟨v, hm, hR _ j v (hv _ j v hj hm)⟩
  obtain ⟨m', h1, h2, h3⟩ := decExts_members (d := d) (smOfList ms) (fun e he => by
    obtain ⟨v, _, hd⟩ := hrow e.1 e.2 ((mem_smOfList hn _).1 he)
    exact ⟨v, hd⟩)
  rw [h1]
  congr 1
  have hs' := sortedKeys_of_keys (sortedKeys_smOfList ms) h2
  refine sorted_ext hs' hs fun k => ?_
  cases hl : amLookup k m' with
  | some v =>
    obtain ⟨j, g1, g2⟩ := h3 k v (mem_of_amLookup _ _ _ hl)
    obtain ⟨v', g3, g4⟩ := hrow k j ((mem_smOfList hn _).1 g1)
    rw [g2] at g4
    simp only [D.ok.injEq, and_true] at g4
    subst g4
    rw [amLookup_eq_some_of_mem _ _ _ hs.nodup g3]
  | none =>
    refine ((amLookup_eq_none_iff k m).2 fun hkm => ?_).symm
    obtain ⟨⟨k', j⟩, hj, e⟩ := List.mem_map.1 ((hk k).2 hkm)
    simp only at e
    subst e
    rw [amLookup_eq_none_iff, h2] at hl
    exact hl (List.mem_map_of_mem ((mem_smOfList hn _).2 hj))

/-! ### `interface{}` -/

theorem saysEntries_iff (F : FloatFmt) (ms : List (Str × Json)) : ∀ m : List (Str × Dyn),
    SaysDynEntries F ms m ↔ ∀ e ∈ m, ∃ j, (e.1, j) ∈ ms ∧ SaysDyn F j e.2
  | [] => by simp [SaysDynEntries]
  | (k, d) :: m => by
    simp only [SaysDynEntries, saysEntries_iff F ms m, List.mem_cons, forall_eq_or_imp]

mutual
theorem saysDyn_dec : ∀ (d : Dyn) (j : Json), SaysDyn F j d → decDyn F j = .ok d false
  | .nil, j, h => by simp only [SaysDyn] at h; subst h; simp only [decDyn]
  | .bool b, j, h => by simp only [SaysDyn] at h; subst h; simp only [decDyn]
  | .num x, j, h => by
    simp only [SaysDyn] at h
    obtain ⟨l, rfl, h⟩ := h
    simp only [decDyn, h]
  | .int _, j, h => by simp [SaysDyn] at h
  | .str s, j, h => by
    simp only [SaysDyn] at h
    obtain ⟨raw, rfl⟩ := h
    simp only [decDyn]
  | .strs _, j, h => by simp [SaysDyn] at h
  | .arr ds, j, h => by
    simp only [SaysDyn] at h
    obtain ⟨l, rfl, h⟩ := h
    simp only [decDyn, saysDynList_dec ds l h, D.bind, Bool.or_false]
  | .obj m, j, h => by
    simp only [SaysDyn] at h
    obtain ⟨ms, rfl, hn, hs, hk, h⟩ := h
    have hrow := saysDynEntries_dec m ms h
    have hmem : ∀ k j, (k, j) ∈ ms → ∃ d, (k, d) ∈ m ∧ decDyn F j = .ok d false := by
      intro k j hj
      obtain ⟨⟨k', d⟩, hm, e⟩ := List.mem_map.1 (hk k (List.mem_map_of_mem hj))
      simp only at e
      subst e
      obtain ⟨j', g1, g2⟩ := hrow _ hm
      have a := amLookup_eq_some_of_mem _ _ _ hn hj
      have b := amLookup_eq_some_of_mem _ _ _ hn g1
      rw [a] at b
      exact ⟨d, hm, by rw [Option.some.inj b]; exact g2⟩
    simp only [decDyn, decDynObj_eq]
    have hsoft : (ms.any fun e => dynSoft F e.2) = false := by
      rw [List.any_eq_false]
      intro e he
      obtain ⟨d, _, h2⟩ := hmem e.1 e.2 he
      simp [dynSoft, h2]
    have hm' : dynMerge F [] ms = m := by
      refine sorted_ext (sorted_dynMerge sortedKeys_nil ms) hs fun k => ?_
      rw [amLookup_dynMerge]
      cases hmk : member k ms with
      | some j =>
        obtain ⟨d, h1, h2⟩ := hmem k j (member_mem hmk)
        simp only [dynOf, h2, amLookup_eq_some_of_mem _ _ _ hs.nodup h1]
      | none =>
        rw [(amLookup_eq_none_iff k m).2]
        · rfl
        · intro hkm
          obtain ⟨⟨k', d⟩, hd, e⟩ := List.mem_map.1 hkm
          simp only at e
          subst e
          obtain ⟨j', g1, g2⟩ := hrow _ hd
          exact (member_none_iff _ _).1 hmk (List.mem_map_of_mem g1)
    rw [hsoft, hm']
    simp [D.bind]

theorem saysDynList_dec : ∀ (ds : List Dyn) (l : List Json), SaysDynList F l ds →
    decDynArr F l = .ok ds false
  | [], l, h => by simp only [SaysDynList] at h; subst h; simp only [decDynArr]
  | d :: ds, l, h => by
    simp only [SaysDynList] at h
    obtain ⟨j, js, rfl, h1, h2⟩ := h
    simp [decDynArr, saysDyn_dec d j h1, saysDynList_dec ds js h2, D.bind]

theorem saysDynEntries_dec : ∀ (m : List (Str × Dyn)) (ms : List (Str × Json)),
    SaysDynEntries F ms m → ∀ e ∈ m, ∃ j, (e.1, j) ∈ ms ∧ decDyn F j = .ok e.2 false
  | [], _, _ => by simp
  | (k, d) :: m, ms, h => by
    simp only [SaysDynEntries] at h
    obtain ⟨⟨j, h1, h2⟩, h3⟩ := h
    intro e he
    rcases List.mem_cons.1 he with rfl | he
    · exact ⟨j, h1, saysDyn_dec d j h2⟩
    · exact saysDynEntries_dec m ms h3 e he
end

/-! ### Texts of integers -/

theorem litVal_digits : ∀ ds : List Nat, (∀ d ∈ ds, d ≤ 9) → litVal (ds.map digit) = decimal ds := by
  intro ds h
  have : ∀ (ds : List Nat) (a : Nat), (∀ d ∈ ds, d ≤ 9) →
      (ds.map digit).foldl (fun a c => 10 * a + (c.toNat - 48)) a = a * 10 ^ ds.length + decimal ds := by
    intro ds
    induction ds with
    | nil => intro a _; simp [decimal]
    | cons d ds ih =>
      intro a h
      rw [List.map_cons, List.foldl_cons, ih _ (fun x hx => h x (List.mem_cons_of_mem _ hx))]
      have h9 : d ≤ 9 := h d (by simp)
      have : (digit d).toNat - 48 = d := by
        have : ∀ d < 10, (digit d).toNat - 48 = d := by decide
        exact this d (by omega)
      rw [this]
      simp only [decimal, List.length_cons, pow_succ]
      ring
  have := this ds 0 h
  simpa [litVal] using this

theorem isDigits {ds : List Nat} (h : ∀ d ∈ ds, d ≤ 9) : ∀ c ∈ ds.map digit, 48 ≤ c ∧ c ≤ 57 := by
  intro c hc
  obtain ⟨d, hd, rfl⟩ := List.mem_map.1 hc
  have : ∀ d < 10, 48 ≤ digit d ∧ digit d ≤ 57 := by decide
  exact this d (Nat.lt_succ_of_le (h d hd))

theorem parseInt64_digits {l : Str} {i : Int} {ds : List Nat} (hne : ds ≠ []) (hd : ∀ d ∈ ds, d ≤ 9)
    (h : (l = ds.map digit ∧ i = decimal ds) ∨ (l = 45 :: ds.map digit ∧ i = -(decimal ds : Int)))
    (h1 : -2 ^ 63 ≤ i) (h2 : i < 2 ^ 63) : parseInt64 l = some i := by
  have hall : (ds.map digit).all (fun c => 48 ≤ c && c ≤ 57) = true := by
    rw [List.all_eq_true]
    intro c hc
    have := isDigits hd c hc
    simp [this]
  have hne' : ds.map digit ≠ [] := by simpa using hne
  rcases h with ⟨rfl, rfl⟩ | ⟨rfl, rfl⟩
  · have hhead : ∀ r, ds.map digit ≠ 45 :: r := by
      intro r e
      have := isDigits hd 45 (by rw [e]; simp)
      exact absurd this.1 (by decide)
    unfold parseInt64
    split
    next neg ds' heq =>
    split at heq
    · next r e => exact absurd e (hhead r)
    · simp only [Prod.mk.injEq] at heq
      obtain ⟨rfl, rfl⟩ := heq
      rw [if_neg (by simp only [hne', hall]; simp)]
      simp only [litVal_digits ds hd, Bool.false_eq_true, if_false]
      rw [if_pos]
      constructor <;> omega
  · unfold parseInt64
    simp only
    rw [if_neg (by simp only [hne', hall]; simp)]
    simp only [litVal_digits ds hd, if_true]
    rw [if_pos]
    constructor <;> omega

/-! ### Structs -/

theorem parseInt64_text {l : Str} {i : Int} (h : DecimalText l i) (h1 : -2 ^ 63 ≤ i) (h2 : i < 2 ^ 63) :
    parseInt64 l = some i := by
  obtain ⟨ds, hne, hd, -, h⟩ := h
  exact parseInt64_digits hne hd h h1 h2

theorem saysFields_iff (F : FloatFmt) : ∀ (fs : Fields) (ms : List (Str × Json)) (f : Str → GV),
    SaysFields F fs ms f ↔ ∀ r ∈ fs.toList, (∃ j, (r.key, j) ∈ ms ∧ Says F r.ty j (f r.name)) ∨
      (r.key ∉ amKeys ms ∧ f r.name = zero r.ty)
  | .nil, ms, f => by simp [SaysFields, Fields.toList]
  | .cons n k o t rest, ms, f => by
    simp only [SaysFields, Fields.toList, List.mem_cons, forall_eq_or_imp, saysFields_iff F rest ms f]

/-- Members into a struct, given what each says. -/
theorem decStruct_says {l : List FieldInfo} {d : Str → GV → Json → D GV} {z f : Str → GV}
    (hn : (l.map FieldInfo.name).Nodup) (hk : (l.map FieldInfo.key).Nodup) {ms : List (Str × Json)}
    (hms : (amKeys ms).Nodup)
    (hmatch : ∀ k ∈ amKeys ms, ∀ r, matchKey l k = some r → r.key = k)
    (hrow : ∀ r ∈ l, (∃ j, (r.key, j) ∈ ms ∧ d r.name (z r.name) j = .ok (f r.name) false) ∨
      (r.key ∉ amKeys ms ∧ f r.name = z r.name))
    (hoth : ∀ x, (∀ r ∈ l, r.name ≠ x) → f x = z x) : decStruct l d z ms = .ok f false := by
  have hget : ∀ r ∈ l, ∀ j, (r.key, j) ∈ ms → d r.name (z r.name) j = .ok (f r.name) false := by
    intro r hr j hj
    rcases hrow r hr with ⟨j', h1, h2⟩ | ⟨h1, _⟩
    · have a := amLookup_eq_some_of_mem _ _ _ hms hj
      have b := amLookup_eq_some_of_mem _ _ _ hms h1
      rw [a] at b
      rw [Option.some.inj b]
      exact h2
    · exact absurd (List.mem_map_of_mem hj) h1
  obtain ⟨g, g1, g2, g3⟩ := decStruct_spec (d := d) hn hk ms z hms (by
    intro k j hj r hm
    have := hmatch k (List.mem_map_of_mem hj) r hm
    subst this
    exact ⟨rfl, _, hget r (matchKey_mem hm) j hj⟩)
  rw [g1]
  congr 1
  funext x
  by_cases hx : ∃ r ∈ l, r.name = x
  · obtain ⟨r, hr, rfl⟩ := hx
    rcases hrow r hr with ⟨j, h1, h2⟩ | ⟨h1, h2⟩
    · have := g2 r hr j h1
      rw [h2] at this
      simp only [D.ok.injEq, and_true] at this
      exact this.symm
    · rw [h2]
      refine g3 _ fun r' hr' e j hj => ?_
      have := inj_of_nodup hn hr' hr e
      subst this
      exact h1 (List.mem_map_of_mem hj)
  · have hx' : ∀ r ∈ l, r.name ≠ x := fun r hr e => hx ⟨r, hr, e⟩
    rw [hoth x hx', g3 x (fun r hr e => absurd e (hx' r hr))]

theorem decFields_says {fs : Fields} (hn : (fs.toList.map FieldInfo.name).Nodup)
    (hk : (fs.toList.map FieldInfo.key).Nodup) {ms : List (Str × Json)} {f : Str → GV}
    (hms : (amKeys ms).Nodup) (hkeys : ∀ k ∈ amKeys ms, ∃ r ∈ fs.toList, r.key = k)
    (hoth : ∀ x, (∀ r ∈ fs.toList, r.name ≠ x) → f x = default)
    (h : ∀ r ∈ fs.toList, (∃ j, (r.key, j) ∈ ms ∧ dec F r.ty (zero r.ty) j = .ok (f r.name) false) ∨
      (r.key ∉ amKeys ms ∧ f r.name = zero r.ty)) :
    decStruct fs.toList (decField F fs) (zeroFields fs) ms = .ok f false := by
  refine decStruct_says hn hk hms ?_ ?_ ?_
  · intro k hkm r hm
    obtain ⟨r', hr', rfl⟩ := hkeys k hkm
    rw [matchKey_self hk hr'] at hm
    rw [Option.some.inj hm]
  · intro r hr
    rw [decField_row' hn hr, zeroFields_row hn hr]
    exact h r hr
  · intro x hx
    rw [hoth x hx, zeroFields_other hx]
where
  decField_row' {fs : Fields} (hn : (fs.toList.map FieldInfo.name).Nodup) {r : FieldInfo}
      (hr : r ∈ fs.toList) : decField F fs r.name = dec F r.ty := by
    funext cur j
    exact decField_row hn hr cur j

/-! ### All types -/

mutual
/-- A JSON value that says what the value is, is read as that value. -/
theorem says_dec : ∀ (t : Ty) (j : Json) (v : GV), t.sane = true → Says F t j v →
    dec F t (zero t) j = .ok v false
  | .str _, j, v, _, h => by
    simp only [Says] at h
    obtain ⟨raw, s, rfl, rfl⟩ := h
    simp only [dec]
  | .bool, j, v, _, h => by
    simp only [Says] at h
    obtain ⟨b, rfl, rfl⟩ := h
    simp only [dec]
  | .int _, j, v, _, h => by
    simp only [Says] at h
    obtain ⟨l, i, rfl, rfl, h, h1, h2⟩ := h
    simp only [dec, parseInt64_text h h1 h2]
  | .flt, j, v, _, h => by
    simp only [Says] at h
    obtain ⟨l, x, rfl, rfl, h⟩ := h
    simp only [dec, h]
  | .enum e, j, v, _, h => by
    simp only [Says] at h
    obtain ⟨s, n, rfl, rfl, h⟩ := h
    have hu : enumUnmarshal (enumTable e) e (.str s s) = .ok n := by
      rcases h with h | ⟨rfl, h⟩
      · exact c20_known_name e _ (List.Perm.refl _) n s h
      · rw [enumUnmarshal_str (List.Perm.refl _), enumFind_other (List.Perm.refl _)]
        have : enumText e s s = s := by unfold enumText; split <;> rfl
        rw [this]
        rintro ⟨m, hm⟩
        exact h m hm
    simp only [dec, hu, D.ofRes, D.bind, Bool.or_false]
  | .bin, j, v, _, h => by
    simp only [Says] at h
    rcases h with ⟨rfl, rfl⟩ | ⟨raw, b, rfl, rfl⟩
    · simp [dec, binaryUnmarshal, D.ofRes, D.bind]
    · have := c26_round_trip (some b)
      rw [(c26_standard_base64 b).1] at this
      have h2 : binaryUnmarshal (.str raw (base64 b)) = .ok (some b) := by
        rw [← this]; rfl
      simp only [dec, h2, D.ofRes, D.bind, Bool.or_false]
  | .time, j, v, _, h => by
    simp only [Says] at h
    obtain ⟨s, dec', x, hx, hz, hl, rfl, rfl⟩ := h
    have := ((c55_exact s dec').1 _).2 ⟨x, hx, hz, hl, rfl⟩
    simp only [dec, this, D.ofRes, D.bind, Bool.or_false]
  | .slice t, j, v, hs, h => by
    simp only [Says] at h
    simp only [Ty.sane] at hs
    rcases h with ⟨rfl, rfl⟩ | ⟨js, l, rfl, rfl, h⟩
    · simp only [dec]
    · have := decElems_forall₂ (d := dec F t) (z := zero t) (s := id) (l := l) (js := js)
        (h.flip.imp fun x j hx => says_dec t j x hs hx)
      simp [dec, zero, this, D.bind]
  | .map _ _ t, j, v, hs, h => by
    simp only [Says] at h
    simp only [Ty.sane] at hs
    rcases h with ⟨rfl, rfl⟩ | ⟨ms, m, rfl, rfl, h⟩
    · simp only [dec]
    · simp [dec, zero, decEntries_says (fun _ j v _ hv => says_dec t j v hs hv) h, D.bind]
  | .ptr t, j, v, hs, h => by
    simp only [Says] at h
    simp only [Ty.sane, Bool.and_eq_true] at hs
    rcases h with ⟨rfl, rfl⟩ | ⟨x, hj, rfl, h⟩
    · simp only [dec]
    · have := says_dec t j x hs.2 h
      cases j with
      | null => exact absurd rfl hj
      | _ => simp [dec, zero, this, D.bind]
  | .struct _ fs, j, v, hs, h => by
    simp only [Says] at h
    simp only [Ty.sane, Bool.and_eq_true, decide_eq_true_eq] at hs
    obtain ⟨ms, f, rfl, rfl, h1, h2, h3, h4⟩ := h
    rw [saysFields_iff] at h4
    simp [dec, zero, decFields_says hs.1.1 hs.1.2 h1 h2 h3 (fun r hr => (h4 r hr).imp_left
      fun ⟨j, g1, g2⟩ => ⟨j, g1, says_dec_fields fs hs.2 r hr j _ g2⟩), D.bind]
  | .dyn, j, v, _, h => by
    simp only [Says] at h
    obtain ⟨d, rfl, h⟩ := h
    have h := saysDyn_dec d j h
    cases j with
    | num lit =>
      simp only [decDyn] at h
      simp only [dec]
      cases hp : F.parse lit with
      | none => rw [hp] at h; simp at h
      | some f => rw [hp] at h; simp at h; simp [h]
    | _ => simp [dec, h, D.bind]
  | .ext ks, j, v, hs, h => by
    simp only [Says] at h
    simp only [Ty.sane] at hs
    rcases h with ⟨rfl, rfl⟩ | ⟨ms, m, rfl, rfl, h⟩
    · simp only [dec]
    · simp [dec, decExts_says (fun k j v hv => says_dec_exts ks hs k j v hv) h, D.bind]
  | .raw, j, v, _, h => by
    simp only [Says] at h
    subst h
    simp only [dec]

theorem says_dec_fields : ∀ (fs : Fields), fs.sane = true → ∀ r ∈ fs.toList, ∀ j v,
    Says F r.ty j v → dec F r.ty (zero r.ty) j = .ok v false
  | .nil, _, r, hr, _, _, _ => by simp [Fields.toList] at hr
  | .cons n k o t rest, hs, r, hr, j, v, h => by
    simp only [Fields.sane, Bool.and_eq_true] at hs
    simp only [Fields.toList, List.mem_cons] at hr
    rcases hr with rfl | hr
    · exact says_dec t j v hs.1 h
    · exact says_dec_fields rest hs.2 r hr j v h

theorem says_dec_exts : ∀ (ks : Known), ks.sane = true → ∀ key j v,
    SaysExt F ks key j v → decExt F ks key j = .ok v false
  | .nil, _, key, j, v, h => by
    simp only [SaysExt] at h
    obtain ⟨d, rfl, hc, h⟩ := h
    have h2 := saysDyn_dec d j h
    rcases hc with rfl | ⟨m, rfl⟩
    · simp only [SaysDyn] at h
      subst h
      simp [decExt, decCustom, D.bind, customExt]
    · simp only [SaysDyn] at h
      obtain ⟨ms, rfl, _⟩ := h
      simp only [decDyn] at h2
      cases hd : decDynObj F [] ms with
      | ok a s =>
        rw [hd] at h2
        simp [D.bind] at h2
        simp [decExt, decCustom, D.bind, customExt, hd, h2]
      | hard => rw [hd] at h2; simp [D.bind] at h2
      | panic => rw [hd] at h2; simp [D.bind] at h2
  | .cons k nm fs rest, hs, key, j, v, h => by
    simp only [SaysExt] at h
    simp only [Known.sane, Bool.and_eq_true, decide_eq_true_eq] at hs
    rcases h with ⟨rfl, ms, f, rfl, rfl, h1, h2, h3, h4⟩ | ⟨hne, h⟩
    · rw [saysFields_iff] at h4
      simp [decExt, decFields_says hs.1.1.1 hs.1.1.2 h1 h2 h3 (fun r hr => (h4 r hr).imp_left
        fun ⟨j, g1, g2⟩ => ⟨j, g1, says_dec_fields fs hs.1.2 r hr j _ g2⟩), D.bind]
    · simp only [decExt, hne, if_false, says_dec_exts rest hs.2 key j v h]
end

/-! ### Writing -/

mutual
theorem encDyn_says (L : FloatLaws F) : ∀ (d : Dyn) (j : Json), DynAll true Unicode F64Finite d →
    encDyn F d = some j → SaysDyn F j d
  | .nil, j, _, h => by simp only [encDyn, Option.some.injEq] at h; simp only [SaysDyn, h]
  | .bool b, j, _, h => by simp only [encDyn, Option.some.injEq] at h; simp only [SaysDyn, h]
  | .num x, j, hd, h => by
    simp only [DynAll] at hd
    simp only [encDyn, (finite_iff x).2 hd, if_true, Option.some.injEq] at h
    subst h
    simp only [SaysDyn]
    exact ⟨_, rfl, parse_floatLit L hd⟩
  | .int i, j, hd, _ => by simp [DynAll] at hd
  | .str s, j, hd, h => by
    simp only [DynAll] at hd
    simp only [encDyn, Option.some.injEq] at h
    subst h
    simp only [SaysDyn, Json.ofStr, sanitize_unicode hd]
    exact ⟨_, rfl⟩
  | .strs l, j, hd, _ => by simp [DynAll] at hd
  | .arr l, j, hd, h => by
    simp only [DynAll] at hd
    simp only [encDyn, Option.map_eq_some_iff] at h
    obtain ⟨js, h, rfl⟩ := h
    simp only [SaysDyn]
    exact ⟨js, rfl, encDynArr_says L l js hd h⟩
  | .obj m, j, hd, h => by
    simp only [DynAll] at hd
    simp only [encDyn, Option.map_eq_some_iff] at h
    obtain ⟨js, h, rfl⟩ := h
    obtain ⟨h1, h2⟩ := encDynObj_says L m js hd.2 h
    simp only [SaysDyn]
    refine ⟨js, rfl, ?_, hd.1, fun k hk => by rw [← h1]; exact hk, ?_⟩
    · rw [h1]; exact hd.1.nodup
    · exact (saysEntries_iff F js m).2 h2

theorem encDynArr_says (L : FloatLaws F) : ∀ (l : List Dyn) (js : List Json),
    DynAllList true Unicode F64Finite l → encDynArr F l = some js → SaysDynList F js l
  | [], js, _, h => by simp only [encDynArr, Option.some.injEq] at h; simp only [SaysDynList, h]
  | d :: l, js, hd, h => by
    simp only [DynAllList] at hd
    simp only [encDynArr] at h
    split at h
    · next j js' h1 h2 =>
      simp only [Option.some.injEq] at h
      subst h
      simp only [SaysDynList]
      exact ⟨j, js', rfl, encDyn_says L d j hd.1 h1, encDynArr_says L l js' hd.2 h2⟩
    · simp at h

theorem encDynObj_says (L : FloatLaws F) : ∀ (m : List (Str × Dyn)) (js : List (Str × Json)),
    DynAllEntries true Unicode F64Finite m → encDynObj F m = some js →
    amKeys js = amKeys m ∧ ∀ e ∈ m, ∃ j, (e.1, j) ∈ js ∧ SaysDyn F j e.2
  | [], js, _, h => by simp only [encDynObj, Option.some.injEq] at h; subst h; simp [amKeys]
  | (k, d) :: m, js, hd, h => by
    simp only [DynAllEntries] at hd
    simp only [encDynObj] at h
    split at h
    · next j js' h1 h2 =>
      simp only [Option.some.injEq] at h
      subst h
      obtain ⟨g1, g2⟩ := encDynObj_says L m js' hd.2 h2
      rw [sanitize_unicode hd.1.1]
      refine ⟨by simpa [amKeys] using g1, ?_⟩
      intro e he
      rcases List.mem_cons.1 he with rfl | he
      · exact ⟨j, by simp, encDyn_says L d j hd.1.2 h1⟩
      · obtain ⟨j', g3, g4⟩ := g2 e he
        exact ⟨j', List.mem_cons_of_mem _ g3, g4⟩
    · simp at h
end

theorem decimal_append_one (ds : List Nat) (d : Nat) : decimal (ds ++ [d]) = 10 * decimal ds + d := by
  rw [decimal_append]
  simp [decimal]
  ring

theorem natLitAux_digits : ∀ f n, n < 2 ^ f → 0 < f → ∃ ds : List Nat, ds ≠ [] ∧ (∀ d ∈ ds, d ≤ 9) ∧
    (ds.head? = some 0 → ds = [0]) ∧ natLitAux f n = ds.map digit ∧ decimal ds = n ∧
    (n ≠ 0 → ds.head? ≠ some 0)
  | 0, n, _, h => absurd h (by omega)
  | f + 1, n, hn, _ => by
    have hdig : ∀ d < 10, (48 + d).toUInt8 = digit d := by decide
    by_cases h : n < 10
    · refine ⟨[n], by simp, by simpa using Nat.lt_succ_iff.1 h, by simp, ?_, by simp [decimal], by simp⟩
      simp only [natLitAux, h, if_true, List.map_cons, List.map_nil, hdig n h]
    · have hf : 0 < f := by
        rcases Nat.eq_zero_or_pos f with rfl | hf
        · simp at hn; omega
        · exact hf
      obtain ⟨ds, h1, h2, h3, h4, h5, h6⟩ := natLitAux_digits f (n / 10) (by rw [pow_succ] at hn; omega) hf
      have h7 := h6 (by omega)
      have hhead : (ds ++ [n % 10]).head? = ds.head? := by
        cases ds with
        | nil => exact absurd rfl h1
        | cons a l => rfl
      refine ⟨ds ++ [n % 10], by simp, ?_, ?_, ?_, ?_, ?_⟩
      · intro d hd
        rcases List.mem_append.1 hd with hd | hd
        · exact h2 d hd
        · simp only [List.mem_singleton] at hd; omega
      · rw [hhead]; intro e; exact absurd e h7
      · simp only [natLitAux, h, if_false, h4, List.map_append, List.map_cons, List.map_nil,
          hdig (n % 10) (by omega)]
      · rw [decimal_append_one, h5]; omega
      · intro _; rw [hhead]; exact h7

theorem intLit_text (i : Int) : DecimalText (intLit i) i := by
  obtain ⟨ds, h1, h2, h3, h4, h5, _⟩ := natLitAux_digits (i.natAbs.log2 + 1) i.natAbs
    Nat.lt_log2_self (by omega)
  refine ⟨ds, h1, h2, h3, ?_⟩
  unfold intLit natLit
  split
  · exact .inr ⟨by rw [h4], by omega⟩
  · exact .inl ⟨h4, by omega⟩

theorem encEntries_told {α} {f : α → Option Json} : ∀ {m : List (Str × α)} {js : List (Str × Json)},
    encEntries f m = some js → (∀ e ∈ m, sanitize e.1 = e.1) →
    List.Forall₂ (fun e x => x.1 = e.1 ∧ f e.2 = some x.2) m js
  | [], js, h, _ => by simp only [encEntries, Option.some.injEq] at h; subst h; exact .nil
  | (k, a) :: m, js, h, hs => by
    simp only [encEntries] at h
    split at h
    · next b bs h1 h2 =>
      simp only [Option.some.injEq] at h
      subst h
      exact .cons ⟨hs (k, a) (by simp), h1⟩
        (encEntries_told h2 fun e he => hs e (List.mem_cons_of_mem _ he))
    · simp at h

/-- The entries of a map as members. -/
theorem saysMap_of {g : GV → GV} {f : GV → Option Json} {m : List (Str × GV)}
    {js : List (Str × Json)} {R : Str → Json → GV → Prop} (hs : SortedKeys m)
    (hu : ∀ e ∈ m, Unicode e.1) (h : encEntries f m = some js)
    (hR : ∀ e ∈ m, ∀ j, f e.2 = some j → R e.1 j (g e.2)) :
    SaysMap R js (m.map fun e => (e.1, g e.2)) := by
  have h2 := encEntries_told h (fun e he => sanitize_unicode (hu e he))
  have hk : amKeys js = amKeys m := by
    clear hR hs h hu
    induction h2 with
    | nil => rfl
    | cons h1 _ ih => simp only [amKeys, List.map_cons, h1.1] at ih ⊢; rw [ih]
  have hk' : amKeys (m.map fun e => (e.1, g e.2)) = amKeys m := by simp [amKeys, Function.comp_def]
  refine ⟨by rw [hk]; exact hs.nodup, sortedKeys_of_keys hs hk', fun k => by rw [hk, hk'], ?_⟩
  intro k j v hj hv
  obtain ⟨e, he, e2⟩ := List.mem_map.1 hv
  simp only [Prod.mk.injEq] at e2
  obtain ⟨rfl, rfl⟩ := e2
  refine hR e he j ?_
  have hnd : (amKeys m).Nodup := hs.nodup
  clear hR hs h hu hk hk' hv
  induction h2 with
  | nil => simp at hj
  | @cons a b l1 l2 h1 h3 ih =>
    simp only [amKeys, List.map_cons, List.nodup_cons] at hnd
    have hk2 : l2.map Prod.fst = l1.map Prod.fst := by
      clear ih hj he hnd
      induction h3 with
      | nil => rfl
      | cons h1 _ ih => simp only [List.map_cons, h1.1, ih]
    rcases List.mem_cons.1 he with rfl | he'
    · rcases List.mem_cons.1 hj with e | hj'
      · rw [← e] at h1; exact h1.2
      · refine absurd ?_ hnd.1
        rw [← hk2]
        exact List.mem_map_of_mem hj'
    · rcases List.mem_cons.1 hj with e' | hj'
      · refine absurd ?_ hnd.1
        rw [← h1.1, ← e']
        exact List.mem_map_of_mem he'
      · exact ih he' hj' hnd.2

/-- The fields of a struct as members. -/
theorem encFields_says {fs : Fields} (hn : (fs.toList.map FieldInfo.name).Nodup)
    (hk : (fs.toList.map FieldInfo.key).Nodup) {f : Str → GV} {js : List (Str × Json)}
    (hc : ∀ r ∈ fs.toList, RoundTrip F r.ty (f r.name))
    (h : ∀ r ∈ fs.toList, ∀ j, enc F r.ty (f r.name) = some j → Says F r.ty j (settled r.ty (f r.name)))
    (he : encFields F fs f = some js) :
    (amKeys js).Nodup ∧ (∀ k ∈ amKeys js, ∃ r ∈ fs.toList, r.key = k) ∧
      (∀ x, (∀ r ∈ fs.toList, r.name ≠ x) → settledFields fs f x = default) ∧
      SaysFields F fs js (settledFields fs f) := by
  obtain ⟨js', h1, h2, h3⟩ := encFields_spec (F := F) fs f (fun r hr _ => by
    obtain ⟨j, hj, _⟩ := hc r hr; exact ⟨j, hj⟩)
  rw [he] at h1
  obtain rfl := Option.some.inj h1
  refine ⟨h2.nodup hk, ?_, fun x hx => settledFields_other hx f, ?_⟩
  · intro k hkm
    obtain ⟨⟨k', j⟩, hj, rfl⟩ := List.mem_map.1 hkm
    obtain ⟨r, hr, e, _⟩ := (h3 _ _).1 hj
    exact ⟨r, hr, e⟩
  · rw [saysFields_iff]
    intro r hr
    rw [settledFields_row hn hr]
    cases ho : r.omitE && Blank (f r.name) with
    | true =>
      refine .inr ⟨?_, by simp⟩
      intro hkm
      obtain ⟨⟨k', j⟩, hj, e⟩ := List.mem_map.1 hkm
      obtain ⟨r', hr', e', ho', _⟩ := (h3 _ _).1 hj
      have := inj_of_nodup hk hr' hr (e'.trans e)
      subst this
      rw [isEmptyValue_eq, ho] at ho'
      simp at ho'
    | false =>
      obtain ⟨j, hj, _⟩ := hc r hr
      refine .inl ⟨j, (h3 _ _).2 ⟨r, hr, rfl, by rw [isEmptyValue_eq]; exact ho, hj⟩, ?_⟩
      simpa using h r hr j hj

mutual
/-- What is written for a value says what it is, after settling. -/
theorem enc_says (L : FloatLaws F) : ∀ (t : Ty) (v : GV) (j : Json), t.sane = true → Carriable t v →
    enc F t v = some j → Says F t j (settled t v)
  | .str _, v, j, _, h, he => by
    simp only [Carriable, Val] at h
    obtain ⟨s, rfl, h⟩ := h
    simp only [enc, Option.some.injEq] at he
    subst he
    simp only [Says, settled, Json.ofStr, sanitize_unicode h]
    exact ⟨_, _, rfl, rfl⟩
  | .bool, v, j, _, h, he => by
    simp only [Carriable, Val] at h
    obtain ⟨b, rfl⟩ := h
    simp only [enc, Option.some.injEq] at he
    subst he
    simp only [Says, settled]
    exact ⟨b, rfl, rfl⟩
  | .int _, v, j, _, h, he => by
    simp only [Carriable, Val] at h
    obtain ⟨i, rfl, h⟩ := h
    simp only [enc, Option.some.injEq] at he
    subst he
    simp only [Says, settled]
    exact ⟨_, i, rfl, rfl, intLit_text i, h⟩
  | .flt, v, j, _, h, he => by
    simp only [Carriable, Val] at h
    obtain ⟨x, rfl, h⟩ := h
    simp only [enc, (finite_iff x).2 h, if_true, Option.some.injEq] at he
    subst he
    simp only [Says, settled]
    exact ⟨_, x, rfl, rfl, parse_floatLit L h⟩
  | .enum e, v, j, _, h, he => by
    simp only [Carriable, Val] at h
    obtain ⟨n, rfl, h⟩ := h
    simp only [enc, Option.some.injEq] at he
    subst he
    simp only [Says, settled]
    by_cases hs : ∃ s, (n, s) ∈ vocabulary e
    · obtain ⟨s, hs⟩ := hs
      exact ⟨s, n, (c19_round_trip e _ (List.Perm.refl _) n s hs).1, rfl, .inl hs⟩
    · have hn : n = 0 := by
        rcases h with h | h
        · exact h
        · exact absurd h hs
      refine ⟨[], n, (c19_undefined_value e _ (List.Perm.refl _) n (fun s h => hs ⟨s, h⟩)).1, rfl,
        .inr ⟨hn, ?_⟩⟩
      intro m hm
      exact ((vocabulary_facts e (mem_allEnums e)).2.2 _ hm).2.1 rfl
  | .bin, v, j, _, h, he => by
    simp only [Carriable, Val] at h
    obtain ⟨b, rfl⟩ := h
    simp only [enc, Option.some.injEq] at he
    subst he
    simp only [Says, settled]
    cases b with
    | none => exact .inl ⟨rfl, rfl⟩
    | some b => exact .inr ⟨_, b, (c26_standard_base64 b).1, rfl⟩
  | .time, v, j, _, h, he => by
    simp only [Carriable, Val] at h
    obtain ⟨t, rfl, h⟩ := h
    simp only [enc, Option.some.injEq] at he
    subst he
    have := c23_round_trip t h.1 (endOfYears_eq ▸ h.2)
    simp only [timestampMarshal] at this ⊢
    obtain ⟨x, h1, h2, h3, h4⟩ := ((c55_exact _ _).1 _).1 this
    simp only [Says, settled]
    exact ⟨_, _, x, h1, h2, h3, rfl, by rw [h4]⟩
  | .slice t, v, j, hs, h, he => by
    simp only [Carriable, Val] at h
    simp only [Ty.sane] at hs
    rcases h with rfl | ⟨l, rfl, h⟩
    · simp only [enc, Option.some.injEq] at he
      subst he
      simp only [Says, settled]
      exact .inl ⟨trivial, trivial⟩
    · simp only [enc, Option.map_eq_some_iff] at he
      obtain ⟨js, h1, rfl⟩ := he
      simp only [Says, settled]
      refine .inr ⟨js, _, rfl, rfl, ?_⟩
      obtain ⟨js', g1, g2⟩ := allSome_forall₂ (f := enc F t)
        (R := fun x j => Says F t j (settled t x)) l (fun x hx => by
          obtain ⟨j, hj, _⟩ := codec_round_trip L t x hs (h x hx)
          exact ⟨j, hj, enc_says L t x j hs (h x hx) hj⟩)
      rw [h1] at g1
      obtain rfl := Option.some.inj g1
      rw [List.forall₂_map_right_iff]
      exact g2.flip
  | .map _ _ t, v, j, hs, h, he => by
    simp only [Carriable, Val] at h
    simp only [Ty.sane] at hs
    rcases h with rfl | ⟨m, rfl, hm, h⟩
    · simp only [enc, Option.some.injEq] at he
      subst he
      simp only [Says, settled]
      exact .inl ⟨trivial, trivial⟩
    · simp only [enc, Option.map_eq_some_iff] at he
      obtain ⟨js, h1, rfl⟩ := he
      simp only [Says, settled]
      exact .inr ⟨js, _, rfl, rfl, saysMap_of hm (fun e he => (h e he).1) h1
        (fun e he j hj => enc_says L t e.2 j hs (h e he).2 hj)⟩
  | .ptr t, v, j, hs, h, he => by
    have hrt := codec_round_trip L (.ptr t) v hs h
    simp only [Carriable, Val] at h
    simp only [Ty.sane, Bool.and_eq_true] at hs
    rcases h with rfl | ⟨x, rfl, h⟩
    · simp only [enc, Option.some.injEq] at he
      subst he
      simp only [Says, settled]
      exact .inl ⟨trivial, trivial⟩
    · obtain ⟨j', h1, h2⟩ := hrt
      rw [he] at h1
      obtain rfl := Option.some.inj h1
      simp only [enc] at he
      simp only [Says, settled] at h2 ⊢
      refine .inr ⟨_, ?_, rfl, enc_says L t x j hs.2 h he⟩
      rintro rfl
      simp [dec] at h2
  | .struct _ fs, v, j, hs, h, he => by
    simp only [Carriable, Val] at h
    simp only [Ty.sane, Bool.and_eq_true, decide_eq_true_eq] at hs
    obtain ⟨f, rfl, h⟩ := h
    rw [valFields_iff] at h
    simp only [enc, Option.map_eq_some_iff] at he
    obtain ⟨js, h1, rfl⟩ := he
    obtain ⟨g1, g2, g3, g4⟩ := encFields_says (F := F) hs.1.1 hs.1.2
      (fun r hr => codec_fields L fs hs.2 r hr (f r.name) (h r hr))
      (fun r hr j hj => enc_says_fields L fs hs.2 r hr _ j (h r hr) hj) h1
    simp only [Says, settled]
    exact ⟨js, _, rfl, rfl, g1, g2, g3, g4⟩
  | .dyn, v, j, _, h, he => by
    simp only [Carriable, Val] at h
    obtain ⟨d, rfl, h⟩ := h
    simp only [enc] at he
    simp only [Says, settled]
    exact ⟨d, rfl, encDyn_says L d j h he⟩
  | .ext ks, v, j, hs, h, he => by
    simp only [Carriable, Val] at h
    simp only [Ty.sane] at hs
    rcases h with rfl | ⟨m, rfl, hm, h⟩
    · simp only [enc, Option.some.injEq] at he
      subst he
      simp only [Says, settled]
      exact .inl ⟨trivial, trivial⟩
    · simp only [enc, Option.map_eq_some_iff] at he
      obtain ⟨js, h1, rfl⟩ := he
      simp only [Says, settled]
      exact .inr ⟨js, _, rfl, rfl, saysMap_of hm (fun e he => (h e he).1) h1
        (fun e he j hj => enc_says_exts L ks hs e.1 e.2 j (h e he).2 hj)⟩
  | .raw, v, j, _, h, he => by
    simp only [Carriable, Val] at h
    obtain ⟨j', rfl⟩ := h
    simp only [enc, Option.some.injEq] at he
    subst he
    simp only [Says, settled]

theorem enc_says_fields (L : FloatLaws F) : ∀ (fs : Fields), fs.sane = true → ∀ r ∈ fs.toList, ∀ v j,
    Carriable r.ty v → enc F r.ty v = some j → Says F r.ty j (settled r.ty v)
  | .nil, _, r, hr, _, _, _, _ => by simp [Fields.toList] at hr
  | .cons n k o t rest, hs, r, hr, v, j, h, he => by
    simp only [Fields.sane, Bool.and_eq_true] at hs
    simp only [Fields.toList, List.mem_cons] at hr
    rcases hr with rfl | hr
    · exact enc_says L t v j hs.1 h he
    · exact enc_says_fields L rest hs.2 r hr v j h he

theorem enc_says_exts (L : FloatLaws F) : ∀ (ks : Known), ks.sane = true → ∀ key v j,
    ValExt carriable ks key v → encExt F ks v = some j → SaysExt F ks key j (settledExt ks v)
  | .nil, _, key, v, j, h, he => by
    simp only [ValExt] at h
    rcases h with ⟨d, rfl, hc, h⟩ | ⟨h, _⟩
    · simp only [encExt] at he
      simp only [SaysExt, settledExt]
      exact ⟨d, rfl, hc, encDyn_says L d j h he⟩
    · simp [carriable] at h
  | .cons k nm fs rest, hs, key, v, j, h, he => by
    simp only [ValExt] at h
    simp only [Known.sane, Bool.and_eq_true, decide_eq_true_eq] at hs
    rcases h with ⟨hk, f, rfl, h⟩ | ⟨hk, hv, h⟩
    · rw [valFields_iff] at h
      simp only [encExt, if_true, Option.map_eq_some_iff] at he
      obtain ⟨js, h1, rfl⟩ := he
      obtain ⟨g1, g2, g3, g4⟩ := encFields_says (F := F) hs.1.1.1 hs.1.1.2
        (fun r hr => codec_fields L fs hs.1.2 r hr (f r.name) (h r hr))
        (fun r hr j hj => enc_says_fields L fs hs.1.2 r hr _ j (h r hr) hj) h1
      simp only [SaysExt, settledExt, if_true]
      exact .inl ⟨hk rfl, js, _, rfl, rfl, g1, g2, g3, g4⟩
    · have e1 : encExt F (.cons k nm fs rest) v = encExt F rest v := by
        by_cases hh : ∀ tag f, v ≠ .iface tag (.struct f)
        · rw [encExt]
          intro tag f e
          exact hh tag f e
        · push Not at hh
          obtain ⟨tag, f, rfl⟩ := hh
          rw [encExt, if_neg]
          rintro rfl
          exact hv _ rfl
      have e2 : settledExt (.cons k nm fs rest) v = settledExt rest v := by
        by_cases hh : ∀ tag f, v ≠ .iface tag (.struct f)
        · rw [settledExt_other hh, settledExt_other hh]
        · push Not at hh
          obtain ⟨tag, f, rfl⟩ := hh
          rw [settledExt, if_neg]
          rintro rfl
          exact hv _ rfl
      rw [e1] at he
      rw [e2]
      simp only [SaysExt]
      exact .inr ⟨hk rfl, enc_says_exts L rest hs.2 key v j h he⟩
end

/-! ### Numbers in range -/

theorem saysDyn_clean {d : Dyn} {j : Json} (h : SaysDyn F j d) : dynSoft F j = false := by
  simp [dynSoft, saysDyn_dec d j h]

theorem decimal_length {ds : List Nat} (hd : ∀ d ∈ ds, d ≤ 9) (hne : ds ≠ [])
    (h0 : ds.head? = some 0 → ds = [0]) (h : decimal ds < 10 ^ 19) : ds.length ≤ 19 := by
  cases ds with
  | nil => exact absurd rfl hne
  | cons a l =>
    by_cases ha : a = 0
    · subst ha
      simp [h0 rfl]
    · by_contra hl
      simp only [List.length_cons] at hl
      simp only [decimal] at h
      have h1 : 10 ^ 19 ≤ 10 ^ l.length := Nat.pow_le_pow_right (by norm_num) (by omega)
      have h2 : 10 ^ l.length ≤ a * 10 ^ l.length := Nat.le_mul_of_pos_left _ (by omega)
      omega

theorem integerText_clean (hI : IntegersParse F) {l : Str} {i : Int} (h : DecimalText l i)
    (h1 : -2 ^ 63 ≤ i) (h2 : i < 2 ^ 63) : dynSoft F (.num l) = false := by
  obtain ⟨ds, hne, hd, h0, h⟩ := h
  have hlen : ds.length ≤ 19 := decimal_length hd hne h0 (by omega)
  have hp := hI (ds.map digit) (by simpa using hne) (by simpa using hlen) (isDigits hd)
  rcases h with ⟨rfl, -⟩ | ⟨rfl, -⟩
  · exact dynSoft_num _ hp.1
  · exact dynSoft_num _ hp.2

theorem saysMap_clean {R : Str → Json → GV → Prop} {ms : List (Str × Json)} {m : List (Str × GV)}
    (h : SaysMap R ms m) (hR : ∀ k j v, R k j v → dynSoft F j = false) : dynSoft F (.obj ms) = false := by
  obtain ⟨_, _, hk, hv⟩ := h
  rw [dynSoft_obj, List.any_eq_false]
  rintro ⟨k, j⟩ he
  obtain ⟨⟨k', v⟩, hm, e⟩ := List.mem_map.1 ((hk k).1 (List.mem_map_of_mem he))
  simp only at e
  subst e
  simp [hR _ j v (hv _ j v he hm)]

theorem saysMembers_clean {fs : Fields} {ms : List (Str × Json)} {f : Str → GV}
    (hn : (amKeys ms).Nodup) (hk : ∀ k ∈ amKeys ms, ∃ r ∈ fs.toList, r.key = k)
    (h : SaysFields F fs ms f)
    (hR : ∀ r ∈ fs.toList, ∀ j v, Says F r.ty j v → dynSoft F j = false) :
    dynSoft F (.obj ms) = false := by
  rw [dynSoft_obj, List.any_eq_false]
  rintro ⟨k, j⟩ he
  obtain ⟨r, hr, rfl⟩ := hk k (List.mem_map_of_mem he)
  rcases (saysFields_iff F fs ms f).1 h r hr with ⟨j', h1, h2⟩ | ⟨h1, _⟩
  · have a := amLookup_eq_some_of_mem _ _ _ hn he
    have b := amLookup_eq_some_of_mem _ _ _ hn h1
    rw [a] at b
    obtain rfl := Option.some.inj b
    simp [hR r hr _ _ h2]
  · exact absurd (List.mem_map_of_mem he) h1

mutual
theorem says_clean (hI : IntegersParse F) : ∀ (t : Ty) (j : Json) (v : GV), t.noRaw = true →
    Says F t j v → dynSoft F j = false
  | .str _, j, v, _, h => by
    simp only [Says] at h; obtain ⟨raw, s, rfl, rfl⟩ := h; rfl
  | .bool, j, v, _, h => by
    simp only [Says] at h; obtain ⟨b, rfl, rfl⟩ := h; rfl
  | .int _, j, v, _, h => by
    simp only [Says] at h
    obtain ⟨l, i, rfl, rfl, h, h1, h2⟩ := h
    exact integerText_clean hI h h1 h2
  | .flt, j, v, _, h => by
    simp only [Says] at h
    obtain ⟨l, x, rfl, rfl, h⟩ := h
    exact dynSoft_num _ (by simp [h])
  | .enum e, j, v, _, h => by
    simp only [Says] at h; obtain ⟨s, n, rfl, -⟩ := h; rfl
  | .bin, j, v, _, h => by
    simp only [Says] at h
    rcases h with ⟨rfl, -⟩ | ⟨raw, b, rfl, -⟩ <;> rfl
  | .time, j, v, _, h => by
    simp only [Says] at h; obtain ⟨s, d, x, -, -, -, rfl, -⟩ := h; rfl
  | .slice t, j, v, hn, h => by
    simp only [Says] at h
    simp only [Ty.noRaw] at hn
    rcases h with ⟨rfl, -⟩ | ⟨js, l, rfl, rfl, h⟩
    · rfl
    · rw [dynSoft_arr, List.any_eq_false]
      intro x hx
      obtain ⟨a, ha, h2⟩ := forall₂_mem_right h.flip hx
      simp [says_clean hI t x a hn h2]
  | .map _ _ t, j, v, hn, h => by
    simp only [Says] at h
    simp only [Ty.noRaw] at hn
    rcases h with ⟨rfl, -⟩ | ⟨ms, m, rfl, rfl, h⟩
    · rfl
    · exact saysMap_clean h fun _ j v hv => says_clean hI t j v hn hv
  | .ptr t, j, v, hn, h => by
    simp only [Says] at h
    simp only [Ty.noRaw] at hn
    rcases h with ⟨rfl, -⟩ | ⟨x, _, rfl, h⟩
    · rfl
    · exact says_clean hI t j x hn h
  | .struct _ fs, j, v, hn, h => by
    simp only [Says] at h
    simp only [Ty.noRaw] at hn
    obtain ⟨ms, f, rfl, rfl, h1, h2, -, h4⟩ := h
    exact saysMembers_clean h1 h2 h4 fun r hr j v hv => says_clean_fields hI fs hn r hr j v hv
  | .dyn, j, v, _, h => by
    simp only [Says] at h
    obtain ⟨d, rfl, h⟩ := h
    exact saysDyn_clean h
  | .ext ks, j, v, hn, h => by
    simp only [Says] at h
    simp only [Ty.noRaw] at hn
    rcases h with ⟨rfl, -⟩ | ⟨ms, m, rfl, rfl, h⟩
    · rfl
    · exact saysMap_clean h fun k j v hv => says_clean_exts hI ks hn k j v hv
  | .raw, j, v, hn, _ => by simp [Ty.noRaw] at hn

theorem says_clean_fields (hI : IntegersParse F) : ∀ (fs : Fields), fs.noRaw = true →
    ∀ r ∈ fs.toList, ∀ j v, Says F r.ty j v → dynSoft F j = false
  | .nil, _, r, hr, _, _, _ => by simp [Fields.toList] at hr
  | .cons n k o t rest, hs, r, hr, j, v, h => by
    simp only [Fields.noRaw, Bool.and_eq_true] at hs
    simp only [Fields.toList, List.mem_cons] at hr
    rcases hr with rfl | hr
    · exact says_clean hI t j v hs.1 h
    · exact says_clean_fields hI rest hs.2 r hr j v h

theorem says_clean_exts (hI : IntegersParse F) : ∀ (ks : Known), ks.noRaw = true → ∀ key j v,
    SaysExt F ks key j v → dynSoft F j = false
  | .nil, _, key, j, v, h => by
    simp only [SaysExt] at h
    obtain ⟨d, rfl, -, h⟩ := h
    exact saysDyn_clean h
  | .cons k nm fs rest, hn, key, j, v, h => by
    simp only [SaysExt] at h
    simp only [Known.noRaw, Bool.and_eq_true] at hn
    rcases h with ⟨rfl, ms, f, rfl, rfl, h1, h2, -, h4⟩ | ⟨-, h⟩
    · exact saysMembers_clean h1 h2 h4 fun r hr j v hv => says_clean_fields hI fs hn.1 r hr j v hv
    · exact says_clean_exts hI rest hn.2 key j v h
end

end Stix
