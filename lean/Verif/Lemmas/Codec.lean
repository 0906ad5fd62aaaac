import Mathlib.Data.List.Forall2
import Verif.Lemmas.Leaf

/-!
# Encoding and decoding are inverse to each other

`codec_round_trip`: a carriable value of any type of the tables is written, and read back as
what it settles to.
-/

namespace Stix
open Spec Spec.Canon Canon

variable {F : FloatFmt}

theorem D.bind_ok {α β} (a : α) (f : α → D β) {b : β} {s : Bool} (h : f a = .ok b s) :
    (D.ok a false).bind f = .ok b s := by simp [D.bind, h]

/-! ### `interface{}` -/

mutual
theorem dyn_round_trip (L : FloatLaws F) : ∀ d : Dyn, DynAll true Unicode F64Finite d →
    ∃ j, encDyn F d = some j ∧ decDyn F j = .ok d false
  | .nil, _ => ⟨.null, by simp only [encDyn], by simp only [decDyn]⟩
  | .bool b, _ => ⟨.bool b, by simp only [encDyn], by simp only [decDyn]⟩
  | .num f, h => by
    simp only [DynAll] at h
    refine ⟨.num (floatLit F f), by simp only [encDyn, (finite_iff f).2 h, if_true], ?_⟩
    simp only [decDyn, parse_floatLit L h]
  | .int i, h => by simp [DynAll] at h
  | .str s, h => by
    simp only [DynAll] at h
    refine ⟨.ofStr s, by simp only [encDyn], ?_⟩
    simp only [Json.ofStr, decDyn, sanitize_unicode h]
  | .strs l, h => by simp [DynAll] at h
  | .arr l, h => by
    simp only [DynAll] at h
    obtain ⟨js, h1, h2⟩ := dynArr_round_trip L l h
    refine ⟨.arr js, by simp only [encDyn, h1, Option.map_some], ?_⟩
    simp [decDyn, h2, D.bind]
  | .obj m, h => by
    simp only [DynAll] at h
    obtain ⟨js, h1, h2⟩ := dynObj_round_trip L m h.2
    refine ⟨.obj js, by simp only [encDyn, h1, Option.map_some], ?_⟩
    simp [decDyn, h2 [] h.1, D.bind]

theorem dynArr_round_trip (L : FloatLaws F) : ∀ l : List Dyn, DynAllList true Unicode F64Finite l →
    ∃ js, encDynArr F l = some js ∧ decDynArr F js = .ok l false
  | [], _ => ⟨[], by simp only [encDynArr], by simp only [decDynArr]⟩
  | d :: l, h => by
    simp only [DynAllList] at h
    obtain ⟨j, h1, h2⟩ := dyn_round_trip L d h.1
    obtain ⟨js, h3, h4⟩ := dynArr_round_trip L l h.2
    refine ⟨j :: js, by simp only [encDynArr, h1, h3], ?_⟩
    simp [decDynArr, h2, h4, D.bind]

theorem dynObj_round_trip (L : FloatLaws F) : ∀ m : List (Str × Dyn),
    DynAllEntries true Unicode F64Finite m → ∃ js, encDynObj F m = some js ∧
      ∀ acc, SortedKeys (acc ++ m) → decDynObj F acc js = .ok (acc ++ m) false
  | [], _ => ⟨[], by simp only [encDynObj], by intro acc _; simp only [decDynObj, List.append_nil]⟩
  | (k, d) :: m, h => by
    simp only [DynAllEntries] at h
    obtain ⟨j, h1, h2⟩ := dyn_round_trip L d h.1.2
    obtain ⟨js, h3, h4⟩ := dynObj_round_trip L m h.2
    refine ⟨(k, j) :: js, by simp only [encDynObj, h1, h3, sanitize_unicode h.1.1], ?_⟩
    intro acc hs
    have hi : smInsert k d acc = acc ++ [(k, d)] := smInsert_last (by
      intro e he
      have := (List.pairwise_append.1 hs).2.2 e he (k, d) (by simp)
      exact this)
    have := h4 (acc ++ [(k, d)]) (by simpa using hs)
    simp only [decDynObj, h2, D.bind, hi, this]
    simp
end

/-! ### Lists and maps -/

theorem allSome_forall₂ {α β} {f : α → Option β} {R : α → β → Prop} : ∀ (l : List α),
    (∀ a ∈ l, ∃ b, f a = some b ∧ R a b) → ∃ bs, allSome f l = some bs ∧ List.Forall₂ R l bs
  | [], _ => ⟨[], rfl, .nil⟩
  | a :: l, h => by
    obtain ⟨b, h1, h2⟩ := h a (by simp)
    obtain ⟨bs, h3, h4⟩ := allSome_forall₂ l (fun x hx => h x (List.mem_cons_of_mem _ hx))
    exact ⟨b :: bs, by simp only [allSome, h1, h3], .cons h2 h4⟩

theorem encEntries_forall₂ {α} {f : α → Option Json} {R : Str × α → Json → Prop} :
    ∀ (l : List (Str × α)), (∀ e ∈ l, sanitize e.1 = e.1 ∧ ∃ j, f e.2 = some j ∧ R e j) →
    ∃ js, encEntries f l = some js ∧ List.Forall₂ (fun e x => x.1 = e.1 ∧ R e x.2) l js
  | [], _ => ⟨[], rfl, .nil⟩
  | (k, a) :: l, h => by
    obtain ⟨h0, j, h1, h2⟩ := h (k, a) (by simp)
    obtain ⟨js, h3, h4⟩ := encEntries_forall₂ l (fun x hx => h x (List.mem_cons_of_mem _ hx))
    exact ⟨(k, j) :: js, by simp only [encEntries, h1, h3]; rw [h0], .cons ⟨rfl, h2⟩ h4⟩

theorem decElems_forall₂ {d : GV → Json → D GV} {z : GV} {s : GV → GV} {l : List GV} {js : List Json}
    (h : List.Forall₂ (fun x j => d z j = .ok (s x) false) l js) :
    decElems d z [] js = .ok (l.map s) false := by
  induction h with
  | nil => rfl
  | cons h1 _ ih =>
    simp only [decElems, List.headD_nil, h1, D.bind, List.tail_nil, ih]
    rfl

theorem decEntries_forall₂ {d : Json → D GV} {s : GV → GV} {l : List (Str × GV)} {js : List (Str × Json)}
    (h : List.Forall₂ (fun e x => x.1 = e.1 ∧ d x.2 = .ok (s e.2) false) l js) :
    ∀ acc, SortedKeys (acc ++ l) → decEntries d (acc.map fun e => (e.1, s e.2)) js =
      .ok ((acc ++ l).map fun e => (e.1, s e.2)) false := by
  induction h with
  | nil => intro acc _; simp [decEntries]
  | @cons e x l js h1 _ ih =>
    intro acc hs
    obtain ⟨k, v⟩ := e
    obtain ⟨k', j⟩ := x
    obtain ⟨rfl, h1⟩ := h1
    simp only [decEntries, h1, D.bind]
    have hi : smInsert k' (s v) (acc.map fun e => (e.1, s e.2)) =
        (acc ++ [(k', v)]).map fun e => (e.1, s e.2) := by
      rw [smInsert_last]
      · simp
      · intro e he
        obtain ⟨e', he', rfl⟩ := List.mem_map.1 he
        exact (List.pairwise_append.1 hs).2.2 e' he' (k', v) (by simp)
    have := ih (acc ++ [(k', v)]) (by simpa using hs)
    rw [hi, this]
    simp

theorem forall₂_keys {α} {l : List (Str × α)} {js : List (Str × Json)} {R : Str × α → Json → Prop}
    (h : List.Forall₂ (fun e x => x.1 = e.1 ∧ R e x.2) l js) (hs : SortedKeys l) : SortedKeys js := by
  have hk : js.map Prod.fst = l.map Prod.fst := by
    clear hs
    induction h with
    | nil => rfl
    | cons h1 _ ih => simp [h1.1, ih]
  have h1 : (l.map Prod.fst).Pairwise (fun a b => strLt a b = true) := List.pairwise_map.2 hs
  rw [← hk] at h1
  exact List.pairwise_map.1 h1

theorem decExts_forall₂ {d : Str → Json → D GV} {s : GV → GV} {l : List (Str × GV)}
    {js : List (Str × Json)}
    (h : List.Forall₂ (fun e x => x.1 = e.1 ∧ d e.1 x.2 = .ok (s e.2) false) l js) :
    decExts d js = .ok (l.map fun e => (e.1, s e.2)) false := by
  induction h with
  | nil => rfl
  | @cons e x l js h1 _ ih =>
    obtain ⟨k, v⟩ := e
    obtain ⟨k', j⟩ := x
    obtain ⟨rfl, h1⟩ := h1
    simp only at h1
    simp only [decExts, h1, ih, List.map_cons]

/-! ### Structs -/

theorem matchKey_mem {fs : List FieldInfo} {k : Str} {f : FieldInfo} (h : matchKey fs k = some f) :
    f ∈ fs := by
  unfold matchKey at h
  cases h1 : fs.find? (fun f => f.key == k) with
  | some g =>
    rw [h1] at h
    simp only [Option.orElse, Option.some.injEq] at h
    subst h
    exact List.mem_of_find?_eq_some h1
  | none =>
    rw [h1] at h
    exact List.mem_of_find?_eq_some h

theorem matchKey_self {fs : List FieldInfo} (hk : (fs.map FieldInfo.key).Nodup) {f : FieldInfo}
    (hf : f ∈ fs) : matchKey fs f.key = some f := by
  have : fs.find? (fun g => g.key == f.key) = some f := by
    induction fs with
    | nil => simp at hf
    | cons g fs ih =>
      simp only [List.map_cons, List.nodup_cons] at hk
      rcases List.mem_cons.1 hf with rfl | hf
      · simp
      · have hne : g.key ≠ f.key := fun e => hk.1 (by rw [e]; exact List.mem_map_of_mem hf)
        rw [List.find?_cons_of_neg (by simpa using hne)]
        exact ih hk.2 hf
  simp [matchKey, this]

theorem inj_of_nodup {α β} {f : α → β} {l : List α} (h : (l.map f).Nodup) {a b : α} (ha : a ∈ l)
    (hb : b ∈ l) (e : f a = f b) : a = b :=
  List.inj_on_of_nodup_map h ha hb e

/-- Reading an object into a struct, member by member, when every member that belongs to a field
is spelled like it, occurs once and is accepted. -/
theorem decStruct_spec {fs : List FieldInfo} {d : Str → GV → Json → D GV}
    (hn : (fs.map FieldInfo.name).Nodup) (hk : (fs.map FieldInfo.key).Nodup) :
    ∀ (ms : List (Str × Json)) (cur : Str → GV), (amKeys ms).Nodup →
    (∀ k j, (k, j) ∈ ms → ∀ f, matchKey fs k = some f → f.key = k ∧
      ∃ v, d f.name (cur f.name) j = .ok v false) →
    ∃ g, decStruct fs d cur ms = .ok g false ∧
      (∀ f ∈ fs, ∀ j, (f.key, j) ∈ ms → d f.name (cur f.name) j = .ok (g f.name) false) ∧
      (∀ x, (∀ f ∈ fs, f.name = x → ∀ j, (f.key, j) ∉ ms) → g x = cur x) := by
  intro ms
  induction ms with
  | nil => intro cur _ _; exact ⟨cur, rfl, by simp, by simp⟩
  | cons e ms ih =>
    obtain ⟨k, j⟩ := e
    intro cur hnd h
    simp only [amKeys, List.map_cons, List.nodup_cons] at hnd
    have hnot : ∀ j', (k, j') ∉ ms := fun j' hj' => hnd.1 (List.mem_map.2 ⟨_, hj', rfl⟩)
    simp only [decStruct]
    cases hm : matchKey fs k with
    | none =>
      obtain ⟨g, h1, h2, h3⟩ := ih cur hnd.2 (fun k' j' hj' => h k' j' (List.mem_cons_of_mem _ hj'))
      have hno : ∀ f ∈ fs, f.key ≠ k := by
        intro f hf he
        rw [← he, matchKey_self hk hf] at hm
        simp at hm
      refine ⟨g, h1, ?_, ?_⟩
      · intro f hf j' hj'
        rcases List.mem_cons.1 hj' with hj' | hj'
        · simp only [Prod.mk.injEq] at hj'; exact absurd hj'.1 (hno f hf)
        · exact h2 f hf j' hj'
      · intro x hx
        exact h3 x (fun f hf hfx j' hj' => hx f hf hfx j' (List.mem_cons_of_mem _ hj'))
    | some f =>
      obtain ⟨hfk, v, hv⟩ := h k j (by simp) f hm
      have hf := matchKey_mem hm
      have hcur : ∀ f' ∈ fs, f'.key ≠ k → (if f'.name = f.name then v else cur f'.name) = cur f'.name := by
        intro f' hf' hne
        rw [if_neg]
        intro e
        have := inj_of_nodup hn hf' hf e
        subst this
        exact hne hfk
      obtain ⟨g, h1, h2, h3⟩ := ih (fun x => if x = f.name then v else cur x) hnd.2 (by
        intro k' j' hj' f' hm'
        obtain ⟨a, b⟩ := h k' j' (List.mem_cons_of_mem _ hj') f' hm'
        refine ⟨a, ?_⟩
        have hne : f'.key ≠ k := by
          rw [a]; rintro rfl; exact hnot _ hj'
        simp only [hcur f' (matchKey_mem hm') hne]
        exact b)
      have hgf : g f.name = v := by
        rw [h3 f.name (by
          intro f' hf' e j' hj'
          have := inj_of_nodup hn hf' hf e
          subst this
          rw [hfk] at hj'
          exact hnot _ hj')]
        simp
      refine ⟨g, ?_, ?_, ?_⟩
      · simp [hv, D.bind, h1]
      · intro f' hf' j' hj'
        rcases List.mem_cons.1 hj' with hj' | hj'
        · simp only [Prod.mk.injEq] at hj'
          have := inj_of_nodup hk hf' hf (hj'.1.trans hfk.symm)
          subst this
          rw [hgf, hj'.2, hv]
        · have hne : f'.key ≠ k := fun e => hnot j' (e ▸ hj')
          have := h2 f' hf' j' hj'
          simp only [hcur f' hf' hne] at this
          exact this
      · intro x hx
        rw [h3 x (fun f' hf' hfx j' hj' => hx f' hf' hfx j' (List.mem_cons_of_mem _ hj'))]
        rw [if_neg]
        rintro rfl
        exact hx f hf rfl j (by rw [hfk]; simp)

/-! ### The rows of a table -/

theorem decField_row {fs : Fields} (hn : (fs.toList.map FieldInfo.name).Nodup) {r : FieldInfo}
    (hr : r ∈ fs.toList) (cur : GV) (j : Json) : decField F fs r.name cur j = dec F r.ty cur j := by
  match fs with
  | .nil => simp [Fields.toList] at hr
  | .cons n k o t rest =>
    simp only [Fields.toList, List.map_cons, List.nodup_cons] at hn
    simp only [Fields.toList, List.mem_cons] at hr
    rcases hr with rfl | hr
    · simp only [decField, if_true]
    · have : r.name ≠ n := fun e => hn.1 (by rw [← e]; exact List.mem_map_of_mem hr)
      simp only [decField, this, if_false]
      exact decField_row hn.2 hr cur j

theorem zeroFields_row {fs : Fields} (hn : (fs.toList.map FieldInfo.name).Nodup) {r : FieldInfo}
    (hr : r ∈ fs.toList) : zeroFields fs r.name = zero r.ty := by
  match fs with
  | .nil => simp [Fields.toList] at hr
  | .cons n k o t rest =>
    simp only [Fields.toList, List.map_cons, List.nodup_cons] at hn
    simp only [Fields.toList, List.mem_cons] at hr
    rcases hr with rfl | hr
    · simp only [zeroFields, if_true]
    · have : r.name ≠ n := fun e => hn.1 (by rw [← e]; exact List.mem_map_of_mem hr)
      simp only [zeroFields, this, if_false]
      exact zeroFields_row hn.2 hr

theorem zeroFields_other {fs : Fields} {x : Str} (h : ∀ r ∈ fs.toList, r.name ≠ x) :
    zeroFields fs x = default := by
  match fs with
  | .nil => rfl
  | .cons n k o t rest =>
    simp only [Fields.toList, List.mem_cons, forall_eq_or_imp] at h
    simp only [zeroFields, Ne.symm h.1, if_false]
    exact zeroFields_other h.2

theorem settledFields_row {fs : Fields} (hn : (fs.toList.map FieldInfo.name).Nodup) {r : FieldInfo}
    (hr : r ∈ fs.toList) (f : Str → GV) : settledFields fs f r.name =
      if r.omitE && Blank (f r.name) then zero r.ty else settled r.ty (f r.name) := by
  match fs with
  | .nil => simp [Fields.toList] at hr
  | .cons n k o t rest =>
    simp only [Fields.toList, List.map_cons, List.nodup_cons] at hn
    simp only [Fields.toList, List.mem_cons] at hr
    rcases hr with rfl | hr
    · simp only [settledFields, if_true]
    · have : r.name ≠ n := fun e => hn.1 (by rw [← e]; exact List.mem_map_of_mem hr)
      simp only [settledFields, this, if_false]
      exact settledFields_row hn.2 hr f

theorem settledFields_other {fs : Fields} {x : Str} (h : ∀ r ∈ fs.toList, r.name ≠ x) (f : Str → GV) :
    settledFields fs f x = default := by
  match fs with
  | .nil => rfl
  | .cons n k o t rest =>
    simp only [Fields.toList, List.mem_cons, forall_eq_or_imp] at h
    simp only [settledFields, Ne.symm h.1, if_false]
    exact settledFields_other h.2 f

theorem valFields_iff (P : Leaves) : ∀ (fs : Fields) (f : Str → GV),
    ValFields P fs f ↔ ∀ r ∈ fs.toList, Val P r.ty (f r.name)
  | .nil, f => by simp [ValFields, Fields.toList]
  | .cons n k o t rest, f => by
    simp only [ValFields, Fields.toList, List.mem_cons, forall_eq_or_imp, valFields_iff P rest f]

/-- The members a struct is written as. -/
theorem encFields_spec : ∀ (fs : Fields) (f : Str → GV),
    (∀ r ∈ fs.toList, (r.omitE && isEmptyValue (f r.name)) = false → ∃ j, enc F r.ty (f r.name) = some j) →
    ∃ js, encFields F fs f = some js ∧ (amKeys js).Sublist (fs.toList.map FieldInfo.key) ∧
      ∀ k j, (k, j) ∈ js ↔ ∃ r ∈ fs.toList, r.key = k ∧ (r.omitE && isEmptyValue (f r.name)) = false ∧
        enc F r.ty (f r.name) = some j
  | .nil, f, _ => ⟨[], by simp only [encFields], by simp [amKeys], by simp [Fields.toList]⟩
  | .cons n k o t rest, f, h => by
    simp only [Fields.toList, List.mem_cons, forall_eq_or_imp] at h
    obtain ⟨js, h1, h2, h3⟩ := encFields_spec rest f h.2
    cases ho : o && isEmptyValue (f n) with
    | true =>
      refine ⟨js, by simp only [encFields, ho, if_true, h1], ?_, ?_⟩
      · simp only [Fields.toList, List.map_cons]
        exact h2.cons _
      · intro k' j'
        simp only [Fields.toList, List.mem_cons, exists_eq_or_imp, ho, Bool.true_eq_false, false_and,
          and_false, false_or]
        exact h3 k' j'
    | false =>
      obtain ⟨j, hj⟩ := h.1 ho
      refine ⟨(k, j) :: js, by simp [encFields, ho, hj, h1], ?_, ?_⟩
      · simp only [Fields.toList, List.map_cons, amKeys]
        exact h2.cons_cons _
      · intro k' j'
        simp only [Fields.toList, List.mem_cons, exists_eq_or_imp, ho, true_and, Prod.mk.injEq, h3, hj,
          Option.some.injEq]
        constructor
        · rintro (⟨rfl, rfl⟩ | h)
          · exact Or.inl ⟨rfl, rfl⟩
          · exact Or.inr h
        · rintro (⟨rfl, rfl⟩ | h)
          · exact Or.inl ⟨rfl, rfl⟩
          · exact Or.inr h

/-- The value is written, and read back as what it settles to. -/
def RoundTrip (F : FloatFmt) (t : Ty) (v : GV) : Prop :=
  ∃ j, enc F t v = some j ∧ dec F t (zero t) j = .ok (settled t v) false

theorem struct_round_trip {fs : Fields} (hn : (fs.toList.map FieldInfo.name).Nodup)
    (hk : (fs.toList.map FieldInfo.key).Nodup) {f : Str → GV}
    (h : ∀ r ∈ fs.toList, RoundTrip F r.ty (f r.name)) :
    ∃ js, encFields F fs f = some js ∧
      decStruct fs.toList (decField F fs) (zeroFields fs) js = .ok (settledFields fs f) false := by
  obtain ⟨js, h1, h2, h3⟩ := encFields_spec (F := F) fs f (fun r hr _ => by
    obtain ⟨j, hj, _⟩ := h r hr; exact ⟨j, hj⟩)
  refine ⟨js, h1, ?_⟩
  have hrow : ∀ r ∈ fs.toList, ∀ j, (r.key, j) ∈ js → (r.omitE && Blank (f r.name)) = false ∧
      decField F fs r.name (zeroFields fs r.name) j = .ok (settled r.ty (f r.name)) false := by
    intro r hr j hj
    obtain ⟨r', hr', e, ho, hj'⟩ := (h3 _ _).1 hj
    have := inj_of_nodup hk hr' hr e
    subst this
    obtain ⟨j'', hj'', hd⟩ := h r' hr
    rw [hj'] at hj''
    simp only [Option.some.injEq] at hj''
    subst hj''
    rw [isEmptyValue_eq] at ho
    exact ⟨ho, by rw [decField_row hn hr, zeroFields_row hn hr, hd]⟩
  obtain ⟨g, g1, g2, g3⟩ := decStruct_spec (d := decField F fs) hn hk js (zeroFields fs)
    (h2.nodup hk) (by
      intro k j hj r hm
      obtain ⟨r', hr', e, _, _⟩ := (h3 _ _).1 hj
      rw [← e, matchKey_self hk hr'] at hm
      simp only [Option.some.injEq] at hm
      subst hm
      refine ⟨e, _, (hrow r' hr' j (by rw [e]; exact hj)).2⟩)
  rw [g1]
  congr 1
  funext x
  by_cases hx : ∃ r ∈ fs.toList, r.name = x
  · obtain ⟨r, hr, rfl⟩ := hx
    rw [settledFields_row hn hr]
    cases ho : r.omitE && Blank (f r.name) with
    | true =>
      simp only [if_true]
      rw [g3, zeroFields_row hn hr]
      intro r' hr' e j hj
      have := inj_of_nodup hn hr' hr e
      subst this
      rw [(hrow r' hr' j hj).1] at ho
      simp at ho
    | false =>
      obtain ⟨j, hj, _⟩ := h r hr
      have hmem : (r.key, j) ∈ js := (h3 _ _).2 ⟨r, hr, rfl, by rw [isEmptyValue_eq]; exact ho, hj⟩
      have a := g2 r hr j hmem
      rw [(hrow r hr j hmem).2] at a
      simp only [D.ok.injEq, and_true] at a
      simp [a]
  · have hx' : ∀ r ∈ fs.toList, r.name ≠ x := fun r hr e => hx ⟨r, hr, e⟩
    rw [settledFields_other hx', g3 x (fun r hr e => absurd e (hx' r hr)), zeroFields_other hx']

/-! ### All types -/

mutual
/-- What the tables have in common: distinct names and JSON names in a struct, pointers only to
structs and times. -/
def Ty.sane : Ty → Bool
  | .slice t => t.sane
  | .map _ _ t => t.sane
  | .ptr t => (match t with
    | .struct _ _ => true
    | .time => true
    | _ => false) && t.sane
  | .struct _ fs => decide (fs.toList.map FieldInfo.name).Nodup && decide (fs.toList.map FieldInfo.key).Nodup &&
      fs.sane
  | .ext ks => ks.sane
  | _ => true

/-- Of every field. -/
def Fields.sane : Fields → Bool
  | .nil => true
  | .cons _ _ _ t rest => t.sane && rest.sane

/-- Of every extension struct. -/
def Known.sane : Known → Bool
  | .nil => true
  | .cons _ _ fs rest => decide (fs.toList.map FieldInfo.name).Nodup &&
      decide (fs.toList.map FieldInfo.key).Nodup && fs.sane && rest.sane
end

theorem settledExt_other {ks : Known} {v : GV} (h : ∀ tag f, v ≠ .iface tag (.struct f)) :
    settledExt ks v = v := by
  cases ks with
  | nil => simp only [settledExt]
  | cons k n fs rest =>
    unfold settledExt
    split
    · next tag f => exact absurd rfl (h tag f)
    · rfl

mutual
/-- Writing and reading a carriable value of any sane type gives what it settles to. -/
theorem codec_round_trip (L : FloatLaws F) : ∀ (t : Ty) (v : GV), t.sane = true → Carriable t v →
    RoundTrip F t v
  | .str _, v, _, h => by
    simp only [Carriable, Val] at h
    obtain ⟨s, rfl, h⟩ := h
    exact ⟨.ofStr s, by simp only [enc], by simp only [Json.ofStr, dec, settled, sanitize_unicode h]⟩
  | .bool, v, _, h => by
    simp only [Carriable, Val] at h
    obtain ⟨s, rfl⟩ := h
    exact ⟨.bool s, by simp only [enc], by simp only [dec, settled]⟩
  | .int _, v, _, h => by
    simp only [Carriable, Val] at h
    obtain ⟨i, rfl, h⟩ := h
    exact ⟨.num (intLit i), by simp only [enc], by simp only [dec, settled, parseInt64_intLit i h]⟩
  | .flt, v, _, h => by
    simp only [Carriable, Val] at h
    obtain ⟨f, rfl, h⟩ := h
    exact ⟨.num (floatLit F f), by simp only [enc, (finite_iff f).2 h, if_true],
      by simp only [dec, settled, parse_floatLit L h]⟩
  | .enum e, v, _, h => by
    simp only [Carriable, Val] at h
    obtain ⟨n, rfl, h⟩ := h
    exact ⟨enumMarshal e n, by simp only [enc], by simp [dec, settled, enum_round_trip e n h, D.ofRes, D.bind]⟩
  | .bin, v, _, h => by
    simp only [Carriable, Val] at h
    obtain ⟨b, rfl⟩ := h
    exact ⟨binaryMarshal b, by simp only [enc], by simp [dec, settled, c26_round_trip, D.ofRes, D.bind]⟩
  | .time, v, _, h => by
    simp only [Carriable, Val] at h
    obtain ⟨t, rfl, h⟩ := h
    have := c23_round_trip t h.1 (endOfYears_eq ▸ h.2)
    exact ⟨timestampMarshal t, by simp only [enc], by simp [dec, settled, this, D.ofRes, D.bind]⟩
  | .slice t, v, hs, h => by
    simp only [Carriable, Val] at h
    simp only [Ty.sane] at hs
    rcases h with rfl | ⟨l, rfl, h⟩
    · exact ⟨.null, by simp only [enc], by simp only [dec, settled]⟩
    · obtain ⟨js, h1, h2⟩ := allSome_forall₂ (f := enc F t)
        (R := fun x j => dec F t (zero t) j = .ok (settled t x) false) l
        (fun x hx => codec_round_trip L t x hs (h x hx))
      refine ⟨.arr js, by simp only [enc, h1, Option.map_some], ?_⟩
      simp [dec, zero, decElems_forall₂ h2, D.bind, settled]
  | .map _ _ t, v, hs, h => by
    simp only [Carriable, Val] at h
    simp only [Ty.sane] at hs
    rcases h with rfl | ⟨m, rfl, hm, h⟩
    · exact ⟨.null, by simp only [enc], by simp only [dec, settled]⟩
    · obtain ⟨js, h1, h2⟩ := encEntries_forall₂ (f := enc F t)
        (R := fun e j => dec F t (zero t) j = .ok (settled t e.2) false) m
        (fun e he => ⟨sanitize_unicode (h e he).1, codec_round_trip L t e.2 hs (h e he).2⟩)
      refine ⟨.obj js, by simp only [enc, h1, Option.map_some], ?_⟩
      have := decEntries_forall₂ h2 [] hm
      simp only [List.map_nil, List.nil_append] at this
      simp [dec, zero, this, D.bind, settled]
  | .ptr t, v, hs, h => by
    simp only [Carriable, Val] at h
    simp only [Ty.sane, Bool.and_eq_true] at hs
    rcases h with rfl | ⟨x, rfl, h⟩
    · exact ⟨.null, by simp only [enc], by simp only [dec, settled]⟩
    · obtain ⟨j, h1, h2⟩ := codec_round_trip L t x hs.2 h
      refine ⟨j, by simp only [enc, h1], ?_⟩
      have hj : j ≠ .null := by
        rintro rfl
        match t, hs.1, h, h1 with
        | .struct n fs, _, h, h1 =>
          simp only [Val] at h
          obtain ⟨f, rfl, _⟩ := h
          simp only [enc] at h1
          cases he : encFields F fs f <;> rw [he] at h1 <;> simp at h1
        | .time, _, h, h1 =>
          simp only [Val] at h
          obtain ⟨t, rfl, _⟩ := h
          simp [enc, timestampMarshal] at h1
      cases j with
      | null => exact absurd rfl hj
      | _ => simp [dec, zero, h2, D.bind, settled]
  | .struct _ fs, v, hs, h => by
    simp only [Carriable, Val] at h
    simp only [Ty.sane, Bool.and_eq_true, decide_eq_true_eq] at hs
    obtain ⟨f, rfl, h⟩ := h
    rw [valFields_iff] at h
    obtain ⟨js, h1, h2⟩ := struct_round_trip (F := F) hs.1.1 hs.1.2
      (fun r hr => codec_fields L fs hs.2 r hr (f r.name) (h r hr))
    exact ⟨.obj js, by simp only [enc, h1, Option.map_some], by simp [dec, zero, h2, D.bind, settled]⟩
  | .dyn, v, _, h => by
    simp only [Carriable, Val] at h
    obtain ⟨d, rfl, h⟩ := h
    obtain ⟨j, h1, h2⟩ := dyn_round_trip L d h
    refine ⟨j, by simp only [enc, h1], ?_⟩
    cases j with
    | num lit =>
      simp only [decDyn] at h2
      simp only [dec, settled]
      cases hp : F.parse lit with
      | none => rw [hp] at h2; simp at h2
      | some f => rw [hp] at h2; simp at h2; simp [h2]
    | _ => simp [dec, settled, h2, D.bind]
  | .ext ks, v, hs, h => by
    simp only [Carriable, Val] at h
    simp only [Ty.sane] at hs
    rcases h with rfl | ⟨m, rfl, hm, h⟩
    · exact ⟨.null, by simp only [enc], by simp only [dec, settled]⟩
    · obtain ⟨js, h1, h2⟩ := encEntries_forall₂ (f := encExt F ks)
        (R := fun e j => decExt F ks e.1 j = .ok (settledExt ks e.2) false) m
        (fun e he => ⟨sanitize_unicode (h e he).1, codec_exts L ks hs e.1 e.2 (h e he).2⟩)
      refine ⟨.obj js, by simp only [enc, h1, Option.map_some], ?_⟩
      simp [dec, smOfList_sorted (forall₂_keys (R := fun e j => decExt F ks e.1 j = .ok (settledExt ks e.2) false) h2 hm), decExts_forall₂ h2, D.bind, settled]
  | .raw, v, _, h => by
    simp only [Carriable, Val] at h
    obtain ⟨j, rfl⟩ := h
    exact ⟨j, by simp only [enc], by simp only [dec, settled]⟩

theorem codec_fields (L : FloatLaws F) : ∀ (fs : Fields), fs.sane = true → ∀ r ∈ fs.toList, ∀ v,
    Carriable r.ty v → RoundTrip F r.ty v
  | .nil, _, r, hr, _, _ => by simp [Fields.toList] at hr
  | .cons n k o t rest, hs, r, hr, v, h => by
    simp only [Fields.sane, Bool.and_eq_true] at hs
    simp only [Fields.toList, List.mem_cons] at hr
    rcases hr with rfl | hr
    · exact codec_round_trip L t v hs.1 h
    · exact codec_fields L rest hs.2 r hr v h

theorem codec_exts (L : FloatLaws F) : ∀ (ks : Known), ks.sane = true → ∀ key v,
    ValExt carriable ks key v → ∃ j, encExt F ks v = some j ∧
      decExt F ks key j = .ok (settledExt ks v) false
  | .nil, _, key, v, h => by
    simp only [ValExt] at h
    rcases h with ⟨d, rfl, hc, h⟩ | ⟨h, _⟩
    · obtain ⟨j, h1, h2⟩ := dyn_round_trip L d h
      refine ⟨j, by simp only [encExt, h1], ?_⟩
      rcases hc with rfl | ⟨m, rfl⟩
      · simp only [encDyn, Option.some.injEq] at h1
        subst h1
        simp [decExt, decCustom, D.bind, customExt, settledExt]
      · simp only [encDyn, Option.map_eq_some_iff] at h1
        obtain ⟨js, h3, rfl⟩ := h1
        simp only [decDyn] at h2
        cases hd : decDynObj F [] js with
        | ok a s =>
          rw [hd] at h2
          simp [D.bind] at h2
          simp [decExt, decCustom, D.bind, customExt, settledExt, hd, h2]
        | hard => rw [hd] at h2; simp [D.bind] at h2
        | panic => rw [hd] at h2; simp [D.bind] at h2
    · simp [carriable] at h
  | .cons k nm fs rest, hs, key, v, h => by
    simp only [ValExt] at h
    simp only [Known.sane, Bool.and_eq_true, decide_eq_true_eq] at hs
    rcases h with ⟨hk, f, rfl, h⟩ | ⟨hk, hv, h⟩
    · rw [valFields_iff] at h
      obtain ⟨js, h1, h2⟩ := struct_round_trip (F := F) hs.1.1.1 hs.1.1.2
        (fun r hr => codec_fields L fs hs.1.2 r hr (f r.name) (h r hr))
      refine ⟨.obj js, by simp [encExt, h1], ?_⟩
      simp [decExt, hk rfl, h2, D.bind, settledExt]
    · obtain ⟨j, h1, h2⟩ := codec_exts L rest hs.2 key v h
      have hne : key ≠ k := hk rfl
      have e1 : encExt F (.cons k nm fs rest) v = encExt F rest v := by
        by_cases hh : ∀ tag f, v ≠ .iface tag (.struct f)
        · rw [encExt]
          intro tag f e
          exact hh tag f e
        · push Not at hh
          obtain ⟨tag, f, rfl⟩ := hh
          rw [encExt, if_neg]
          rintro rfl
          exact hv _ rfl
      have e2 : settledExt (.cons k nm fs rest) v = settledExt rest v := by
        by_cases hh : ∀ tag f, v ≠ .iface tag (.struct f)
        · rw [settledExt_other hh, settledExt_other hh]
        · push Not at hh
          obtain ⟨tag, f, rfl⟩ := hh
          rw [settledExt]
          rw [if_neg]
          rintro rfl
          exact hv _ rfl
      refine ⟨j, by rw [e1, h1], ?_⟩
      simp only [decExt, hne, if_false, h2, e2]
end

end Stix
