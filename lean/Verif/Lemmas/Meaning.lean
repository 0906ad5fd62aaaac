import Verif.Lemmas.Means

/-!
# A value has one meaning
-/

namespace Stix
open Spec StixObject Stix.Canon Stix.Props.Canon

variable {F : Canon.FloatFmt}

theorem isText_one {j : Json} {s s' : Str} (h : IsText j s) (h' : IsText j s') : s = s' := by
  obtain ⟨raw, rfl⟩ := h
  obtain ⟨raw', e⟩ := h'
  cases e
  rfl

/-- Maps with the same keys, whose values are determined, are the same. -/
theorem entries_one {α} {m m' : List (Str × α)} (h : SortedKeys m) (h' : SortedKeys m')
    (hk : ∀ k, k ∈ amKeys m ↔ k ∈ amKeys m') (hv : ∀ k v v', (k, v) ∈ m → (k, v') ∈ m' → v = v') : m = m' := by
  refine sorted_ext h h' fun k => ?_
  cases e : amLookup k m with
  | none =>
    have := (amLookup_eq_none_iff k m).1 e
    rw [hk] at this
    exact ((amLookup_eq_none_iff k m').2 this).symm
  | some v =>
    cases e' : amLookup k m' with
    | none =>
      have := (amLookup_eq_none_iff k m').1 e'
      rw [← hk] at this
      rw [(amLookup_eq_none_iff k m).2 this] at e
      cases e
    | some v' => rw [hv k v v' (mem_of_amLookup _ _ _ e) (mem_of_amLookup _ _ _ e')]

theorem meansDynEntries_iff (ms : List (Str × Json)) (m : List (Str × Dyn)) : MeansDynEntries F ms m ↔
    ∀ e ∈ m, ∃ j, member e.1 ms = some j ∧ MeansDyn F j e.2 := by
  induction m with
  | nil => simp [MeansDynEntries]
  | cons e m ih => obtain ⟨k, d⟩ := e; simp only [MeansDynEntries, ih, List.mem_cons, forall_eq_or_imp]

mutual
/-- A value means one thing as an `interface{}`. -/
theorem meansDyn_one : ∀ (d : Dyn) (j : Json) (d' : Dyn), MeansDyn F j d → MeansDyn F j d' → d = d'
  | .nil, j, d', h, h' => by
    cases h
    cases d' with
    | nil => rfl
    | bool b => cases h'
    | num x => obtain ⟨_, e, _⟩ := h'; cases e
    | int x => exact h'.elim
    | strs x => exact h'.elim
    | str s => obtain ⟨_, e⟩ := h'; cases e
    | arr s => obtain ⟨_, e, _⟩ := h'; cases e
    | obj s => obtain ⟨_, e, _⟩ := h'; cases e
  | .bool b, j, d', h, h' => by
    cases h
    cases d' with
    | nil => cases h'
    | bool b => cases h'; rfl
    | num x => obtain ⟨_, e, _⟩ := h'; cases e
    | int x => exact h'.elim
    | strs x => exact h'.elim
    | str s => obtain ⟨_, e⟩ := h'; cases e
    | arr s => obtain ⟨_, e, _⟩ := h'; cases e
    | obj s => obtain ⟨_, e, _⟩ := h'; cases e
  | .num x, j, d', h, h' => by
    obtain ⟨l, rfl, hl⟩ := h
    cases d' with
    | nil => cases h'
    | bool b => cases h'
    | num x =>
      obtain ⟨_, e, h'⟩ := h'
      cases e
      rw [hl] at h'
      cases h'
      rfl
    | int x => exact h'.elim
    | strs x => exact h'.elim
    | str s => obtain ⟨_, e⟩ := h'; cases e
    | arr s => obtain ⟨_, e, _⟩ := h'; cases e
    | obj s => obtain ⟨_, e, _⟩ := h'; cases e
  | .int _, _, _, h, _ => h.elim
  | .strs _, _, _, h, _ => h.elim
  | .str s, j, d', h, h' => by
    obtain ⟨raw, rfl⟩ := h
    cases d' with
    | nil => cases h'
    | bool b => cases h'
    | num x => obtain ⟨_, e, _⟩ := h'; cases e
    | int x => exact h'.elim
    | strs x => exact h'.elim
    | str s => obtain ⟨_, e⟩ := h'; cases e; rfl
    | arr s => obtain ⟨_, e, _⟩ := h'; cases e
    | obj s => obtain ⟨_, e, _⟩ := h'; cases e
  | .arr ds, j, d', h, h' => by
    obtain ⟨l, rfl, hl⟩ := h
    cases d' with
    | nil => cases h'
    | bool b => cases h'
    | num x => obtain ⟨_, e, _⟩ := h'; cases e
    | int x => exact h'.elim
    | strs x => exact h'.elim
    | str s => obtain ⟨_, e⟩ := h'; cases e
    | arr s => obtain ⟨_, e, h'⟩ := h'; cases e; rw [meansDynList_one ds l s hl h']
    | obj s => obtain ⟨_, e, _⟩ := h'; cases e
  | .obj m, j, d', h, h' => by
    obtain ⟨ms, rfl, h1, h2, h3⟩ := h
    cases d' with
    | nil => cases h'
    | bool b => cases h'
    | num x => obtain ⟨_, e, _⟩ := h'; cases e
    | int x => exact h'.elim
    | strs x => exact h'.elim
    | str s => obtain ⟨_, e⟩ := h'; cases e
    | arr s => obtain ⟨_, e, _⟩ := h'; cases e
    | obj m' =>
      obtain ⟨_, e, g1, g2, g3⟩ := h'
      cases e
      have hone := meansDynEntries_one m ms h3
      rw [meansDynEntries_iff] at h3 g3
      have hkeys : ∀ {m : List (Str × Dyn)}, (∀ k ∈ amKeys ms, k ∈ amKeys m) →
          (∀ e ∈ m, ∃ j, member e.1 ms = some j ∧ MeansDyn F j e.2) → ∀ k, k ∈ amKeys m ↔ k ∈ amKeys ms := by
        intro m h2 h3 k
        refine ⟨fun hk => ?_, h2 k⟩
        obtain ⟨e, he, rfl⟩ := List.mem_map.1 hk
        obtain ⟨j, hj, -⟩ := h3 e he
        exact List.mem_map_of_mem (member_mem hj)
      rw [entries_one h1 g1 (fun k => (hkeys h2 h3 k).trans (hkeys g2 g3 k).symm)]
      intro k v v' hv hv'
      obtain ⟨j, hj, hm⟩ := g3 _ hv'
      exact hone _ hv j v' hj hm

theorem meansDynList_one : ∀ (ds : List Dyn) (l : List Json) (ds' : List Dyn), MeansDynList F l ds →
    MeansDynList F l ds' → ds = ds'
  | [], l, ds', h, h' => by
    cases h
    cases ds' with
    | nil => rfl
    | cons d ds' => obtain ⟨_, _, e, _⟩ := h'; cases e
  | d :: ds, l, ds', h, h' => by
    obtain ⟨j, js, rfl, h1, h2⟩ := h
    cases ds' with
    | nil => cases h'
    | cons d' ds' =>
      obtain ⟨_, _, e, g1, g2⟩ := h'
      cases e
      rw [meansDyn_one d j d' h1 g1, meansDynList_one ds js ds' h2 g2]

theorem meansDynEntries_one : ∀ (m : List (Str × Dyn)) (ms : List (Str × Json)), MeansDynEntries F ms m →
    ∀ e ∈ m, ∀ j d', member e.1 ms = some j → MeansDyn F j d' → e.2 = d'
  | [], _, _ => by simp
  | (k, d) :: m, ms, h => by
    intro e he j d' hj hd
    obtain ⟨⟨j', g1, g2⟩, h⟩ := h
    rcases List.mem_cons.1 he with rfl | he
    · rw [g1] at hj
      cases hj
      exact meansDyn_one d _ d' g2 hd
    · exact meansDynEntries_one m ms h e he j d' hj hd
end

/-! ### Leaves -/

theorem int64For_one {l : Str} {i i' : Int} (h : Int64For l i) (h' : Int64For l i') : i = i' := by
  obtain ⟨ds, h1, h2, h3, h4, h5⟩ := h
  obtain ⟨ds', g1, g2, g3, g4, g5⟩ := h'
  have e := parseInt64_digits h1 h2 h3 h4 h5
  rw [parseInt64_digits g1 g2 g3 g4 g5] at e
  cases e
  rfl

theorem byteFor_one {j : Json} {b b' : UInt8} (h : ByteFor j b) (h' : ByteFor j b') : b = b' := by
  rcases h with ⟨rfl, rfl⟩ | ⟨ds, h1, h2, h3, rfl⟩
  · rcases h' with ⟨-, rfl⟩ | ⟨_, _, _, _, e⟩
    · rfl
    · cases e
  · rcases h' with ⟨e, -⟩ | ⟨ds', g1, g2, g3, e⟩
    · cases e
    · simp only [Json.num.injEq] at e
      have hl : decimal ds = decimal ds' := by rw [← litVal_digits ds h2, e, litVal_digits ds' g2]
      apply UInt8.toNat_inj.1
      rw [← h3, ← g3, hl]

theorem nameFor_one {e : EnumId} {s : Str} {n n' : UInt8} (h : NameFor e s n) (h' : NameFor e s n') : n = n' := by
  rcases h with h | ⟨rfl, h⟩
  · rcases h' with h' | ⟨-, h'⟩
    · rw [← enumFind_name (List.Perm.refl _) h, ← enumFind_name (List.Perm.refl _) h']
    · exact absurd ⟨_, h⟩ h'
  · rcases h' with h' | ⟨rfl, -⟩
    · exact absurd ⟨_, h'⟩ h
    · rfl

theorem enumFor_one {e : EnumId} {j : Json} {n n' : UInt8} (h : EnumFor e j n) (h' : EnumFor e j n') : n = n' := by
  rcases h with ⟨raw, s, rfl, h⟩ | ⟨rfl, h⟩
  · rcases h' with ⟨_, _, e, h'⟩ | ⟨-, h'⟩
    · cases e; exact nameFor_one h h'
    · exact absurd rfl (h' raw s)
  · rcases h' with ⟨raw, s, e, -⟩ | ⟨rfl, -⟩
    · exact absurd e (h raw s)
    · rfl

theorem base64_one {s b b' : Str} (h : Base64Text s b) (h' : Base64Text s b') : b = b' := by
  have := (c26_reads_base64 [] s b).2 h
  rw [(c26_reads_base64 [] s b').2 h'] at this
  cases this
  rfl

theorem forall₂_one {α β} {R : α → β → Prop} : ∀ {l : List α} {bs bs' : List β},
    (∀ x ∈ l, ∀ b b', R x b → R x b' → b = b') → List.Forall₂ R l bs → List.Forall₂ R l bs' → bs = bs'
  | _, _, _, _, .nil, .nil => rfl
  | _, _, _, h, .cons h1 h2, .cons g1 g2 => by
    rw [h _ (by simp) _ _ h1 g1, forall₂_one (fun x hx => h x (by simp [hx])) h2 g2]

/-! ### All types -/

theorem unrepeatedElems_mem : ∀ {l : List Json}, UnrepeatedElems l → ∀ x ∈ l, Unrepeated x
  | [], _ => by simp
  | j :: l, h => by
    intro x hx
    rcases List.mem_cons.1 hx with rfl | hx
    · exact h.1
    · exact unrepeatedElems_mem h.2 x hx

theorem unrepeatedMembers_mem : ∀ {l : List (Str × Json)}, UnrepeatedMembers l → ∀ e ∈ l, Unrepeated e.2
  | [], _ => by simp
  | (k, j) :: l, h => by
    intro x hx
    rcases List.mem_cons.1 hx with rfl | hx
    · exact h.1
    · exact unrepeatedMembers_mem h.2 x hx

theorem valuesOf_unrepeated {k : Str} {ms : List (Str × Json)} (h : (ms.map fun e => foldName e.1).Nodup) :
    valuesOf k ms = [] ∨ ∃ j, valuesOf k ms = [j] := by
  have hnil : ∀ {ms : List (Str × Json)}, (∀ e ∈ ms, ¬ SameUpToCase e.1 k) → valuesOf k ms = [] := by
    intro ms
    induction ms with
    | nil => intro _; rfl
    | cons e ms ih =>
      obtain ⟨n, j⟩ := e
      intro h
      rw [valuesOf, if_neg (h (n, j) (by simp))]
      exact ih fun e he => h e (by simp [he])
  induction ms with
  | nil => exact .inl rfl
  | cons e ms ih =>
    obtain ⟨n, j⟩ := e
    simp only [List.map_cons, List.nodup_cons] at h
    rw [valuesOf]
    split
    · next hs =>
      refine .inr ⟨j, ?_⟩
      rw [hnil]
      intro e he hs'
      refine h.1 (List.mem_map.2 ⟨e, he, ?_⟩)
      have h1 : foldName e.1 = foldName k := hs'
      have h2 : foldName n = foldName k := hs
      rw [h1, h2]
    · exact ih h.2

theorem fields_one {fs : Fields} {ms : List (Str × Json)} {f f' : Str → GV} (hu : Unrepeated (.obj ms))
    (hrow : ∀ r ∈ fs.toList, ∀ j v v', Unrepeated j → Means F r.ty j v → Means F r.ty j v' → v = v')
    (h1 : ∀ x, (∀ r ∈ fs.toList, r.name ≠ x) → f x = default) (h2 : MeansFields F fs ms f)
    (g1 : ∀ x, (∀ r ∈ fs.toList, r.name ≠ x) → f' x = default) (g2 : MeansFields F fs ms f') : f = f' := by
  rw [meansFields_iff] at h2 g2
  funext x
  by_cases hx : ∃ r ∈ fs.toList, r.name = x
  · obtain ⟨r, hr, rfl⟩ := hx
    rcases valuesOf_unrepeated (k := r.key) hu.1 with hv | ⟨j, hv⟩
    · rw [(h2 r hr).1 hv, (g2 r hr).1 hv]
    · have hj : Unrepeated j := by
        obtain ⟨n, hn⟩ := mem_valuesOf (k := r.key) (ms := ms) (j := j) (by rw [hv]; simp)
        exact unrepeatedMembers_mem hu.2 _ hn
      exact hrow r hr j _ _ hj ((h2 r hr).2 j (by rw [hv]; exact .only)) ((g2 r hr).2 j (by rw [hv]; exact .only))
  · push Not at hx
    rw [h1 x hx, g1 x hx]

mutual
/-- A value without repeated members means one thing. -/
theorem means_one : ∀ (t : Ty) (j : Json) (v v' : GV), Unrepeated j → Means F t j v → Means F t j v' → v = v'
  | .str _, j, v, v', _, h, h' => by
    rcases h with ⟨rfl, rfl⟩ | ⟨s, ⟨raw, rfl⟩, rfl⟩
    · rcases h' with ⟨-, rfl⟩ | ⟨_, ⟨_, e⟩, _⟩
      · rfl
      · cases e
    · rcases h' with ⟨e, -⟩ | ⟨_, ⟨_, e⟩, rfl⟩ <;> cases e
      rfl
  | .bool, j, v, v', _, h, h' => by
    rcases h with ⟨rfl, rfl⟩ | ⟨s, rfl, rfl⟩
    · rcases h' with ⟨-, rfl⟩ | ⟨_, e, _⟩
      · rfl
      · cases e
    · rcases h' with ⟨e, -⟩ | ⟨_, e, rfl⟩ <;> cases e
      rfl
  | .int _, j, v, v', _, h, h' => by
    rcases h with ⟨rfl, rfl⟩ | ⟨l, i, rfl, rfl, h⟩
    · rcases h' with ⟨-, rfl⟩ | ⟨_, _, e, _⟩
      · rfl
      · cases e
    · rcases h' with ⟨e, -⟩ | ⟨_, _, e, rfl, h'⟩ <;> cases e
      rw [int64For_one h h']
  | .flt, j, v, v', _, h, h' => by
    rcases h with ⟨rfl, rfl⟩ | ⟨l, i, rfl, rfl, h⟩
    · rcases h' with ⟨-, rfl⟩ | ⟨_, _, e, _⟩
      · rfl
      · cases e
    · rcases h' with ⟨e, -⟩ | ⟨_, _, e, rfl, h'⟩ <;> cases e
      rw [h] at h'
      cases h'
      rfl
  | .enum e, j, v, v', _, h, h' => by
    obtain ⟨n, rfl, h⟩ := h
    obtain ⟨n', rfl, h'⟩ := h'
    rw [enumFor_one h h']
  | .bin, j, v, v', _, h, h' => by
    rcases h with ⟨rfl, rfl⟩ | ⟨s, b, ⟨raw, rfl⟩, rfl, h⟩ | ⟨l, b, rfl, rfl, h⟩
    · rcases h' with ⟨-, rfl⟩ | ⟨_, _, ⟨_, e⟩, _⟩ | ⟨_, _, e, _⟩
      · rfl
      · cases e
      · cases e
    · rcases h' with ⟨e, -⟩ | ⟨_, _, ⟨_, e⟩, rfl, h'⟩ | ⟨_, _, e, _⟩ <;> cases e
      rw [base64_one h h']
    · rcases h' with ⟨e, -⟩ | ⟨_, _, ⟨_, e⟩, _⟩ | ⟨_, _, e, rfl, h'⟩ <;> cases e
      rw [forall₂_one (R := ByteFor) (fun x _ b b' h h' => byteFor_one h h') h h']
  | .time, j, v, v', _, h, h' => by
    obtain ⟨raw, s, x, h1, h2, h3, rfl, rfl⟩ := h
    obtain ⟨_, _, x', g1, g2, g3, e, rfl⟩ := h'
    cases e
    have e := ((c55_exact raw s).1 _).2 ⟨x, h1, h2, h3, rfl⟩
    rw [((c55_exact raw s).1 _).2 ⟨x', g1, g2, g3, rfl⟩, Res.ok.injEq] at e
    rw [e]
  | .slice t, j, v, v', hu, h, h' => by
    rcases h with ⟨rfl, rfl⟩ | ⟨l, vs, rfl, rfl, h⟩ | ⟨s, b, ⟨raw, rfl⟩, he, h, rfl⟩
    · rcases h' with ⟨-, rfl⟩ | ⟨_, _, e, _⟩ | ⟨_, _, ⟨_, e⟩, _⟩
      · rfl
      · cases e
      · cases e
    · rcases h' with ⟨e, -⟩ | ⟨_, _, e, rfl, h'⟩ | ⟨_, _, ⟨_, e⟩, _⟩ <;> cases e
      rw [forall₂_one (fun x hx v v' => means_one t x v v' (unrepeatedElems_mem hu x hx)) h h']
    · rcases h' with ⟨e, -⟩ | ⟨_, _, e, _⟩ | ⟨_, _, ⟨_, e⟩, -, h', rfl⟩ <;> cases e
      rw [base64_one h h']
  | .map _ _ t, j, v, v', hu, h, h' => by
    rcases h with ⟨rfl, rfl⟩ | ⟨ms, m, rfl, rfl, h1, h2, h3⟩
    · rcases h' with ⟨-, rfl⟩ | ⟨_, _, e, _⟩
      · rfl
      · cases e
    · rcases h' with ⟨e, -⟩ | ⟨_, m', e, rfl, g1, g2, g3⟩ <;> cases e
      rw [entries_one h1 g1 fun k => (h2 k).symm.trans (g2 k)]
      intro k v v' hv hv'
      have hk := (h2 k).2 (List.mem_map_of_mem (f := Prod.fst) hv)
      cases hm : member k ms with
      | none => exact absurd hk ((member_none_iff _ _).1 hm)
      | some j => exact means_one t j v v' (unrepeatedMembers_mem hu.2 _ (member_mem hm)) (h3 k j v hm hv) (g3 k j v' hm hv')
  | .ptr t, j, v, v', hu, h, h' => by
    rcases h with ⟨rfl, rfl⟩ | ⟨x, hj, rfl, h⟩
    · rcases h' with ⟨-, rfl⟩ | ⟨_, e, _⟩
      · rfl
      · exact absurd rfl e
    · rcases h' with ⟨e, -⟩ | ⟨x', -, rfl, h'⟩
      · exact absurd e hj
      · rw [means_one t j x x' hu h h']
  | .struct n fs, j, v, v', hu, h, h' => by
    rcases h with ⟨rfl, rfl⟩ | ⟨ms, f, rfl, rfl, h1, h2⟩
    · rcases h' with ⟨-, rfl⟩ | ⟨_, _, e, _⟩
      · rfl
      · cases e
    · rcases h' with ⟨e, -⟩ | ⟨_, f', e, rfl, g1, g2⟩ <;> cases e
      rw [fields_one hu (fun r hr j v v' => meansRow_one fs r j v v' hr) h1 h2 g1 g2]
  | .dyn, j, v, v', _, h, h' => by
    obtain ⟨d, rfl, h⟩ := h
    obtain ⟨d', rfl, h'⟩ := h'
    rw [meansDyn_one d j d' h h']
  | .ext ks, j, v, v', hu, h, h' => by
    rcases h with ⟨rfl, rfl⟩ | ⟨ms, m, rfl, rfl, h1, h2, h3⟩
    · rcases h' with ⟨-, rfl⟩ | ⟨_, _, e, _⟩
      · rfl
      · cases e
    · rcases h' with ⟨e, -⟩ | ⟨_, m', e, rfl, g1, g2, g3⟩ <;> cases e
      rw [entries_one h1 g1 fun k => (h2 k).symm.trans (g2 k)]
      intro k v v' hv hv'
      have hk := (h2 k).2 (List.mem_map_of_mem (f := Prod.fst) hv)
      cases hm : member k ms with
      | none => exact absurd hk ((member_none_iff _ _).1 hm)
      | some j => exact meansExt_one ks k j v v' (unrepeatedMembers_mem hu.2 _ (member_mem hm)) (h3 k j v hm hv) (g3 k j v' hm hv')
  | .raw, j, v, v', _, h, h' => by cases h; cases h'; rfl

theorem meansRow_one : ∀ (fs : Fields) (r : FieldInfo) (j : Json) (v v' : GV), r ∈ fs.toList → Unrepeated j →
    Means F r.ty j v → Means F r.ty j v' → v = v'
  | .nil, _, _, _, _, hr, _, _, _ => by simp [Fields.toList] at hr
  | .cons n k o t rest, r, j, v, v', hr, hu, h, h' => by
    simp only [Fields.toList, List.mem_cons] at hr
    rcases hr with rfl | hr
    · exact means_one t j v v' hu h h'
    · exact meansRow_one rest r j v v' hr hu h h'

theorem meansExt_one : ∀ (ks : Known) (k : Str) (j : Json) (v v' : GV), Unrepeated j → MeansExt F ks k j v →
    MeansExt F ks k j v' → v = v'
  | .nil, k, j, v, v', _, h, h' => by
    obtain ⟨d, rfl, -, h⟩ := h
    obtain ⟨d', rfl, -, h'⟩ := h'
    rw [meansDyn_one d j d' h h']
  | .cons k' _ fs rest, k, j, v, v', hu, h, h' => by
    rcases h with ⟨rfl, h⟩ | ⟨hk, h⟩
    · rcases h' with ⟨-, h'⟩ | ⟨hk, -⟩
      · rcases h with ⟨rfl, rfl⟩ | ⟨ms, f, rfl, rfl, h1, h2⟩
        · rcases h' with ⟨-, rfl⟩ | ⟨_, _, e, _⟩
          · rfl
          · cases e
        · rcases h' with ⟨e, -⟩ | ⟨_, f', e, rfl, g1, g2⟩ <;> cases e
          rw [fields_one hu (fun r hr j v v' => meansRow_one fs r j v v' hr) h1 h2 g1 g2]
      · exact absurd rfl hk
    · rcases h' with ⟨rfl, -⟩ | ⟨-, h'⟩
      · exact absurd rfl hk
      · exact meansExt_one rest k j v v' hu h h'
end

end Stix
