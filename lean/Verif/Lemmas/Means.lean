import Verif.Spec.Means
import Verif.Lemmas.Fate

/-!
# What is decoded is what is meant
-/

namespace Stix
open Spec StixObject Stix.Canon Stix.Props.Canon

variable {F : Canon.FloatFmt}

/-! ### Outcomes -/

theorem D.bind_fine {α β} {x : D α} {f : α → D β} {b : β} :
    x.bind f = .ok b false ↔ ∃ a, x = .ok a false ∧ f a = .ok b false := by
  cases x with
  | ok a s =>
    simp only [D.bind]
    cases hf : f a with
    | ok b' s' =>
      cases s <;> cases s' <;> simp [hf]
    | hard => simp [hf]
    | panic => simp [hf]
  | hard => simp [D.bind]
  | panic => simp [D.bind]

theorem D.ofRes_fine {α} {x : Res α} {a : α} : D.ofRes x = .ok a false ↔ x = .ok a := by
  cases x <;> simp [D.ofRes]

/-! ### Members -/

/-- One after the other into the same location. -/
def Chain (d : GV → Json → D GV) : GV → List Json → GV → Prop
  | c, [], v => v = c
  | c, j :: js, v => ∃ x, d c j = .ok x false ∧ Chain d x js v

theorem chain_append {d : GV → Json → D GV} {js js' : List Json} {c v : GV} :
    Chain d c (js ++ js') v ↔ ∃ x, Chain d c js x ∧ Chain d x js' v := by
  induction js generalizing c with
  | nil => simp [Chain]
  | cons j js ih =>
    simp only [List.cons_append, Chain, ih]
    constructor
    · rintro ⟨x, h1, y, h2, h3⟩; exact ⟨y, ⟨x, h1, h2⟩, h3⟩
    · rintro ⟨y, ⟨x, h1, h2⟩, h3⟩; exact ⟨x, h1, y, h2, h3⟩

theorem decStruct_chain {fs : List FieldInfo} (hn : (fs.map FieldInfo.name).Nodup)
    (hk : (fs.map fun f => foldName f.key).Nodup) {d : Str → GV → Json → D GV} :
    ∀ (ms : List (Str × Json)) (cur f : Str → GV), decStruct fs d cur ms = .ok f false →
      (∀ r ∈ fs, Chain (d r.name) (cur r.name) (valuesOf r.key ms) (f r.name)) ∧
      ∀ x, (∀ r ∈ fs, r.name ≠ x) → f x = cur x
  | [], cur, f, h => by
    simp only [decStruct, D.ok.injEq, and_true] at h
    subst h
    exact ⟨fun r _ => rfl, fun _ _ => rfl⟩
  | (k, j) :: ms, cur, f, h => by
    rw [decStruct] at h
    cases hm : matchKey fs k with
    | none =>
      rw [hm] at h
      obtain ⟨h1, h2⟩ := decStruct_chain hn hk ms cur f h
      refine ⟨fun r hr => ?_, h2⟩
      rw [valuesOf, if_neg (show ¬ SameUpToCase k r.key from matchKey_no hm r hr)]
      exact h1 r hr
    | some g =>
      rw [hm] at h
      simp only [D.bind_fine] at h
      obtain ⟨v, g1, g2⟩ := h
      obtain ⟨h1, h2⟩ := decStruct_chain hn hk ms _ f g2
      have hg := matchKey_mem hm
      have hfold := matchKey_fold hm
      refine ⟨fun r hr => ?_, fun x hx => ?_⟩
      · have := h1 r hr
        by_cases he : r.name = g.name
        · have := inj_of_nodup hn hr hg he
          subst this
          rw [valuesOf, if_pos (show SameUpToCase k r.key from hfold)]
          exact ⟨v, g1, by simpa using h1 r hr⟩
        · rw [if_neg he] at this
          rw [valuesOf, if_neg]
          · exact this
          · intro hs
            have : foldName r.key = foldName g.key := by rw [← hfold]; exact Eq.symm hs
            exact he (by rw [inj_of_nodup hk hr hg this])
      · rw [h2 x hx, if_neg]
        exact fun e => hx g hg e.symm

/-! ### Values that replace -/

theorem dec_replaced {t : Ty} (ht : Replaced t = true) {c c' v : GV} {j : Json} (h : dec F t c j = .ok v false) :
    dec F t c' j = .ok v false := by
  cases t with
  | enum e => exact h
  | bin => exact h
  | time => exact h
  | ext ks => exact h
  | raw => exact h
  | dyn =>
    cases j with
    | num l =>
      simp only [dec] at h ⊢
      cases hp : F.parse l with
      | none => rw [hp] at h; simp at h
      | some x => rw [hp] at h; exact h
    | _ => exact h
  | ptr t =>
    cases t with
    | str b => cases j <;> simp_all [dec, D.bind]
    | bool => cases j <;> simp_all [dec, D.bind]
    | int b =>
      cases j with
      | num l =>
        simp only [dec] at h ⊢
        cases hp : parseInt64 l with
        | none => rw [hp] at h; simp [D.bind] at h
        | some x => rw [hp] at h; exact h
      | _ => simp_all [dec, D.bind]
    | flt =>
      cases j with
      | num l =>
        simp only [dec] at h ⊢
        cases hp : F.parse l with
        | none => rw [hp] at h; simp [D.bind] at h
        | some x => rw [hp] at h; exact h
      | _ => simp_all [dec, D.bind]
    | enum e => cases j <;> exact h
    | bin => cases j <;> exact h
    | time => cases j <;> exact h
    | _ => simp [Replaced] at ht
  | _ => simp [Replaced] at ht

theorem dec_scalar {t : Ty} (ht : ScalarTy t = true) {c c' v : GV} {j : Json} (hj : j ≠ .null)
    (h : dec F t c j = .ok v false) : dec F t c' j = .ok v false := by
  cases t with
  | str b => cases j <;> simp_all [dec]
  | bool => cases j <;> simp_all [dec]
  | int b =>
    cases j with
    | num l =>
      simp only [dec] at h ⊢
      cases hp : parseInt64 l with
      | none => rw [hp] at h; simp at h
      | some x => rw [hp] at h; exact h
    | _ => simp_all [dec]
  | flt =>
    cases j with
    | num l =>
      simp only [dec] at h ⊢
      cases hp : F.parse l with
      | none => rw [hp] at h; simp at h
      | some x => rw [hp] at h; exact h
    | _ => simp_all [dec]
  | _ => simp [ScalarTy] at ht

theorem dec_scalar_null {t : Ty} (ht : ScalarTy t = true) {c : GV} : dec F t c .null = .ok c false := by
  cases t <;> first | rfl | simp [ScalarTy] at ht

theorem chain_nulls {t : Ty} (ht : ScalarTy t = true) {n : Nat} {c v : GV}
    (h : Chain (dec F t) c (List.replicate n .null) v) : v = c := by
  induction n with
  | zero => exact h
  | succ n ih =>
    simp only [List.replicate_succ, Chain, dec_scalar_null ht, D.ok.injEq, and_true] at h
    obtain ⟨x, rfl, h⟩ := h
    exact ih h

/-- The value that counts decides. -/
theorem chain_counts {t : Ty} {js : List Json} {j : Json} (hc : Counts t js j) {v : GV}
    (h : Chain (dec F t) (zero t) js v) : dec F t (zero t) j = .ok v false := by
  cases hc with
  | only =>
    obtain ⟨x, h1, rfl⟩ := h
    exact h1
  | last ht =>
    obtain ⟨x, -, y, h2, rfl⟩ := chain_append.1 h
    exact dec_replaced ht h2
  | given ht hj =>
    obtain ⟨x, -, y, h2, h3⟩ := chain_append.1 h
    obtain rfl := chain_nulls ht h3
    exact dec_scalar ht hj h2
  | nulls ht =>
    rw [chain_nulls ht h]
    exact dec_scalar_null ht

/-! ### Leaves -/

mutual
theorem decDyn_means : ∀ (j : Json) (d : Dyn), decDyn F j = .ok d false → MeansDyn F j d
  | .null, d, h => by simp only [decDyn, D.ok.injEq, and_true] at h; subst h; rfl
  | .bool b, d, h => by simp only [decDyn, D.ok.injEq, and_true] at h; subst h; rfl
  | .str raw s, d, h => by simp only [decDyn, D.ok.injEq, and_true] at h; subst h; exact ⟨raw, rfl⟩
  | .num l, d, h => by
    simp only [decDyn] at h
    cases hp : F.parse l with
    | none => rw [hp] at h; simp at h
    | some x =>
      rw [hp] at h
      simp only [D.ok.injEq, and_true] at h
      subst h
      exact ⟨l, rfl, hp⟩
  | .arr l, d, h => by
    simp only [decDyn, D.bind_fine, D.ok.injEq, and_true] at h
    obtain ⟨ds, h, rfl⟩ := h
    exact ⟨l, rfl, decDynArr_means l ds h⟩
  | .obj ms, d, h => by
    have hsoft : (ms.any fun e => dynSoft F e.2) = false := by
      have := decDyn_eq (F := F) (.obj ms)
      rw [h] at this
      simp only [D.ok.injEq] at this
      rw [← dynSoft_obj]
      exact this.2.symm
    simp only [decDyn, decDynObj_eq, hsoft, D.bind_fine, D.ok.injEq, and_true] at h
    obtain ⟨m, rfl, rfl⟩ := h
    have hmem := decDynMembers_means ms hsoft
    have hs := sorted_dynMerge (F := F) sortedKeys_nil ms
    refine ⟨ms, rfl, hs, ?_, ?_⟩
    · intro k hk
      by_contra hn
      have hl := (amLookup_eq_none_iff k _).2 hn
      rw [amLookup_dynMerge] at hl
      cases hm : member k ms with
      | none => exact (member_none_iff _ _).1 hm hk
      | some v => rw [hm] at hl; cases hl
    · have hall : ∀ e ∈ dynMerge F [] ms, ∃ j, member e.1 ms = some j ∧ MeansDyn F j e.2 := by
        rintro ⟨k, d⟩ he
        have hl := amLookup_eq_some_of_mem _ _ _ hs.nodup he
        rw [amLookup_dynMerge] at hl
        cases hm : member k ms with
        | none => rw [hm] at hl; cases hl
        | some v =>
          simp only [hm, Option.some.injEq] at hl
          exact ⟨v, rfl, hl ▸ hmem (k, v) (member_mem hm)⟩
      revert hall
      generalize dynMerge F [] ms = m
      intro hall
      induction m with
      | nil => trivial
      | cons e m ih => exact ⟨hall e (by simp), ih fun e he => hall e (by simp [he])⟩

theorem decDynArr_means : ∀ (l : List Json) (ds : List Dyn), decDynArr F l = .ok ds false → MeansDynList F l ds
  | [], ds, h => by simp only [decDynArr, D.ok.injEq, and_true] at h; subst h; rfl
  | j :: l, ds, h => by
    simp only [decDynArr, D.bind_fine, D.ok.injEq, and_true] at h
    obtain ⟨d, h1, ds', h2, rfl⟩ := h
    exact ⟨j, l, rfl, decDyn_means j d h1, decDynArr_means l ds' h2⟩

theorem decDynMembers_means : ∀ (ms : List (Str × Json)), (ms.any fun e => dynSoft F e.2) = false →
    ∀ e ∈ ms, MeansDyn F e.2 (dynOf F e.2)
  | [], _ => by simp
  | (k, j) :: ms, h => by
    simp only [List.any_cons, Bool.or_eq_false_iff] at h
    intro e he
    rcases List.mem_cons.1 he with rfl | he
    · exact decDyn_means j _ (by rw [decDyn_eq, h.1])
    · exact decDynMembers_means ms h.2 e he
end

/-- How JSON values begin. -/
def jsonStarts : List Str :=
  [b!"\"", b!"[", b!"{", b!"-", b!"0", b!"1", b!"2", b!"3", b!"4", b!"5", b!"6", b!"7", b!"8", b!"9", b!"nu", b!"tr", b!"fa"]

theorem names_apart : ∀ e ∈ allEnums, ∀ p ∈ vocabulary e, p.2 ≠ [] ∧ p.2 ≠ b!"ru" ∧ p.2 ≠ b!"als" ∧ p.2 ≠ b!"ul" ∧
    (∃ c ∈ p.2, ¬ (IsDigit c ∨ c ∈ b!"+-.eE")) ∧ ∀ s ∈ jsonStarts, ¬ s <+: p.2 := by
  decide +kernel

theorem written_cases {j : Json} (h : Written j) : (∃ l, j = .num l ∧ Spec.Text.Number l) ∨ (∀ l, j ≠ .num l) := by
  obtain ⟨s, h1, rfl⟩ := h
  cases s with
  | num t => exact .inl ⟨t, rfl, h1⟩
  | lit t => right; intro l; simp only [Spec.Text.tree]; split <;> [skip; split] <;> simp
  | _ => right; intro l; simp [Spec.Text.tree]

theorem number_start {l : Str} (h : Spec.Text.Number l) : ∃ s ∈ jsonStarts, s <+: l := by
  obtain ⟨sgn, i, f, e, rfl, hs, hi, hf, he⟩ := h
  have hd : ∀ c : UInt8, IsDigit c → [c] ∈ jsonStarts := by
    intro c
    exact forall_uint8 (P := fun c => IsDigit c → [c] ∈ jsonStarts) (by decide +kernel) c
  rcases hs with rfl | rfl
  · rcases hi with rfl | ⟨⟨h1, h2⟩, -⟩
    · exact ⟨b!"0", by decide, by simp⟩
    · cases i with
      | nil => exact absurd rfl h1
      | cons c i => exact ⟨[c], hd c (h2 c (by simp)), by simp⟩
  · exact ⟨b!"-", by decide, by simp⟩

theorem raw_start {j : Json} (h : Written j) : ∃ s ∈ jsonStarts, s <+: j.raw := by
  cases j with
  | null => exact ⟨b!"nu", by decide, by decide⟩
  | bool b => cases b
              · exact ⟨b!"fa", by decide, by decide⟩
              · exact ⟨b!"tr", by decide, by decide⟩
  | num l =>
    rcases written_cases h with ⟨l', e, hn⟩ | hn
    · cases e; exact number_start hn
    · exact absurd rfl (hn l)
  | str raw s => exact ⟨b!"\"", by decide, by simp [Json.raw]⟩
  | arr l => exact ⟨b!"[", by decide, by simp [Json.raw]⟩
  | obj ms => exact ⟨b!"{", by decide, by simp [Json.raw]⟩

theorem rawArr_start {l : List Json} (h : Written (.arr l)) (hl : l ≠ []) : ∃ s ∈ jsonStarts, s <+: Json.rawArr l := by
  match l with
  | [] => exact absurd rfl hl
  | [j] => exact raw_start (h.arr j (by simp))
  | j :: j' :: l =>
    obtain ⟨s, hs, hp⟩ := raw_start (h.arr j (by simp))
    refine ⟨s, hs, ?_⟩
    rw [Json.rawArr, List.append_assoc]
    · exact hp.trans (List.prefix_append _ _)
    · simp

theorem rawObj_start {l : List (Str × Json)} (hl : l ≠ []) : ∃ s ∈ jsonStarts, s <+: Json.rawObj l := by
  match l with
  | [] => exact absurd rfl hl
  | [(k, j)] => exact ⟨b!"\"", by decide, by simp [Json.rawObj]⟩
  | (k, j) :: j' :: l => exact ⟨b!"\"", by decide, by simp [Json.rawObj]⟩

/-- What is between the first and the last byte of a value that is no string is no name. -/
theorem middle_no_name {j : Json} (h : Written j) (hj : ∀ raw s, j ≠ .str raw s) (e : EnumId) :
    ¬ IsName e ((j.raw.drop 1).dropLast) := by
  rintro ⟨n, hn⟩
  obtain ⟨h1, h2, h3, h4, ⟨c, hc, h5⟩, h6⟩ := names_apart e (mem_allEnums e) _ hn
  cases j with
  | null => exact h4 rfl
  | bool b => cases b
              · exact h3 rfl
              · exact h2 rfl
  | num l =>
    rcases written_cases h with ⟨l', e, hn⟩ | hn
    · cases e
      exact h5 (number_bytes hn c (List.mem_of_mem_drop (List.dropLast_subset _ hc)))
    · exact absurd rfl (hn l)
  | str raw s => exact hj raw s rfl
  | arr l =>
    have hr : ((Json.arr l).raw.drop 1).dropLast = Json.rawArr l := by simp [Json.raw]
    rw [hr] at h1 h6
    obtain ⟨s, hs, hp⟩ := rawArr_start h fun hl => h1 (by subst hl; rfl)
    exact h6 s hs hp
  | obj ms =>
    have hr : ((Json.obj ms).raw.drop 1).dropLast = Json.rawObj ms := by simp [Json.raw]
    rw [hr] at h1 h6
    obtain ⟨s, hs, hp⟩ := rawObj_start fun hl : ms = [] => h1 (by subst hl; rfl)
    exact h6 s hs hp

theorem enumFind_nameFor (e : EnumId) (s : Str) : NameFor e s (enumFind (enumTable e) s) := by
  by_cases h : IsName e s
  · obtain ⟨n, hn⟩ := h
    rw [enumFind_name (List.Perm.refl _) hn]
    exact .inl hn
  · exact .inr ⟨enumFind_other (List.Perm.refl _) h, h⟩

theorem enum_means {e : EnumId} {j : Json} (hw : Written j) {n : UInt8}
    (h : enumUnmarshal (enumTable e) e j = .ok n) : EnumFor e j n := by
  by_cases hj : ∃ raw s, j = .str raw s
  · obtain ⟨raw, s, rfl⟩ := hj
    rw [enumUnmarshal_str (List.Perm.refl _)] at h
    simp only [Res.ok.injEq] at h
    subst h
    have ht : enumText e raw s = if e = .ExtensionType then s else raw := by cases e <;> rfl
    rw [ht]
    exact .inl ⟨raw, s, rfl, enumFind_nameFor e _⟩
  · push Not at hj
    refine .inr ⟨?_, hj⟩
    have hmid : ∀ {t}, goMiddle j.raw = .ok t → enumFind (enumTable e) t = 0 := by
      intro t ht
      unfold goMiddle at ht
      split at ht
      · cases ht
      · simp only [Res.ok.injEq] at ht
        subst ht
        exact enumFind_other (List.Perm.refl _) (middle_no_name hw hj e)
    unfold enumUnmarshal at h
    cases hm : enumMode e with
    | sliced =>
      rw [hm] at h
      obtain ⟨t, h1, h2⟩ := Res.bind_ok_iff.1 h
      rw [hmid h1] at h2
      cases h2
      rfl
    | guarded =>
      rw [hm] at h
      dsimp only at h
      split at h
      · cases h; rfl
      · obtain ⟨t, h1, h2⟩ := Res.bind_ok_iff.1 h
        rw [hmid h1] at h2
        cases h2
        rfl
    | viaString =>
      rw [hm] at h
      obtain ⟨t, h1, h2⟩ := Res.bind_ok_iff.1 h
      cases j with
      | null =>
        cases h1
        cases h2
        rw [enumFind_other (List.Perm.refl _)]
        rintro ⟨n, hn⟩
        exact (names_apart e (mem_allEnums e) _ hn).1 rfl
      | str raw s => exact absurd rfl (hj raw s)
      | _ => cases h1

theorem int_means {l : Str} {i : Int} (h : parseInt64 l = some i) : Int64For l i := by
  obtain ⟨ds, i', h1, h2, h3, h4, h5⟩ := (parseInt64_iff l).1 ⟨i, h⟩
  have := parseInt64_digits h1 h2 h3 h4 h5
  rw [h] at this
  cases this
  exact ⟨ds, h1, h2, h3, h4, h5⟩

theorem byte_means {j : Json} {b : UInt8} (h : byteOfJson j = some b) : ByteFor j b := by
  cases j with
  | null => cases h; exact .inl ⟨rfl, rfl⟩
  | num lit =>
    have hf : lit.foldl (fun a c => 10 * a + (c.toNat - 48)) 0 = litVal lit := rfl
    simp only [byteOfJson, hf] at h
    split at h
    · next hh =>
      obtain ⟨d, hd, rfl⟩ := digits_of hh.2
      rw [litVal_digits d hd] at h
      split at h
      · next hlt =>
        simp only [Option.some.injEq] at h
        subst h
        refine .inr ⟨d, by simpa using hh.1, hd, ?_, rfl⟩
        simp only [Nat.toUInt8, UInt8.toNat_ofNat']
        omega
      · cases h
    · cases h
  | _ => cases h

theorem bin_means {j : Json} {b : Option Str} (h : binaryUnmarshal j = .ok b) : Means F .bin j (.bin b) := by
  cases j with
  | null => cases h; exact .inl ⟨rfl, rfl⟩
  | str raw s =>
    refine .inr (.inl ?_)
    cases b with
    | none => simp only [binaryUnmarshal] at h; split at h <;> cases h
    | some b => exact ⟨s, b, ⟨raw, rfl⟩, rfl, (c26_reads_base64 raw s b).1 h⟩
  | arr l =>
    refine .inr (.inr ?_)
    simp only [binaryUnmarshal] at h
    cases hm : l.mapM byteOfJson with
    | none => rw [hm] at h; cases h
    | some b' =>
      rw [hm] at h
      cases h
      refine ⟨l, b', rfl, rfl, ?_⟩
      induction l generalizing b' with
      | nil => cases hm; exact .nil
      | cons x l ih =>
        simp only [List.mapM_cons, Option.bind_eq_bind, Option.bind_eq_some_iff, Option.pure_def, Option.some.injEq] at hm
        obtain ⟨v, h1, w, h2, rfl⟩ := hm
        exact .cons (byte_means h1) (ih w h2)
  | _ => cases h

/-! ### All types -/

theorem decElems_means {d : GV → Json → D GV} {z : GV} {R : Json → GV → Prop} :
    ∀ (l : List Json) (vs : List GV), (∀ x ∈ l, ∀ v, d z x = .ok v false → R x v) →
      decElems d z [] l = .ok vs false → List.Forall₂ R l vs
  | [], vs, _, h => by cases h; exact .nil
  | j :: l, vs, hR, h => by
    simp only [decElems, D.bind_fine, D.ok.injEq, and_true, List.headD_nil, List.tail_nil] at h
    obtain ⟨v, h1, vs', h2, rfl⟩ := h
    exact .cons (hR j (by simp) v h1) (decElems_means l vs' (fun x hx => hR x (by simp [hx])) h2)

theorem decEntries_means {d : Json → D GV} {R : Json → GV → Prop} :
    ∀ (ms : List (Str × Json)) (cur m : List (Str × GV)), SortedKeys cur → decEntries d cur ms = .ok m false →
      (∀ e ∈ ms, ∀ v, d e.2 = .ok v false → R e.2 v) →
      SortedKeys m ∧ (∀ k, k ∈ amKeys m ↔ k ∈ amKeys ms ∨ k ∈ amKeys cur) ∧
        ∀ k v, amLookup k m = some v → (∃ j, member k ms = some j ∧ R j v) ∨
          (member k ms = none ∧ amLookup k cur = some v)
  | [], cur, m, hs, h, _ => by
    cases h
    exact ⟨hs, by simp [amKeys], fun k v h => .inr ⟨rfl, h⟩⟩
  | (k', j) :: ms, cur, m, hs, h, hR => by
    simp only [decEntries, D.bind_fine] at h
    obtain ⟨v, h1, h2⟩ := h
    obtain ⟨g1, g2, g3⟩ := decEntries_means ms _ m (sortedKeys_smInsert hs) h2 fun e he => hR e (by simp [he])
    have hins : ∀ k, amLookup k (smInsert k' v cur) = if k = k' then some v else amLookup k cur := fun k => amLookup_smInsert ..
    have hkeys : ∀ k, k ∈ amKeys (smInsert k' v cur) ↔ k = k' ∨ k ∈ amKeys cur := by
      intro k
      have e1 := amLookup_eq_none_iff k (smInsert k' v cur)
      have e2 := amLookup_eq_none_iff k cur
      rw [hins] at e1
      by_cases hk : k = k'
      · simp only [hk, if_true, reduceCtorEq, false_iff, not_not] at e1 ⊢
        simpa using e1
      · simp only [if_neg hk] at e1
        rw [e1] at e2
        simp only [hk, false_or]
        exact not_iff_not.1 e2
    refine ⟨g1, ?_, ?_⟩
    · intro k
      rw [g2, hkeys]
      simp only [amKeys, List.map_cons, List.mem_cons]
      tauto
    · intro k w hw
      rw [member]
      rcases g3 k w hw with ⟨j', e1, e2⟩ | ⟨e1, e2⟩
      · rw [e1]
        exact .inl ⟨j', rfl, e2⟩
      · rw [e1]
        rw [hins] at e2
        by_cases hk : k = k'
        · subst hk
          simp only [if_true, Option.some.injEq] at e2
          subst e2
          exact .inl ⟨j, by simp, hR (k, j) (by simp) v h1⟩
        · rw [if_neg hk] at e2
          exact .inr ⟨by simp [Ne.symm hk], e2⟩

theorem decExts_means {d : Str → Json → D GV} {R : Str → Json → GV → Prop} :
    ∀ (ms : List (Str × Json)) (m : List (Str × GV)), decExts d ms = .ok m false →
      (∀ e ∈ ms, ∀ v, d e.1 e.2 = .ok v false → R e.1 e.2 v) →
      amKeys m = amKeys ms ∧ ∀ k v, (k, v) ∈ m → ∃ j, (k, j) ∈ ms ∧ R k j v
  | [], m, h, _ => by cases h; exact ⟨rfl, by simp⟩
  | (k', j) :: ms, m, h, hR => by
    simp only [decExts] at h
    split at h <;> try cases h
    next v vs h1 h2 =>
    obtain ⟨g1, g2⟩ := decExts_means ms vs h2 fun e he => hR e (by simp [he])
    refine ⟨by simpa [amKeys] using g1, fun k w hw => ?_⟩
    rcases List.mem_cons.1 hw with e | hw
    · cases e
      exact ⟨j, by simp, hR (k', j) (by simp) _ h1⟩
    · obtain ⟨j', e1, e2⟩ := g2 k w hw
      exact ⟨j', by simp [e1], e2⟩

theorem meansFields_iff (fs : Fields) (ms : List (Str × Json)) (f : Str → GV) : MeansFields F fs ms f ↔
    ∀ r ∈ fs.toList, (valuesOf r.key ms = [] → f r.name = zero r.ty) ∧
      ∀ j, Counts r.ty (valuesOf r.key ms) j → Means F r.ty j (f r.name) := by
  match fs with
  | .nil => simp [MeansFields, Fields.toList]
  | .cons n k o t rest =>
    simp only [MeansFields, Fields.toList, List.mem_cons, forall_eq_or_imp, meansFields_iff rest ms f, and_assoc]

theorem counts_mem {t : Ty} {js : List Json} {j : Json} (h : Counts t js j) : j ∈ js ∨ (js = [] ∧ j = .null) := by
  cases h with
  | only => simp
  | last => simp
  | given => simp
  | @nulls n _ => cases n <;> simp

theorem mem_valuesOf {k : Str} {ms : List (Str × Json)} {j : Json} (h : j ∈ valuesOf k ms) : ∃ n, (n, j) ∈ ms := by
  induction ms with
  | nil => simp [valuesOf] at h
  | cons e ms ih =>
    obtain ⟨n, j'⟩ := e
    rw [valuesOf] at h
    split at h
    · rcases List.mem_cons.1 h with rfl | h
      · exact ⟨n, by simp⟩
      · obtain ⟨n', h⟩ := ih h; exact ⟨n', by simp [h]⟩
    · obtain ⟨n', h⟩ := ih h; exact ⟨n', by simp [h]⟩

theorem written_null : Written .null := ⟨.lit (b!"null"), .inr (.inr rfl), rfl⟩

theorem decFields_means {fs : Fields} (hn : (fs.toList.map FieldInfo.name).Nodup)
    (hk : (fs.toList.map fun f => foldName f.key).Nodup) {ms : List (Str × Json)} {f : Str → GV}
    (hw : ∀ e ∈ ms, Written e.2) (h : decStruct fs.toList (decField F fs) (zeroFields fs) ms = .ok f false)
    (hrow : ∀ r ∈ fs.toList, ∀ j v, Written j → dec F r.ty (zero r.ty) j = .ok v false → Means F r.ty j v) :
    (∀ x, (∀ r ∈ fs.toList, r.name ≠ x) → f x = default) ∧ MeansFields F fs ms f := by
  obtain ⟨h1, h2⟩ := decStruct_chain hn hk ms _ f h
  refine ⟨fun x hx => by rw [h2 x hx, zeroFields_other hx], (meansFields_iff fs ms f).2 fun r hr => ?_⟩
  have hc := h1 r hr
  rw [zeroFields_row hn hr] at hc
  have hd : decField F fs r.name = dec F r.ty := funext fun c => funext fun j => decField_row hn hr c j
  rw [hd] at hc
  refine ⟨fun e => by rw [e] at hc; exact hc, fun j hj => hrow r hr j _ ?_ (chain_counts hj hc)⟩
  rcases counts_mem hj with h | ⟨-, rfl⟩
  · obtain ⟨n, h⟩ := mem_valuesOf h
    exact hw _ h
  · exact written_null

mutual
/-- A value that is taken is read as what it means. -/
theorem dec_means : ∀ (t : Ty) (j : Json) (v : GV), t.apart = true → Written j → dec F t (zero t) j = .ok v false →
    Means F t j v
  | .str _, j, v, _, _, h => by
    cases j with
    | null => cases h; exact .inl ⟨rfl, rfl⟩
    | str raw s => cases h; exact .inr ⟨s, ⟨raw, rfl⟩, rfl⟩
    | _ => cases h
  | .bool, j, v, _, _, h => by
    cases j with
    | null => cases h; exact .inl ⟨rfl, rfl⟩
    | bool b => cases h; exact .inr ⟨b, rfl, rfl⟩
    | _ => cases h
  | .int _, j, v, _, _, h => by
    cases j with
    | null => cases h; exact .inl ⟨rfl, rfl⟩
    | num l =>
      simp only [dec] at h
      cases hp : parseInt64 l with
      | none => rw [hp] at h; cases h
      | some i => rw [hp] at h; cases h; exact .inr ⟨l, i, rfl, rfl, int_means hp⟩
    | _ => cases h
  | .flt, j, v, _, _, h => by
    cases j with
    | null => cases h; exact .inl ⟨rfl, rfl⟩
    | num l =>
      simp only [dec] at h
      cases hp : F.parse l with
      | none => rw [hp] at h; cases h
      | some i => rw [hp] at h; cases h; exact .inr ⟨l, i, rfl, rfl, hp⟩
    | _ => cases h
  | .enum e, j, v, _, hw, h => by
    simp only [dec, D.bind_fine, D.ofRes_fine, D.ok.injEq, and_true] at h
    obtain ⟨n, h, rfl⟩ := h
    exact ⟨n, rfl, enum_means hw h⟩
  | .bin, j, v, _, _, h => by
    simp only [dec, D.bind_fine, D.ofRes_fine, D.ok.injEq, and_true] at h
    obtain ⟨b, h, rfl⟩ := h
    exact bin_means h
  | .time, j, v, _, hw, h => by
    simp only [dec, D.bind_fine, D.ofRes_fine, D.ok.injEq, and_true] at h
    obtain ⟨t, h, rfl⟩ := h
    obtain ⟨d, text, ht⟩ := hw.isText
    obtain ⟨raw, s, rfl⟩ := c55_only_strings d text j ht t h
    obtain ⟨x, h1, h2, h3, rfl⟩ := ((c55_exact raw s).1 t).1 h
    exact ⟨raw, s, x, h1, h2, h3, rfl, rfl⟩
  | .slice t, j, v, ha, hw, h => by
    cases j with
    | null => cases h; exact .inl ⟨rfl, rfl⟩
    | arr l =>
      simp only [dec, zero, D.bind_fine, D.ok.injEq, and_true] at h
      obtain ⟨vs, h, rfl⟩ := h
      exact .inr (.inl ⟨l, vs, rfl, rfl, decElems_means l vs (fun x hx v => dec_means t x v ha (hw.arr x hx)) h⟩)
    | str raw s =>
      refine .inr (.inr ?_)
      simp only [dec, decSliceOther] at h
      split at h
      · next hb =>
        have he : ∃ e, t = .enum e := by cases t <;> first | exact ⟨_, rfl⟩ | cases hb
        cases hd : b64Decode s with
        | none => rw [hd] at h; cases h
        | some b =>
          rw [hd] at h
          cases h
          exact ⟨s, b, ⟨raw, rfl⟩, he, (c26_reads_base64 raw s b).1 (by simp only [binaryUnmarshal, hd]), rfl⟩
      · cases h
    | _ => cases h
  | .map _ _ t, j, v, ha, hw, h => by
    cases j with
    | null => cases h; exact .inl ⟨rfl, rfl⟩
    | obj ms =>
      simp only [dec, zero, D.bind_fine, D.ok.injEq, and_true] at h
      obtain ⟨m, h, rfl⟩ := h
      obtain ⟨g1, g2, g3⟩ := decEntries_means (R := fun j v => Means F t j v) ms [] m sortedKeys_nil h
        fun e he v => dec_means t e.2 v ha (hw.obj e he)
      refine .inr ⟨ms, m, rfl, rfl, g1, fun k => by rw [g2]; simp [amKeys], fun k j v hj hv => ?_⟩
      rcases g3 k v (amLookup_eq_some_of_mem _ _ _ g1.nodup hv) with ⟨j', e1, e2⟩ | ⟨e1, -⟩
      · rw [hj] at e1; cases e1; exact e2
      · rw [hj] at e1; cases e1
    | _ => cases h
  | .ptr t, j, v, ha, hw, h => by
    by_cases hj : j = .null
    · subst hj
      cases h
      exact .inl ⟨rfl, rfl⟩
    · have h' : (dec F t (zero t) j).bind (fun v => .ok (.ptr (some v)) false) = .ok v false := by
        cases j <;> first | exact absurd rfl hj | exact h
      simp only [D.bind_fine, D.ok.injEq, and_true] at h'
      obtain ⟨x, h', rfl⟩ := h'
      exact .inr ⟨x, hj, rfl, dec_means t j x ha hw h'⟩
  | .struct n fs, j, v, ha, hw, h => by
    simp only [Ty.apart, Bool.and_eq_true, decide_eq_true_eq] at ha
    cases j with
    | null => cases h; exact .inl ⟨rfl, rfl⟩
    | obj ms =>
      simp only [dec, zero, D.bind_fine, D.ok.injEq, and_true] at h
      obtain ⟨f, h, rfl⟩ := h
      obtain ⟨g1, g2⟩ := decFields_means ha.1.1 ha.1.2 hw.obj h fun r hr j v hw h => decRow_means fs r j v ha.2 hw hr h
      exact .inr ⟨ms, f, rfl, rfl, g1, g2⟩
    | _ => cases h
  | .dyn, j, v, _, _, h => by
    have h' : ∃ d, decDyn F j = .ok d false ∧ v = .dyn d := by
      cases j with
      | num l =>
        simp only [dec] at h
        cases hp : F.parse l with
        | none => rw [hp] at h; cases h
        | some x => rw [hp] at h; cases h; exact ⟨_, by simp only [decDyn, hp], rfl⟩
      | _ =>
        simp only [dec, D.bind_fine, D.ok.injEq, and_true] at h
        obtain ⟨d, h1, h2⟩ := h
        exact ⟨d, h1, h2.symm⟩
    obtain ⟨d, h1, rfl⟩ := h'
    exact ⟨d, rfl, decDyn_means j d h1⟩
  | .ext ks, j, v, ha, hw, h => by
    cases j with
    | null => cases h; exact .inl ⟨rfl, rfl⟩
    | obj ms =>
      simp only [dec, D.bind_fine, D.ok.injEq, and_true] at h
      obtain ⟨m, h, rfl⟩ := h
      obtain ⟨g1, g2⟩ := decExts_means (R := fun k j v => MeansExt F ks k j v) _ m h fun e he v =>
        decExt_means ks e.1 e.2 v ha (hw.obj _ (mem_smOfList' he))
      have hs := sortedKeys_of_keys (sortedKeys_smOfList ms) g1
      refine .inr ⟨ms, m, rfl, rfl, hs, fun k => ?_, fun k j v hj hv => ?_⟩
      · rw [g1]
        have e1 := amLookup_eq_none_iff k (smOfList ms)
        rw [amLookup_smOfList_member, member_none_iff] at e1
        exact not_iff_not.1 e1
      · obtain ⟨j', e1, e2⟩ := g2 k v hv
        have := amLookup_eq_some_of_mem _ _ _ (sortedKeys_smOfList ms).nodup e1
        rw [amLookup_smOfList_member, hj] at this
        cases this
        exact e2
    | _ => cases h
  | .raw, j, v, _, _, h => by cases h; rfl

theorem decRow_means : ∀ (fs : Fields) (f : FieldInfo) (j : Json) (v : GV), fs.apart = true → Written j → f ∈ fs.toList →
    dec F f.ty (zero f.ty) j = .ok v false → Means F f.ty j v
  | .nil, _, _, _, _, _, hf, _ => by simp [Fields.toList] at hf
  | .cons n k o t rest, f, j, v, ha, hw, hf, h => by
    simp only [Fields.apart, Bool.and_eq_true] at ha
    simp only [Fields.toList, List.mem_cons] at hf
    rcases hf with rfl | hf
    · exact dec_means t j v ha.1 hw h
    · exact decRow_means rest f j v ha.2 hw hf h

theorem decExt_means : ∀ (ks : Known) (k : Str) (j : Json) (v : GV), ks.apart = true → Written j →
    decExt F ks k j = .ok v false → MeansExt F ks k j v
  | .nil, k, j, v, _, _, h => by
    simp only [decExt, D.bind_fine, D.ok.injEq, and_true] at h
    obtain ⟨m, h, rfl⟩ := h
    cases j with
    | null => cases h; exact ⟨.nil, rfl, .inl rfl, rfl⟩
    | obj ms =>
      simp only [decCustom, Option.getD_some, D.bind_fine, D.ok.injEq, and_true] at h
      obtain ⟨m', h, rfl⟩ := h
      exact ⟨.obj m', rfl, .inr ⟨m', rfl⟩, decDyn_means (.obj ms) (.obj m') (by simp only [decDyn, h]; rfl)⟩
    | _ => cases h
  | .cons k' _ fs rest, k, j, v, ha, hw, h => by
    simp only [Known.apart, Bool.and_eq_true, decide_eq_true_eq] at ha
    simp only [decExt] at h
    split at h
    · next hk =>
      refine .inl ⟨hk, ?_⟩
      cases j with
      | null => cases h; exact .inl ⟨rfl, rfl⟩
      | obj ms =>
        simp only [D.bind_fine, D.ok.injEq, and_true] at h
        obtain ⟨f, h, rfl⟩ := h
        obtain ⟨g1, g2⟩ := decFields_means ha.1.1.1 ha.1.1.2 hw.obj h fun r hr j v hw h => decRow_means fs r j v ha.1.2 hw hr h
        exact .inr ⟨ms, f, rfl, rfl, g1, g2⟩
      | _ => cases h
    · next hk => exact .inr ⟨hk, decExt_means rest k j v ha.2 hw h⟩
end

end Stix
