import Verif.Spec.Shape
import Verif.Props.Parse
import Verif.Props.Text

/-!
# Which documents are accepted at all (C75)
-/

namespace Stix
open Spec

variable {F : Canon.FloatFmt} {U : Type} [UserType U]

/-! ### Names -/

/-- Lower case. -/
def lowAscii (c : UInt8) : UInt8 := if 65 ≤ c ∧ c ≤ 90 then c + 32 else c

theorem foldName_one {c : UInt8} (hc : c < 0x80) (r : Str) : foldName (c :: r) = lowAscii c :: foldName r := by
  rw [foldName]
  · rfl
  · rintro r' rfl -; revert hc; decide
  · rintro r' rfl -; revert hc; decide

theorem lowAscii_spelling : ∀ c : UInt8, c < 0x80 → ∀ p ∈ spellings c,
    (∃ d : UInt8, p = [d] ∧ d < 0x80 ∧ lowAscii d = lowAscii c) ∨ (p = [0xC5, 0xBF] ∧ lowAscii c = 115) ∨
      (p = [0xE2, 0x84, 0xAA] ∧ lowAscii c = 107) := by
  have h : ∀ c : UInt8, c < 0x80 → ∀ p ∈ spellings c,
      (p.length = 1 ∧ p.headD 0 < 0x80 ∧ lowAscii (p.headD 0) = lowAscii c) ∨ (p = [0xC5, 0xBF] ∧ lowAscii c = 115) ∨
      (p = [0xE2, 0x84, 0xAA] ∧ lowAscii c = 107) := forall_uint8 (by decide +kernel)
  intro c hc p hp
  refine (h c hc p hp).imp_left ?_
  rintro ⟨h1, h2, h3⟩
  obtain ⟨d, rfl⟩ := List.length_eq_one_iff.1 h1
  exact ⟨d, rfl, h2, h3⟩

theorem foldName_spelling {c : UInt8} (hc : c < 0x80) {p : Str} (hp : p ∈ spellings c) (r : Str) :
    foldName (p ++ r) = lowAscii c :: foldName r := by
  rcases lowAscii_spelling c hc p hp with ⟨d, rfl, h1, h2⟩ | ⟨rfl, h⟩ | ⟨rfl, h⟩
  · rw [← h2]; exact foldName_one h1 r
  · rw [h]; simp [foldName]
  · rw [h]; simp [foldName]

theorem foldName_ascii {key : Str} (hk : ∀ c ∈ key, c < 0x80) : foldName key = key.map lowAscii := by
  induction key with
  | nil => rfl
  | cons c r ih =>
    rw [List.map_cons, ← ih fun x hx => hk x (by simp [hx])]
    exact foldName_one (hk c (by simp)) r

theorem spelling_long : ∀ c : UInt8, lowAscii c = 115 → [0xC5, 0xBF] ∈ spellings c := forall_uint8 (by decide +kernel)
theorem spelling_kelvin : ∀ c : UInt8, lowAscii c = 107 → [0xE2, 0x84, 0xAA] ∈ spellings c :=
  forall_uint8 (by decide +kernel)
theorem spelling_low : ∀ c d : UInt8, lowAscii d = lowAscii c → [d] ∈ spellings c := by
  intro c d h
  have h1 : ∀ x : UInt8, [lowAscii x] ∈ spellings x := forall_uint8 (by decide +kernel)
  have h2 : ∀ x : UInt8, lowAscii x ≠ x → 65 ≤ x ∧ x ≤ 90 ∧ lowAscii x = x + 32 := forall_uint8 (by decide +kernel)
  have h3 : ∀ x : UInt8, 65 ≤ x ∧ x ≤ 90 → [x] ∈ spellings (x + 32) := forall_uint8 (by decide +kernel)
  have h4 : ∀ x y : UInt8, x + 32 = y + 32 → x = y := by
    intro x y e
    have := congrArg (· - 32) e
    simpa using this
  by_cases hd : lowAscii d = d
  · rw [← hd, h]; exact h1 c
  · obtain ⟨a1, a2, a3⟩ := h2 d hd
    by_cases hc : lowAscii c = c
    · rw [← hc, ← h, a3]; exact h3 d ⟨a1, a2⟩
    · obtain ⟨b1, b2, b3⟩ := h2 c hc
      rw [h4 d c (by rw [← a3, ← b3, h])]
      simp [spellings]

/-- **C75** (names).  A name is the same up to case as that of a property, for `encoding/json`, exactly
if it spells it. -/
theorem c75_names (name key : Str) (hk : ∀ c ∈ key, c < 0x80) : SameUpToCase name key ↔ SpelledAs name key := by
  unfold SameUpToCase
  rw [foldName_ascii hk]
  constructor
  · induction name using foldName.induct generalizing key with
    | case1 =>
      intro h
      rw [foldName] at h
      have := List.map_eq_nil_iff.1 h.symm
      subst this
      exact ⟨[], rfl, .nil⟩
    | case2 r ih =>
      intro h
      rw [foldName] at h
      obtain ⟨c, key', rfl, h1, h2⟩ := List.map_eq_cons_iff.1 h.symm
      obtain ⟨ps, rfl, h3⟩ := ih key' (fun x hx => hk x (by simp [hx])) h2.symm
      exact ⟨[0xC5, 0xBF] :: ps, rfl, .cons (spelling_long c h1) h3⟩
    | case3 r ih =>
      intro h
      rw [foldName] at h
      obtain ⟨c, key', rfl, h1, h2⟩ := List.map_eq_cons_iff.1 h.symm
      obtain ⟨ps, rfl, h3⟩ := ih key' (fun x hx => hk x (by simp [hx])) h2.symm
      exact ⟨[0xE2, 0x84, 0xAA] :: ps, rfl, .cons (spelling_kelvin c h1) h3⟩
    | case4 d r g1 g2 ih =>
      intro h
      rw [foldName] at h
      · obtain ⟨c, key', rfl, h1, h2⟩ := List.map_eq_cons_iff.1 h.symm
        obtain ⟨ps, rfl, h3⟩ := ih key' (fun x hx => hk x (by simp [hx])) h2.symm
        exact ⟨[d] :: ps, rfl, .cons (spelling_low c d h1.symm) h3⟩
      · exact g1
      · exact g2
  · rintro ⟨ps, rfl, h⟩
    induction h with
    | nil => rfl
    | cons h1 h2 ih =>
      rw [List.flatten_cons, foldName_spelling (hk _ (by simp)) h1, List.map_cons,
        ih fun x hx => hk x (by simp [hx])]

/-! ### Bundles -/

theorem matchKey_of_fold {fs : List FieldInfo} (hn : (fs.map fun f => foldName f.key).Nodup) {f : FieldInfo}
    (hf : f ∈ fs) {k : Str} (h : foldName k = foldName f.key) : matchKey fs k = some f := by
  cases hm : matchKey fs k with
  | none =>
    unfold matchKey at hm
    cases h1 : fs.find? (fun f => f.key == k) with
    | some g => rw [h1] at hm; simp at hm
    | none =>
      rw [h1] at hm
      simp only [Option.orElse, List.find?_eq_none, beq_iff_eq] at hm
      exact absurd h.symm (hm f hf)
  | some g =>
    have h1 := matchKey_fold hm
    rw [h] at h1
    rw [inj_of_nodup hn hf (matchKey_mem hm) h1]

/-- The elements of an array. -/
def elementsOf : Json → List Json
  | .arr l => l
  | _ => []

/-- The list that the last member for the objects holds. -/
def lastObjects : List (Str × Json) → List Json → List Json
  | [], d => d
  | e :: ms, d => lastObjects ms (if foldName e.1 = b!"objects" then elementsOf e.2 else d)

theorem lastObjects_none {ms : List (Str × Json)} (h : ∀ e ∈ ms, foldName e.1 ≠ b!"objects") (d : List Json) :
    lastObjects ms d = d := by
  induction ms generalizing d with
  | nil => rfl
  | cons e ms ih =>
    rw [lastObjects, if_neg (h e (by simp)), ih fun e he => h e (by simp [he])]

theorem lastObjects_append (ms ms' : List (Str × Json)) (d : List Json) :
    lastObjects (ms ++ ms') d = lastObjects ms' (lastObjects ms d) := by
  induction ms generalizing d with
  | nil => rfl
  | cons e ms ih => rw [List.cons_append, lastObjects, lastObjects, ih]

/-- A member that a bundle may have. -/
def MayHave (e : Str × Json) : Prop :=
  (foldName e.1 = b!"type" ∨ foldName e.1 = b!"id" → e.2 = .null ∨ ∃ s, IsText e.2 s) ∧
  (foldName e.1 = b!"objects" → e.2 = .null ∨ ∃ l, e.2 = .arr l)

theorem bundle_row {k : Str} {r : FieldInfo} (hm : matchKey fieldsBundle.toList k = some r) :
    (r = ⟨b!"Type", b!"type", false, .str (b!"STIXType")⟩ ∧ foldName k = b!"type") ∨
    (r = ⟨b!"ID", b!"id", false, .str (b!"Identifier")⟩ ∧ foldName k = b!"id") ∨
    (r = ⟨b!"Objects", b!"objects", true, .slice .raw⟩ ∧ foldName k = b!"objects") := by
  have h1 := matchKey_fold hm
  have h2 := matchKey_mem hm
  have hf : fieldsBundle.toList = [⟨b!"Type", b!"type", false, .str (b!"STIXType")⟩,
      ⟨b!"ID", b!"id", false, .str (b!"Identifier")⟩,
      ⟨b!"Objects", b!"objects", true, .slice .raw⟩] := rfl
  rw [hf] at h2
  simp only [List.mem_cons, List.not_mem_nil, or_false] at h2
  rcases h2 with rfl | rfl | rfl
  · exact .inl ⟨rfl, h1⟩
  · exact .inr (.inl ⟨rfl, h1⟩)
  · exact .inr (.inr ⟨rfl, h1⟩)

theorem bundle_norow {k : Str} (hm : matchKey fieldsBundle.toList k = none) :
    foldName k ≠ b!"type" ∧ foldName k ≠ b!"id" ∧ foldName k ≠ b!"objects" := by
  have hn : (fieldsBundle.toList.map fun f => foldName f.key).Nodup := by decide
  have : ∀ f ∈ fieldsBundle.toList, foldName k ≠ foldName f.key := by
    intro f hf e
    rw [matchKey_of_fold hn hf e] at hm
    cases hm
  exact ⟨this _ (List.mem_cons_self ..), this _ (List.mem_cons_of_mem _ (List.mem_cons_self ..)),
    this _ (List.mem_cons_of_mem _ (List.mem_cons_of_mem _ (List.mem_cons_self ..)))⟩

theorem decBundle (ms : List (Str × Json)) : ∀ cur : Str → GV,
    ∃ g s, decStruct fieldsBundle.toList (decField F fieldsBundle) cur ms = .ok g s ∧
      (s = false ↔ ∀ e ∈ ms, MayHave e) ∧
      (s = false → rawList (g (b!"Objects")) = lastObjects ms (rawList (cur (b!"Objects")))) := by
  have hrow : ∀ {r : FieldInfo}, r ∈ fieldsBundle.toList → ∀ cur j,
      decField F fieldsBundle r.name cur j = dec F r.ty cur j :=
    fun hr cur j => decField_row bundle_nodup.1 hr cur j
  induction ms with
  | nil => intro cur; exact ⟨cur, false, rfl, by simp, fun _ => rfl⟩
  | cons e ms ih =>
    obtain ⟨k, j⟩ := e
    intro cur
    simp only [decStruct]
    cases hm : matchKey fieldsBundle.toList k with
    | none =>
      obtain ⟨h1, h2, h3⟩ := bundle_norow hm
      obtain ⟨g, s, e1, e2, e3⟩ := ih cur
      refine ⟨g, s, e1, ?_, ?_⟩
      · rw [e2]
        simp [MayHave, h1, h2, h3]
      · rw [lastObjects, if_neg h3]
        exact e3
    | some r =>
      have hr := matchKey_mem hm
      simp only
      rw [hrow hr]
      have text : ∀ (n : Str) (c : GV), ∃ v s0, dec F (.str n) c j = .ok v s0 ∧
          (s0 = false ↔ j = .null ∨ ∃ s, IsText j s) := by
        intro n c
        cases j <;> simp [dec, IsText]
      rcases bundle_row hm with ⟨rfl, hk⟩ | ⟨rfl, hk⟩ | ⟨rfl, hk⟩
      · obtain ⟨v, s0, e1, e2⟩ := text (b!"STIXType") (cur (b!"Type"))
        obtain ⟨g, s, f1, f2, f3⟩ := ih (fun x => if x = b!"Type" then v else cur x)
        refine ⟨g, s0 || s, by simp only [e1, D.bind, f1], ?_, ?_⟩
        · simp only [Bool.or_eq_false_iff, e2, f2, List.mem_cons, forall_eq_or_imp, MayHave, hk]
          simp
        · rw [lastObjects, if_neg (by rw [hk]; decide)]
          intro h
          rw [f3 (by simpa using (Bool.or_eq_false_iff.1 h).2)]
          rfl
      · obtain ⟨v, s0, e1, e2⟩ := text (b!"Identifier") (cur (b!"ID"))
        obtain ⟨g, s, f1, f2, f3⟩ := ih (fun x => if x = b!"ID" then v else cur x)
        refine ⟨g, s0 || s, by simp only [e1, D.bind, f1], ?_, ?_⟩
        · simp only [Bool.or_eq_false_iff, e2, f2, List.mem_cons, forall_eq_or_imp, MayHave, hk]
          simp
        · rw [lastObjects, if_neg (by rw [hk]; decide)]
          intro h
          rw [f3 (by simpa using (Bool.or_eq_false_iff.1 h).2)]
          rfl
      · have list : ∃ v s0, dec F (.slice .raw) (cur (b!"Objects")) j = .ok v s0 ∧
            (s0 = false ↔ j = .null ∨ ∃ l, j = .arr l) ∧ (s0 = false → rawList v = elementsOf j) := by
          cases j with
          | arr l => exact ⟨_, _, dec_rawSlice _ l, by simp, fun _ => rawList_raw l⟩
          | _ => simp [dec, decSliceOther, Ty.isByte, rawList, elementsOf]
        obtain ⟨v, s0, e1, e2, e3⟩ := list
        obtain ⟨g, s, f1, f2, f3⟩ := ih (fun x => if x = b!"Objects" then v else cur x)
        refine ⟨g, s0 || s, by simp only [e1, D.bind, f1], ?_, ?_⟩
        · simp only [Bool.or_eq_false_iff, e2, f2, List.mem_cons, forall_eq_or_imp, MayHave, hk]
          simp
        · rw [lastObjects, if_pos hk]
          intro h
          obtain ⟨h1, h2⟩ := Bool.or_eq_false_iff.1 h
          rw [f3 h2, if_pos rfl, e3 h1]

theorem lower_names : (∀ c ∈ b!"type", c < 0x80) ∧ (∀ c ∈ b!"id", c < 0x80) ∧ (∀ c ∈ b!"objects", c < 0x80) := by
  decide

theorem spelled_iff {name : Str} :
    (SpelledAs name (b!"type") ↔ foldName name = b!"type") ∧ (SpelledAs name (b!"id") ↔ foldName name = b!"id") ∧
      (SpelledAs name (b!"objects") ↔ foldName name = b!"objects") :=
  ⟨(c75_names _ _ lower_names.1).symm, (c75_names _ _ lower_names.2.1).symm, (c75_names _ _ lower_names.2.2).symm⟩

theorem lastObjects_iff (ms : List (Str × Json)) (hg : ∀ e ∈ ms, MayHave e) (l : List Json) :
    LastObjects ms l ↔ lastObjects ms [] = l := by
  unfold LastObjects
  simp only [spelled_iff.2.2]
  constructor
  · rintro (⟨h, rfl⟩ | ⟨a, k, v, b, rfl, h1, h2, h3⟩)
    · exact lastObjects_none h []
    · rw [lastObjects_append, lastObjects, if_pos h1, lastObjects_none h2]
      rcases h3 with rfl | ⟨rfl, rfl⟩ <;> rfl
  · intro h
    induction ms using List.reverseRecOn generalizing l with
    | nil => exact .inl ⟨by simp, h.symm⟩
    | append_singleton ms e ih =>
      rw [lastObjects_append] at h
      simp only [lastObjects] at h
      split at h
      · next hk =>
        refine .inr ⟨ms, e.1, e.2, [], rfl, hk, by simp, ?_⟩
        rcases (hg e (by simp)).2 hk with h1 | ⟨l', h1⟩
        · rw [h1] at h; exact .inr ⟨h1, h.symm⟩
        · rw [h1] at h; exact .inl (by rw [h1, ← h]; rfl)
      · next hk =>
        rcases ih (fun e he => hg e (by simp [he])) l h with ⟨h1, h2⟩ | ⟨a, k, v, b, rfl, h1, h2, h3⟩
        · refine .inl ⟨?_, h2⟩
          intro x hx
          rcases List.mem_append.1 hx with hx | hx
          · exact h1 x hx
          · rw [List.mem_singleton.1 hx]; exact hk
        · refine .inr ⟨a, k, v, b ++ [e], by simp, h1, ?_, h3⟩
          intro x hx
          rcases List.mem_append.1 hx with hx | hx
          · exact h2 x hx
          · rw [List.mem_singleton.1 hx]; exact hk

theorem mayHave_iff (ms : List (Str × Json)) : (∀ e ∈ ms, MayHave e) ↔
    (∀ e ∈ ms, SpelledAs e.1 (b!"type") ∨ SpelledAs e.1 (b!"id") → e.2 = .null ∨ ∃ s, IsText e.2 s) ∧
      (∀ e ∈ ms, SpelledAs e.1 (b!"objects") → e.2 = .null ∨ ∃ l, e.2 = .arr l) := by
  simp only [spelled_iff.1, spelled_iff.2.1, spelled_iff.2.2]
  exact ⟨fun h => ⟨fun e he => (h e he).1, fun e he => (h e he).2⟩, fun h e he => ⟨h.1 e he, h.2 e he⟩⟩

/-- **C75.** A document that holds a list of objects is read as the array of them; every other one is
refused with an error. -/
theorem c75_shape (opts : List (CollOption U)) (doc : Json) :
    (∀ l, Holds doc l → fromJSON F opts (some doc) = fromJSON F opts (some (.arr l))) ∧
    ((∀ l, ¬ Holds doc l) → fromJSON F opts (some doc) = .err .other) := by
  have hobj : ∀ ms, ∃ g s, dec F tyBundle (zero tyBundle) (.obj ms) = .ok (.struct g) s ∧
      (s = false ↔ ∀ e ∈ ms, MayHave e) ∧ (s = false → rawList (g (b!"Objects")) = lastObjects ms []) := by
    intro ms
    obtain ⟨g, s, h1, h2, h3⟩ := decBundle (F := F) ms (zeroFields fieldsBundle)
    exact ⟨g, s, by simp only [tyBundle, dec, zero, h1, D.bind, Bool.or_false], h2, h3⟩
  constructor
  · rintro l (_ | _ | ⟨ms, l, h1, h2, h3⟩)
    · rfl
    · rw [fromJSON_arr]; rfl
    · have hg := (mayHave_iff ms).2 ⟨h1, h2⟩
      obtain ⟨g, s, e1, e2, e3⟩ := hobj ms
      obtain rfl := e2.2 hg
      rw [fromJSON_arr]
      simp only [fromJSON, e1, D.res, e3 rfl, (lastObjects_iff ms hg l).1 h3]
  · intro hn
    cases doc with
    | arr l => exact absurd (.array l) (hn l)
    | null => exact absurd .null (hn [])
    | obj ms =>
      have hg : ¬ ∀ e ∈ ms, MayHave e := fun hg =>
        hn _ (.bundle ms _ ((mayHave_iff ms).1 hg).1 ((mayHave_iff ms).1 hg).2 ((lastObjects_iff ms hg _).2 rfl))
      obtain ⟨g, s, e1, e2, -⟩ := hobj ms
      cases s with
      | false => exact absurd (e2.1 rfl) hg
      | true => simp [fromJSON, e1, D.res, dec, decSliceOther]
    | _ => rfl

/-- **C75** (exactly one list).  A document holds at most one list of objects. -/
theorem c75_unique (doc : Json) (l l' : List Json) (h : Holds doc l) (h' : Holds doc l') : l = l' := by
  cases h with
  | array => cases h'; rfl
  | null => cases h'; rfl
  | bundle ms l h1 h2 h3 =>
    cases h' with
    | bundle _ _ _ _ g3 =>
      have hg := (mayHave_iff ms).2 ⟨h1, h2⟩
      rw [← (lastObjects_iff ms hg l).1 h3, (lastObjects_iff ms hg l').1 g3]

/-- **C75** (bytes).  Of bytes: if a collection is returned, they are the JSON text of a document that
holds a list of objects, and the array of them gives the same. -/
theorem c75_text (opts : List (CollOption U)) (text : Str) (c : Coll (Any U)) (h : fromJSONText F opts text = .ok c) :
    ∃ doc l, Spec.Text.IsText 10000 text doc ∧ Holds doc l ∧ fromJSON F opts (some (.arr l)) = .ok c := by
  by_cases hp : ∃ j, Spec.Text.IsText 10000 text j
  · obtain ⟨j, hj⟩ := hp
    rw [c52_value opts hj] at h
    by_cases hl : ∃ l, Holds j l
    · obtain ⟨l, hl⟩ := hl
      exact ⟨j, l, hj, hl, by rw [← (c75_shape opts j).1 l hl, h]⟩
    · rw [(c75_shape opts j).2 fun l hh => hl ⟨l, hh⟩] at h
      cases h
  · rw [c53_refused opts hp] at h
    cases h

/-- **C75** (nothing in it).  `null`, the empty array and an object without members for the objects give
an empty collection, if there is nothing wrong with type and id. -/
theorem c75_empty (opts : List (CollOption U)) (doc : Json) (h : Holds doc []) :
    ∃ c : Coll (Any U), fromJSON F opts (some doc) = .ok c ∧ (∀ objs, c.AllObjects objs → objs = []) ∧
      ∀ id, c.get id = none := by
  rw [(c75_shape opts doc).1 [] h, fromJSON_arr]
  refine ⟨_, rfl, ?_, ?_⟩
  · intro objs h
    rw [Coll.AllObjects, if_neg (by simp [Coll.new])] at h
    obtain ⟨bs, h1, vs, h2, rfl⟩ := h
    obtain rfl := List.perm_nil.1 h1
    cases h2
    rfl
  · intro id
    unfold Coll.get
    split <;> rfl

/-- A bundle with odd spellings: `TYPE` and `obJectſ`, the list given twice, the last one counts. -/
example : Holds (.obj [(b!"TYPE", .null), (b!"objects", .arr [.null]), (b!"obJect" ++ [0xC5, 0xBF], .arr [.bool true]),
    (b!"other", .bool false)]) [.bool true] := by
  have hs : ∀ {n k : Str}, (∀ c ∈ k, c < 0x80) → (SpelledAs n k ↔ SameUpToCase n k) := fun h => (c75_names _ _ h).symm
  refine .bundle _ _ ?_ ?_ (.inr ⟨[(b!"TYPE", .null), (b!"objects", .arr [.null])], b!"obJect" ++ [0xC5, 0xBF],
    .arr [.bool true], [(b!"other", .bool false)], rfl, ?_, ?_, .inl rfl⟩)
  all_goals simp only [hs lower_names.1, hs lower_names.2.1, hs lower_names.2.2, SameUpToCase]
  · intro e he
    simp only [List.mem_cons, List.not_mem_nil, or_false] at he
    rcases he with rfl | rfl | rfl | rfl
    · exact fun _ => .inl rfl
    all_goals exact fun h => absurd h (by decide)
  · intro e he
    simp only [List.mem_cons, List.not_mem_nil, or_false] at he
    rcases he with rfl | rfl | rfl | rfl
    · exact fun h => absurd h (by decide)
    · exact fun _ => .inr ⟨_, rfl⟩
    · exact fun _ => .inr ⟨_, rfl⟩
    · exact fun h => absurd h (by decide)
  · decide
  · simp only [List.mem_singleton, forall_eq]
    decide

/-- A bundle whose type is a number, and a number, hold nothing: `FromJSON` refuses them. -/
example : (∀ l, ¬ Holds (.obj [(b!"type", .num (b!"1")), (b!"objects", .arr [])]) l) ∧ ∀ l, ¬ Holds (.num (b!"1")) l := by
  refine ⟨fun l h => ?_, fun l h => by cases h⟩
  cases h with
  | bundle _ _ h1 h2 h3 =>
    rcases h1 _ (.head _) (.inl ((c75_names _ _ lower_names.1).1 (by unfold SameUpToCase; decide))) with h | ⟨s, w, h⟩ <;> cases h

end Stix
