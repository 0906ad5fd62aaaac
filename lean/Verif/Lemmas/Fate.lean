import Verif.Spec.Fate
import Verif.Lemmas.Says
import Verif.Props.Shape
import Verif.Props.NoPanic
import Verif.Props.Stamp
import Verif.Props.Base64
import Verif.Props.Custom

/-!
# The outcome of decoding does not depend on values
-/

namespace Stix
open Spec StixObject Stix.Canon Stix.Props.Canon

variable {F : Canon.FloatFmt} {U : Type} [UserType U]

/-- What became of a decoded value. -/
def D.fate {α} : D α → Fate
  | .ok _ false => .taken
  | .ok _ true => .wrong
  | .hard => .refused
  | .panic => .crash

/-- A value that can be written. -/
def Written (j : Json) : Prop := ∃ s, Spec.Text.Valid s ∧ j = Spec.Text.tree s

theorem written_elems {es : Spec.Canon.Elems} (h : Spec.Text.ValidElems es) :
    ∀ x ∈ Spec.Text.treeElems es, Written x := by
  match es with
  | .nil => simp [Spec.Text.treeElems]
  | .cons _ v _ r =>
    obtain ⟨-, h1, -, h2⟩ := h
    intro x hx
    rcases List.mem_cons.1 hx with rfl | hx
    · exact ⟨v, h1, rfl⟩
    · exact written_elems h2 x hx

theorem written_members {ms : Spec.Canon.Members} (h : Spec.Text.ValidMembers ms) :
    ∀ x ∈ Spec.Text.treeMembers ms, Written x.2 := by
  match ms with
  | .nil => simp [Spec.Text.treeMembers]
  | .cons _ _ _ _ _ v _ r =>
    obtain ⟨-, -, -, -, h1, -, h2⟩ := h
    intro x hx
    rcases List.mem_cons.1 hx with rfl | hx
    · exact ⟨v, h1, rfl⟩
    · exact written_members h2 x hx

theorem Written.arr {l : List Json} (h : Written (.arr l)) : ∀ x ∈ l, Written x := by
  obtain ⟨s, h1, h2⟩ := h
  cases s with
  | arr w es =>
    simp only [Spec.Text.tree, Json.arr.injEq] at h2
    subst h2
    exact written_elems h1.2
  | lit t => simp only [Spec.Text.tree] at h2; split at h2 <;> [skip; split at h2] <;> cases h2
  | _ => simp [Spec.Text.tree] at h2

theorem Written.obj {ms : List (Str × Json)} (h : Written (.obj ms)) : ∀ e ∈ ms, Written e.2 := by
  obtain ⟨s, h1, h2⟩ := h
  cases s with
  | obj w es =>
    simp only [Spec.Text.tree, Json.obj.injEq] at h2
    subst h2
    exact written_members h1.2
  | lit t => simp only [Spec.Text.tree] at h2; split at h2 <;> [skip; split at h2] <;> cases h2
  | _ => simp [Spec.Text.tree] at h2

theorem Written.num {l : Str} (h : Written (.num l)) : l ≠ [] := by
  obtain ⟨s, h1, h2⟩ := h
  cases s with
  | num t =>
    simp only [Spec.Text.tree, Json.num.injEq] at h2
    subst h2
    obtain ⟨sgn, i, f, e, rfl, -, hi, -⟩ := h1
    intro hc
    simp only [List.append_eq_nil_iff] at hc
    obtain ⟨-, ⟨rfl, -⟩, -⟩ := hc
    rcases hi with h | ⟨⟨h, -⟩, -⟩
    · cases h
    · exact h rfl
  | lit t => simp only [Spec.Text.tree] at h2; split at h2 <;> [skip; split at h2] <;> cases h2
  | _ => simp [Spec.Text.tree] at h2

theorem written_text {d : Nat} {text : Str} {j : Json} (h : Spec.Text.IsText d text j) : Written j := by
  obtain ⟨_, _, s, _, _, h1, _, h2, _⟩ := h
  exact ⟨s, h1, h2⟩

theorem Written.isText {j : Json} (h : Written j) : ∃ d text, Spec.Text.IsText d text j := by
  obtain ⟨s, h1, h2⟩ := h
  exact ⟨_, _, [], [], s, by simp [Spec.Canon.White], by simp [Spec.Canon.White], h1, le_refl _, h2, rfl⟩

theorem takenIf_true {p : Prop} {f : Fate} (h : p) : takenIf p f = .taken := if_pos h

theorem takenIf_false {p : Prop} {f : Fate} (h : ¬ p) : takenIf p f = f := if_neg h

/-- First one, then the other. -/
def Fate.andThen (a b : Fate) : Fate := inOrder [a, b]

theorem inOrder_cons (a : Fate) (l : List Fate) : inOrder (a :: l) = inOrder [a, inOrder l] := by
  cases a <;> simp only [inOrder] <;> cases inOrder l <;> rfl

theorem D.fate_bind {α β} {x : D α} {f : α → D β} {b : Fate} (h : ∀ a, (f a).fate = b) :
    (x.bind f).fate = inOrder [x.fate, b] := by
  cases x with
  | ok a s =>
    simp only [D.bind]
    cases hf : f a with
    | ok b s' => rw [← h a, hf]; cases s <;> cases s' <;> rfl
    | hard => rw [← h a, hf]; cases s <;> rfl
    | panic => rw [← h a, hf]; cases s <;> rfl
  | hard => rfl
  | panic => rfl

theorem D.fate_map {α β} {x : D α} {f : α → β} : (x.bind fun a => .ok (f a) false).fate = x.fate := by
  rw [D.fate_bind (b := .taken) (fun _ => rfl)]
  cases x.fate <;> rfl

theorem D.fate_map' {α β} {x : D α} {g : α → D β} (h : ∀ a, (g a).fate = .taken) : (x.bind g).fate = x.fate := by
  rw [D.fate_bind h]
  cases x.fate <;> rfl

theorem decElems_fate {d : GV → Json → D GV} {z : GV} {φ : Json → Fate} :
    ∀ (l : List Json) (cur : List GV), (∀ x ∈ l, ∀ c, (d c x).fate = φ x) →
      (decElems d z cur l).fate = inOrder (l.map φ)
  | [], _, _ => rfl
  | j :: l, cur, h => by
    rw [decElems, List.map_cons, inOrder_cons, D.fate_bind (b := inOrder (l.map φ)) fun v => ?_,
      h j (by simp)]
    rw [D.fate_map]
    exact decElems_fate l _ fun x hx => h x (by simp [hx])

theorem decEntries_fate {d : Json → D GV} {φ : Json → Fate} :
    ∀ (l : List (Str × Json)) (cur : List (Str × GV)), (∀ x ∈ l, (d x.2).fate = φ x.2) →
      (decEntries d cur l).fate = inOrder (l.map fun e => φ e.2)
  | [], _, _ => rfl
  | j :: l, cur, h => by
    rw [decEntries, List.map_cons, inOrder_cons, D.fate_bind (b := inOrder (l.map fun e => φ e.2)) fun v => ?_,
      h j (by simp)]
    exact decEntries_fate l _ fun x hx => h x (by simp [hx])

theorem decStruct_fate {fs : List FieldInfo} {d : Str → GV → Json → D GV} {φ : Str → Json → Fate} :
    ∀ (l : List (Str × Json)) (cur : Str → GV),
      (∀ x ∈ l, matchKey fs x.1 = none → φ x.1 x.2 = .taken) →
      (∀ x ∈ l, ∀ f, matchKey fs x.1 = some f → ∀ c, (d f.name c x.2).fate = φ x.1 x.2) →
      (decStruct fs d cur l).fate = inOrder (l.map fun e => φ e.1 e.2)
  | [], _, _, _ => rfl
  | (k, j) :: l, cur, h1, h2 => by
    have ih := fun cur => decStruct_fate (d := d) l cur (fun x hx => h1 x (by simp [hx])) fun x hx => h2 x (by simp [hx])
    simp only [decStruct, List.map_cons]
    cases hm : matchKey fs k with
    | none =>
      simp only [h1 (k, j) (by simp) hm, inOrder]
      exact ih cur
    | some f =>
      rw [inOrder_cons, ← h2 (k, j) (by simp) f hm (cur f.name)]
      exact D.fate_bind fun v => ih _

theorem decExts_cases {d : Str → Json → D GV} (l : List (Str × Json)) :
    (decExts d l).fate ≠ .wrong ∧ ((decExts d l).fate = .crash ↔ ∃ e ∈ l, (d e.1 e.2).fate = .crash) ∧
      ((decExts d l).fate = .taken ↔ ∀ e ∈ l, (d e.1 e.2).fate = .taken) := by
  induction l with
  | nil => simp [decExts, D.fate]
  | cons e l ih =>
    simp only [decExts, List.mem_cons, exists_eq_or_imp, forall_eq_or_imp, ← ih.2.1, ← ih.2.2]
    obtain ⟨ih, -⟩ := ih
    cases d e.1 e.2 with
    | panic => simp [D.fate]
    | hard => cases decExts d l with
      | ok _ s => cases s <;> simp [D.fate]
      | _ => simp [D.fate]
    | ok v s => cases decExts d l with
      | ok _ s' => cases s <;> cases s' <;> simp_all [D.fate]
      | _ => cases s <;> simp [D.fate]

theorem decExts_fate {d : Str → Json → D GV} {φ : Str → Json → Fate} (l : List (Str × Json))
    (h : ∀ e ∈ l, (d e.1 e.2).fate = φ e.1 e.2) {p : Fate → Prop} (hp : ∀ f, p f ↔ ∃ e ∈ l, φ e.1 e.2 = f) :
    (decExts d l).fate = together p := by
  obtain ⟨h1, h2, h3⟩ := decExts_cases (d := d) l
  have e2 : (∃ e ∈ l, (d e.1 e.2).fate = .crash) ↔ p .crash := by
    rw [hp]
    exact exists_congr fun e => and_congr_right fun he => by rw [h e he]
  have e3 : (∀ e ∈ l, (d e.1 e.2).fate = .taken) ↔ ¬ (p .crash ∨ p .wrong ∨ p .refused) := by
    simp only [hp]
    constructor
    · rintro hh (⟨e, he, h'⟩ | ⟨e, he, h'⟩ | ⟨e, he, h'⟩) <;> rw [← h e he, hh e he] at h' <;> cases h'
    · intro hh e he
      rw [h e he]
      cases hf : φ e.1 e.2 with
      | taken => rfl
      | crash => exact absurd (.inl ⟨e, he, hf⟩) hh
      | wrong => exact absurd (.inr (.inl ⟨e, he, hf⟩)) hh
      | refused => exact absurd (.inr (.inr ⟨e, he, hf⟩)) hh
  rw [e2] at h2
  rw [e3] at h3
  unfold together
  split
  · next hc => exact h2.2 hc
  · next hc =>
    split
    · next hw =>
      cases hf : (decExts d l).fate with
      | refused => rfl
      | wrong => exact absurd hf h1
      | crash => exact absurd (h2.1 hf) hc
      | taken => exact absurd (.inr hw) (h3.1 hf)
    · next hw => exact h3.2 fun hh => hh.elim hc hw

/-! ### Leaves -/

theorem digits_of {l : Str} (h : l.all (fun c => 48 ≤ c && c ≤ 57) = true) :
    ∃ ds : List Nat, (∀ d ∈ ds, d ≤ 9) ∧ l = ds.map digit := by
  rw [List.all_eq_true] at h
  refine ⟨l.map fun c => c.toNat - 48, ?_, ?_⟩
  · intro d hd
    obtain ⟨c, hc, rfl⟩ := List.mem_map.1 hd
    have := h c hc
    simp only [Bool.and_eq_true, decide_eq_true_eq, UInt8.le_iff_toNat_le] at this
    have h57 : (57 : UInt8).toNat = 57 := rfl
    omega
  · rw [List.map_map]
    conv_lhs => rw [← List.map_id l]
    refine List.map_congr_left fun c hc => ?_
    have := h c hc
    revert this
    exact forall_uint8 (P := fun c => (decide (48 ≤ c) && decide (c ≤ 57)) = true →
      id c = (digit ∘ fun c : UInt8 => c.toNat - 48) c) (by decide +kernel) c

theorem digits_all {ds : List Nat} (h : ∀ d ∈ ds, d ≤ 9) :
    (ds.map digit).all (fun c => 48 ≤ c && c ≤ 57) = true := by
  rw [List.all_eq_true]
  intro c hc
  have := isDigits h c hc
  simp [this]

theorem parseInt64_iff (l : Str) : (∃ i, parseInt64 l = some i) ↔ Int64Text l := by
  constructor
  · rintro ⟨i, h⟩
    have key : ∀ (neg : Bool) (ds : Str), (if ds = [] ∨ ¬ ds.all (fun c => 48 ≤ c && c ≤ 57) then none else
        if -9223372036854775808 ≤ (if neg then -(litVal ds : Int) else litVal ds) ∧
          (if neg then -(litVal ds : Int) else litVal ds) ≤ 9223372036854775807 then
          some (if neg then -(litVal ds : Int) else litVal ds) else none) = some i →
        ∃ d : List Nat, d ≠ [] ∧ (∀ x ∈ d, x ≤ 9) ∧ ds = d.map digit ∧
          i = (if neg then -(decimal d : Int) else decimal d) ∧ -2 ^ 63 ≤ i ∧ i < 2 ^ 63 := by
      intro neg ds h
      split at h
      · cases h
      next hn =>
      push Not at hn
      obtain ⟨d, hd, rfl⟩ := digits_of hn.2
      rw [litVal_digits d hd] at h
      by_cases hr : -9223372036854775808 ≤ (if neg then -(decimal d : Int) else decimal d) ∧
          (if neg then -(decimal d : Int) else decimal d) ≤ 9223372036854775807
      · rw [if_pos hr, Option.some.injEq] at h
        rw [h] at hr
        refine ⟨d, by simpa using hn.1, hd, rfl, h.symm, ?_, ?_⟩ <;> omega
      · rw [if_neg hr] at h
        cases h
    unfold parseInt64 at h
    split at h
    next neg ds heq =>
    obtain ⟨d, h1, h2, h3, h4, h5⟩ := key neg ds h
    refine ⟨d, i, h1, h2, ?_, h5⟩
    split at heq
    · simp only [Prod.mk.injEq] at heq
      obtain ⟨rfl, rfl⟩ := heq
      exact .inr ⟨by rw [h3], by simpa using h4⟩
    · simp only [Prod.mk.injEq] at heq
      obtain ⟨rfl, rfl⟩ := heq
      exact .inl ⟨h3, by simpa using h4⟩
  · rintro ⟨ds, i, h1, h2, h3, h4, h5⟩
    exact ⟨i, parseInt64_digits h1 h2 h3 h4 h5⟩

theorem byteOfJson_iff (j : Json) : (∃ b, byteOfJson j = some b) ↔ ByteText j := by
  cases j with
  | null => simp [byteOfJson, ByteText]
  | num lit =>
    have hf : lit.foldl (fun a c => 10 * a + (c.toNat - 48)) 0 = litVal lit := rfl
    simp only [byteOfJson, ByteText, hf, Json.num.injEq, reduceCtorEq, false_or]
    constructor
    · rintro ⟨b, h⟩
      split at h
      · next hh =>
        obtain ⟨d, hd, rfl⟩ := digits_of hh.2
        rw [litVal_digits d hd] at h
        split at h
        · next hlt => exact ⟨d, by simpa using hh.1, hd, hlt, rfl⟩
        · cases h
      · cases h
    · rintro ⟨ds, h1, h2, h3, rfl⟩
      rw [if_pos ⟨by simpa using h1, digits_all h2⟩, litVal_digits ds h2, if_pos h3]
      exact ⟨_, rfl⟩
  | _ => simp [byteOfJson, ByteText]

mutual
theorem tooLarge_iff : ∀ j : Json, dynSoft F j = true ↔ TooLarge F j
  | .null | .bool _ | .str _ _ => by simp [dynSoft, decDyn, TooLarge]
  | .num l => by
    simp only [dynSoft, decDyn, TooLarge]
    cases F.parse l <;> simp
  | .arr l => by rw [dynSoft_arr, TooLarge]; exact tooLargeIn_iff l
  | .obj ms => by rw [dynSoft_obj, TooLarge]; exact tooLargeMember_iff ms

theorem tooLargeIn_iff : ∀ l : List Json, (l.any fun j => dynSoft F j) = true ↔ TooLargeIn F l
  | [] => by simp [TooLargeIn]
  | j :: l => by rw [List.any_cons, Bool.or_eq_true, TooLargeIn, tooLarge_iff j, tooLargeIn_iff l]

theorem tooLargeMember_iff : ∀ ms : List (Str × Json), (ms.any fun e => dynSoft F e.2) = true ↔ TooLargeMember F ms
  | [] => by simp [TooLargeMember]
  | (k, j) :: l => by rw [List.any_cons, Bool.or_eq_true, TooLargeMember, tooLarge_iff j, tooLargeMember_iff l]
end

theorem decDyn_fate (j : Json) : (decDyn F j).fate = takenIf (¬ TooLarge F j) .wrong := by
  rw [decDyn_eq]
  by_cases h : TooLarge F j
  · rw [takenIf_false (not_not.2 h), (tooLarge_iff j).2 h]; rfl
  · rw [takenIf_true h, Bool.eq_false_iff.2 fun hh => h ((tooLarge_iff j).1 hh)]; rfl

mutual
/-- The JSON names of a struct are different up to case. -/
def Ty.apart : Ty → Bool
  | .slice t => t.apart
  | .map _ _ t => t.apart
  | .ptr t => t.apart
  | .struct _ fs => decide (fs.toList.map FieldInfo.name).Nodup &&
      decide (fs.toList.map fun f => foldName f.key).Nodup && fs.apart
  | .ext ks => ks.apart
  | _ => true

/-- Of every field. -/
def Fields.apart : Fields → Bool
  | .nil => true
  | .cons _ _ _ t rest => t.apart && rest.apart

/-- Of every extension struct. -/
def Known.apart : Known → Bool
  | .nil => true
  | .cons _ _ fs rest => decide (fs.toList.map FieldInfo.name).Nodup &&
      decide (fs.toList.map fun f => foldName f.key).Nodup && fs.apart && rest.apart
end

theorem objFields_apart (s : SId) : (mkFields (objFields s)).apart = true ∧
    ((mkFields (objFields s)).toList.map fun f => foldName f.key).Nodup := by
  have : ∀ s ∈ allSIds, (mkFields (objFields s)).apart = true ∧
    ((mkFields (objFields s)).toList.map fun f => foldName f.key).Nodup := by decide +kernel
  exact this s (mem_allSIds s)

theorem fateMember_none {fs : Fields} {k : Str} {j : Json} (h : ∀ f ∈ fs.toList, foldName k ≠ foldName f.key) :
    fateMember F fs k j = .taken := by
  match fs with
  | .nil => rfl
  | .cons n k' o t rest =>
    rw [fateMember, if_neg (show ¬ SameUpToCase k k' from h ⟨n, k', o, t⟩ (by simp [Fields.toList]))]
    exact fateMember_none fun f hf => h f (by simp [Fields.toList, hf])

theorem fateMember_some {fs : Fields} {k : Str} {j : Json} {f : FieldInfo}
    (hn : (fs.toList.map fun f => foldName f.key).Nodup) (hf : f ∈ fs.toList) (h : foldName k = foldName f.key) :
    fateMember F fs k j = fate F f.ty j := by
  match fs with
  | .nil => simp [Fields.toList] at hf
  | .cons n k' o t rest =>
    simp only [Fields.toList, List.map_cons, List.nodup_cons, List.mem_cons] at hn hf
    rw [fateMember]
    rcases hf with rfl | hf
    · rw [if_pos (show SameUpToCase k k' from h)]
    · rw [if_neg fun hh => hn.1 ?_]
      · exact fateMember_some hn.2 hf h
      · rw [SameUpToCase] at hh
        rw [← hh, h]
        exact List.mem_map_of_mem hf

theorem matchKey_no {fs : List FieldInfo} {k : Str} (h : matchKey fs k = none) : ∀ f ∈ fs, foldName k ≠ foldName f.key := by
  intro f hf e
  unfold matchKey at h
  cases h1 : fs.find? (fun f => f.key == k) with
  | some g => rw [h1] at h; simp at h
  | none =>
    rw [h1] at h
    have := List.find?_eq_none.1 (show fs.find? (fun f => foldName f.key == foldName k) = none from h) f hf
    simp [e] at this

theorem decFields_fate {fs : Fields} (hn : (fs.toList.map FieldInfo.name).Nodup)
    (hk : (fs.toList.map fun f => foldName f.key).Nodup) (ms : List (Str × Json)) (cur : Str → GV)
    (h : ∀ e ∈ ms, ∀ f ∈ fs.toList, ∀ c, (dec F f.ty c e.2).fate = fate F f.ty e.2) :
    (decStruct fs.toList (decField F fs) cur ms).fate = inOrder (ms.map fun e => fateMember F fs e.1 e.2) := by
  refine decStruct_fate ms cur (fun e _ hm => fateMember_none (matchKey_no hm)) fun e he f hm c => ?_
  rw [decField_row hn (matchKey_mem hm), h e he f (matchKey_mem hm), fateMember_some hk (matchKey_mem hm) (matchKey_fold hm)]

theorem ofRes_fate {α β} {x : Res α} {g : α → β} : ((D.ofRes x).bind fun a => .ok (g a) false).fate =
    match x with
    | .ok _ => .taken
    | .err _ => .refused
    | .panic => .crash := by
  rw [D.fate_map]
  cases x <;> rfl

theorem enum_fate (e : EnumId) (j : Json) (hj : j ≠ .num []) (cur : GV) :
    (dec F (.enum e) cur j).fate = fate F (.enum e) j := by
  rw [dec, ofRes_fate]
  have hp := c21_decode_panic_iff_partial e (enumTable e) j hj
  by_cases hx : e = .ExtensionType
  · subst hx
    cases j <;> simp [enumUnmarshal, enumMode, jsonIntoString, fate]
  · have hno : ∀ x, enumUnmarshal (enumTable e) e j ≠ .err x := by
      have hm : enumMode e ≠ .viaString := by cases e <;> first | decide | exact absurd rfl hx
      unfold enumUnmarshal
      intro x
      cases h : enumMode e with
      | viaString => exact absurd h hm
      | sliced => simp only [goMiddle]; split <;> simp
      | guarded => simp only [goMiddle]; split <;> [skip; split] <;> simp
    cases hr : enumUnmarshal (enumTable e) e j with
    | err x => exact absurd hr (hno x)
    | panic =>
      obtain ⟨h1, d, rfl⟩ := hp.1 hr
      rcases h1 with rfl | rfl <;> rfl
    | ok v =>
      have hn : ¬ ((e = .EncryptionAlgorithm ∨ e = .OpinionValue) ∧ ∃ d, j = .num [d]) := fun h => by
        rw [hp.2 h] at hr; cases hr
      simp only [fate]
      split
      · exact absurd ⟨.inl rfl, _, rfl⟩ hn
      · exact absurd ⟨.inr rfl, _, rfl⟩ hn
      · rfl
      · rfl
      · exact absurd rfl hx
      · rfl

theorem bin_fate (j : Json) (cur : GV) : (dec F .bin cur j).fate = fate F .bin j := by
  rw [dec, ofRes_fate]
  cases j with
  | str raw s =>
    simp only [fate]
    by_cases h : ∃ b, Base64Text s b
    · obtain ⟨b, hb⟩ := h
      rw [takenIf_true ⟨b, hb⟩, (c26_reads_base64 raw s b).2 hb]
    · obtain ⟨e, he⟩ := c26_rejects raw s fun b hb => h ⟨b, hb⟩
      rw [takenIf_false h, he]
  | arr l =>
    simp only [fate, binaryUnmarshal]
    have hm : (∃ b, l.mapM byteOfJson = some b) ↔ ∀ x ∈ l, ByteText x := by
      simp only [← byteOfJson_iff]
      induction l with
      | nil => simp
      | cons x l ih =>
        simp only [List.mapM_cons, List.mem_cons, forall_eq_or_imp, ← ih, Option.bind_eq_bind,
          Option.bind_eq_some_iff, Option.pure_def, Option.some.injEq]
        constructor
        · rintro ⟨b, v, h1, w, h2, -⟩; exact ⟨⟨v, h1⟩, w, h2⟩
        · rintro ⟨⟨v, h1⟩, w, h2⟩; exact ⟨_, v, h1, w, h2, rfl⟩
    by_cases h : ∀ x ∈ l, ByteText x
    · obtain ⟨b, hb⟩ := hm.2 h
      rw [takenIf_true h, hb]
    · rw [takenIf_false h]
      cases hb : l.mapM byteOfJson with
      | none => rfl
      | some b => exact absurd (hm.1 ⟨b, hb⟩) h
  | _ => rfl

theorem time_fate (j : Json) (hj : Written j) (cur : GV) : (dec F .time cur j).fate = fate F .time j := by
  rw [dec, ofRes_fate]
  obtain ⟨d, text, ht⟩ := hj.isText
  have hs := c55_only_strings d text j ht
  have hp := c25_decode_panic_iff_partial j (by rintro rfl; exact hj.num rfl)
  cases j with
  | str raw s =>
    simp only [fate]
    by_cases h : ∃ x : Stamp, x.Valid ∧ x.zone.Within 24 60 ∧ x.Loose raw
    · rw [takenIf_true h]
      obtain ⟨x, h1, h2, h3⟩ := h
      rw [((c55_exact raw s).1 _).2 ⟨x, h1, h2, h3, rfl⟩]
    · rw [takenIf_false h, (c55_exact raw s).2 h]
  | num l =>
    by_cases h : ∃ d, l = [d]
    · obtain ⟨d, rfl⟩ := h
      rw [hp.2 ⟨d, rfl⟩]
      rfl
    · have hf : fate F .time (.num l) = .refused := by
        simp only [fate]
        split
        · next e => cases e
        · next d e => cases e; exact absurd ⟨d, rfl⟩ h
        · rfl
      rw [hf]
      cases hr : timestampUnmarshal (.num l) with
      | ok t => obtain ⟨_, _, e⟩ := hs t hr; cases e
      | err e => rfl
      | panic => obtain ⟨d, e⟩ := hp.1 hr; cases e; exact absurd ⟨d, rfl⟩ h
  | _ =>
    simp only [fate]
    split
    · next t hr => obtain ⟨_, _, e⟩ := hs t hr; cases e
    · rfl
    · next hr => obtain ⟨d, e⟩ := hp.1 hr; cases e

mutual
/-- What becomes of a value that is decoded. -/
theorem dec_fate : ∀ (t : Ty) (j : Json), t.apart = true → Written j → ∀ cur, (dec F t cur j).fate = fate F t j
  | .str _, j, _, _, cur => by cases j <;> rfl
  | .bool, j, _, _, cur => by cases j <;> rfl
  | .int _, j, _, _, cur => by
    cases j with
    | num l =>
      simp only [dec, fate]
      by_cases h : Int64Text l
      · obtain ⟨i, hi⟩ := (parseInt64_iff l).2 h
        rw [takenIf_true h, hi]; rfl
      · rw [takenIf_false h]
        cases hi : parseInt64 l with
        | none => rfl
        | some i => exact absurd ((parseInt64_iff l).1 ⟨i, hi⟩) h
    | _ => rfl
  | .flt, j, _, _, cur => by
    cases j with
    | num l =>
      simp only [dec, fate]
      cases h : F.parse l with
      | none => rw [takenIf_false (by simp)]; rfl
      | some x => rw [takenIf_true (by simp)]; rfl
    | _ => rfl
  | .enum e, j, _, hw, cur => enum_fate e j (by rintro rfl; exact hw.num rfl) cur
  | .bin, j, _, _, cur => bin_fate j cur
  | .time, j, _, hw, cur => time_fate j hw cur
  | .slice t, j, ha, hw, cur => by
    cases j with
    | arr l =>
      simp only [dec, fate, D.fate_map]
      exact decElems_fate l _ fun x hx c => dec_fate t x ha (hw.arr x hx) c
    | str raw s =>
      simp only [dec, fate, decSliceOther]
      by_cases h : (∃ e, t = .enum e) ∧ ∃ b, Base64Text s b
      · rw [takenIf_true h]
        obtain ⟨⟨e, rfl⟩, b, hb⟩ := h
        have := (c26_reads_base64 raw s b).2 hb
        simp only [binaryUnmarshal] at this
        simp only [Ty.isByte, if_true]
        cases hd : b64Decode s with
        | none => rw [hd] at this; cases this
        | some b => rfl
      · rw [takenIf_false h]
        split
        · next hb =>
          have he : ∃ e, t = .enum e := by cases t <;> first | exact ⟨_, rfl⟩ | cases hb
          cases hd : b64Decode s with
          | none => rfl
          | some b =>
            refine absurd ⟨he, b, (c26_reads_base64 raw s b).1 ?_⟩ h
            simp only [binaryUnmarshal, hd]
        · rfl
    | _ => rfl
  | .map _ _ t, j, ha, hw, cur => by
    cases j with
    | obj ms =>
      simp only [dec, fate, D.fate_map]
      exact decEntries_fate (φ := fate F t) ms _ fun x hx => dec_fate t x.2 ha (hw.obj x hx) _
    | _ => rfl
  | .ptr t, j, ha, hw, cur => by
    cases j with
    | null => rfl
    | _ => simp only [dec, fate, D.fate_map]; exact dec_fate t _ ha hw _
  | .struct _ fs, j, ha, hw, cur => by
    simp only [Ty.apart, Bool.and_eq_true, decide_eq_true_eq] at ha
    cases j with
    | obj ms =>
      simp only [dec, fate, D.fate_map]
      exact decFields_fate ha.1.1 ha.1.2 ms _ fun e he f hf c => decRow_fate fs f e.2 ha.2 (hw.obj e he) hf c
    | _ => rfl
  | .dyn, j, _, _, cur => by
    cases j with
    | num l =>
      simp only [dec, fate]
      by_cases h : TooLarge F (.num l)
      · rw [takenIf_false (not_not.2 h)]
        simp only [TooLarge] at h
        rw [h]; rfl
      · rw [takenIf_true h]
        simp only [TooLarge] at h
        cases hp : F.parse l with
        | none => exact absurd hp h
        | some x => rfl
    | _ => simp only [dec, fate, D.fate_map]; exact decDyn_fate _
  | .ext ks, j, ha, hw, cur => by
    cases j with
    | obj ms =>
      simp only [dec, fate, D.fate_map]
      refine decExts_fate (φ := fateExtension F ks) _ (fun e he => ?_) fun f => ?_
      · exact decExt_fate ks e.1 e.2 ha (hw.obj _ (mem_smOfList' he))
      · constructor
        · rintro ⟨k, v, h1, h2⟩
          rw [← amLookup_smOfList_member] at h1
          exact ⟨(k, v), mem_of_amLookup _ _ _ h1, h2⟩
        · rintro ⟨⟨k, v⟩, h1, h2⟩
          refine ⟨k, v, ?_, h2⟩
          rw [← amLookup_smOfList_member]
          exact amLookup_eq_some_of_mem _ _ _ (sortedKeys_smOfList ms).nodup h1
    | _ => rfl
  | .raw, j, _, _, cur => rfl

theorem decRow_fate : ∀ (fs : Fields) (f : FieldInfo) (j : Json), fs.apart = true → Written j → f ∈ fs.toList →
    ∀ cur, (dec F f.ty cur j).fate = fate F f.ty j
  | .nil, _, _, _, _, hf, _ => by simp [Fields.toList] at hf
  | .cons n k o t rest, f, j, ha, hw, hf, cur => by
    simp only [Fields.apart, Bool.and_eq_true] at ha
    simp only [Fields.toList, List.mem_cons] at hf
    rcases hf with rfl | hf
    · exact dec_fate t j ha.1 hw cur
    · exact decRow_fate rest f j ha.2 hw hf cur

theorem decExt_fate : ∀ (ks : Known) (k : Str) (j : Json), ks.apart = true → Written j →
    (decExt F ks k j).fate = fateExtension F ks k j
  | .nil, k, j, _, _ => by
    simp only [decExt, fateExtension, D.fate_map]
    cases j with
    | obj ms =>
      rw [decCustom_obj]
      by_cases h : TooLargeMember F ms
      · simp only [takenIf_false (not_not.2 h), (tooLargeMember_iff ms).2 h]; rfl
      · simp only [takenIf_true h, Bool.eq_false_iff.2 fun hh => h ((tooLargeMember_iff ms).1 hh)]; rfl
    | _ => rfl
  | .cons k' _ fs rest, k, j, ha, hw => by
    simp only [Known.apart, Bool.and_eq_true, decide_eq_true_eq] at ha
    simp only [decExt, fateExtension]
    split
    · cases j with
      | obj ms =>
        simp only [D.fate_map]
        exact decFields_fate ha.1.1.1 ha.1.1.2 ms _ fun e he f hf c => decRow_fate fs f e.2 ha.1.2 (hw.obj e he) hf c
      | _ => rfl
    · exact decExt_fate rest k j ha.2 hw
end

end Stix
