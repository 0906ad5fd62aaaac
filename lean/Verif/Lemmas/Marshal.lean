import Verif.Model.Marshal
import Verif.Spec.Marshal
import Verif.Lemmas.Codec
import Verif.Lemmas.SortedMap
import Verif.Lemmas.AssocMap
import Verif.Lemmas.Option

/-!
# Serialisation of objects (lemmas)
-/

namespace Stix
open Spec

variable {F : Canon.FloatFmt}

/-! ### Encoding succeeds -/

theorem allSome_isSome {α β} {f : α → Option β} : ∀ {l : List α}, (∀ x ∈ l, (f x).isSome = true) →
    (allSome f l).isSome = true
  | [], _ => rfl
  | x :: l, h => by
    obtain ⟨a, ha⟩ := Option.isSome_iff_exists.1 (h x (by simp))
    obtain ⟨b, hb⟩ := Option.isSome_iff_exists.1 (allSome_isSome (l := l) fun y hy => h y (List.mem_cons_of_mem _ hy))
    simp [allSome, ha, hb]

theorem encEntries_isSome {α} {f : α → Option Json} : ∀ {l : List (Str × α)},
    (∀ x ∈ l, (f x.2).isSome = true) → (encEntries f l).isSome = true
  | [], _ => rfl
  | x :: l, h => by
    obtain ⟨a, ha⟩ := Option.isSome_iff_exists.1 (h x (by simp))
    obtain ⟨b, hb⟩ := Option.isSome_iff_exists.1 (encEntries_isSome (l := l) fun y hy => h y (List.mem_cons_of_mem _ hy))
    simp [encEntries, ha, hb]

mutual
theorem encDyn_isSome {n : Bool} {S : Str → Prop} : ∀ {d : Dyn}, DynAll n S F64Finite d →
    (encDyn F d).isSome = true
  | .nil, _ => rfl
  | .bool _, _ => rfl
  | .num f, h => by
    simp only [DynAll] at h
    simp [encDyn, (finite_iff f).2 h]
  | .int _, _ => rfl
  | .str _, _ => rfl
  | .strs _, _ => rfl
  | .arr l, h => by
    simp only [DynAll] at h
    obtain ⟨x, hx⟩ := Option.isSome_iff_exists.1 (encDynList_isSome h)
    simp [encDyn, hx]
  | .obj m, h => by
    simp only [DynAll] at h
    obtain ⟨x, hx⟩ := Option.isSome_iff_exists.1 (encDynEntries_isSome h.2)
    simp [encDyn, hx]

theorem encDynList_isSome {n : Bool} {S : Str → Prop} : ∀ {l : List Dyn}, DynAllList n S F64Finite l →
    (encDynArr F l).isSome = true
  | [], _ => rfl
  | d :: l, h => by
    simp only [DynAllList] at h
    obtain ⟨x, hx⟩ := Option.isSome_iff_exists.1 (encDyn_isSome h.1)
    obtain ⟨y, hy⟩ := Option.isSome_iff_exists.1 (encDynList_isSome h.2)
    simp [encDynArr, hx, hy]

theorem encDynEntries_isSome {n : Bool} {S : Str → Prop} : ∀ {l : List (Str × Dyn)},
    DynAllEntries n S F64Finite l → (encDynObj F l).isSome = true
  | [], _ => rfl
  | (k, d) :: l, h => by
    simp only [DynAllEntries] at h
    obtain ⟨x, hx⟩ := Option.isSome_iff_exists.1 (encDyn_isSome h.1.2)
    obtain ⟨y, hy⟩ := Option.isSome_iff_exists.1 (encDynEntries_isSome h.2)
    simp [encDynObj, hx, hy]
end

mutual
theorem enc_isSome : ∀ {t : Ty} {v : GV}, Typed t v → (enc F t v).isSome = true
  | .str _, v, h => by obtain ⟨s, rfl, -⟩ := h; rfl
  | .bool, v, h => by obtain ⟨s, rfl⟩ := h; rfl
  | .int _, v, h => by obtain ⟨s, rfl, -⟩ := h; rfl
  | .flt, v, h => by obtain ⟨s, rfl, h⟩ := h; simp [enc, (finite_iff s).2 h]
  | .enum _, v, h => by obtain ⟨s, rfl, -⟩ := h; rfl
  | .bin, v, h => by obtain ⟨s, rfl⟩ := h; rfl
  | .time, v, h => by obtain ⟨s, rfl, -⟩ := h; rfl
  | .slice t, v, h => by
    rcases h with rfl | ⟨l, rfl, h⟩
    · rfl
    · simp only [enc, Option.isSome_map]
      exact allSome_isSome fun x hx => enc_isSome (h x hx)
  | .map _ _ t, v, h => by
    rcases h with rfl | ⟨l, rfl, -, h⟩
    · rfl
    · simp only [enc, Option.isSome_map]
      exact encEntries_isSome fun x hx => enc_isSome (h x hx).2
  | .ptr t, v, h => by
    rcases h with rfl | ⟨l, rfl, h⟩
    · rfl
    · simp only [enc]; exact enc_isSome h
  | .struct _ fs, v, h => by
    obtain ⟨f, rfl, h⟩ := h
    simp only [enc, Option.isSome_map]
    exact encFields_isSome h
  | .dyn, v, h => by
    obtain ⟨d, rfl, h⟩ := h
    simp only [enc]
    exact encDyn_isSome h
  | .ext ks, v, h => by
    rcases h with rfl | ⟨l, rfl, -, h⟩
    · rfl
    · simp only [enc, Option.isSome_map]
      exact encEntries_isSome fun x hx => encExt_isSome (h x hx).2
  | .raw, v, h => by obtain ⟨d, rfl⟩ := h; rfl

theorem encFields_isSome : ∀ {fs : Fields} {f : Str → GV}, ValFields typed fs f →
    (encFields F fs f).isSome = true
  | .nil, _, _ => rfl
  | .cons n k o t rest, f, h => by
    obtain ⟨h1, h2⟩ := h
    obtain ⟨y, hy⟩ := Option.isSome_iff_exists.1 (encFields_isSome h2)
    obtain ⟨x, hx⟩ := Option.isSome_iff_exists.1 (enc_isSome h1)
    simp only [encFields, hx, hy]
    split <;> rfl

theorem encExt_isSome : ∀ {ks : Known} {key : Str} {v : GV}, ValExt typed ks key v →
    (encExt F ks v).isSome = true
  | .nil, _, v, h => by
    rcases h with ⟨d, rfl, -, h⟩ | ⟨-, d, rfl, h⟩
    · simp only [encExt]; exact encDyn_isSome h
    · simp only [encExt]; exact encDyn_isSome h
  | .cons k _ fs rest, _, v, h => by
    rcases h with ⟨-, f, rfl, h⟩ | ⟨-, h1, h2⟩
    · simp only [encExt, if_true, Option.isSome_map]
      exact encFields_isSome h
    · have := encExt_isSome h2
      simp only [encExt]
      split
      · next tag f =>
        split
        · next e => exact absurd (e ▸ rfl) (h1 (.struct f))
        · exact this
      · exact this
end

/-! ### The map -/

theorem fieldsToMap_none {val : Str → GV} : ∀ {fs : List FieldInfo} {m : List (Str × MV)},
    fieldsToMap val fs m = none ↔ ∃ r ∈ fs, r.omitE = false ∧ isUnset r.ty (val r.name) = true
  | [], m => by simp [fieldsToMap]
  | f :: fs, m => by
    simp only [fieldsToMap]
    split
    · next h =>
      split
      · next h2 => rw [fieldsToMap_none]; simp [h2]
      · next h2 => simp [h2, h]
    · next h => rw [fieldsToMap_none]; simp [h]

theorem fieldsToMap_sorted {val : Str → GV} : ∀ {fs : List FieldInfo} {m m' : List (Str × MV)},
    fieldsToMap val fs m = some m' → SortedKeys m → SortedKeys m'
  | [], m, m', h, hs => by simp only [fieldsToMap, Option.some.injEq] at h; exact h ▸ hs
  | f :: fs, m, m', h, hs => by
    simp only [fieldsToMap] at h
    split at h
    · split at h
      · exact fieldsToMap_sorted h hs
      · simp at h
    · exact fieldsToMap_sorted h (sortedKeys_smInsert hs)

theorem fieldsToMap_lookup {val : Str → GV} : ∀ {fs : List FieldInfo} {m m' : List (Str × MV)},
    (fs.map FieldInfo.key).Nodup → fieldsToMap val fs m = some m' →
    (∀ r ∈ fs, isUnset r.ty (val r.name) = false →
      amLookup r.key m' = some (.typed r.ty (val r.name))) ∧
    ∀ k, (∀ r ∈ fs, r.key = k → isUnset r.ty (val r.name) = true) → amLookup k m' = amLookup k m
  | [], m, m', _, h => by simp only [fieldsToMap, Option.some.injEq] at h; simp [h]
  | f :: fs, m, m', hn, h => by
    simp only [List.map_cons, List.nodup_cons] at hn
    simp only [fieldsToMap] at h
    split at h
    · next hu =>
      split at h
      · obtain ⟨h1, h2⟩ := fieldsToMap_lookup hn.2 h
        refine ⟨fun r hr hr' => ?_, fun k hk => h2 k fun r hr => hk r (by simp [hr])⟩
        rcases List.mem_cons.1 hr with rfl | hr
        · rw [hu] at hr'; simp at hr'
        · exact h1 r hr hr'
      · simp at h
    · next hu =>
      obtain ⟨h1, h2⟩ := fieldsToMap_lookup hn.2 h
      refine ⟨fun r hr hr' => ?_, fun k hk => ?_⟩
      · rcases List.mem_cons.1 hr with rfl | hr
        · rw [h2 r.key fun r' hr' e => absurd (List.mem_map_of_mem (f := FieldInfo.key) hr')
            (e ▸ hn.1), amLookup_smInsert]
          simp
        · exact h1 r hr hr'
      · rw [h2 k fun r hr => hk r (by simp [hr]), amLookup_smInsert, if_neg]
        intro e
        exact hu (hk f (by simp) e.symm)

theorem addExtra_sorted {x : Option (List (Str × Dyn))} {m : List (Str × MV)} (h : SortedKeys m) :
    SortedKeys (addExtra x m) := by
  unfold addExtra
  generalize x.getD [] = l
  induction l generalizing m with
  | nil => exact h
  | cons e l ih => exact ih (sortedKeys_smInsert h)

theorem addExtra_lookup {x : Option (List (Str × Dyn))} (hx : SortedKeys (x.getD []))
    {m : List (Str × MV)} (k : Str) :
    amLookup k (addExtra x m) = match amLookup k (x.getD []) with
      | some d => some (.extra d)
      | none => amLookup k m := by
  unfold addExtra
  revert hx
  generalize x.getD [] = l
  intro hx
  have hn := hx.nodup
  clear hx
  induction l generalizing m with
  | nil => rfl
  | cons e l ih =>
    obtain ⟨k', d⟩ := e
    simp only [amKeys, List.map_cons, List.nodup_cons] at hn
    simp only [List.foldl_cons, amLookup]
    rw [ih hn.2]
    by_cases e : k' = k
    · subst e
      rw [(amLookup_eq_none_iff _ _).2 hn.1]
      simp [amLookup_smInsert]
    · simp only [if_neg e]
      rw [amLookup_smInsert, if_neg (Ne.symm e)]

/-- The members made of a map. -/
theorem encEntries_some {α} {f : α → Option Json} : ∀ {l : List (Str × α)} {js : List (Str × Json)},
    encEntries f l = some js →
      List.Forall₂ (fun e x => x.1 = sanitize e.1 ∧ f e.2 = some x.2) l js
  | [], js, h => by simp only [encEntries, Option.some.injEq] at h; subst h; exact .nil
  | (k, a) :: l, js, h => by
    simp only [encEntries] at h
    split at h
    · next h1 h2 =>
      simp only [Option.some.injEq] at h
      subst h
      exact .cons ⟨rfl, h1⟩ (encEntries_some h2)
    · simp at h

/-! ### Unset properties -/

/-- A type whose zero values `isZeroValue` knows. -/
def Ty.simple : Ty → Bool
  | .struct _ _ => false
  | .time => false
  | .raw => false
  | _ => true

/-- A simple type, or a struct of such. -/
def Ty.plain : Ty → Bool
  | .struct _ fs => fs.toList.all fun r => r.ty.simple
  | t => t.simple

theorem objFields_plain (s : SId) : ∀ r ∈ objFields s, r.ty.plain = true := by
  have : ∀ s ∈ allSIds, ∀ r ∈ objFields s, r.ty.plain = true := by decide +kernel
  exact this s (mem_allSIds s)

theorem isZeroValue_iff {P : Leaves} {t : Ty} {v : GV} (ht : t.simple = true) (hv : Val P t v) :
    isZeroOf t v = true ↔ v = zero t := by
  cases t <;> simp only [Ty.simple, Bool.false_eq_true] at ht <;> simp only [isZeroOf, zero]
  case str => obtain ⟨s, rfl, -⟩ := hv; simp [isZeroValue]
  case bool => obtain ⟨s, rfl⟩ := hv; simp [isZeroValue]
  case int => obtain ⟨s, rfl, -⟩ := hv; simp [isZeroValue]
  case flt => obtain ⟨s, rfl, -⟩ := hv; simp [isZeroValue]
  case enum => obtain ⟨s, rfl, -⟩ := hv; simp [isZeroValue]
  case bin => obtain ⟨s, rfl⟩ := hv; simp [isZeroValue]
  case slice => rcases hv with rfl | ⟨l, rfl, -⟩ <;> simp [isZeroValue]
  case map => rcases hv with rfl | ⟨l, rfl, -⟩ <;> simp [isZeroValue]
  case ptr => rcases hv with rfl | ⟨l, rfl, -⟩ <;> simp [isZeroValue]
  case ext => rcases hv with rfl | ⟨l, rfl, -⟩ <;> simp [isZeroValue]
  case dyn =>
    obtain ⟨d, rfl, -⟩ := hv
    cases d <;> simp [isZeroValue]

theorem isZeroFields_iff {P : Leaves} : ∀ {fs : Fields} {f : Str → GV},
    (∀ r ∈ fs.toList, r.ty.simple = true) → ValFields P fs f →
    (isZeroFields fs f = true ↔ ∀ r ∈ fs.toList, f r.name = zero r.ty)
  | .nil, f, _, _ => by simp [isZeroFields, Fields.toList]
  | .cons n k o t rest, f, hs, hv => by
    obtain ⟨h1, h2⟩ := hv
    simp only [Fields.toList, List.mem_cons, forall_eq_or_imp] at hs ⊢
    simp only [isZeroFields, Bool.and_eq_true]
    rw [isZeroValue_iff hs.1 h1, isZeroFields_iff hs.2 h2]

theorem isUnset_iff {P : Leaves} {t : Ty} {v : GV} (ht : t.plain = true) (hv : Val P t v) :
    isUnset t v = true ↔ Unset t v := by
  cases t
  case bool => simp [isUnset, Unset, Ty.kind]
  case struct n fs =>
    obtain ⟨f, rfl, hv⟩ := hv
    simp only [Ty.plain, List.all_eq_true] at ht
    simp only [isUnset, Unset, Ty.kind, isZeroOf]
    simpa using isZeroFields_iff ht hv
  case int n =>
    rw [isUnset, Bool.and_eq_true, isZeroValue_iff rfl hv]
    simp only [Unset, Ty.kind]
    refine ⟨fun h => h.2, fun h => ⟨?_, h⟩⟩
    split <;> simp
  case time => simp [Ty.plain, Ty.simple] at ht
  case raw => simp [Ty.plain, Ty.simple] at ht
  all_goals
    rw [isUnset, Bool.and_eq_true, isZeroValue_iff rfl hv]
    simp [Unset, Ty.kind]

end Stix
