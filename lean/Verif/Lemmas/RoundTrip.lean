import Verif.Props.Marshal

/-!
# Objects through JSON and back (lemmas)
-/

namespace Stix
open Spec StixObject

variable {F : Canon.FloatFmt} {U : Type} [UserType U]

/-! ### No number is out of range -/

theorem decDynArr_soft (l : List Json) :
    ∃ ds, decDynArr F l = .ok ds (l.any fun j => dynSoft F j) := by
  induction l with
  | nil => exact ⟨[], rfl⟩
  | cons j l ih =>
    obtain ⟨ds, h⟩ := ih
    exact ⟨dynOf F j :: ds, by simp [decDynArr, decDyn_eq, h, D.bind]⟩

theorem dynSoft_arr (l : List Json) : dynSoft F (.arr l) = l.any fun j => dynSoft F j := by
  obtain ⟨ds, h⟩ := decDynArr_soft (F := F) l
  simp [dynSoft, decDyn, h, D.bind]

theorem dynSoft_obj (ms : List (Str × Json)) :
    dynSoft F (.obj ms) = ms.any fun e => dynSoft F e.2 := by
  simp [dynSoft, decDyn, decDynObj_eq, D.bind]

theorem dynSoft_num (t : Str) (h : (F.parse t).isSome = true) : dynSoft F (.num t) = false := by
  obtain ⟨x, hx⟩ := Option.isSome_iff_exists.1 h
  simp [dynSoft, decDyn, hx]

theorem dynSoft_ofStr (s : Str) : dynSoft F (.ofStr s) = false := by
  simp [Json.ofStr, dynSoft, decDyn]

theorem natLitAux_length : ∀ f n k, n < 10 ^ (k + 1) → (natLitAux f n).length ≤ k + 1
  | 0, n, k, _ => by simp [natLitAux]
  | f + 1, n, k, h => by
    rw [natLitAux]
    split
    · simp
    · next hn =>
      cases k with
      | zero => simp at h; omega
      | succ k =>
        have := natLitAux_length f (n / 10) k (by
          rw [Nat.pow_succ] at h
          exact Nat.div_lt_of_lt_mul (by omega))
        simp only [List.length_append, List.length_singleton]
        omega

theorem natLit_length (n : Nat) (h : n < 10 ^ 19) : (natLit n).length ≤ 19 :=
  natLitAux_length _ n 18 h

theorem dynSoft_int (hI : IntegersParse F) (i : Int) (h : -2 ^ 63 ≤ i ∧ i < 2 ^ 63) :
    dynSoft F (.num (intLit i)) = false := by
  apply dynSoft_num
  obtain ⟨h1, h2, -⟩ := natLit_spec i.natAbs
  have h3 := natLit_length i.natAbs (by omega)
  have := hI _ h1 h3 h2
  unfold intLit
  split
  · exact this.2
  · exact this.1

theorem dynSoft_flt (L : Canon.FloatLaws F) (f : F64) (h : F64Finite f) :
    dynSoft F (.num (floatLit F f)) = false :=
  dynSoft_num _ (by rw [parse_floatLit L h]; rfl)

theorem encEntries_clean {α} {f : α → Option Json} {l : List (Str × α)} {js : List (Str × Json)}
    (h : encEntries f l = some js) (hc : ∀ e ∈ l, ∀ j, f e.2 = some j → dynSoft F j = false) :
    dynSoft F (.obj js) = false := by
  rw [dynSoft_obj, List.any_eq_false]
  intro x hx
  obtain ⟨e, he, -, h2⟩ := forall₂_mem_right (encEntries_some h) hx
  simp [hc e he _ h2]

theorem allSome_some {α β} {f : α → Option β} : ∀ {l : List α} {js : List β}, allSome f l = some js →
    List.Forall₂ (fun a b => f a = some b) l js
  | [], js, h => by simp only [allSome, Option.some.injEq] at h; subst h; exact .nil
  | a :: l, js, h => by
    simp only [allSome] at h
    split at h
    · next h1 h2 =>
      simp only [Option.some.injEq] at h
      subst h
      exact .cons h1 (allSome_some h2)
    · simp at h

mutual
theorem encDyn_clean (L : Canon.FloatLaws F) (hI : IntegersParse F) : ∀ {d : Dyn} {j : Json},
    DynAll true Canon.Unicode F64Finite d → encDyn F d = some j → dynSoft F j = false
  | .nil, j, _, h => by simp only [encDyn, Option.some.injEq] at h; subst h; rfl
  | .bool _, j, _, h => by simp only [encDyn, Option.some.injEq] at h; subst h; rfl
  | .num f, j, hd, h => by
    simp only [DynAll] at hd
    simp only [encDyn, (finite_iff f).2 hd, if_true, Option.some.injEq] at h
    subst h
    exact dynSoft_flt L f hd
  | .int _, _, hd, _ => by simp [DynAll] at hd
  | .str _, j, _, h => by
    simp only [encDyn, Option.some.injEq] at h; subst h; exact dynSoft_ofStr _
  | .strs _, _, hd, _ => by simp [DynAll] at hd
  | .arr l, j, hd, h => by
    simp only [DynAll] at hd
    simp only [encDyn, Option.map_eq_some_iff] at h
    obtain ⟨js, h, rfl⟩ := h
    rw [dynSoft_arr]
    exact encDynArr_clean L hI hd h
  | .obj m, j, hd, h => by
    simp only [DynAll] at hd
    simp only [encDyn, Option.map_eq_some_iff] at h
    obtain ⟨js, h, rfl⟩ := h
    rw [dynSoft_obj]
    exact encDynObj_clean L hI hd.2 h

theorem encDynArr_clean (L : Canon.FloatLaws F) (hI : IntegersParse F) : ∀ {l : List Dyn}
    {js : List Json}, DynAllList true Canon.Unicode F64Finite l → encDynArr F l = some js →
    (js.any fun j => dynSoft F j) = false
  | [], js, _, h => by simp only [encDynArr, Option.some.injEq] at h; subst h; rfl
  | d :: l, js, hd, h => by
    simp only [DynAllList] at hd
    simp only [encDynArr] at h
    split at h
    · next h1 h2 =>
      simp only [Option.some.injEq] at h
      subst h
      simp [encDyn_clean L hI hd.1 h1, encDynArr_clean L hI hd.2 h2]
    · simp at h

theorem encDynObj_clean (L : Canon.FloatLaws F) (hI : IntegersParse F) : ∀ {l : List (Str × Dyn)}
    {js : List (Str × Json)}, DynAllEntries true Canon.Unicode F64Finite l → encDynObj F l = some js →
    (js.any fun e => dynSoft F e.2) = false
  | [], js, _, h => by simp only [encDynObj, Option.some.injEq] at h; subst h; rfl
  | (k, d) :: l, js, hd, h => by
    simp only [DynAllEntries] at hd
    simp only [encDynObj] at h
    split at h
    · next h1 h2 =>
      simp only [Option.some.injEq] at h
      subst h
      simp [encDyn_clean L hI hd.1.2 h1, encDynObj_clean L hI hd.2 h2]
    · simp at h
end

mutual
/-- No `json.RawMessage` within. -/
def Ty.noRaw : Ty → Bool
  | .slice t => t.noRaw
  | .map _ _ t => t.noRaw
  | .ptr t => t.noRaw
  | .struct _ fs => fs.noRaw
  | .ext ks => ks.noRaw
  | .raw => false
  | _ => true

def Fields.noRaw : Fields → Bool
  | .nil => true
  | .cons _ _ _ t rest => t.noRaw && rest.noRaw

def Known.noRaw : Known → Bool
  | .nil => true
  | .cons _ _ fs rest => fs.noRaw && rest.noRaw
end

theorem objFields_noRaw (s : SId) : ∀ r ∈ objFields s, r.ty.noRaw = true := by
  have : ∀ s ∈ allSIds, ∀ r ∈ objFields s, r.ty.noRaw = true := by decide +kernel
  exact this s (mem_allSIds s)

mutual
theorem enc_clean (L : Canon.FloatLaws F) (hI : IntegersParse F) : ∀ {t : Ty} {v : GV} {j : Json},
    t.noRaw = true → Carriable t v → enc F t v = some j → dynSoft F j = false
  | .str _, v, j, hn, hv, h => by
    obtain ⟨s, rfl, -⟩ := hv
    simp only [enc, Option.some.injEq] at h
    subst h; exact dynSoft_ofStr _
  | .bool, v, j, hn, hv, h => by
    obtain ⟨s, rfl⟩ := hv
    simp only [enc, Option.some.injEq] at h
    subst h; rfl
  | .int _, v, j, hn, hv, h => by
    obtain ⟨s, rfl, hs⟩ := hv
    simp only [enc, Option.some.injEq] at h
    subst h; exact dynSoft_int hI s hs
  | .flt, v, j, hn, hv, h => by
    obtain ⟨s, rfl, hs⟩ := hv
    simp only [enc, (finite_iff s).2 hs, if_true, Option.some.injEq] at h
    subst h; exact dynSoft_flt L s hs
  | .enum _, v, j, hn, hv, h => by
    obtain ⟨s, rfl, -⟩ := hv
    simp only [enc, Option.some.injEq] at h
    subst h; exact dynSoft_ofStr _
  | .bin, v, j, hn, hv, h => by
    obtain ⟨s, rfl⟩ := hv
    simp only [enc, Option.some.injEq] at h
    subst h; cases s <;> rfl
  | .time, v, j, hn, hv, h => by
    obtain ⟨s, rfl, -⟩ := hv
    simp only [enc, Option.some.injEq] at h
    subst h; rfl
  | .slice t, v, j, hn, hv, h => by
    rcases hv with rfl | ⟨l, rfl, hv⟩
    · simp only [enc, Option.some.injEq] at h; subst h; rfl
    · simp only [enc, Option.map_eq_some_iff] at h
      obtain ⟨js, h, rfl⟩ := h
      rw [dynSoft_arr, List.any_eq_false]
      intro x hx
      obtain ⟨a, ha, h2⟩ := forall₂_mem_right (allSome_some h) hx
      simp [enc_clean L hI (t := t) (by simpa [Ty.noRaw] using hn) (hv a ha) h2]
  | .map _ _ t, v, j, hn, hv, h => by
    rcases hv with rfl | ⟨l, rfl, -, hv⟩
    · simp only [enc, Option.some.injEq] at h; subst h; rfl
    · simp only [enc, Option.map_eq_some_iff] at h
      obtain ⟨js, h, rfl⟩ := h
      exact encEntries_clean h fun e he j hj => enc_clean L hI (t := t) (by simpa [Ty.noRaw] using hn) (hv e he).2 hj
  | .ptr t, v, j, hn, hv, h => by
    rcases hv with rfl | ⟨l, rfl, hv⟩
    · simp only [enc, Option.some.injEq] at h; subst h; rfl
    · simp only [enc] at h
      exact enc_clean L hI (t := t) (by simpa [Ty.noRaw] using hn) hv h
  | .struct _ fs, v, j, hn, hv, h => by
    obtain ⟨f, rfl, hv⟩ := hv
    simp only [enc, Option.map_eq_some_iff] at h
    obtain ⟨js, h, rfl⟩ := h
    rw [dynSoft_obj]
    exact encFields_clean L hI hn hv h
  | .dyn, v, j, hn, hv, h => by
    obtain ⟨d, rfl, hd⟩ := hv
    simp only [enc] at h
    exact encDyn_clean L hI hd h
  | .ext ks, v, j, hn, hv, h => by
    rcases hv with rfl | ⟨l, rfl, -, hv⟩
    · simp only [enc, Option.some.injEq] at h; subst h; rfl
    · simp only [enc, Option.map_eq_some_iff] at h
      obtain ⟨js, h, rfl⟩ := h
      exact encEntries_clean h fun e he j hj => encExt_clean L hI hn (hv e he).2 hj
  | .raw, v, j, hn, hv, h => by simp [Ty.noRaw] at hn

theorem encFields_clean (L : Canon.FloatLaws F) (hI : IntegersParse F) : ∀ {fs : Fields}
    {f : Str → GV} {js : List (Str × Json)}, fs.noRaw = true → ValFields carriable fs f → encFields F fs f = some js →
    (js.any fun e => dynSoft F e.2) = false
  | .nil, f, js, _, _, h => by simp only [encFields, Option.some.injEq] at h; subst h; rfl
  | .cons n k o t rest, f, js, hn, hv, h => by
    simp only [Fields.noRaw, Bool.and_eq_true] at hn
    obtain ⟨h1, h2⟩ := hv
    simp only [encFields] at h
    split at h
    · exact encFields_clean L hI hn.2 h2 h
    · split at h
      · next g1 g2 =>
        simp only [Option.some.injEq] at h
        subst h
        simp [enc_clean L hI hn.1 h1 g1, encFields_clean L hI hn.2 h2 g2]
      · simp at h

theorem encExt_clean (L : Canon.FloatLaws F) (hI : IntegersParse F) : ∀ {ks : Known} {key : Str}
    {v : GV} {j : Json}, ks.noRaw = true → ValExt carriable ks key v → encExt F ks v = some j → dynSoft F j = false
  | .nil, _, v, j, _, hv, h => by
    rcases hv with ⟨d, rfl, -, hd⟩ | ⟨-, d, rfl, hd⟩
    · simp only [encExt] at h; exact encDyn_clean L hI hd h
    · simp only [encExt] at h; exact encDyn_clean L hI hd h
  | .cons k _ fs rest, _, v, j, hn, hv, h => by
    simp only [Known.noRaw, Bool.and_eq_true] at hn
    rcases hv with ⟨-, f, rfl, hv⟩ | ⟨-, h1, h2⟩
    · simp only [encExt, if_true, Option.map_eq_some_iff] at h
      obtain ⟨js, h, rfl⟩ := h
      rw [dynSoft_obj]
      exact encFields_clean L hI hn.1 hv h
    · refine encExt_clean L hI hn.2 h2 ?_
      simp only [encExt] at h
      split at h
      · next tag f =>
        split at h
        · next e => exact absurd (e ▸ rfl) (h1 (.struct f))
        · exact h
      · exact h
end

end Stix
