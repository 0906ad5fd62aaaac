import Verif.Model.Codec
import Verif.Spec.Value
import Verif.Lemmas.CanonSame
import Verif.Lemmas.SortedMap
import Verif.Lemmas.Float
import Verif.Props.Enum
import Verif.Props.Time
import Verif.Props.Base64

/-!
# Leaves of values, written and read

Strings, integers, floats, enumeration values and times.
-/

namespace Stix
open Spec Spec.Canon Canon

/-! ### Strings -/

theorem utf8_cons (c : Char) (cs : List Char) : utf8 (c :: cs) = String.utf8EncodeChar c ++ utf8 cs := rfl

theorem sanitizeAux_utf8 (cs : List Char) : ∀ n, (utf8 cs).length ≤ n → sanitizeAux n (utf8 cs) = utf8 cs := by
  induction cs with
  | nil => intro n _; cases n <;> rfl
  | cons c cs ih =>
    intro n hn
    obtain ⟨b, tail, he, ht⟩ : ∃ b tail, String.utf8EncodeChar c = b :: tail ∧
        utf8Tail b (tail ++ utf8 cs) = some tail.length := by
      obtain ⟨b, tl, he, ht, _⟩ := utf8Tail_char c (utf8 cs)
      exact ⟨b, tl, he, ht⟩
    rw [utf8_cons, he] at hn ⊢
    match n, hn with
    | n + 1, hn =>
      simp only [List.cons_append, sanitizeAux, ht]
      simp only [List.cons_append, List.length_cons, List.length_append] at hn
      rw [List.take_left, List.drop_left, ih n (by omega)]

theorem sanitize_unicode {s : Str} (h : Unicode s) : sanitize s = s := by
  obtain ⟨cs, rfl⟩ := h
  exact sanitizeAux_utf8 cs _ (le_refl _)

/-! ### Integers -/

theorem litVal_append (l : Str) (d : UInt8) : litVal (l ++ [d]) = 10 * litVal l + (d.toNat - 48) := by
  simp [litVal, List.foldl_append]

theorem natLitAux_spec : ∀ f n, n < 2 ^ f → 0 < f → natLitAux f n ≠ [] ∧
    (∀ c ∈ natLitAux f n, 48 ≤ c ∧ c ≤ 57) ∧ litVal (natLitAux f n) = n := by
  have hd : ∀ k : Nat, k < 10 → (48 : UInt8) ≤ (48 + k).toUInt8 ∧ (48 + k).toUInt8 ≤ 57 ∧
      (48 + k).toUInt8.toNat = 48 + k := by
    intro k hk
    have : (48 + k).toUInt8.toNat = 48 + k := by
      change (48 + k) % 256 = _; omega
    refine ⟨?_, ?_, this⟩ <;> rw [UInt8.le_iff_toNat_le, this]
    · change 48 ≤ _; omega
    · change _ ≤ 57; omega
  intro f
  induction f with
  | zero => intro n _ h; omega
  | succ f ih =>
    intro n hn _
    rw [natLitAux]
    split
    · next h =>
      obtain ⟨a, b, c⟩ := hd n h
      refine ⟨by simp, ?_, ?_⟩
      · intro x hx; simp only [List.mem_singleton] at hx; subst hx; exact ⟨a, b⟩
      · simp only [litVal, List.foldl_cons, List.foldl_nil, c]; omega
    · next h =>
      have hf : 0 < f := by
        by_contra hc
        have : f = 0 := by omega
        subst this; simp at hn; omega
      have h2 : n / 10 < 2 ^ f := by
        rw [pow_succ] at hn; omega
      obtain ⟨h3, h4, h5⟩ := ih (n / 10) h2 hf
      obtain ⟨a, b, c⟩ := hd (n % 10) (by omega)
      refine ⟨by simp, ?_, ?_⟩
      · intro x hx
        rcases List.mem_append.1 hx with hx | hx
        · exact h4 x hx
        · simp only [List.mem_singleton] at hx; subst hx; exact ⟨a, b⟩
      · rw [litVal_append, h5, c]; omega

theorem natLit_spec (n : Nat) : natLit n ≠ [] ∧ (∀ c ∈ natLit n, 48 ≤ c ∧ c ≤ 57) ∧ litVal (natLit n) = n :=
  natLitAux_spec _ n Nat.lt_log2_self (by omega)

theorem natLit_head (n : Nat) (r : Str) : natLit n ≠ 45 :: r := by
  intro h
  have := (natLit_spec n).2.1 45 (by rw [h]; simp)
  exact absurd this.1 (by decide)

theorem parseInt64_intLit (i : Int) (h : -2 ^ 63 ≤ i ∧ i < 2 ^ 63) : parseInt64 (intLit i) = some i := by
  obtain ⟨h1, h2, h3⟩ := natLit_spec i.natAbs
  have hall : (natLit i.natAbs).all (fun c => 48 ≤ c && c ≤ 57) = true := by
    rw [List.all_eq_true]; intro c hc; simp [h2 c hc]
  unfold intLit
  split
  · next hneg =>
    simp only [parseInt64, h1, hall, h3, not_true, or_self, if_false, if_true]
    have : -(i.natAbs : Int) = i := by omega
    rw [this, if_pos (by omega)]
  · next hneg =>
    unfold parseInt64
    split
    next neg ds heq =>
    have : neg = false ∧ ds = natLit i.natAbs := by
      revert heq
      split
      · next r hr => exact absurd hr (natLit_head _ _)
      · intro h; simp only [Prod.mk.injEq] at h; exact ⟨h.1.symm, h.2.symm⟩
    obtain ⟨rfl, rfl⟩ := this
    simp only [h1, hall, h3, not_true, or_self, if_false]
    have : (i.natAbs : Int) = i := by omega
    simp only [this, Bool.false_eq_true, if_false]
    rw [if_pos (by omega)]

/-! ### Floats -/

theorem finite_iff (b : UInt64) : finite b = true ↔ F64Finite b := by
  unfold finite F64Finite f64Exp
  simp only [ne_eq, decide_not, Bool.not_eq_true', decide_eq_false_iff_not, ← UInt64.toNat_inj, u64_and_exp]
  change ¬ _ = 0x7ff0000000000000 ↔ _
  constructor <;> intro h h' <;> apply h <;> omega

theorem cleanExp_spec {F : FloatFmt} (L : FloatLaws F) {a : UInt64} (ha : PosFinite a) :
    IsDigit ((cleanExp (F.formatE a)).headD 0) ∧ F.parse (cleanExp (F.formatE a)) = some a := by
  obtain ⟨m, sgn, ds, he, h1, h2, h3, h4, h5, h6⟩ := L.eShape a ha
  have hp := L.eParse a ha
  have hhead : ∀ es : Str, IsDigit ((m ++ 101 :: sgn :: es).headD 0) := by
    intro es
    cases m with
    | nil => exact absurd rfl h1
    | cons x xs => exact h2
  rw [he] at hp ⊢
  unfold cleanExp
  simp only
  split
  · next hc =>
    obtain ⟨_, c1, c2, c3⟩ := hc
    -- the byte 101 occurs once, so the exponent has two digits
    have hlen : (m ++ 101 :: sgn :: ds).length = m.length + ds.length + 2 := by simp; omega
    have hds : ds.length = 2 := by
      by_contra hne
      have : m.length + ds.length + 2 - 4 = m.length + 2 + (ds.length - 4) ∧ 4 ≤ ds.length ∨ ds.length = 3 := by omega
      rw [hlen] at c1
      rcases this with ⟨h, h'⟩ | h
      · rw [h, List.getElem?_append_right (by omega)] at c1
        rw [show m.length + 2 + (ds.length - 4) - m.length = (ds.length - 4) + 2 by omega] at c1
        simp only [List.getElem?_cons_succ] at c1
        have := h6 101 (List.mem_of_getElem? c1)
        exact absurd this (by decide)
      · rw [show m.length + ds.length + 2 - 4 = m.length + 1 by omega, List.getElem?_append_right (by omega)] at c1
        rw [show m.length + 1 - m.length = 1 by omega] at c1
        simp only [List.getElem?_cons_succ, List.getElem?_cons_zero, Option.some.injEq] at c1
        subst c1
        exact absurd h4 (by decide)
    match ds, hds with
    | [d, e], _ =>
      have hd : d = 48 := by
        rw [hlen] at c3
        simp only [List.length_cons, List.length_nil] at c3
        rw [List.getElem?_append_right (by omega), show m.length + (0 + 1 + 1) + 2 - 2 - m.length = 2 by omega] at c3
        simpa using c3
      subst hd
      have e1 : (m ++ [101, sgn, 48, e]).take ((m ++ [101, sgn, 48, e]).length - 2) = m ++ [101, sgn] := by
        rw [List.take_append]
        simp [List.take_of_length_le]
      have e2 : (m ++ [101, sgn, 48, e]).drop ((m ++ [101, sgn, 48, e]).length - 1) = [e] := by
        rw [List.drop_append]
        simp
      rw [e1, e2]
      have e3 : m ++ [101, sgn] ++ [e] = m ++ 101 :: sgn :: [e] := by simp
      rw [e3]
      exact ⟨hhead _, by rw [← L.expZero m sgn [e] h3 h4 (by simp)
        (fun c hc => h6 c (List.mem_cons_of_mem _ hc)), hp]⟩
  · exact ⟨hhead _, hp⟩

theorem parse_floatLit {F : FloatFmt} (L : FloatLaws F) {x : UInt64} (h : F64Finite x) :
    F.parse (floatLit F x) = some x := by
  have hf := (finite_iff x).2 h
  simp only [finite, ne_eq, decide_not, Bool.not_eq_true', decide_eq_false_iff_not] at hf
  unfold floatLit
  simp only
  by_cases hz : x &&& 0x7fffffffffffffff = 0
  · rw [if_pos hz]
    split
    · next hs =>
      have := sign_split hs
      rw [hz] at this
      rw [← this]
      exact L.negZero
    · next hs =>
      rw [not_not] at hs
      rw [← nosign hs, hz]
      exact L.zero
  · rw [if_neg hz]
    have hp := posFinite_and hf hz
    obtain ⟨t, ht, hd, hpt⟩ : ∃ t, (if x &&& 0x7fffffffffffffff < 0x444B1AE4D6E2EF50 ∧
        0x3EB0C6F7A0B5ED8D ≤ x &&& 0x7fffffffffffffff then F.formatF (x &&& 0x7fffffffffffffff)
        else cleanExp (F.formatE (x &&& 0x7fffffffffffffff))) = t ∧ IsDigit (t.headD 0) ∧
        F.parse t = some (x &&& 0x7fffffffffffffff) := by
      refine ⟨_, rfl, ?_⟩
      split
      · exact ⟨(L.fShape _ hp).2.1, L.fParse _ hp⟩
      · exact cleanExp_spec L hp
    rw [ht]
    split
    · next hs =>
      rw [L.neg _ _ hp hd hpt, sign_split hs]
    · next hs =>
      rw [not_not] at hs
      rw [hpt, nosign hs]

/-! ### Enumeration values, times -/

theorem enum_round_trip (e : EnumId) (n : UInt8) (h : n = 0 ∨ ∃ s, (n, s) ∈ vocabulary e) :
    enumUnmarshal (enumTable e) e (enumMarshal e n) = .ok n := by
  rcases h with rfl | ⟨s, h⟩
  · apply (c19_undefined_value e _ (List.Perm.refl _) 0 ?_).2
    have : ∀ e ∈ allEnums, ∀ p ∈ vocabulary e, p.1 ≠ 0 := by decide
    exact fun s hs => this e (mem_allEnums e) _ hs rfl
  · exact (c19_round_trip e _ (List.Perm.refl _) n s h).2

theorem endOfYears_eq : endOfYears = endOfTime := by decide +kernel

/-! ### What `omitempty` drops -/

theorem isEmptyValue_eq (v : GV) : isEmptyValue v = Blank v := by
  cases v with
  | str s => cases s <;> simp [isEmptyValue, Blank]
  | bool b => cases b <;> rfl
  | flt f =>
    simp only [isEmptyValue, Blank]
    have : f &&& 0x7fffffffffffffff = 0 ↔ f64Units f = 0 := by
      rw [← UInt64.toNat_inj, u64_and_abs]
      unfold f64Units f64Exp f64Frac
      change _ = 0 ↔ _
      have := f.toNat_lt
      split
      · omega
      · next h =>
        have h2 : 0 < 2 ^ (f.toNat / 2 ^ 52 % 2 ^ 11 - 1) := by positivity
        constructor
        · intro h3; omega
        · intro h3
          rcases Nat.mul_eq_zero.1 h3 with h4 | h4 <;> omega
    simp only [this]
  | bin b => cases b with
    | none => rfl
    | some l => cases l <;> simp [isEmptyValue, Blank]
  | slice l => cases l with
    | none => rfl
    | some l => cases l <;> simp [isEmptyValue, Blank]
  | map l => cases l with
    | none => rfl
    | some l => cases l <;> simp [isEmptyValue, Blank]
  | dyn d => cases d <;> rfl
  | int _ => rfl
  | enum _ => rfl
  | time _ => rfl
  | ptr _ => rfl
  | struct _ => rfl
  | iface _ _ => rfl
  | raw _ => rfl

end Stix
