import Verif.Lemmas.StrconvLaws
import Verif.Lemmas.Says
import Verif.Spec.Es6

/-!
# Shortest digits and ECMAScript's number texts (lemmas)
-/

namespace Stix.Strconv
open Stix Spec Spec.Canon Spec.Es6

attribute [local irreducible] roundPow exact val shortest

/-! ### Doubles -/

theorem mag_ofNat {k : Nat} (h : k < 2 ^ 63) : mag (UInt64.ofNat k) = k := by
  unfold mag
  rw [UInt64.toNat_ofNat_of_lt' (by unfold UInt64.size; omega)]
  omega

theorem neg_le {b : UInt64} (h : b ≤ 0x7ff0000000000000) : f64Neg b = false := by
  rw [UInt64.le_iff_toNat_le] at h
  have h : b.toNat ≤ 0x7ff0000000000000 := h
  unfold f64Neg
  rw [decide_eq_false_iff_not]
  omega

theorem f64Val_units {b : UInt64} (h : b ≤ 0x7ff0000000000000) : f64Val b = (units b.toNat : ℚ) / 2 ^ 1074 := by
  rw [f64Val_eq, sunits, neg_le h, units_mag]
  rw [UInt64.le_iff_toNat_le] at h
  have h : b.toNat ≤ 0x7ff0000000000000 := h
  have : mag b = b.toNat := by unfold mag; omega
  rw [this]
  simp only [Bool.false_eq_true, if_false, units_eq]
  push_cast
  rfl

theorem frac_even (b : UInt64) : f64Frac b % 2 = b.toNat % 2 := by
  unfold f64Frac; omega

theorem dist_units {b : UInt64} (h : b ≤ 0x7ff0000000000000) (x : ℚ) :
    |f64Val b - x| = |(units b.toNat : ℚ) - x * 2 ^ 1074| / 2 ^ 1074 := by
  rw [f64Val_units h]
  generalize hT : (2 : ℚ) ^ 1074 = T
  have hT0 : 0 < T := by rw [← hT]; exact pow_pos (by norm_num) _
  rw [eq_div_iff hT0.ne', ← abs_of_pos hT0, ← abs_mul, abs_of_pos hT0]
  congr 1
  field_simp

theorem two_pos : (0 : ℚ) < 2 ^ 1074 := pow_pos (by norm_num) _

theorem numberFor_of_nearest {x : ℚ} {b : UInt64} (hb : b ≤ 0x7ff0000000000000)
    (h : Nearest (x * 2 ^ 1074) b.toNat) : NumberFor x b := by
  refine ⟨hb, fun c hc => ?_⟩
  rw [dist_units hb, dist_units hc, frac_even, div_le_div_iff_of_pos_right two_pos, div_left_inj' two_pos.ne']
  obtain ⟨h1, h2⟩ := h c.toNat
  exact ⟨h1, fun e hne => h2 e (fun e => hne (UInt64.toNat_inj.1 e))⟩

theorem nearest_of_numberFor {x : ℚ} {b : UInt64} (hb : b < 0x7ff0000000000000) (h : NumberFor x b) :
    Nearest (x * 2 ^ 1074) b.toNat := by
  have hb' : b.toNat < 0x7ff0000000000000 := by rw [UInt64.lt_iff_toNat_lt] at hb; exact hb
  have key : ∀ l ≤ 0x7ff0000000000000, |(units b.toNat : ℚ) - x * 2 ^ 1074| ≤ |(units l : ℚ) - x * 2 ^ 1074| ∧
      (|(units b.toNat : ℚ) - x * 2 ^ 1074| = |(units l : ℚ) - x * 2 ^ 1074| → l ≠ b.toNat → b.toNat % 2 = 0) := by
    intro l hl
    have ht : (UInt64.ofNat l).toNat = l := UInt64.toNat_ofNat_of_lt' (by unfold UInt64.size; omega)
    have hc : UInt64.ofNat l ≤ 0x7ff0000000000000 := by rw [UInt64.le_iff_toNat_le, ht]; exact hl
    obtain ⟨h1, h2⟩ := h.2 _ hc
    rw [dist_units h.1, dist_units hc, frac_even, ht, div_left_inj' two_pos.ne'] at h2
    rw [dist_units h.1, dist_units hc, div_le_div_iff_of_pos_right two_pos, ht] at h1
    exact ⟨h1, fun e hne => h2 e (fun e => hne (by rw [← e, ht]))⟩
  intro l
  by_cases hl : l ≤ 0x7ff0000000000000
  · exact key l hl
  · have k1 := (key 0x7ff0000000000000 le_rfl).1
    have u1 := units_ltQ hb'
    have u2 := units_ltQ (not_le.1 hl)
    generalize x * 2 ^ 1074 = y at *
    have : |(units b.toNat : ℚ) - y| < |(units l : ℚ) - y| := by
      rcases abs_cases ((units b.toNat : ℚ) - y) with h1 | h1 <;>
      rcases abs_cases ((units 0x7ff0000000000000 : ℚ) - y) with h2 | h2 <;>
      rcases abs_cases ((units l : ℚ) - y) with h3 | h3 <;> linarith
    exact ⟨this.le, fun e => absurd e this.ne⟩

/-- A decimal number is read as a finite double exactly when it is the Number value. -/
theorem numberFor_iff {m : Nat} {e : Int} {b : UInt64} (hb : b < 0x7ff0000000000000) :
    NumberFor ((m : ℚ) * 10 ^ e) b ↔ roundPow 10 m e = b.toNat := by
  constructor
  · intro h
    have := roundPow_near (b := 10) (by omega) m e
    exact near_unique (by simpa using this) (nearest_of_numberFor hb h)
  · intro h
    have := roundPow_near (b := 10) (by omega) m e
    rw [h] at this
    exact numberFor_of_nearest (UInt64.le_of_lt hb) (by simpa using this)

theorem f64Val_val {b : UInt64} (h : b ≤ 0x7ff0000000000000) : f64Val b = val b.toNat := by
  rw [f64Val_units h, ← val_units, mul_div_cancel_right₀ _ two_pos.ne']

/-! ### Digits -/

theorem significant_bounds {ds : List Nat} (h : Significant ds) :
    1 ≤ ds.length ∧ 10 ^ (ds.length - 1) ≤ decimal ds ∧ decimal ds < 10 ^ ds.length := by
  refine ⟨?_, ?_, decimal_lt ds h.1⟩ <;> obtain ⟨d, r, rfl, hd⟩ := h.2
  · simp
  · simp only [List.length_cons, Nat.add_sub_cancel, decimal]
    have : 1 * 10 ^ r.length ≤ d * 10 ^ r.length := Nat.mul_le_mul_right _ (by omega)
    omega

theorem natLit_decimal_length {ds : List Nat} (h : Significant ds) : (natLit (decimal ds)).length = ds.length := by
  obtain ⟨h1, h2, h3⟩ := significant_bounds h
  have := natLit_len_eq (j := ds.length - 1) h2 (by rwa [Nat.sub_add_cancel h1])
  omega

theorem natLit_digits {n : Nat} (h : 0 < n) : ∃ ds, Significant ds ∧ natLit n = chars ds ∧ decimal ds = n := by
  obtain ⟨ds, h1, h2, -, h4, h5, h6⟩ := natLitAux_digits (n.log2 + 1) n Nat.lt_log2_self (by omega)
  refine ⟨ds, ⟨h2, ?_⟩, h4, h5⟩
  cases ds with
  | nil => exact absurd rfl h1
  | cons d r => exact ⟨d, r, rfl, fun e => h6 (by omega) (by simp [e])⟩

theorem decimal_inj : ∀ {a b : List Nat}, (∀ d ∈ a, d ≤ 9) → (∀ d ∈ b, d ≤ 9) → a.length = b.length →
    decimal a = decimal b → a = b
  | [], [], _, _, _, _ => rfl
  | [], _ :: _, _, _, h, _ => by simp at h
  | _ :: _, [], _, _, h, _ => by simp at h
  | d :: a, e :: b, ha, hb, hll, h => by
    have hl : a.length = b.length := by simpa using hll
    have la := decimal_lt a (fun x hx => ha x (by simp [hx]))
    have lb := decimal_lt b (fun x hx => hb x (by simp [hx]))
    simp only [decimal, hl] at h
    rw [hl] at la
    have hde : d = e := by
      rcases Nat.lt_trichotomy d e with hlt | he | hlt
      · have : (d + 1) * 10 ^ b.length ≤ e * 10 ^ b.length := Nat.mul_le_mul_right _ hlt
        rw [Nat.add_mul] at this
        omega
      · exact he
      · have : (e + 1) * 10 ^ b.length ≤ d * 10 ^ b.length := Nat.mul_le_mul_right _ hlt
        rw [Nat.add_mul] at this
        omega
    subst hde
    rw [decimal_inj (a := a) (b := b) (fun x hx => ha x (by simp [hx])) (fun x hx => hb x (by simp [hx])) hl (by omega)]

/-! ### What is chosen -/

/-- The shortest digits are those ECMAScript chooses. -/
theorem chosen {a : UInt64} {m : Nat} {p : Int} (ha : PosFinite a) (h : Shortest a.toNat m p) {ds : List Nat}
    (hd : Significant ds) (hm : decimal ds = m) : Chosen a ds (p + ds.length) := by
  have hv : ∀ (ds' : List Nat) (n : Int), value ds' n = ((decimal ds' : Nat) : ℚ) * 10 ^ (n - ds'.length) :=
    fun _ _ => rfl
  have hself : value ds (p + ds.length) = (m : ℚ) * 10 ^ p := by rw [hv, hm]; congr 2; omega
  have hlen : (natLit m).length = ds.length := by rw [← hm]; exact natLit_decimal_length hd
  have hval : f64Val a = Strconv.val a.toNat := f64Val_val (UInt64.le_of_lt ha.2)
  refine ⟨hd, ?_, ?_, ?_, ?_⟩
  · rw [hself, numberFor_iff ha.2]; exact h.fits
  · intro ds' n' hs' hn
    rw [hv, numberFor_iff ha.2] at hn
    obtain ⟨b1, b2, b3⟩ := significant_bounds hs'
    rw [← hlen]
    exact h.least _ _ _ b1 b2 b3 hn
  · intro ds' n' hs' hl hn
    rw [hv, numberFor_iff ha.2] at hn
    rw [hself, hval, hv]
    have b2 := (significant_bounds hs').2.1
    exact h.near _ _ (by rw [natLit_decimal_length hs', hlen, hl]) (lt_of_lt_of_le (Nat.pow_pos (by omega)) b2) hn
  · intro ds' hs' hl hn hne he
    rw [hv, hl, show p + (ds.length : Int) - ds.length = p by omega, numberFor_iff ha.2] at hn
    rw [hself, hval, hv, hl, show p + (ds.length : Int) - ds.length = p by omega] at he
    have b2 := (significant_bounds hs').2.1
    rw [hm]
    refine h.even _ (by rw [natLit_decimal_length hs', hlen, hl]) (lt_of_lt_of_le (Nat.pow_pos (by omega)) b2) hn ?_ he
    intro e
    exact hne (decimal_inj hs'.1 hd.1 hl (by rw [e, hm]))

/-! ### Where an exponent is written -/

theorem range_iff {a : UInt64} {m : Nat} {p : Int} {ds : Str} {j : Nat} (h : Pieces a m p ds j) :
    (a < 0x444B1AE4D6E2EF50 ∧ 0x3EB0C6F7A0B5ED8D ≤ a) ↔ (-6 < p + j + 1 ∧ p + j + 1 ≤ 21) := by
  have a1 : (10 : ℚ) ^ (p + j) ≤ m * 10 ^ p := by
    rw [add_comm, t_add, t_nat]
    exact mul_le_mul_of_nonneg_right (by exact_mod_cast h.lo) (t_pos _).le
  have a2 : (m : ℚ) * 10 ^ p ≤ 10 ^ (p + j + 1) := by
    rw [add_assoc, add_comm, t_add, show (j : Int) + 1 = ((j + 1 : Nat) : Int) by omega, t_nat]
    exact mul_le_mul_of_nonneg_right (by exact_mod_cast h.hi.le) (t_pos _).le
  have lit1 : roundPow 10 1 21 = 0x444B1AE4D6E2EF50 := by decide +kernel
  have lit2 : roundPow 10 1 (-6) = 0x3EB0C6F7A0B5ED8D := by decide +kernel
  have lit3 : roundPow 10 9 20 < 0x444B1AE4D6E2EF50 := by decide +kernel
  have lit4 : roundPow 10 9 (-7) < 0x3EB0C6F7A0B5ED8D := by decide +kernel
  have hone : ∀ e : Int, ((1 : Nat) : ℚ) * 10 ^ e = 10 ^ e := fun e => by rw [Nat.cast_one, one_mul]
  have fits := h.short.fits
  -- a single digit
  have single : ∀ e, roundPow 10 1 e = a.toNat → j = 0 := by
    intro e he
    have := h.short.least 1 e 1 le_rfl (by simp) (by simp) he
    rw [← h.lit, h.len] at this
    omega
  have nine : j = 0 → ∀ e : Int, p ≤ e → (m : ℚ) * 10 ^ p ≤ ((9 : Nat) : ℚ) * 10 ^ e := by
    intro hj e hpe
    have hm : (m : ℚ) ≤ ((9 : Nat) : ℚ) := by
      have := h.hi
      rw [hj] at this
      have : m ≤ 9 := by omega
      exact_mod_cast this
    exact mul_le_mul hm (t_le hpe) (t_pos _).le (by norm_num)
  rw [UInt64.lt_iff_toNat_lt, UInt64.le_iff_toNat_le]
  show (a.toNat < 0x444B1AE4D6E2EF50 ∧ 0x3EB0C6F7A0B5ED8D ≤ a.toNat) ↔ _
  have up : a.toNat < 0x444B1AE4D6E2EF50 ↔ p + j + 1 ≤ 21 := by
    constructor
    · intro hlt
      by_contra hc
      have := roundPow_mono (m := 1) (e := 21) (m' := m) (e' := p)
        (le_trans (by rw [hone]; exact t_le (by omega)) a1)
      rw [lit1, fits] at this
      omega
    · intro hn
      have := roundPow_mono (m := m) (e := p) (m' := 1) (e' := 21)
        (a2.trans (by rw [hone]; exact t_le (by omega)))
      rw [lit1, fits] at this
      rcases Nat.lt_or_ge a.toNat 0x444B1AE4D6E2EF50 with hl | hl
      · exact hl
      · have he : roundPow 10 1 21 = a.toNat := by omega
        have hj := single 21 he
        have := roundPow_mono (m := m) (e := p) (m' := 9) (e' := 20) (nine hj 20 (by omega))
        rw [fits] at this
        omega
  have lo : 0x3EB0C6F7A0B5ED8D ≤ a.toNat ↔ -6 < p + j + 1 := by
    constructor
    · intro hle
      by_contra hc
      have := roundPow_mono (m := m) (e := p) (m' := 1) (e' := -6)
        (a2.trans (by rw [hone]; exact t_le (by omega)))
      rw [lit2, fits] at this
      have he : roundPow 10 1 (-6) = a.toNat := by omega
      have hj := single (-6) he
      have := roundPow_mono (m := m) (e := p) (m' := 9) (e' := -7) (nine hj (-7) (by omega))
      rw [fits] at this
      omega
    · intro hn
      have := roundPow_mono (m := 1) (e := -6) (m' := m) (e' := p)
        (le_trans (by rw [hone]; exact t_le (by omega)) a1)
      rw [lit2, fits] at this
      exact this
  rw [up, lo]
  tauto

/-! ### The text -/

theorem natLit_two {k : Nat} (h : 10 ≤ k) : ∃ c d r, natLit k = c :: d :: r ∧ c ≠ 48 := by
  obtain ⟨j, e1, e2, e3⟩ := natLit_len k
  have hj : j ≠ 0 := by rintro rfl; simp at e2; omega
  have hh := natLit_head48 (show 0 < k by omega)
  match hd : natLit k, e1, hh with
  | [], e1, _ => simp at e1
  | [_], e1, _ => simp at e1; omega
  | c :: d :: r, _, hh => exact ⟨c, d, r, rfl, by simpa using hh⟩

theorem indexE_clean {M : Str} {s : UInt8} {k : Nat} (hM : ∀ c ∈ M, c ≠ 101) (h0 : M ≠ []) :
    (match Canon.indexE (M ++ 101 :: s :: twoDigits k) with
      | some i => if 0 < i ∧ (M ++ 101 :: s :: twoDigits k)[i + 2]? = some 48
          then (M ++ 101 :: s :: twoDigits k).take (i + 2) ++ (M ++ 101 :: s :: twoDigits k).drop (i + 3)
          else M ++ 101 :: s :: twoDigits k
      | none => M ++ 101 :: s :: twoDigits k) = M ++ 101 :: s :: natLit k := by
  rw [Canon.indexE_some hM]
  have hl : 0 < M.length := List.length_pos_iff.2 h0
  have hg : (M ++ 101 :: s :: twoDigits k)[M.length + 2]? = (twoDigits k)[0]? := by
    rw [List.getElem?_append_right (by omega)]; simp
  simp only [hg]
  unfold twoDigits
  split
  · rw [if_pos ⟨hl, rfl⟩, List.take_append, List.drop_append, List.take_of_length_le (by omega),
      List.drop_of_length_le (by omega), show M.length + 2 - M.length = 2 by omega,
      show M.length + 3 - M.length = 3 by omega]
    simp
  · next h =>
    obtain ⟨c, d, r, e, hc⟩ := natLit_two (k := k) (by omega)
    rw [e, if_neg (by simp [hc])]

theorem cleanExp_clean {M : Str} {s : UInt8} {k : Nat} (hs : s ≠ 101) (h9 : k < 10 → s = 45) :
    cleanExp (M ++ 101 :: s :: twoDigits k) = M ++ 101 :: s :: natLit k := by
  unfold twoDigits
  split
  · next h =>
    obtain ⟨j, e1, e2, e3⟩ := natLit_len k
    have hj : (natLit k).length = 1 := by
      rcases Nat.eq_zero_or_pos j with rfl | hj
      · exact e1
      · have : 10 ^ 1 ≤ 10 ^ j := Nat.pow_le_pow_right (by omega) hj
        rcases Nat.eq_zero_or_pos k with rfl | hk
        · decide
        · have := e3 hk; omega
    obtain ⟨c, hc⟩ := List.length_eq_one_iff.1 hj
    rw [hc, h9 h]
    unfold cleanExp
    have hl : (M ++ [101, 45, 48, c]).length = M.length + 4 := by simp
    simp only [hl]
    rw [if_pos]
    · rw [List.take_append, List.drop_append, List.take_of_length_le (by omega),
        List.drop_of_length_le (by omega), show M.length + 4 - 2 - M.length = 2 by omega,
        show M.length + 4 - 1 - M.length = 3 by omega]
      simp
    · refine ⟨by omega, ?_, ?_, ?_⟩ <;> rw [List.getElem?_append_right (by omega)] <;>
        simp [show M.length + 4 - 3 - M.length = 1 by omega, show M.length + 4 - 2 - M.length = 2 by omega]
  · next h =>
    obtain ⟨c, d, r, e, hc⟩ := natLit_two (k := k) (by omega)
    have hdig := (natLit_spec k).2.1
    rw [e] at hdig ⊢
    unfold cleanExp
    simp only
    rw [if_neg]
    rintro ⟨-, h1, -, h3⟩
    cases r with
    | nil =>
      rw [List.getElem?_append_right (by simp)] at h3
      simp [show M.length + 4 - 2 - M.length = 2 by omega] at h3
      exact hc h3
    | cons x r =>
      rw [List.getElem?_append_right (by simp; omega)] at h1
      have hx : (M ++ 101 :: s :: c :: d :: x :: r).length - 4 - M.length = r.length + 1 := by simp; omega
      rw [hx, List.getElem?_cons_succ] at h1
      have hm := List.mem_of_getElem? h1
      rcases List.mem_cons.1 hm with h | hm
      · exact hs h.symm
      · have := hdig 101 hm
        revert this; decide

theorem chars_no_e {ds : List Nat} (h : ∀ d ∈ ds, d ≤ 9) : ∀ c ∈ chars ds, 48 ≤ c ∧ c ≤ 57 := by
  intro c hc
  obtain ⟨d, hd, rfl⟩ := List.mem_map.1 hc
  have : ∀ d : Fin 10, 48 ≤ digit d.val ∧ digit d.val ≤ 57 := by decide
  exact this ⟨d, by have := h d hd; omega⟩

/-- Inside the range the digits are laid as ECMAScript lays them. -/
theorem laid_positional {m : Nat} {p : Int} {ds : List Nat} (hl : natLit m = chars ds)
    (hr : -6 < p + ds.length ∧ p + ds.length ≤ 21) : Laid ds (p + ds.length) (positional m p) := by
  unfold Laid positional
  have hlen : (chars ds).length = ds.length := by simp [chars]
  simp only [hl, hlen]
  split_ifs <;> first | omega | skip
  · rw [show p + (ds.length : Int) - ds.length = p by omega]; rfl
  · simp [chars, List.map_take, List.map_drop]
  · simp [zeros]

theorem scientific_parts {m : Nat} {p : Int} {ds : List Nat} (hl : natLit m = chars ds) :
    scientific m p = (chars (ds.take 1) ++ (if ds.length = 1 then [] else b!"." ++ chars (ds.drop 1))) ++
      101 :: (if p + ds.length - 1 < 0 then 45 else 43) :: twoDigits (p + ds.length - 1).natAbs := by
  unfold scientific
  have hlen : (chars ds).length = ds.length := by simp [chars]
  simp only [hl, hlen]
  simp [chars, List.map_take, List.map_drop]

/-- Outside the range too. -/
theorem laid_scientific {ds : List Nat} {n : Int} (hr : ¬ (-6 < n ∧ n ≤ 21)) :
    Laid ds n ((chars (ds.take 1) ++ (if ds.length = 1 then [] else b!"." ++ chars (ds.drop 1))) ++
      101 :: (if n - 1 < 0 then 45 else 43) :: natLit (n - 1).natAbs) := by
  unfold Laid
  rw [if_neg (by omega), if_neg (by omega), if_neg (by omega)]
  obtain ⟨es, h1, h2, h3⟩ := natLit_digits (n := (n - 1).natAbs) (by omega)
  refine ⟨es, h1, h3, ?_⟩
  rw [h2]
  split_ifs <;> simp

/-- What `NumberToJSON` and `encoding/json` write of a positive number. -/
theorem text_spec {a : UInt64} (ha : PosFinite a) : ∃ ds n u, Chosen a ds n ∧ Laid ds n u ∧
    (if a < 0x444B1AE4D6E2EF50 ∧ 0x3EB0C6F7A0B5ED8D ≤ a then formatF a = u
      else ∃ M s k, formatE a = M ++ 101 :: s :: twoDigits k ∧ u = M ++ 101 :: s :: natLit k ∧
        M ≠ [] ∧ (∀ c ∈ M, c ≠ 101) ∧ s ≠ 101 ∧ (k < 10 → s = 45)) ∧ ∀ c ∈ u.head?, c ≠ 45 := by
  obtain ⟨m, p, ds', j, hp, hs⟩ := pieces ha
  obtain ⟨ds, h1, h2, h3⟩ := natLit_digits hp.short.pos
  have hlen : ds.length = j + 1 := by
    have := hp.len
    rw [hp.lit, h2] at this
    simpa [chars] using this
  have hr := range_iff hp
  have hn : p + (j : Int) + 1 = p + ds.length := by omega
  rw [hn] at hr
  have hc := chosen ha hp.short h1 h3
  have hM : ∀ l : List Nat, (∀ d ∈ l, d ∈ ds) → ∀ c ∈ chars l, 48 ≤ c ∧ c ≤ 57 := fun l hl c hc =>
    chars_no_e (fun d hd => h1.1 d (hl d hd)) c hc
  have n101 : ∀ c : UInt8, 48 ≤ c ∧ c ≤ 57 → c ≠ 101 := by rintro c h rfl; revert h; decide
  have n45 : ∀ c : UInt8, 48 ≤ c ∧ c ≤ 57 → c ≠ 45 := by rintro c h rfl; revert h; decide
  obtain ⟨d, r, hdr, hd0⟩ := h1.2
  have hd9 : 48 ≤ digit d ∧ digit d ≤ 57 := chars_no_e h1.1 _ (by simp [chars, hdr])
  by_cases hin : a < 0x444B1AE4D6E2EF50 ∧ 0x3EB0C6F7A0B5ED8D ≤ a
  · refine ⟨ds, _, _, hc, laid_positional h2 (hr.1 hin), ?_, ?_⟩
    · rw [if_pos hin]; unfold formatF; rw [hs]
    · unfold positional
      simp only [h2]
      have hch : chars ds = digit d :: chars r := by simp [chars, hdr]
      intro c hc
      apply n45
      split_ifs at hc with g1 g2
      · rw [hch] at hc; simp at hc; rw [← hc]; exact hd9
      · have : (p + ((chars ds).length : Int)).toNat = (p + ((chars ds).length : Int)).toNat - 1 + 1 := by omega
        rw [this, hch] at hc; simp at hc; rw [← hc]; exact hd9
      · simp at hc; subst hc; decide
  · refine ⟨ds, _, _, hc, laid_scientific (fun h => hin (hr.2 h)), ?_, ?_⟩
    · rw [if_neg hin]
      refine ⟨_, _, _, ?_, rfl, ?_, ?_, ?_, ?_⟩
      · unfold formatE; rw [hs]; exact scientific_parts h2
      · simp [chars, hdr]
      · intro c hc
        rcases List.mem_append.1 hc with hc | hc
        · exact n101 c (hM _ (fun _ h => List.mem_of_mem_take h) c hc)
        · split_ifs at hc
          · simp at hc
          · rcases List.mem_append.1 hc with hc | hc
            · rw [List.mem_singleton.1 hc]; decide
            · exact n101 c (hM _ (fun _ h => List.mem_of_mem_drop h) c hc)
      · split <;> decide
      · intro hk
        have : ¬ (-6 < p + (ds.length : Int) ∧ p + (ds.length : Int) ≤ 21) := fun h => hin (hr.2 h)
        rw [if_pos (by omega)]
    · intro c hc
      simp [chars, hdr] at hc
      rw [← hc]
      exact n45 _ hd9

end Stix.Strconv
