import Verif.Lemmas.Es6
import Mathlib.Tactic.NormNum.Prime
import Mathlib.Tactic.LinearCombination

/-!
# There is only one number text (lemmas)
-/

namespace Stix.Strconv
open Stix Spec Spec.Canon Spec.Es6

attribute [local irreducible] roundPow exact val shortest

/-- Doubles of some size are close to each other. -/
theorem units_close {k : Nat} (h : 19 ≤ units k) : 19 * units (k + 1) < 21 * units k := by
  unfold units at *
  generalize hM : 2 ^ 52 = M at *
  have hM0 : 2 ^ 52 ≤ M := hM.le
  have hd := Nat.div_add_mod k M
  have hlt : k % M < M := Nat.mod_lt _ (by omega)
  generalize hq : k / M = q at *
  generalize hr : k % M = r at *
  by_cases hf : r + 1 < M
  · have e1 : (k + 1) / M = q := by
      rw [← hd, Nat.add_assoc, Nat.mul_add_div (by omega), Nat.div_eq_of_lt hf, Nat.add_zero]
    have e2 : (k + 1) % M = r + 1 := by
      rw [← hd, Nat.add_assoc, Nat.mul_add_mod, Nat.mod_eq_of_lt hf]
    rw [e1, e2]
    split_ifs at h ⊢
    · omega
    · have hp : 0 < 2 ^ (q - 1) := Nat.pow_pos (by omega)
      generalize 2 ^ (q - 1) = P at *
      have : (19 * (M + (r + 1))) * P < (21 * (M + r)) * P := Nat.mul_lt_mul_of_pos_right (by omega) hp
      rw [← Nat.mul_assoc, ← Nat.mul_assoc]
      exact this
  · have hM1 : r + 1 = M := by omega
    have e0 : k + 1 = M * (q + 1) := by rw [← hd, Nat.add_assoc, hM1, Nat.mul_add, Nat.mul_one]
    have e1 : (k + 1) / M = q + 1 := by rw [e0, Nat.mul_div_cancel_left _ (by omega)]
    have e2 : (k + 1) % M = 0 := by rw [e0, Nat.mul_mod_right]
    rw [e1, e2, if_neg (by omega)]
    rw [Nat.add_sub_cancel]
    split_ifs at h ⊢ with hq0
    · subst hq0; simp; omega
    · have hp : 0 < 2 ^ (q - 1) := Nat.pow_pos (by omega)
      have : 2 ^ q = 2 * 2 ^ (q - 1) := by rw [← Nat.pow_succ']; congr 1; omega
      rw [this]
      generalize 2 ^ (q - 1) = P at *
      have : (19 * (M * 2)) * P < (21 * (M + r)) * P := Nat.mul_lt_mul_of_pos_right (by omega) hp
      calc 19 * ((M + 0) * (2 * P)) = (19 * (M * 2)) * P := by ring
        _ < _ := this
        _ = _ := by ring

/-- Nine and a half times a power of ten is not a small number of units. -/
theorem no_small {U T : Nat} {z : Int} (hT : 0 < T) (h : 2 * (U : ℚ) = 19 * 10 ^ z * T) : 19 ≤ U := by
  have h19 : Nat.Prime 19 := by norm_num
  have hU : 0 < U := by
    rcases Nat.eq_zero_or_pos U with rfl | h0
    · exfalso
      have : (0 : ℚ) < 19 * 10 ^ z * T := mul_pos (mul_pos (by norm_num) (t_pos z)) (by exact_mod_cast hT)
      rw [← h] at this; simp at this
    · exact h0
  have key : 19 ∣ U := by
    rcases Int.le_total 0 z with hz | hz
    · obtain ⟨i, rfl⟩ := Int.eq_ofNat_of_zero_le hz
      rw [t_nat] at h
      have h' : 2 * U = 19 * 10 ^ i * T := by exact_mod_cast h
      have : 19 ∣ 2 * U := ⟨10 ^ i * T, by rw [h']; ring⟩
      exact (h19.dvd_mul.1 this).resolve_left (by norm_num)
    · obtain ⟨i, hi⟩ := Int.eq_ofNat_of_zero_le (show 0 ≤ -z by omega)
      have hz' : z = -(i : Int) := by omega
      subst hz'
      have h2 : 2 * (U : ℚ) * ((10 ^ i : Nat) : ℚ) = 19 * T := by
        rw [h, ← t_nat]
        have : (10 : ℚ) ^ (-(i : Int)) * 10 ^ (i : Int) = 1 := by rw [← t_add]; simp
        calc (19 : ℚ) * 10 ^ (-(i : Int)) * T * 10 ^ (i : Int) = 19 * T * (10 ^ (-(i : Int)) * 10 ^ (i : Int)) := by ring
          _ = _ := by rw [this, mul_one]
      have h' : 2 * U * 10 ^ i = 19 * T := by exact_mod_cast h2
      have : 19 ∣ 2 * U * 10 ^ i := ⟨T, h'⟩
      rcases h19.dvd_mul.1 this with h3 | h3
      · exact (h19.dvd_mul.1 h3).resolve_left (by norm_num)
      · exact absurd (h19.dvd_of_dvd_pow h3) (by norm_num)
  exact Nat.le_of_dvd hU key

theorem value_eq (ds : List Nat) (n : Int) : value ds n = ((decimal ds : Nat) : ℚ) * 10 ^ (n - ds.length) := rfl

theorem value_bounds {ds : List Nat} (h : Significant ds) (n : Int) :
    (10 : ℚ) ^ (n - 1) ≤ value ds n ∧ value ds n < 10 ^ n := by
  obtain ⟨h1, h2, h3⟩ := significant_bounds h
  rw [value_eq]
  constructor
  · rw [show n - 1 = ((ds.length - 1 : Nat) : Int) + (n - ds.length) by omega, t_add, t_nat]
    exact mul_le_mul_of_nonneg_right (by exact_mod_cast h2) (t_pos _).le
  · rw [show (10 : ℚ) ^ n = 10 ^ ((ds.length : Nat) : Int) * 10 ^ (n - ds.length) by rw [← t_add]; congr 1; omega, t_nat]
    exact mul_lt_mul_of_pos_right (by exact_mod_cast h3) (t_pos _)

theorem digits_of {m k : Nat} (h1 : 10 ^ k ≤ m) (h2 : m < 10 ^ (k + 1)) :
    ∃ ds, Significant ds ∧ ds.length = k + 1 ∧ decimal ds = m := by
  obtain ⟨ds, d1, d2, d3⟩ := natLit_digits (lt_of_lt_of_le (Nat.pow_pos (by omega)) h1)
  refine ⟨ds, d1, ?_, d3⟩
  have := natLit_len_eq h1 h2
  rw [d2] at this
  simpa [chars] using this

/-- Two choices are not different numbers. -/
theorem chosen_lt {a : UInt64} (ha : PosFinite a) {ds ds' : List Nat} {n n' : Int} (h : Chosen a ds n)
    (h' : Chosen a ds' n') (hlt : value ds n < value ds' n') : False := by
  have hlen : ds'.length = ds.length :=
    le_antisymm (h'.fewest _ _ h.digits h.number) (h.fewest _ _ h'.digits h'.number)
  have hdist : |value ds n - f64Val a| = |value ds' n' - f64Val a| :=
    le_antisymm (h.nearest _ _ h'.digits hlen h'.number) (h'.nearest _ _ h.digits hlen.symm h.number)
  have hv : 2 * f64Val a = value ds n + value ds' n' := by
    rcases abs_cases (value ds n - f64Val a) with ⟨e1, f1⟩ | ⟨e1, f1⟩ <;>
    rcases abs_cases (value ds' n' - f64Val a) with ⟨e2, f2⟩ | ⟨e2, f2⟩ <;> rw [e1, e2] at hdist <;> linarith
  have r1 : roundPow 10 (decimal ds) (n - ds.length) = a.toNat := (numberFor_iff ha.2).1 h.number
  have r2 : roundPow 10 (decimal ds') (n' - ds'.length) = a.toNat := (numberFor_iff ha.2).1 h'.number
  have hbetween : ∀ (m : Nat) (e : Int), value ds n < m * 10 ^ e → (m : ℚ) * 10 ^ e ≤ value ds' n' →
      NumberFor ((m : ℚ) * 10 ^ e) a := by
    intro m e h1 h2
    rw [numberFor_iff ha.2]
    refine le_antisymm ?_ ?_
    · have := roundPow_mono h2; rwa [r2] at this
    · have := roundPow_mono h1.le; rwa [r1] at this
  obtain ⟨b1, b2, b3⟩ := significant_bounds h.digits
  obtain ⟨b1', b2', b3'⟩ := significant_bounds h'.digits
  obtain ⟨v1, v2⟩ := value_bounds h.digits n
  obtain ⟨v1', v2'⟩ := value_bounds h'.digits n'
  have hgap : ∀ (m : Nat) (e : Int), 10 ^ (ds.length - 1) ≤ m → m < 10 ^ ds.length →
      value ds n < m * 10 ^ e → (m : ℚ) * 10 ^ e < value ds' n' → False := by
    intro m e m1 m2 h1 h2
    obtain ⟨zs, z1, z2, z3⟩ := digits_of (k := ds.length - 1) m1 (by rwa [Nat.sub_add_cancel b1])
    have z2 : zs.length = ds.length := by omega
    have hz : value zs (e + ds.length) = (m : ℚ) * 10 ^ e := by
      rw [value_eq, z3, z2]; congr 2; omega
    have hn := h.nearest zs (e + ds.length) z1 z2 (by rw [hz]; exact hbetween m e h1 h2.le)
    rw [hz] at hn
    rcases abs_cases (value ds n - f64Val a) with ⟨e1, f1⟩ | ⟨e1, f1⟩ <;>
    rcases abs_cases ((m : ℚ) * 10 ^ e - f64Val a) with ⟨e2, f2⟩ | ⟨e2, f2⟩ <;> rw [e1, e2] at hn <;> linarith
  rcases lt_trichotomy n n' with hn | hn | hn
  · -- the second has a digit more before the point
    have hnn : (10 : ℚ) ^ n ≤ 10 ^ (n' - 1) := t_le (by omega)
    have hx : value ds n = ((decimal ds : Nat) : ℚ) * 10 ^ (n - ds.length) := rfl
    have hpow : (10 : ℚ) ^ n = ((10 ^ ds.length : Nat) : ℚ) * 10 ^ (n - ds.length) := by
      rw [← t_nat, ← t_add]; congr 1; omega
    have hd : decimal ds + 1 = 10 ^ ds.length := by
      by_contra hc
      have hlt' : decimal ds + 1 < 10 ^ ds.length := by omega
      refine hgap (decimal ds + 1) (n - ds.length) (by omega) hlt' ?_ ?_
      · rw [hx]; exact mul_lt_mul_of_pos_right (by push_cast; linarith) (t_pos _)
      · refine lt_of_lt_of_le ?_ (hnn.trans v1')
        rw [hpow]
        exact mul_lt_mul_of_pos_right (by exact_mod_cast hlt') (t_pos _)
    have hten : (10 : ℚ) ^ n = ((10 ^ (ds.length - 1) : Nat) : ℚ) * 10 ^ (n - ds.length + 1) := by
      rw [← t_nat, ← t_add]; congr 1; omega
    have hx' : value ds' n' = 10 ^ n := by
      refine le_antisymm ?_ (hnn.trans v1')
      by_contra hc
      refine hgap (10 ^ (ds.length - 1)) (n - ds.length + 1) le_rfl
        (Nat.pow_lt_pow_right (by omega) (by omega)) ?_ ?_
      · rw [← hten]; exact v2
      · rw [← hten]; exact not_le.1 hc
    have h1 : ds.length ≤ 1 := by
      refine h.fewest [1] (n + 1) ⟨by simp, 1, [], rfl, by omega⟩ ?_
      have : value [1] (n + 1) = ((1 : Nat) : ℚ) * 10 ^ n := by
        rw [value_eq]; simp [decimal]
      rw [this]
      refine hbetween 1 n ?_ ?_
      · rw [Nat.cast_one, one_mul]; exact v2
      · rw [Nat.cast_one, one_mul, hx']
    have hk : ds.length = 1 := by omega
    rw [hk] at hd hpow hx
    have hd9 : decimal ds = 9 := by omega
    have hx9 : value ds n = 9 * 10 ^ (n - 1) := by rw [hx, hd9]; norm_num
    have hx10 : value ds' n' = 10 * 10 ^ (n - 1) := by rw [hx', hpow]; norm_num
    have hU : 2 * (units a.toNat : ℚ) = 19 * 10 ^ (n - 1) * ((2 ^ 1074 : Nat) : ℚ) := by
      rw [f64Val_val (UInt64.le_of_lt ha.2), hx9, hx10] at hv
      rw [← val_units]
      have : ((2 ^ 1074 : Nat) : ℚ) = 2 ^ 1074 := by push_cast; rfl
      rw [this]
      generalize (2 : ℚ) ^ 1074 = T at *
      linear_combination T * hv
    have hs := no_small (Nat.pow_pos (by omega)) hU
    have hc := units_close hs
    have hnear := nearest_of_numberFor ha.2 h'.number (a.toNat + 1)
    have hnear := hnear.1
    rw [hx10] at hnear
    have hc' : (19 : ℚ) * units (a.toNat + 1) < 21 * units a.toNat := by exact_mod_cast hc
    have hu := units_ltQ (Nat.lt_succ_self a.toNat)
    rw [Nat.succ_eq_add_one] at hu
    have hcast : ((2 ^ 1074 : Nat) : ℚ) = 2 ^ 1074 := by push_cast; rfl
    rw [hcast] at hU
    generalize hy : (10 : ℚ) ^ (n - 1) = y at *
    generalize (2 : ℚ) ^ 1074 = T at *
    generalize (units (a.toNat + 1) : ℚ) = V at *
    generalize (units a.toNat : ℚ) = U at *
    obtain ⟨w, hw⟩ : ∃ w, w = y * T := ⟨_, rfl⟩
    have hU : 2 * U = 19 * w := by rw [hU, hw]; ring
    have hnear : |U - 10 * w| ≤ |V - 10 * w| := by rw [hw, ← mul_assoc]; exact hnear
    rcases abs_cases (U - 10 * w) with ⟨e1, f1⟩ | ⟨e1, f1⟩ <;>
    rcases abs_cases (V - 10 * w) with ⟨e2, f2⟩ | ⟨e2, f2⟩ <;> rw [e1, e2] at hnear <;> linarith
  · -- neighbours
    subst hn
    have hx : value ds n = ((decimal ds : Nat) : ℚ) * 10 ^ (n - ds.length) := rfl
    have hx' : value ds' n = ((decimal ds' : Nat) : ℚ) * 10 ^ (n - ds.length) := by rw [value_eq, hlen]
    have hdlt : decimal ds < decimal ds' := by
      rw [hx, hx'] at hlt
      exact_mod_cast lt_of_mul_lt_mul_right hlt (t_pos _).le
    have hnext : decimal ds' = decimal ds + 1 := by
      by_contra hc
      refine hgap (decimal ds + 1) (n - ds.length) (by omega) (by rw [hlen] at b3'; omega) ?_ ?_
      · rw [hx]; exact mul_lt_mul_of_pos_right (by push_cast; linarith) (t_pos _)
      · rw [hx']
        refine mul_lt_mul_of_pos_right ?_ (t_pos _)
        have : decimal ds + 1 < decimal ds' := by omega
        exact_mod_cast this
    have hne : ds' ≠ ds := by rintro rfl; exact lt_irrefl _ hlt
    have p1 := h.even ds' h'.digits hlen h'.number hne hdist
    have p2 := h'.even ds h.digits hlen.symm h.number hne.symm hdist.symm
    omega
  · have : (10 : ℚ) ^ n' ≤ 10 ^ (n - 1) := t_le (by omega)
    linarith

theorem chosen_unique {a : UInt64} (ha : PosFinite a) {ds ds' : List Nat} {n n' : Int} (h : Chosen a ds n)
    (h' : Chosen a ds' n') : ds = ds' ∧ n = n' := by
  rcases lt_trichotomy (value ds n) (value ds' n') with hlt | he | hlt
  · exact (chosen_lt ha h h' hlt).elim
  · have hlen : ds'.length = ds.length :=
      le_antisymm (h'.fewest _ _ h.digits h.number) (h.fewest _ _ h'.digits h'.number)
    obtain ⟨v1, v2⟩ := value_bounds h.digits n
    obtain ⟨v1', v2'⟩ := value_bounds h'.digits n'
    have hn : n = n' := by
      rcases lt_trichotomy n n' with hn | hn | hn
      · have : (10 : ℚ) ^ n ≤ 10 ^ (n' - 1) := t_le (by omega)
        linarith
      · exact hn
      · have : (10 : ℚ) ^ n' ≤ 10 ^ (n - 1) := t_le (by omega)
        linarith
    subst hn
    refine ⟨decimal_inj h.digits.1 h'.digits.1 hlen.symm ?_, rfl⟩
    rw [value_eq, value_eq, hlen] at he
    exact_mod_cast mul_right_cancel₀ (t_pos _).ne' he
  · exact (chosen_lt ha h' h hlt).elim

theorem significant_inj {es es' : List Nat} (h : Significant es) (h' : Significant es')
    (he : decimal es = decimal es') : es = es' := by
  refine decimal_inj h.1 h'.1 ?_ he
  rw [← natLit_decimal_length h, ← natLit_decimal_length h', he]

theorem laid_unique {ds : List Nat} {n : Int} {t t' : Str} (h : Laid ds n t) (h' : Laid ds n t') : t = t' := by
  unfold Laid at h h'
  split_ifs at h h' <;> first
    | rw [h, h']
    | (obtain ⟨es, h1, h2, rfl⟩ := h
       obtain ⟨es', h1', h2', rfl⟩ := h'
       rw [significant_inj h1 h1' (h2.trans h2'.symm)])

/-! ### Bits and their masks -/

theorem abs_bits (b : UInt64) : (b &&& 0x7fffffffffffffff) = unsigned b := by
  apply UInt64.toNat_inj.1
  rw [UInt64.toNat_and]
  show b.toNat &&& 0x7fffffffffffffff = (UInt64.ofNat (b.toNat % 2 ^ 63)).toNat
  rw [UInt64.toNat_ofNat_of_lt' (by unfold UInt64.size; omega)]
  exact Nat.and_two_pow_sub_one_eq_mod b.toNat 63

theorem unsigned_toNat (b : UInt64) : (unsigned b).toNat = b.toNat % 2 ^ 63 := by
  unfold unsigned
  rw [UInt64.toNat_ofNat_of_lt' (by unfold UInt64.size; omega)]

end Stix.Strconv
