import Verif.Model.Ctor
import Verif.Spec.Float
import Mathlib.Tactic.Linarith

/-!
# Comparison of doubles
-/

namespace Stix
open Spec

/-- Magnitude bits. -/
def mag (b : F64) : Nat := b.toNat % 2 ^ 63

theorem toNat_mag (b : F64) : (b &&& 0x7fffffffffffffff).toNat = mag b := by
  rw [UInt64.toNat_and]
  show b.toNat &&& (2 ^ 63 - 1) = _
  rw [Nat.and_two_pow_sub_one_eq_mod]; rfl

theorem sign_iff (b : F64) : b &&& 0x8000000000000000 ≠ 0 ↔ f64Neg b = true := by
  have h3 : b.toNat.testBit 63 = true ↔ b.toNat / 2 ^ 63 = 1 := by
    have := b.toNat_lt
    rw [Nat.testBit_eq_decide_div_mod_eq, decide_eq_true_iff]
    omega
  rw [f64Neg, decide_eq_true_iff, ← h3]
  have h4 : (b &&& 0x8000000000000000).toNat.testBit 63 = b.toNat.testBit 63 := by
    rw [UInt64.toNat_and, Nat.testBit_and]
    have : (0x8000000000000000 : UInt64).toNat.testBit 63 = true := by decide +kernel
    rw [this, Bool.and_true]
  constructor
  · intro h
    by_contra hc
    apply h
    apply UInt64.toNat_inj.1
    apply Nat.eq_of_testBit_eq
    intro i
    by_cases hi : i = 63
    · subst hi; rw [h4]; simpa using hc
    · rw [UInt64.toNat_and, Nat.testBit_and]
      have : (0x8000000000000000 : UInt64).toNat.testBit i = false := by
        show (2 ^ 63).testBit i = false
        rw [Nat.testBit_two_pow]; simpa using fun h => hi h.symm
      rw [this]; simp
  · intro h h'
    rw [h'] at h4
    rw [← h4] at h
    simp at h

theorem exp_mag (b : F64) : f64Exp b = mag b / 2 ^ 52 := by
  unfold f64Exp mag; omega

theorem frac_mag (b : F64) : f64Frac b = mag b % 2 ^ 52 := by
  unfold f64Frac mag; omega

/-- Units from magnitude bits. -/
def magUnits (m : Nat) : Nat :=
  if m / 2 ^ 52 = 0 then m % 2 ^ 52 else (2 ^ 52 + m % 2 ^ 52) * 2 ^ (m / 2 ^ 52 - 1)

theorem units_mag (b : F64) : f64Units b = magUnits (mag b) := by
  rw [f64Units, exp_mag, frac_mag]; rfl

theorem magUnits_mono {m n : Nat} (h : m ≤ n) : magUnits m ≤ magUnits n := by
  unfold magUnits
  by_cases he : m / 2 ^ 52 = n / 2 ^ 52
  · have hf : m % 2 ^ 52 ≤ n % 2 ^ 52 := by omega
    rw [he]
    split
    · exact hf
    · exact Nat.mul_le_mul_right _ (by omega)
  · have hlt : m / 2 ^ 52 < n / 2 ^ 52 := by omega
    rw [if_neg (by omega : ¬ n / 2 ^ 52 = 0)]
    split
    · have : 1 ≤ 2 ^ (n / 2 ^ 52 - 1) := Nat.one_le_two_pow
      calc m % 2 ^ 52 ≤ 2 ^ 52 * 1 := by omega
        _ ≤ _ := Nat.mul_le_mul (by omega) this
    · have h1 : 2 ^ (n / 2 ^ 52 - 1) ≥ 2 ^ (m / 2 ^ 52 - 1) * 2 := by
        rw [← Nat.pow_succ]
        exact Nat.pow_le_pow_right (by omega) (by omega)
      calc (2 ^ 52 + m % 2 ^ 52) * 2 ^ (m / 2 ^ 52 - 1)
          ≤ (2 ^ 52 * 2) * 2 ^ (m / 2 ^ 52 - 1) := Nat.mul_le_mul_right _ (by omega)
        _ = 2 ^ 52 * (2 ^ (m / 2 ^ 52 - 1) * 2) := by rw [Nat.mul_assoc, Nat.mul_comm 2]
        _ ≤ (2 ^ 52 + n % 2 ^ 52) * 2 ^ (n / 2 ^ 52 - 1) := Nat.mul_le_mul (by omega) h1

theorem magUnits_zero {m : Nat} : magUnits m = 0 ↔ m = 0 := by
  unfold magUnits
  constructor
  · split
    · intro h; omega
    · intro h
      rcases Nat.mul_eq_zero.1 h with h | h
      · omega
      · exact absurd h (Nat.pos_iff_ne_zero.1 (Nat.two_pow_pos _))
  · rintro rfl; rfl

/-- Signed units. -/
def sunits (b : F64) : Int := if f64Neg b then -(f64Units b : Int) else f64Units b

theorem f64Val_eq (b : F64) : f64Val b = (sunits b : ℚ) / 2 ^ 1074 := by
  unfold f64Val sunits
  split <;> simp

theorem fkey_eq (b : F64) : fkey b = if f64Neg b then -(mag b : Int) else mag b := by
  unfold fkey
  simp only [toNat_mag]
  by_cases h : f64Neg b = true
  · rw [if_pos ((sign_iff b).2 h), if_pos h]
  · rw [if_neg (fun h' => h ((sign_iff b).1 h')), if_neg h]

theorem sunits_mono {a b : F64} (h : fkey a ≤ fkey b) : sunits a ≤ sunits b := by
  rw [fkey_eq, fkey_eq] at h
  unfold sunits
  rw [units_mag, units_mag]
  cases ha : f64Neg a <;> cases hb : f64Neg b <;> simp only [ha, hb, if_true, if_false, Bool.false_eq_true] at h ⊢
  · exact_mod_cast magUnits_mono (by exact_mod_cast h)
  · have h1 : mag a = 0 := by omega
    have h2 : mag b = 0 := by omega
    rw [h1, h2]; decide
  · omega
  · have := magUnits_mono (m := mag b) (n := mag a) (by omega)
    omega

theorem f64Val_mono {a b : F64} (h : fkey a ≤ fkey b) : f64Val a ≤ f64Val b := by
  rw [f64Val_eq, f64Val_eq]
  have := sunits_mono h
  have h' : (sunits a : ℚ) ≤ sunits b := by exact_mod_cast this
  exact div_le_div_of_nonneg_right h' (by positivity)

theorem isNaN_iff (b : F64) : isNaN b = true ↔ F64NaN b := by
  unfold isNaN F64NaN
  rw [decide_eq_true_iff, gt_iff_lt, UInt64.lt_iff_toNat_lt, toNat_mag, exp_mag, frac_mag]
  have : mag b < 2 ^ 63 := Nat.mod_lt _ (by omega)
  show 0x7ff0000000000000 < _ ↔ _
  omega

theorem f64Val_zero (b : F64) : f64Val b = 0 ↔ mag b = 0 := by
  rw [f64Val_eq, div_eq_zero_iff]
  have : ((2 : ℚ) ^ 1074) ≠ 0 := by positivity
  simp only [this, or_false]
  rw [← magUnits_zero, ← units_mag]
  unfold sunits
  split <;> simp

theorem fltEq_zero {b : F64} (hn : ¬ F64NaN b) : fltEq b 0 = true ↔ f64Val b = 0 := by
  unfold fltEq
  have h1 : isNaN b = false := by rw [← Bool.not_eq_true, isNaN_iff]; exact hn
  have h2 : isNaN 0 = false := by decide
  rw [h1, h2, f64Val_zero]
  have h3 : fkey 0 = 0 := by decide
  rw [h3, fkey_eq]
  simp
  split <;> simp

theorem not_fltLt {a b : F64} (ha : ¬ F64NaN a) (hb : ¬ F64NaN b) (h : fltLt a b = false) :
    f64Val b ≤ f64Val a := by
  unfold fltLt at h
  have h1 : isNaN a = false := by rw [← Bool.not_eq_true, isNaN_iff]; exact ha
  have h2 : isNaN b = false := by rw [← Bool.not_eq_true, isNaN_iff]; exact hb
  rw [h1, h2] at h
  simp only [Bool.not_false, Bool.and_self, Bool.true_and, decide_eq_false_iff_not, not_lt] at h
  exact f64Val_mono h

theorem val_90 : f64Val flt90 = 90 ∧ f64Val fltNeg90 = -90 ∧ f64Val flt180 = 180 ∧
    f64Val fltNeg180 = -180 := by
  have h1 : sunits flt90 = 90 * 2 ^ 1074 := by decide +kernel
  have h2 : sunits fltNeg90 = -90 * 2 ^ 1074 := by decide +kernel
  have h3 : sunits flt180 = 180 * 2 ^ 1074 := by decide +kernel
  have h4 : sunits fltNeg180 = -180 * 2 ^ 1074 := by decide +kernel
  have hp : ((2 : ℚ) ^ 1074) ≠ 0 := by positivity
  rw [f64Val_eq, f64Val_eq, f64Val_eq, f64Val_eq, h1, h2, h3, h4]
  simp only [Int.cast_mul, Int.cast_pow, Int.cast_ofNat, Int.cast_neg]
  exact ⟨mul_div_cancel_right₀ _ hp, mul_div_cancel_right₀ _ hp, mul_div_cancel_right₀ _ hp,
    mul_div_cancel_right₀ _ hp⟩

end Stix
