import Verif.Model.Strconv
import Verif.Props.Needs
import Mathlib.Tactic.Linarith
import Mathlib.Tactic.Positivity
import Mathlib.Tactic.FieldSimp
import Mathlib.Tactic.Ring
import Mathlib.Algebra.Order.Floor.Semifield
import Mathlib.Data.Nat.Log

/-!
# Rounding decimal numbers to doubles (lemmas)
-/

namespace Stix.Strconv
open Stix Spec

theorem units_eq (k : Nat) : units k = magUnits k := rfl

theorem units_lt {k l : Nat} : units k < units l ↔ k < l := by
  constructor
  · intro h
    by_contra hc
    exact absurd (magUnits_mono (not_lt.1 hc)) (not_le.2 h)
  · exact magUnits_strict

theorem units_le {k l : Nat} : units k ≤ units l ↔ k ≤ l := by
  rw [← not_lt, ← not_lt, units_lt]

theorem floorBits_spec (m : Nat) : units (floorBits m) ≤ m ∧ m < units (floorBits m + 1) := by
  unfold floorBits
  by_cases h : m < 2 ^ 53
  · have hl : m.log2 - 52 = 0 := by
      by_cases h0 : m = 0
      · subst h0; decide
      · have := (Nat.log2_lt h0).2 h
        omega
    rw [hl]
    simp only [Nat.zero_mul, Nat.pow_zero, Nat.div_one, Nat.zero_add]
    unfold units
    constructor
    · split
      · omega
      · rw [show m / 2 ^ 52 - 1 = 0 by omega]; omega
    · split
      · omega
      · by_cases h2 : m + 1 = 2 ^ 53
        · rw [h2, show 2 ^ 53 / 2 ^ 52 - 1 = 1 by norm_num]; omega
        · rw [show (m + 1) / 2 ^ 52 - 1 = 0 by omega]; omega
  · have h0 : m ≠ 0 := by omega
    obtain ⟨s, hs⟩ : ∃ s, m.log2 = s + 53 := by
      have : 53 ≤ m.log2 := (Nat.le_log2 h0).2 (by omega)
      exact ⟨m.log2 - 53, by omega⟩
    have e1 : 2 ^ (s + 53) ≤ m := (Nat.le_log2 h0).1 (by omega)
    have e2 : m < 2 ^ (s + 54) := (Nat.log2_lt h0).1 (by omega)
    rw [hs, show s + 53 - 52 = s + 1 by omega]
    have hp : 0 < 2 ^ (s + 1) := Nat.two_pow_pos _
    obtain ⟨q, hq⟩ : ∃ q, m / 2 ^ (s + 1) = q := ⟨_, rfl⟩
    have q1 : 2 ^ 52 ≤ q := by
      rw [← hq, Nat.le_div_iff_mul_le hp, ← Nat.pow_add]
      rw [show 52 + (s + 1) = s + 53 by omega]; exact e1
    have q2 : q < 2 ^ 53 := by
      rw [← hq, Nat.div_lt_iff_lt_mul hp, ← Nat.pow_add]
      rw [show 53 + (s + 1) = s + 54 by omega]; exact e2
    have m1 : q * 2 ^ (s + 1) ≤ m := by rw [← hq]; exact Nat.div_mul_le_self _ _
    have m2 : m < (q + 1) * 2 ^ (s + 1) := by
      rw [← hq]; exact (Nat.div_lt_iff_lt_mul hp).1 (Nat.lt_succ_self _)
    rw [hq]
    unfold units
    constructor
    · rw [if_neg (by omega), show ((s + 1) * 2 ^ 52 + q) / 2 ^ 52 - 1 = s + 1 by omega,
        show 2 ^ 52 + ((s + 1) * 2 ^ 52 + q) % 2 ^ 52 = q by omega]
      exact m1
    · rw [if_neg (by omega)]
      by_cases h3 : q + 1 = 2 ^ 53
      · rw [show ((s + 1) * 2 ^ 52 + q + 1) / 2 ^ 52 - 1 = s + 2 by omega,
          show 2 ^ 52 + ((s + 1) * 2 ^ 52 + q + 1) % 2 ^ 52 = 2 ^ 52 by omega]
        rw [h3] at m2
        calc m < 2 ^ 53 * 2 ^ (s + 1) := m2
          _ = 2 ^ 52 * 2 ^ (s + 2) := by rw [Nat.pow_succ 2 (s + 1)]; ring
      · rw [show ((s + 1) * 2 ^ 52 + q + 1) / 2 ^ 52 - 1 = s + 1 by omega,
          show 2 ^ 52 + ((s + 1) * 2 ^ 52 + q + 1) % 2 ^ 52 = q + 1 by omega]
        exact m2

/-- `k` is the double nearest to `x` units, of two the even one. -/
def Nearest (x : ℚ) (k : Nat) : Prop :=
  ∀ l, |(units k : ℚ) - x| ≤ |(units l : ℚ) - x| ∧
    (|(units k : ℚ) - x| = |(units l : ℚ) - x| → l ≠ k → k % 2 = 0)

theorem units_ltQ {k l : Nat} (h : k < l) : (units k : ℚ) < units l := by exact_mod_cast units_lt.2 h
theorem units_leQ {k l : Nat} (h : k ≤ l) : (units k : ℚ) ≤ units l := by exact_mod_cast units_le.2 h

theorem near_unique' {x : ℚ} {k l : Nat} (hk : Nearest x k) (hl : Nearest x l) (h : k < l) : False := by
  have e : |(units k : ℚ) - x| = |(units l : ℚ) - x| := le_antisymm (hk l).1 (hl k).1
  have u := units_ltQ h
  have k2 := (hk l).2 e (by omega)
  have l2 := (hl k).2 e.symm (by omega)
  have hm := (hk (k + 1)).1
  have u1 := units_ltQ (Nat.lt_succ_self k)
  have u2 := units_ltQ (show k + 1 < l by omega)
  rcases abs_cases ((units k : ℚ) - x) with h1 | h1 <;> rcases abs_cases ((units l : ℚ) - x) with h2 | h2 <;>
    rcases abs_cases ((units (k + 1) : ℚ) - x) with h3 | h3 <;> linarith

theorem near_unique {x : ℚ} {k l : Nat} (hk : Nearest x k) (hl : Nearest x l) : k = l := by
  rcases Nat.lt_trichotomy k l with h | h | h
  · exact (near_unique' hk hl h).elim
  · exact h
  · exact (near_unique' hl hk h).elim

theorem near_mono {x y : ℚ} {k l : Nat} (hk : Nearest x k) (hl : Nearest y l) (h : x ≤ y) : k ≤ l := by
  by_contra hc
  have hlt : l < k := not_le.1 hc
  have u := units_ltQ hlt
  have a1 := (hk l).1
  have a2 := (hl k).1
  have : x = y := by
    rcases abs_cases ((units k : ℚ) - x) with h1 | h1 <;> rcases abs_cases ((units l : ℚ) - x) with h2 | h2 <;>
      rcases abs_cases ((units k : ℚ) - y) with h3 | h3 <;> rcases abs_cases ((units l : ℚ) - y) with h4 | h4 <;>
      linarith
  subst this
  exact hc (near_unique hk hl).le

theorem near_units (k : Nat) : Nearest (units k) k := by
  intro l
  simp only [sub_self, abs_zero]
  refine ⟨abs_nonneg _, fun h hne => ?_⟩
  have : (units l : ℚ) = units k := by
    have := abs_eq_zero.1 h.symm
    linarith
  have : units l = units k := by exact_mod_cast this
  exact absurd (le_antisymm (units_le.1 this.le) (units_le.1 this.ge)) hne

/-- A double below and one above decide. -/
theorem near_of {x : ℚ} {k : Nat} (h1 : (units k : ℚ) ≤ x) (h2 : x < units (k + 1)) :
    (2 * x < units k + units (k + 1) → Nearest x k) ∧
    ((units k : ℚ) + units (k + 1) < 2 * x → Nearest x (k + 1)) ∧
    (2 * x = units k + units (k + 1) → Nearest x (if k % 2 = 0 then k else k + 1)) := by
  have dk : |(units k : ℚ) - x| = x - units k := by rw [abs_sub_comm]; exact abs_of_nonneg (by linarith)
  have dk1 : |(units (k + 1) : ℚ) - x| = units (k + 1) - x := abs_of_nonneg (by linarith)
  have key : ∀ l, (l < k → x - units k < |(units l : ℚ) - x|) ∧
      (k + 1 < l → units (k + 1) - x < |(units l : ℚ) - x|) := by
    intro l
    refine ⟨fun h => ?_, fun h => ?_⟩
    · have := units_ltQ h
      rw [abs_sub_comm, abs_of_nonneg (by linarith)]
      linarith
    · have := units_ltQ h
      rw [abs_of_nonneg (by linarith)]
      linarith
  have tri : ∀ l, l < k ∨ l = k ∨ l = k + 1 ∨ k + 1 < l := by intro l; omega
  refine ⟨fun h l => ?_, fun h l => ?_, fun h => ?_⟩
  · rw [dk]
    rcases tri l with hl | rfl | rfl | hl
    · have := (key l).1 hl
      exact ⟨this.le, fun e => absurd e this.ne⟩
    · exact ⟨dk.ge, fun _ hne => absurd rfl hne⟩
    · rw [dk1]
      exact ⟨by linarith, fun e => by exfalso; linarith⟩
    · have := (key l).2 hl
      exact ⟨by linarith, fun e => by exfalso; linarith⟩
  · rw [dk1]
    rcases tri l with hl | rfl | rfl | hl
    · have := (key l).1 hl
      exact ⟨by linarith, fun e => by exfalso; linarith⟩
    · rw [dk]
      exact ⟨by linarith, fun e => by exfalso; linarith⟩
    · exact ⟨dk1.ge, fun _ hne => absurd rfl hne⟩
    · have := (key l).2 hl
      exact ⟨by linarith, fun e => by exfalso; linarith⟩
  · split
    · next hev =>
      intro l
      refine ⟨?_, fun _ _ => hev⟩
      rw [dk]
      rcases tri l with hl | rfl | rfl | hl
      · exact ((key l).1 hl).le
      · exact dk.ge
      · rw [dk1]; linarith
      · have := (key l).2 hl
        linarith
    · next hodd =>
      intro l
      refine ⟨?_, fun _ _ => by omega⟩
      rw [dk1]
      rcases tri l with hl | rfl | rfl | hl
      · have := (key l).1 hl
        linarith
      · rw [dk]; linarith
      · exact dk1.ge
      · exact ((key l).2 hl).le

theorem roundBits_near (n : Nat) {d : Nat} (hd : 0 < d) : Nearest ((n : ℚ) / d) (roundBits n d) := by
  have hdq : (0 : ℚ) < d := by exact_mod_cast hd
  obtain ⟨f1, f2⟩ := floorBits_spec (n / d)
  obtain ⟨k, hk⟩ : ∃ k, floorBits (n / d) = k := ⟨_, rfl⟩
  rw [hk] at f1 f2
  have x1 : (units k : ℚ) ≤ (n : ℚ) / d := by
    rw [le_div_iff₀ hdq]
    exact_mod_cast (Nat.le_div_iff_mul_le hd).1 f1
  have x2 : (n : ℚ) / d < units (k + 1) := by
    rw [div_lt_iff₀ hdq]
    exact_mod_cast (Nat.div_lt_iff_lt_mul hd).1 f2
  obtain ⟨a, b, c⟩ := near_of x1 x2
  unfold roundBits
  simp only [hk]
  have cv : ∀ r : ℚ, 2 * ((n : ℚ) / d) * d = 2 * n := fun _ => by field_simp
  split_ifs with h1 h2 h3
  · refine a ?_
    have : ((2 * n : Nat) : ℚ) < ((units k + units (k + 1)) * d : Nat) := by exact_mod_cast h1
    push_cast at this
    rw [← cv 0] at this
    exact lt_of_mul_lt_mul_right this hdq.le
  · refine b ?_
    have : (((units k + units (k + 1)) * d : Nat) : ℚ) < ((2 * n : Nat) : ℚ) := by exact_mod_cast h2
    push_cast at this
    rw [← cv 0] at this
    exact lt_of_mul_lt_mul_right this hdq.le
  · have e : 2 * n = (units k + units (k + 1)) * d := by omega
    have : ((2 * n : Nat) : ℚ) = ((units k + units (k + 1)) * d : Nat) := by exact_mod_cast e
    push_cast at this
    rw [← cv 0] at this
    have := c (mul_right_cancel₀ hdq.ne' this)
    rwa [if_pos h3] at this
  · have e : 2 * n = (units k + units (k + 1)) * d := by omega
    have : ((2 * n : Nat) : ℚ) = ((units k + units (k + 1)) * d : Nat) := by exact_mod_cast e
    push_cast at this
    rw [← cv 0] at this
    have := c (mul_right_cancel₀ hdq.ne' this)
    rwa [if_neg h3] at this

theorem roundPow_near {b : Nat} (hb : 0 < b) (m : Nat) (e : Int) :
    Nearest ((m : ℚ) * (b : ℚ) ^ e * 2 ^ 1074) (roundPow b m e) := by
  unfold roundPow
  have hbq : (b : ℚ) ≠ 0 := by exact_mod_cast hb.ne'
  split
  · next h =>
    have := roundBits_near (m * b ^ e.toNat * 2 ^ 1074) (d := 1) (by omega)
    obtain ⟨n, rfl⟩ := Int.eq_ofNat_of_zero_le h
    push_cast at this
    simpa using this
  · next h =>
    obtain ⟨n, hn⟩ : ∃ n : Nat, e = -(n : Int) := ⟨(-e).toNat, by omega⟩
    subst hn
    have := roundBits_near (m * 2 ^ 1074) (d := b ^ n) (Nat.pow_pos hb)
    push_cast at this
    rw [show (-(-(n : Int))).toNat = n by omega]
    have e2 : (m : ℚ) * 2 ^ 1074 / (b : ℚ) ^ n = (m : ℚ) * (b : ℚ) ^ (-(n : Int)) * 2 ^ 1074 := by
      rw [zpow_neg, zpow_natCast]; ring
    rwa [e2] at this

/-- Numbers in order have their doubles in order. -/
theorem roundPow_mono {m m' : Nat} {e e' : Int} (h : (m : ℚ) * 10 ^ e ≤ m' * 10 ^ e') :
    roundPow 10 m e ≤ roundPow 10 m' e' :=
  near_mono (roundPow_near (by omega) m e) (roundPow_near (by omega) m' e')
    (by push_cast; exact mul_le_mul_of_nonneg_right h (by positivity))

theorem roundPow_congr {m m' : Nat} {e e' : Int} (h : (m : ℚ) * 10 ^ e = m' * 10 ^ e') :
    roundPow 10 m e = roundPow 10 m' e' := le_antisymm (roundPow_mono h.le) (roundPow_mono h.ge)

theorem exact_val (k : Nat) : (exact k : ℚ) * (10 : ℚ) ^ (-1074 : Int) * 2 ^ 1074 = units k := by
  unfold exact
  push_cast
  rw [show (10 : ℚ) = 5 * 2 by norm_num, mul_zpow]
  rw [zpow_neg, zpow_neg]
  have h5 : ((5 : ℚ) ^ (1074 : Int)) = 5 ^ (1074 : Nat) := by rw [← zpow_natCast]; rfl
  have h2 : ((2 : ℚ) ^ (1074 : Int)) = 2 ^ (1074 : Nat) := by rw [← zpow_natCast]; rfl
  rw [h5, h2]
  generalize ha : (5 : ℚ) ^ 1074 = a
  generalize hb : (2 : ℚ) ^ 1074 = b
  have : a ≠ 0 := by rw [← ha]; positivity
  have : b ≠ 0 := by rw [← hb]; positivity
  field_simp

theorem roundPow_exact (k : Nat) : roundPow 10 (exact k) (-1074) = k := by
  refine near_unique (roundPow_near (by omega) _ _) ?_
  have := exact_val k
  push_cast at this ⊢
  rw [this]
  exact near_units k

end Stix.Strconv
