import Verif.Model.Time
import Verif.Spec.Time
import Mathlib.Tactic.IntervalCases
import Mathlib.Tactic.Ring

/-! # Calendar lemmas -/

namespace Stix
open Spec

theorem yearStart_eq (y : Nat) : yearStart (y : Int) = (daysBeforeYear y : Int) := by
  induction y with
  | zero => rfl
  | succ y ih =>
    simp only [daysBeforeYear, Nat.cast_add, Nat.cast_one, ← ih]
    by_cases h : LeapYear y
    · rw [if_pos h]; unfold LeapYear at h; unfold yearStart; push_cast; omega
    · rw [if_neg h]; unfold LeapYear at h; unfold yearStart; push_cast; omega

theorem isLeap_iff (y : Nat) : isLeap (y : Int) = true ↔ LeapYear y := by
  unfold isLeap LeapYear
  simp only [Bool.and_eq_true, Bool.or_eq_true, decide_eq_true_eq, ne_eq]
  omega

theorem yearOfDay_spec (n : Int) :
    yearStart (yearOfDay n) ≤ n ∧ n < yearStart (yearOfDay n + 1) := by
  unfold yearOfDay
  generalize hy : n * 400 / 146097 = y
  have h1 : 146097 * y ≤ 400 * n := by omega
  have h2 : 400 * n < 146097 * (y + 1) := by omega
  clear hy
  dsimp only
  split
  · rename_i h; refine ⟨h, ?_⟩
    unfold yearStart at *; omega
  · rename_i h
    split
    · rename_i h'
      refine ⟨?_, by rw [show y - 1 + 1 = y by omega]; exact h'⟩
      unfold yearStart at *; omega
    · rename_i h'
      exact ⟨by omega, by omega⟩

theorem yearStart_mono {a b : Int} (h : a ≤ b) : yearStart a ≤ yearStart b := by
  unfold yearStart; omega

theorem monthDay_spec (lens : List Nat) (m d : Nat) (h : d < lens.sum) :
    ∃ k, k < lens.length ∧ (monthDay lens m d).1 = m + k ∧
      (lens.take k).sum + ((monthDay lens m d).2 - 1) = d ∧
      1 ≤ (monthDay lens m d).2 ∧ (monthDay lens m d).2 ≤ lens.getD k 0 := by
  induction lens generalizing m d with
  | nil => simp at h
  | cons l rest ih =>
    simp only [monthDay]
    split
    · rename_i hl
      exact ⟨0, by simp, by simp, by simp, by simp, by simp; omega⟩
    · rename_i hl
      simp only [List.sum_cons] at h
      obtain ⟨k, h1, h2, h3, h4, h5⟩ := ih (m + 1) (d - l) (by omega)
      refine ⟨k + 1, by simp; omega, by rw [h2]; omega, ?_, h4, by simpa using h5⟩
      simp only [List.take_succ_cons, List.sum_cons]
      omega

theorem monthLens_sum (leap : Bool) : (monthLens leap).sum = if leap then 366 else 365 := by
  cases leap <;> rfl

theorem daysInMonth_eq (y m : Nat) (h1 : 1 ≤ m) (h2 : m ≤ 12) :
    (monthLens (isLeap y)).getD (m - 1) 0 = daysInMonth y m := by
  have := isLeap_iff y
  cases hl : isLeap (y : Int) <;> simp only [hl, Bool.false_eq_true, false_iff, true_iff] at this <;>
  interval_cases m <;> simp [monthLens, daysInMonth, this]

theorem daysBeforeMonth_eq (y m : Nat) (h1 : 1 ≤ m) (h2 : m ≤ 12) :
    ((monthLens (isLeap y)).take (m - 1)).sum = daysBeforeMonth y m := by
  have := isLeap_iff y
  cases hl : isLeap (y : Int) <;> simp only [hl, Bool.false_eq_true, false_iff, true_iff] at this <;>
  interval_cases m <;> simp [monthLens, daysBeforeMonth, daysInMonth, this]

theorem toUInt8_add (n : Nat) : (48 : UInt8) + n.toUInt8 = digit n := by
  unfold digit
  simp [Nat.toUInt8]

theorem decPad2 (n : Nat) (h : n < 100) : decPad 2 n = [digit (n / 10), digit (n % 10)] := by
  have : n / 10 / 10 = 0 := by omega
  have h2 : n / 10 % 10 = n / 10 := by omega
  simp [decPad, this, toUInt8_add, h2]

theorem decPad3 (n : Nat) (h : n < 1000) :
    decPad 3 n = [digit (n / 100), digit (n / 10 % 10), digit (n % 10)] := by
  have h1 : n / 10 / 10 / 10 = 0 := by omega
  have h2 : n / 10 / 10 % 10 = n / 100 := by omega
  simp [decPad, h1, toUInt8_add, h2]

theorem decPad4 (n : Nat) (h : n < 10000) : decPad 4 n =
    [digit (n / 1000), digit (n / 100 % 10), digit (n / 10 % 10), digit (n % 10)] := by
  have h1 : n / 10 / 10 / 10 / 10 = 0 := by omega
  have h2 : n / 10 / 10 / 10 % 10 = n / 1000 := by omega
  have h3 : n / 10 / 10 % 10 = n / 100 % 10 := by omega
  simp [decPad, h1, toUInt8_add, h2, h3]

/-- The date and time fields of an instant, to the millisecond. -/
def civilOf (ns : Int) : Civil :=
  let secs := ns / 1000000000
  let c := civil (secs / 86400)
  let tod := (secs % 86400).toNat
  { year := c.1.toNat, month := c.2.1, day := c.2.2, hour := tod / 3600, minute := tod / 60 % 60,
    second := tod % 60, milli := (ns % 1000000000).toNat / 1000000 }

/-- First nanosecond of year 10000. -/
def endOfTime : Int := yearStart 10000 * 86400 * 1000000000

theorem civilOf_facts (ns : Int) (h0 : 0 ≤ ns) (h1 : ns < endOfTime) :
    (civilOf ns).Valid ∧ ((civilOf ns).millis : Int) = ns / 1000000 ∧
    timestampString { ns := ns } = (civilOf ns).text := by
  -- the day and its year
  generalize hdd : ns / 1000000000 / 86400 = dd
  have hd0 : 0 ≤ dd := by omega
  have hd1 : dd < yearStart 10000 := by
    unfold endOfTime at h1; omega
  obtain ⟨hy1, hy2⟩ := yearOfDay_spec dd
  have hyn : 0 ≤ yearOfDay dd := by
    by_contra hneg
    have := yearStart_mono (show yearOfDay dd + 1 ≤ 0 by omega)
    have h00 : yearStart 0 = 0 := rfl
    omega
  have hyu : yearOfDay dd ≤ 9999 := by
    by_contra hneg
    have := yearStart_mono (show (10000 : Int) ≤ yearOfDay dd by omega)
    omega
  obtain ⟨y, hy⟩ := Int.eq_ofNat_of_zero_le hyn
  rw [hy] at hy1 hy2 hyu
  obtain ⟨doy, hdoy⟩ := Int.eq_ofNat_of_zero_le (show 0 ≤ dd - yearStart (y : Int) by omega)
  have hlen : doy < (monthLens (isLeap (y : Int))).sum := by
    rw [monthLens_sum]
    have hs : yearStart ((y : Int) + 1) = ((daysBeforeYear (y + 1) : Nat) : Int) := by
      rw [← yearStart_eq]; norm_cast
    rw [hs] at hy2
    rw [yearStart_eq] at hdoy
    simp only [daysBeforeYear] at hy2
    have := isLeap_iff y
    cases hl : isLeap (y : Int) with
    | true => rw [hl] at this; simp only [true_iff] at this; simp only [this, if_true] at hy2 ⊢; omega
    | false => rw [hl] at this; simp only [Bool.false_eq_true, false_iff] at this
               simp only [this, if_false] at hy2; simp; omega
  obtain ⟨k, k1, k2, k3, k4, k5⟩ := monthDay_spec _ 1 doy hlen
  have hk12 : (monthLens (isLeap (y : Int))).length = 12 := rfl
  rw [hk12] at k1
  have hciv : civil dd = ((y : Int), (monthDay (monthLens (isLeap (y : Int))) 1 doy).1,
      (monthDay (monthLens (isLeap (y : Int))) 1 doy).2) := by
    unfold civil
    simp only [hy, hdoy, Int.toNat_natCast]
  generalize hm : (monthDay (monthLens (isLeap (y : Int))) 1 doy).1 = mo at *
  generalize hdy : (monthDay (monthLens (isLeap (y : Int))) 1 doy).2 = dy at *
  have hkm : k = mo - 1 := by omega
  subst hkm
  rw [daysInMonth_eq y mo (by omega) (by omega)] at k5
  rw [daysBeforeMonth_eq y mo (by omega) (by omega)] at k3
  obtain ⟨tod, htod⟩ := Int.eq_ofNat_of_zero_le (show 0 ≤ ns / 1000000000 % 86400 by omega)
  obtain ⟨nsec, hnsec⟩ := Int.eq_ofNat_of_zero_le (show 0 ≤ ns % 1000000000 by omega)
  have htod' : tod < 86400 := by omega
  have hnsec' : nsec < 1000000000 := by omega
  have hc : civilOf ns =
      ⟨y, mo, dy, tod / 3600, tod / 60 % 60, tod % 60, nsec / 1000000⟩ := by
    unfold civilOf
    simp only [hdd, hciv, htod, hnsec, Int.toNat_natCast]
  have hdm : daysInMonth y mo ≤ 31 := by
    unfold daysInMonth; split <;> (try split) <;> omega
  rw [hc]
  refine ⟨⟨by simp only; omega, ⟨by simp only; omega, by simp only; omega⟩,
    ⟨k4, k5⟩, by simp only; omega, by simp only; omega, by simp only; omega,
    by simp only; omega⟩, ?_, ?_⟩
  · simp only [Civil.millis]
    rw [yearStart_eq] at hdoy
    push_cast
    have e1 : dd = (daysBeforeYear y : Int) + (daysBeforeMonth y mo : Int) + ((dy - 1 : Nat) : Int) := by
      omega
    rw [← e1]
    clear hciv hc k3 hdoy e1 hd1 hy1 hy2 hlen
    omega
  · simp only [timestampString, goFormat, Int.zero_mul, Int.add_zero, hdd, hciv, htod, hnsec,
      Int.toNat_natCast, if_true, Civil.text]
    have ha : appendInt (y : Int) 4 = decPad 4 y := by
      unfold appendInt; rw [if_neg (by omega)]; simp
    rw [ha, decPad4 y (by omega), decPad2 mo (by omega), decPad2 dy (by omega),
      decPad2 (tod / 3600) (by omega), decPad2 (tod / 60 % 60) (by omega),
      decPad2 (tod % 60) (by omega), decPad3 (nsec / 1000000) (by omega)]
    simp

theorem digitVal_digit (n : Nat) (h : n < 10) : digitVal (digit n) = some n := by
  interval_cases n <;> rfl

theorem getnum2_text (n : Nat) (h : n < 100) (rest : Str) :
    getnum2 (digit (n / 10) :: digit (n % 10) :: rest) = some (n, rest) := by
  simp only [getnum2, digitVal_digit (n / 10) (by omega), digitVal_digit (n % 10) (by omega),
    Option.bind_eq_bind, Option.bind_some, Option.pure_def]
  congr 2; omega

theorem getnum12_text (n : Nat) (h : n < 100) (rest : Str) :
    getnum12 (digit (n / 10) :: digit (n % 10) :: rest) = some (n, rest) := by
  simp only [getnum12, digitVal_digit (n / 10) (by omega), digitVal_digit (n % 10) (by omega),
    Option.bind_eq_bind, Option.bind_some, Option.pure_def]
  congr 2; omega

theorem getnum4_text (n : Nat) (h : n < 10000) (rest : Str) :
    getnum4 (digit (n / 1000) :: digit (n / 100 % 10) :: digit (n / 10 % 10) :: digit (n % 10) ::
      rest) = some (n, rest) := by
  simp only [getnum4, digitVal_digit (n / 1000) (by omega), digitVal_digit (n / 100 % 10) (by omega),
    digitVal_digit (n / 10 % 10) (by omega), digitVal_digit (n % 10) (by omega),
    Option.bind_eq_bind, Option.bind_some, Option.pure_def]
  congr 2; omega

theorem expect_cons (c : UInt8) (rest : Str) : expect c (c :: rest) = some rest := by
  simp [expect]

theorem parseFrac_text (n : Nat) (h : n < 1000) :
    parseFrac (46 :: digit (n / 100) :: digit (n / 10 % 10) :: digit (n % 10) :: [90]) =
      (n * 1000000, [90]) := by
  have z : digitVal 90 = none := rfl
  simp only [parseFrac, spanDigits, digitVal_digit (n / 100) (by omega),
    digitVal_digit (n / 10 % 10) (by omega), digitVal_digit (n % 10) (by omega), z, true_or, if_true,
    List.take_succ_cons, List.take_nil, List.foldl_cons, List.foldl_nil, List.length_cons,
    List.length_nil, Prod.mk.injEq, and_true]
  have e : 10 ^ (9 - (0 + 1 + 1 + 1)) = 1000000 := by norm_num
  rw [e]
  have e7 : 10 * (10 * (10 * 0 + n / 100) + n / 10 % 10) + n % 10 = n := by omega
  rw [e7]

theorem goParse_text (c : Civil) (h : c.Valid) :
    goParse c.text = some { ns := (c.millis : Int) * 1000000, off := 0 } := by
  obtain ⟨h1, ⟨h2, h2'⟩, ⟨h3, h3'⟩, h4, h5, h6, h7⟩ := h
  have hdm : daysInMonth c.year c.month ≤ 31 := by
    unfold daysInMonth; split <;> (try split) <;> omega
  have hz : parseZone [90] = some (0, []) := rfl
  unfold goParse Civil.text
  simp only [Option.bind_eq_bind]
  rw [getnum4_text _ (by omega), Option.bind_some, expect_cons, Option.bind_some,
    getnum2_text _ (by omega), Option.bind_some]
  dsimp only
  rw [if_neg (by omega), expect_cons, Option.bind_some, getnum2_text _ (by omega), Option.bind_some]
  dsimp only
  rw [expect_cons, Option.bind_some, getnum12_text _ (by omega), Option.bind_some]
  dsimp only
  rw [if_neg (by omega), expect_cons, Option.bind_some, getnum2_text _ (by omega), Option.bind_some]
  dsimp only
  rw [if_neg (by omega), expect_cons, Option.bind_some, getnum2_text _ (by omega), Option.bind_some]
  dsimp only
  rw [if_neg (by omega), parseFrac_text _ (by omega)]
  dsimp only
  rw [hz, Option.bind_some]
  dsimp only
  rw [if_neg (by simp), daysInMonth_eq _ _ h2 h2', if_neg (by omega), daysBeforeMonth_eq _ _ h2 h2',
    yearStart_eq]
  simp only [Option.pure_def, Option.some.injEq, GoTime.mk.injEq, and_true, Civil.millis]
  push_cast
  omega

end Stix
