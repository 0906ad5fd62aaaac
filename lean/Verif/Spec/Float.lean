import Mathlib.Data.Rat.Defs
import Mathlib.Data.Rat.Cast.Defs
import Mathlib.Algebra.Order.Field.Basic
import Mathlib.Algebra.Order.Ring.Rat

/-!
# The number an IEEE 754 double stands for (specification)

From the bits: sign, eleven exponent bits, 52 fraction bits.
-/

namespace Stix.Spec

/-- Exponent bits. -/
def f64Exp (b : UInt64) : Nat := b.toNat / 2 ^ 52 % 2 ^ 11

/-- Fraction bits. -/
def f64Frac (b : UInt64) : Nat := b.toNat % 2 ^ 52

/-- Sign bit. -/
def f64Neg (b : UInt64) : Bool := b.toNat / 2 ^ 63 = 1

/-- Not a number: all exponent bits and some fraction bit set. -/
def F64NaN (b : UInt64) : Prop := f64Exp b = 2047 ∧ f64Frac b ≠ 0

/-- A number: not all exponent bits set. -/
def F64Finite (b : UInt64) : Prop := f64Exp b ≠ 2047

/-- The magnitude in units of the least positive double, `2 ^ -1074`. -/
def f64Units (b : UInt64) : Nat :=
  if f64Exp b = 0 then f64Frac b else (2 ^ 52 + f64Frac b) * 2 ^ (f64Exp b - 1)

/-- The number a finite double stands for. -/
def f64Val (b : UInt64) : ℚ :=
  (if f64Neg b then -1 else 1) * (f64Units b : ℚ) / 2 ^ 1074

instance (b : UInt64) : Decidable (F64NaN b) := by unfold F64NaN; infer_instance
instance (b : UInt64) : Decidable (F64Finite b) := by unfold F64Finite; infer_instance

end Stix.Spec
