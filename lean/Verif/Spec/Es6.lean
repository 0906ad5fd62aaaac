import Verif.Spec.Float
import Verif.Spec.Stamp
import Mathlib.Algebra.Order.Group.Unbundled.Abs
import Mathlib.Algebra.Order.Field.Power

/-!
# How ECMAScript, and so canonical JSON, writes numbers (specification)

RFC 8785, 3.2.2.3: numbers are written as ECMAScript writes them, `Number::toString` (ECMAScript
2015, 7.1.12.1), with the recommendation of its note 2.  `f64Val` is the number a double stands for;
for the bits of the infinity it is `2 ^ 1024`, which is what ECMAScript takes it for when it rounds.
-/

namespace Stix.Spec.Es6
open Stix Stix.Spec

/-- "The Number value for" a number that is not negative (ECMAScript 2015, 6.1.6): of the doubles and
`2 ^ 1024` the nearest, of two equally near the one with an even significand. -/
def NumberFor (x : ℚ) (b : UInt64) : Prop :=
  b ≤ 0x7ff0000000000000 ∧ ∀ c : UInt64, c ≤ 0x7ff0000000000000 →
    |f64Val b - x| ≤ |f64Val c - x| ∧
      (|f64Val b - x| = |f64Val c - x| → c ≠ b → f64Frac b % 2 = 0)

/-- Decimal digits of which the first is not zero. -/
def Significant (ds : List Nat) : Prop := (∀ d ∈ ds, d ≤ 9) ∧ ∃ d r, ds = d :: r ∧ d ≠ 0

/-- `s * 10 ^ (n - k)`, where `s` is written with the `k` digits. -/
def value (ds : List Nat) (n : Int) : ℚ := (decimal ds : ℚ) * 10 ^ (n - ds.length)

/-- The digits and the place of the point ECMAScript chooses for a positive double (step 5 and note
2): as few digits as possible; of these the nearest number; of two equally near the even one. -/
structure Chosen (b : UInt64) (ds : List Nat) (n : Int) : Prop where
  digits : Significant ds
  number : NumberFor (value ds n) b
  fewest : ∀ ds' n', Significant ds' → NumberFor (value ds' n') b → ds.length ≤ ds'.length
  nearest : ∀ ds' n', Significant ds' → ds'.length = ds.length → NumberFor (value ds' n') b →
    |value ds n - f64Val b| ≤ |value ds' n' - f64Val b|
  even : ∀ ds', Significant ds' → ds'.length = ds.length → NumberFor (value ds' n) b → ds' ≠ ds →
    |value ds n - f64Val b| = |value ds' n - f64Val b| → decimal ds % 2 = 0

/-- The characters of digits. -/
def chars (ds : List Nat) : Str := ds.map digit

/-- Zeros. -/
def zeros (n : Int) : Str := List.replicate n.toNat 48

/-- Where the point goes, and whether there is an exponent (steps 6 to 10). -/
def Laid (ds : List Nat) (n : Int) (t : Str) : Prop :=
  if ds.length ≤ n ∧ n ≤ 21 then t = chars ds ++ zeros (n - ds.length)
  else if 0 < n ∧ n ≤ 21 then t = chars (ds.take n.toNat) ++ b!"." ++ chars (ds.drop n.toNat)
  else if -6 < n ∧ n ≤ 0 then t = b!"0." ++ zeros (-n) ++ chars ds
  else ∃ es, Significant es ∧ decimal es = (n - 1).natAbs ∧
    t = chars (ds.take 1) ++ (if ds.length = 1 then [] else b!"." ++ chars (ds.drop 1)) ++ b!"e" ++
      (if n - 1 < 0 then b!"-" else b!"+") ++ chars es

/-- A double without its sign. -/
def unsigned (b : UInt64) : UInt64 := UInt64.ofNat (b.toNat % 2 ^ 63)

/-- The text of a finite double (steps 2 to 10). -/
def NumberText (b : UInt64) (t : Str) : Prop :=
  if f64Val b = 0 then t = b!"0"
  else ∃ ds n u, Chosen (unsigned b) ds n ∧ Laid ds n u ∧ t = (if f64Neg b then b!"-" else []) ++ u

/-- What a number text of JSON (RFC 8259, 6) says: a sign, digits, perhaps a point and digits, and
perhaps an exponent.  The last two arguments are the exponent and the value without the sign. -/
def Written (t : Str) (neg : Bool) (e : Int) (x : ℚ) : Prop :=
  ∃ (ip fp ep : List Nat) (f es : Str), ip ≠ [] ∧ (∀ d ∈ ip, d ≤ 9) ∧ (∀ d ∈ fp, d ≤ 9) ∧ (∀ d ∈ ep, d ≤ 9) ∧
    ((f = [] ∧ fp = []) ∨ (f = b!"." ++ chars fp ∧ fp ≠ [])) ∧
    ((es = [] ∧ e = 0) ∨
      ((es = b!"e" ++ chars ep ∨ es = b!"E" ++ chars ep ∨ es = b!"e+" ++ chars ep ∨ es = b!"E+" ++ chars ep) ∧
        ep ≠ [] ∧ e = decimal ep) ∨
      ((es = b!"e-" ++ chars ep ∨ es = b!"E-" ++ chars ep) ∧ ep ≠ [] ∧ e = -(decimal ep : Int))) ∧
    t = (if neg then b!"-" else []) ++ chars ip ++ f ++ es ∧
    x = (decimal (ip ++ fp) : ℚ) * 10 ^ (e - fp.length)

end Stix.Spec.Es6
