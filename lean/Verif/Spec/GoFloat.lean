import Verif.Spec.Canon
import Verif.Spec.Es6

/-!
# Floating-point literals of Go (specification)

The Go Programming Language Specification, "Floating-point literals", with a sign, as
`strconv.ParseFloat` is documented to accept them.  Decimal literals may do without point and
exponent; hexadecimal ones need the exponent, which is one of two.  Stated without the model.
-/

namespace Stix.Spec.GoFloat
open Stix Stix.Spec Stix.Spec.Canon

/-- Ten, or sixteen. -/
def base (hex : Bool) : Nat := if hex then 16 else 10

/-- `c` is a digit. -/
def Digit (hex : Bool) (c : UInt8) : Prop := ∃ d, IsHex c d ∧ d < base hex

/-- `t` is digits of these values. -/
def Digits (hex : Bool) : Str → List Nat → Prop := List.Forall₂ fun c d => IsHex c d ∧ d < base hex

/-- The number with these digits. -/
def number (hex : Bool) (ds : List Nat) : Nat := ds.foldl (fun n d => n * base hex + d) 0

/-- A sign or none. -/
def Sign (s : Str) (neg : Bool) : Prop := (neg = false ∧ (s = [] ∨ s = b!"+")) ∨ (neg = true ∧ s = b!"-")

/-- The exponent, with its letter. -/
def Exponent (hex : Bool) (t : Str) (e : Int) : Prop :=
  (hex = false ∧ t = [] ∧ e = 0) ∨
  ∃ (c : UInt8) (s ds : Str) (neg : Bool) (es : List Nat), t = c :: (s ++ ds) ∧
    c ∈ (if hex then b!"pP" else b!"eE") ∧ Sign s neg ∧ Digits false ds es ∧ es ≠ [] ∧
    e = if neg then -(number false es : Int) else number false es

/-- A literal without underscores: its sign, its exponent, and its value without the sign. -/
def Literal (hex : Bool) (t : Str) (neg : Bool) (e : Int) (x : ℚ) : Prop :=
  ∃ (s pre i pt f ex : Str) (is fs : List Nat), t = s ++ (pre ++ (i ++ (pt ++ (f ++ ex)))) ∧ Sign s neg ∧
    (if hex then pre = b!"0x" ∨ pre = b!"0X" else pre = []) ∧
    Digits hex i is ∧ Digits hex f fs ∧ is ++ fs ≠ [] ∧ (pt = b!"." ∨ (pt = [] ∧ f = [])) ∧ Exponent hex ex e ∧
    x = (number hex (is ++ fs) : ℚ) * (if hex then 2 ^ (e - 4 * fs.length) else 10 ^ (e - fs.length))

/-- Each underscore is between two digits, or between the prefix `0x` and a digit. -/
def Separated (hex : Bool) (t : Str) : Prop :=
  ∀ a b, t = a ++ 95 :: b →
    ((∃ a' c, a = a' ++ [c] ∧ Digit hex c) ∨
      (hex = true ∧ ∃ s neg, Sign s neg ∧ (a = s ++ b!"0x" ∨ a = s ++ b!"0X"))) ∧
    ∃ c b', b = c :: b' ∧ Digit hex c

/-- The text without underscores. -/
def bare (t : Str) : Str := t.filter (· ≠ 95)

/-- `t` is a literal, with underscores or without. -/
def IsFloat (t : Str) (neg : Bool) (e : Int) (x : ℚ) : Prop :=
  ∃ hex, Literal hex (bare t) neg e x ∧ Separated hex t

end Stix.Spec.GoFloat
