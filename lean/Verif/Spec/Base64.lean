import Verif.Model.Basic

/-!
# Base64 (RFC 4648, section 4)

The encoding as a regrouping of a bit stream, independent of the three-bytes-at-a-time
algorithm.
-/

namespace Stix.Spec
open Stix

/-- The eight bits of a byte, most significant first. -/
def bitsOfByte (b : UInt8) : List Nat :=
  [b.toNat / 128 % 2, b.toNat / 64 % 2, b.toNat / 32 % 2, b.toNat / 16 % 2, b.toNat / 8 % 2,
   b.toNat / 4 % 2, b.toNat / 2 % 2, b.toNat % 2]

/-- The value of six bits, most significant first. -/
def valueOfBits (l : List Nat) : Nat := l.foldl (fun a b => 2 * a + b) 0

/-- Regroup a bit stream into six-bit values, the last one filled up with zero bits. -/
def sextets : List Nat → List Nat
  | [] => []
  | a :: b :: c :: d :: e :: f :: rest => valueOfBits [a, b, c, d, e, f] :: sextets rest
  | l => [valueOfBits (l ++ List.replicate (6 - l.length) 0)]

/-- The base64 alphabet of RFC 4648. -/
def alphabetChar (n : Nat) : UInt8 :=
  if n < 26 then (65 + n).toUInt8
  else if n < 52 then (97 + (n - 26)).toUInt8
  else if n < 62 then (48 + (n - 52)).toUInt8
  else if n = 62 then 43 else 47

/-- Padding to a multiple of four characters. -/
def base64 (data : Str) : Str :=
  let chars := (sextets (data.flatMap bitsOfByte)).map alphabetChar
  chars ++ List.replicate ((4 - chars.length % 4) % 4) 61

/-- The six bits of a character's value, most significant first. -/
def bitsOfSextet (n : Nat) : List Nat :=
  [n / 32 % 2, n / 16 % 2, n / 8 % 2, n / 4 % 2, n / 2 % 2, n % 2]

/-- `t` is base64 text of the bytes `data`: apart from line breaks it consists of characters of the
alphabet and at most two padding characters, four at a time, and the bits of the characters begin
with the bits of the bytes.  The bits left over in the last character may be anything. -/
def Base64Text (t data : Str) : Prop :=
  ∃ (vs : List Nat) (pad : Nat), (∀ v ∈ vs, v < 64) ∧ pad ≤ 2 ∧ (vs.length + pad) % 4 = 0 ∧
    t.filter (fun c => c ≠ 10 ∧ c ≠ 13) = vs.map alphabetChar ++ List.replicate pad 61 ∧
    data.length = 6 * vs.length / 8 ∧
    data.flatMap bitsOfByte = (vs.flatMap bitsOfSextet).take (8 * data.length)

end Stix.Spec
