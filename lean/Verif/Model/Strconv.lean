import Verif.Model.Codec

/-!
# `strconv`: reading and writing floats

The canonicaliser calls `strconv.ParseFloat(_, 64)` (jsoncanonicalizer.go:229) and
`strconv.FormatFloat(_, 'e' or 'f', -1, 64)` (es6numfmt.go:58); `encoding/json` calls the same two
functions for the library's floats.  `strconv` is not part of the repository.  This file is the
model's account of it, after its documentation: which texts are floats, that reading rounds to the
nearest double and ties to the even one, and that writing finds the fewest digits that are read
back as the same double, the nearest such digits, and the even ones of two that are equally near.
It says what is computed, not by which of the several algorithms of `strconv`.
-/

namespace Stix.Strconv

/-! ### Rounding -/

/-- The magnitude of a double in units of `2 ^ -1074`, from its bits without the sign.  (The exponent
is not limited to eleven bits.) -/
def units (k : Nat) : Nat :=
  if k / 2 ^ 52 = 0 then k % 2 ^ 52 else (2 ^ 52 + k % 2 ^ 52) * 2 ^ (k / 2 ^ 52 - 1)

/-- The bits of the greatest double of at most `m` units. -/
def floorBits (m : Nat) : Nat := (m.log2 - 52) * 2 ^ 52 + m / 2 ^ (m.log2 - 52)

/-- The bits of the double nearest to `n / d` units, of two the even one. -/
def roundBits (n d : Nat) : Nat :=
  let k := floorBits (n / d)
  let m := (units k + units (k + 1)) * d
  if 2 * n < m then k
  else if m < 2 * n then k + 1
  else if k % 2 = 0 then k else k + 1

/-- The bits of the double nearest to `m * b ^ e`. -/
def roundPow (b m : Nat) (e : Int) : Nat :=
  if 0 ≤ e then roundBits (m * b ^ e.toNat * 2 ^ 1074) 1 else roundBits (m * 2 ^ 1074) (b ^ (-e).toNat)

/-! ### `ParseFloat(_, 64)` -/

/-- `lower` (strconv/atoi.go) -/
def lower (c : UInt8) : UInt8 := c ||| 32

/-- The sign, if there is one. -/
def takeSign : Str → Bool × Str
  | 43 :: r => (false, r)
  | 45 :: r => (true, r)
  | r => (false, r)

/-- Infinities and NaN by name (`special`, strconv/atof.go). -/
def special (s : Str) : Option UInt64 :=
  let l := s.map fun c => if 65 ≤ c && c ≤ 90 then c + 32 else c
  let r := (takeSign l).2
  if r = b!"inf" ∨ r = b!"infinity" then
    some (if (takeSign l).1 then 0xfff0000000000000 else 0x7ff0000000000000)
  else if l = b!"nan" then some 0x7ff8000000000001
  else none

/-- Value of a digit. -/
def digitVal (hex : Bool) (c : UInt8) : Option Nat :=
  if 48 ≤ c ∧ c ≤ 57 then some (c.toNat - 48)
  else if hex = true ∧ 97 ≤ lower c ∧ lower c ≤ 102 then some ((lower c).toNat - 87)
  else none

/-- What the mantissa loop has seen. -/
structure Mant where
  /-- a point -/
  dot : Bool := false
  /-- a digit -/
  digit : Bool := false
  /-- the number without the point -/
  val : Nat := 0
  /-- digits after the point -/
  frac : Nat := 0
  deriving DecidableEq

/-- The mantissa loop (`readFloat`, strconv/atof.go). -/
def mantissa (hex : Bool) (st : Mant) : Str → Mant × Str
  | [] => (st, [])
  | c :: r =>
    if c = 95 then mantissa hex st r
    else if c = 46 then
      if st.dot then (st, c :: r) else mantissa hex { st with dot := true } r
    else
      match digitVal hex c with
      | some d =>
        mantissa hex { st with
          digit := true
          val := st.val * (if hex then 16 else 10) + d
          frac := if st.dot then st.frac + 1 else st.frac } r
      | none => (st, c :: r)

/-- The exponent loop: digits after the fifth are not looked at. -/
def exponentLoop (e : Nat) : Str → Nat × Str
  | [] => (e, [])
  | c :: r =>
    if c = 95 then exponentLoop e r
    else if 48 ≤ c ∧ c ≤ 57 then exponentLoop (if e < 10000 then e * 10 + (c.toNat - 48) else e) r
    else (e, c :: r)

/-- The exponent after its letter, which must be all that is left. -/
def exponent (s : Str) : Option Int :=
  let (neg, r) := takeSign s
  match r with
  | c :: _ =>
    if 48 ≤ c ∧ c ≤ 57 then
      let (e, rest) := exponentLoop 0 r
      if rest = [] then some (if neg then -(e : Int) else e) else none
    else none
  | [] => none

/-- Where underscores may be (`underscoreOK`, strconv/atoi.go).  `saw` is the kind of the last
character: a digit, an underscore, or neither. -/
def underscoreLoop (hex : Bool) (saw : UInt8) : Str → Bool
  | [] => saw ≠ 95
  | c :: r =>
    if (digitVal hex c).isSome then underscoreLoop hex 48 r
    else if c = 95 then if saw ≠ 48 then false else underscoreLoop hex 95 r
    else if saw = 95 then false
    else underscoreLoop hex 33 r

/-- `underscoreOK` (strconv/atoi.go) -/
def underscoreOK (s : Str) : Bool :=
  match (takeSign s).2 with
  | 48 :: x :: r =>
    if lower x = 98 ∨ lower x = 111 ∨ lower x = 120 then underscoreLoop (lower x = 120) 48 r
    else underscoreLoop false 94 (48 :: x :: r)
  | r => underscoreLoop false 94 r

/-- The prefix `0x`, if something follows it. -/
def takeHex : Str → Bool × Str
  | 48 :: x :: c :: r => if lower x = 120 then (true, c :: r) else (false, 48 :: x :: c :: r)
  | r => (false, r)

/-- `readFloat` (strconv/atof.go) of a whole text, and the bits of the nearest double without the
sign. -/
def magnitude (s : Str) : Option Nat :=
  let (hex, r) := takeHex (takeSign s).2
  let (st, rest) := mantissa hex {} r
  if st.digit = false then none
  else if s.contains 95 ∧ underscoreOK s = false then none
  else
    match rest with
    | [] => if hex then none else some (roundPow 10 st.val (-(st.frac : Int)))
    | c :: e =>
      if lower c = (if hex then 112 else 101) then
        match exponent e with
        | some e => some (if hex then roundPow 2 st.val (e - 4 * st.frac) else roundPow 10 st.val (e - st.frac))
        | none => none
      else none

/-- `strconv.ParseFloat(s, 64)`; `none` is an error, also when the number is too large. -/
def parse (s : Str) : Option UInt64 :=
  match special s with
  | some x => some x
  | none =>
    match magnitude s with
    | none => none
    | some k =>
      if k < 0x7ff0000000000000 then
        some (if (takeSign s).1 then UInt64.ofNat k ||| 0x8000000000000000 else UInt64.ofNat k)
      else none

/-! ### `FormatFloat(_, _, -1, 64)` of positive numbers -/

/-- The magnitude as a multiple of `10 ^ -1074`. -/
def exact (k : Nat) : Nat := units k * 5 ^ 1074

/-- Worker of `count`. -/
def countAux : Nat → Nat → Nat
  | 0, _ => 0
  | f + 1, n => if n < 10 then 1 else countAux f (n / 10) + 1

/-- The number of decimal digits. -/
def count (n : Nat) : Nat := countAux (n.log2 + 1) n

/-- If the double `k` can be written with `len` digits: those digits and the power of ten of the
last. -/
def tryLen (k len : Nat) : Option (Nat × Int) :=
  let drop := count (exact k) - len
  let q := exact k / 10 ^ drop
  let p := (drop : Int) - 1074
  if roundPow 10 q p = k then
    if roundPow 10 (q + 1) p = k then
      if 2 * exact k < (2 * q + 1) * 10 ^ drop then some (q, p)
      else if (2 * q + 1) * 10 ^ drop < 2 * exact k then some (q + 1, p)
      else if q % 2 = 0 then some (q, p) else some (q + 1, p)
    else some (q, p)
  else if roundPow 10 (q + 1) p = k then some (q + 1, p)
  else none

/-- The first of `n` numbers from `i` on for which `f` has a result. -/
def search {α} (f : Nat → Option α) (none : α) : Nat → Nat → α
  | 0, _ => none
  | n + 1, i =>
    match f i with
    | some r => r
    | .none => search f none n (i + 1)

/-- Without trailing zeros. -/
def strip : Nat → Nat × Int → Nat × Int
  | 0, x => x
  | n + 1, (m, p) => if m % 10 = 0 then strip n (m / 10, p + 1) else (m, p)

/-- The shortest digits that are read back as the double `k`, and the power of ten of the last. -/
def shortest (k : Nat) : Nat × Int :=
  let r := search (tryLen k) (exact k, -1074) (count (exact k)) 1
  strip r.1 r

/-- At least two digits. -/
def twoDigits (n : Nat) : Str := if n < 10 then 48 :: natLit n else natLit n

/-- `m * 10 ^ p` with an exponent. -/
def scientific (m : Nat) (p : Int) : Str :=
  let ds := natLit m
  let x := p + ds.length - 1
  ds.take 1 ++ (if ds.length = 1 then [] else 46 :: ds.drop 1) ++
    101 :: (if x < 0 then 45 else 43) :: twoDigits x.natAbs

/-- `m * 10 ^ p` without an exponent. -/
def positional (m : Nat) (p : Int) : Str :=
  let ds := natLit m
  let n := p + ds.length
  if 0 ≤ p then ds ++ List.replicate p.toNat 48
  else if 0 < n then ds.take n.toNat ++ 46 :: ds.drop n.toNat
  else 48 :: 46 :: (List.replicate (-n).toNat 48 ++ ds)

/-- `FormatFloat(_, 'e', -1, 64)` -/
def formatE (a : UInt64) : Str := scientific (shortest a.toNat).1 (shortest a.toNat).2

/-- `FormatFloat(_, 'f', -1, 64)` -/
def formatF (a : UInt64) : Str := positional (shortest a.toNat).1 (shortest a.toNat).2

end Stix.Strconv

namespace Stix

/-- `strconv` -/
def strconv : Canon.FloatFmt where
  parse := Strconv.parse
  formatE := Strconv.formatE
  formatF := Strconv.formatF

end Stix
