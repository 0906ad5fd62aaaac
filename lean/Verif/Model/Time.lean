import Verif.Model.Enum

/-!
# Timestamps

`Timestamp` (data-types.go:433-455) formats and parses with the Go standard library package
`time`, which is not part of the repository; `goFormat` and `goParse` model what `Format` and
`Parse` do for the two layouts used.  Instants are counted in nanoseconds from
0000-01-01T00:00:00Z (Go counts from another origin, which cannot be observed here).
-/

namespace Stix

/-- `time.Time`: an instant and the zone offset in seconds it is shown in. -/
structure GoTime where
  ns : Int
  off : Int := 0
  deriving DecidableEq, Repr

/-- Days before 1 January of year `y`, counted from 0000-01-01 (proleptic Gregorian). -/
def yearStart (y : Int) : Int := 365 * y + (y + 3) / 4 - (y + 99) / 100 + (y + 399) / 400

/-- The year a day falls in. -/
def yearOfDay (n : Int) : Int :=
  let y := n * 400 / 146097
  if yearStart (y + 1) ≤ n then y + 1 else if n < yearStart y then y - 1 else y

/-- Leap years. -/
def isLeap (y : Int) : Bool := y % 4 = 0 && (y % 100 ≠ 0 || y % 400 = 0)

/-- Lengths of the months. -/
def monthLens (leap : Bool) : List Nat :=
  [31, if leap then 29 else 28, 31, 30, 31, 30, 31, 31, 30, 31, 30, 31]

/-- Month and day of month from the day of the year (both counted from 1). -/
def monthDay : List Nat → Nat → Nat → Nat × Nat
  | [], m, d => (m, d + 1)
  | len :: rest, m, d => if d < len then (m, d + 1) else monthDay rest (m + 1) (d - len)

/-- Year, month and day of a day number. -/
def civil (n : Int) : Int × Nat × Nat :=
  let y := yearOfDay n
  let md := monthDay (monthLens (isLeap y)) 1 (n - yearStart y).toNat
  (y, md.1, md.2)

/-- Decimal digits, most significant first, with at least `w` of them. -/
def decPad : Nat → Nat → Str
  | 0, n => if n = 0 then [] else decPadGo n n []
  | w + 1, n => decPad w (n / 10) ++ [48 + (n % 10).toUInt8]
where
  /-- Remaining digits once the minimum width is reached. -/
  decPadGo : Nat → Nat → Str → Str
    | 0, _, acc => acc
    | _ + 1, 0, acc => acc
    | f + 1, n + 1, acc => decPadGo f ((n + 1) / 10) ((48 + ((n + 1) % 10).toUInt8) :: acc)

/-- `appendInt(b, x, width)` of package time. -/
def appendInt (x : Int) (w : Nat) : Str :=
  if x < 0 then b!"-" ++ decPad w (-x).toNat else decPad w x.toNat

/-- `Time.Format("2006-01-02T15:04:05.000Z07:00")`.  The fraction is truncated. -/
def goFormat (t : GoTime) : Str :=
  let loc := t.ns + t.off * 1000000000
  let secs := loc / 1000000000
  let nsec := loc % 1000000000
  let c := civil (secs / 86400)
  let tod := (secs % 86400).toNat
  appendInt c.1 4 ++ b!"-" ++ decPad 2 c.2.1 ++ b!"-" ++ decPad 2 c.2.2 ++ b!"T" ++
    decPad 2 (tod / 3600) ++ b!":" ++ decPad 2 (tod / 60 % 60) ++ b!":" ++ decPad 2 (tod % 60) ++
    b!"." ++ decPad 3 (nsec.toNat / 1000000) ++
    (if t.off = 0 then b!"Z"
     else
      let zone := t.off.natAbs / 60
      (if t.off < 0 then b!"-" else b!"+") ++ decPad 2 (zone / 60) ++ b!":" ++ decPad 2 (zone % 60))

/-- `Timestamp.String` (data-types.go:438-442): `t.UTC().Format(...)`. -/
def timestampString (t : GoTime) : Str := goFormat { t with off := 0 }

/-- `Timestamp.MarshalJSON` (data-types.go:445-447); the text has no character that JSON
would escape. -/
def timestampMarshal (t : GoTime) : Json := .str (timestampString t) (timestampString t)

/-! ### Parsing -/

/-- Value of a decimal digit. -/
def digitVal (c : UInt8) : Option Nat := if 48 ≤ c ∧ c ≤ 57 then some (c.toNat - 48) else none

/-- `getnum(s, true)` of package time: exactly two digits. -/
def getnum2 : Str → Option (Nat × Str)
  | a :: b :: rest => do
    let x ← digitVal a
    let y ← digitVal b
    return (10 * x + y, rest)
  | _ => none

/-- `getnum(s, false)`: one or two digits. -/
def getnum12 : Str → Option (Nat × Str)
  | [] => none
  | [a] => do
    let x ← digitVal a
    return (x, [])
  | a :: b :: rest => do
    let x ← digitVal a
    match digitVal b with
    | none => return (x, b :: rest)
    | some y => return (10 * x + y, rest)

/-- Four digits. -/
def getnum4 : Str → Option (Nat × Str)
  | a :: b :: c :: d :: rest => do
    let w ← digitVal a
    let x ← digitVal b
    let y ← digitVal c
    let z ← digitVal d
    return (1000 * w + 100 * x + 10 * y + z, rest)
  | _ => none

/-- A literal byte of the layout. -/
def expect (c : UInt8) : Str → Option Str
  | x :: rest => if x = c then some rest else none
  | [] => none

/-- The digits at the front of the text, and the rest. -/
def spanDigits : Str → List Nat × Str
  | [] => ([], [])
  | c :: rest =>
    match digitVal c with
    | none => ([], c :: rest)
    | some d => let r := spanDigits rest; (d :: r.1, r.2)

/-- `.999999999` when parsing: any number of digits, nine of which count. -/
def parseFrac (s : Str) : Nat × Str :=
  match s with
  | c :: rest =>
    if c = 46 ∨ c = 44 then
      match spanDigits rest with
      | ([], _) => (0, s)
      | (ds, r) =>
        let ds9 := ds.take 9
        ((ds9.foldl (fun a d => 10 * a + d) 0) * 10 ^ (9 - ds9.length), r)
    else (0, s)
  | [] => (0, s)

/-- `Z07:00` when parsing: `Z`, or sign, two digits, colon, two digits; the offset in seconds. -/
def parseZone (s : Str) : Option (Int × Str) :=
  match s with
  | [] => none
  | c :: rest =>
    if c = 90 then some (0, rest)
    else do
      let (hh, r1) ← getnum2 rest
      let r2 ← expect 58 r1
      let (mm, r3) ← getnum2 r2
      if hh > 24 ∨ mm > 60 then none
      else
        let o : Int := ((hh * 60 + mm) * 60 : Nat)
        if c = 43 then some (o, r3) else if c = 45 then some (-o, r3) else none

/-- `time.Parse(time.RFC3339Nano, s)`; `none` is an error. -/
def goParse (s : Str) : Option GoTime := do
  let (y, s) ← getnum4 s
  let s ← expect 45 s
  let (mo, s) ← getnum2 s
  if mo = 0 ∨ 12 < mo then none else
  let s ← expect 45 s
  let (d, s) ← getnum2 s
  let s ← expect 84 s
  let (h, s) ← getnum12 s
  if 24 ≤ h then none else
  let s ← expect 58 s
  let (mi, s) ← getnum2 s
  if 60 ≤ mi then none else
  let s ← expect 58 s
  let (sec, s) ← getnum2 s
  if 60 ≤ sec then none else
  let (frac, s) := parseFrac s
  let (off, s) ← parseZone s
  if s ≠ [] then none else
  let lens := monthLens (isLeap y)
  if d < 1 ∨ (lens.getD (mo - 1) 0) < d then none else
  let day : Int := yearStart y + ((lens.take (mo - 1)).sum : Nat) + ((d - 1 : Nat) : Int)
  let secs : Int := day * 86400 + ((h * 3600 + mi * 60 + sec : Nat) : Int)
  return { ns := (secs - off) * 1000000000 + (frac : Int), off := off }

/-- `Timestamp.UnmarshalJSON` (data-types.go:450-455). -/
def timestampUnmarshal (j : Json) : Res GoTime := do
  let s ← goMiddle j.raw
  match goParse s with
  | some t => .ok t
  | none => .err .other

end Stix
