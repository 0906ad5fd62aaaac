import Verif.Model.Json

/-!
# The JSON canonicaliser

Model of `internal/jsoncanonicalizer` (jsoncanonicalizer.go:44-378, es6numfmt.go:33-71) on bytes.

`Transform` keeps the first error in `globalError` and carries on until its loops notice it;
whatever it computes after that is discarded because the error is returned.  The model stops
at the first error (`none`), so only the texts of error messages and the bytes returned beside
an error are lost.  No slice expression in the code can be out of range.
-/

namespace Stix.Canon
open Stix

/-- `isWhiteSpace` (jsoncanonicalizer.go:72-74) -/
def isWS (c : UInt8) : Bool := c = 0x20 || c = 0x0a || c = 0x0d || c = 0x09

/-- `nextChar` (jsoncanonicalizer.go:76-87): end of input and non-ASCII bytes are errors. -/
def nextChar : Str → Option (UInt8 × Str)
  | [] => none
  | c :: r => if c > 0x7f then none else some (c, r)

/-- White space skipped by `scan`. -/
def skipWS : Str → Str
  | [] => []
  | c :: r => if isWS c then skipWS r else c :: r

/-- `scan` (jsoncanonicalizer.go:89-97) -/
def scan (s : Str) : Option (UInt8 × Str) := nextChar (skipWS s)

/-- `scanFor` (jsoncanonicalizer.go:99-104) -/
def scanFor (expected : UInt8) (s : Str) : Option Str :=
  match scan s with
  | none => none
  | some (c, r) => if c = expected then some r else none

/-- `testNextNonWhiteSpaceChar` (jsoncanonicalizer.go:120-125) -/
def peek (s : Str) : Option UInt8 := (scan s).map Prod.fst

/-- Value of a hexadecimal digit, either case (`strconv.ParseUint(_, 16, 64)`). -/
def hexVal (c : UInt8) : Option Nat :=
  if 48 ≤ c ∧ c ≤ 57 then some (c.toNat - 48)
  else if 97 ≤ c ∧ c ≤ 102 then some (c.toNat - 87)
  else if 65 ≤ c ∧ c ≤ 70 then some (c.toNat - 55)
  else none

/-- `getUEscape` (jsoncanonicalizer.go:106-118) -/
def getUEscape : Str → Option (Nat × Str)
  | a :: b :: c :: d :: r => do
    let w ← hexVal a
    let x ← hexVal b
    let y ← hexVal c
    let z ← hexVal d
    return (w * 4096 + x * 256 + y * 16 + z, r)
  | _ => none

/-- `utf16.IsSurrogate` -/
def isSurrogate (r : Nat) : Bool := 0xD800 ≤ r && r < 0xE000

/-- `utf16.DecodeRune` -/
def decodePair (a b : Nat) : Nat :=
  if 0xD800 ≤ a ∧ a < 0xDC00 ∧ 0xDC00 ≤ b ∧ b < 0xE000 then
    (a - 0xD800) * 1024 + (b - 0xDC00) + 0x10000
  else 0xFFFD

/-- `strings.Builder.WriteRune`: the UTF-8 form, U+FFFD for what is not a scalar value. -/
def encodeRune (r : Nat) : Str :=
  if r < 0x80 then [r.toUInt8]
  else if r < 0x800 then [(0xC0 + r / 64).toUInt8, (0x80 + r % 64).toUInt8]
  else if isSurrogate r || 0x10FFFF < r then [0xEF, 0xBF, 0xBD]
  else if r < 0x10000 then
    [(0xE0 + r / 4096).toUInt8, (0x80 + r / 64 % 64).toUInt8, (0x80 + r % 64).toUInt8]
  else
    [(0xF0 + r / 262144).toUInt8, (0x80 + r / 4096 % 64).toUInt8, (0x80 + r / 64 % 64).toUInt8,
     (0x80 + r % 64).toUInt8]

/-- The pairs of `asciiEscapes` and `binaryEscapes` (jsoncanonicalizer.go:36-37). -/
def escapes : List (UInt8 × UInt8) :=
  [(92, 92), (34, 34), (98, 8), (102, 12), (110, 10), (114, 13), (116, 9)]

/-- The byte an escape letter stands for. -/
def unescape (c : UInt8) : Option UInt8 := amLookup c escapes

/-- The escape letter of a byte (jsoncanonicalizer.go:133-139). -/
def escapeLetter (c : UInt8) : Option UInt8 := amLookup c (escapes.map (fun e => (e.2, e.1)))

/-- `decorateString` (jsoncanonicalizer.go:127-149) for one byte. -/
def decorateByte (c : UInt8) : Str :=
  match escapeLetter c with
  | some l => [92, l]
  | none => if c < 0x20 then b!"\\u00" ++ [hexLower (c / 16), hexLower (c % 16)] else [c]

/-- `decorateString` (jsoncanonicalizer.go:127-149) -/
def decorate (s : Str) : Str := [34] ++ s.flatMap decorateByte ++ [34]

/-- `parseQuotedString` (jsoncanonicalizer.go:151-210), after the opening quote: the decoded
bytes and the rest of the input.  The fuel is the length of the input. -/
def parseQuoted : Nat → Str → Option (Str × Str)
  | 0, _ => none
  | _ + 1, [] => none
  | n + 1, c :: r =>
    if c = 34 then some ([], r)
    else if c < 0x20 then none
    else if c = 92 then do
      let (e, r) ← nextChar r
      if e = 117 then do
        let (u, r) ← getUEscape r
        if isSurrogate u then do
          let (x, r) ← nextChar r
          if x ≠ 92 then none else do
          let (y, r) ← nextChar r
          if y ≠ 117 then none else do
          let (v, r) ← getUEscape r
          let (t, r) ← parseQuoted n r
          return (encodeRune (decodePair u v) ++ t, r)
        else do
          let (t, r) ← parseQuoted n r
          return (encodeRune u ++ t, r)
      else if e = 47 then do
        let (t, r) ← parseQuoted n r
        return (47 :: t, r)
      else
        match unescape e with
        | none => none
        | some x => do
          let (t, r) ← parseQuoted n r
          return (x :: t, r)
    else do
      let (t, r) ← parseQuoted n r
      return (c :: t, r)

/-- What the canonicaliser needs of `strconv`: `ParseFloat(_, 64)` (`none` on error, which
includes overflow) and `FormatFloat(_, 'e' or 'f', -1, 64)` of a positive number, both on the
IEEE 754 bit pattern. -/
structure FloatFmt where
  parse : Str → Option UInt64
  formatE : UInt64 → Str
  formatF : UInt64 → Str

/-- Index of the first `e`. -/
def indexE (s : Str) : Option Nat := s.findIdx? (fun c => c = 101)

/-- `NumberToJSON` (es6numfmt.go:33-71).  Comparisons of positive floats are comparisons of
their bit patterns; the constants are 1e+21 and 1e-6. -/
def numberToJSON (F : FloatFmt) (bits : UInt64) : Option Str :=
  if bits &&& 0x7ff0000000000000 = 0x7ff0000000000000 then none
  else if bits &&& 0x7fffffffffffffff = 0 then some (b!"0")
  else
    let neg := bits &&& 0x8000000000000000 ≠ 0
    let a := bits &&& 0x7fffffffffffffff
    let txt := if a < 0x444B1AE4D6E2EF50 ∧ 0x3EB0C6F7A0B5ED8D ≤ a then F.formatF a else F.formatE a
    let txt := match indexE txt with
      | some i => if 0 < i ∧ txt[i + 2]? = some 48 then txt.take (i + 2) ++ txt.drop (i + 3) else txt
      | none => txt
    some ((if neg then b!"-" else []) ++ txt)

/-- The token loop of `parseSimpleType` (jsoncanonicalizer.go:212-225). -/
def token : Str → Option (Str × Str)
  | [] => none
  | c :: r =>
    match peek (c :: r) with
    | none => none
    | some p =>
      if p = 44 ∨ p = 93 ∨ p = 125 then some ([], c :: r)
      else if c > 0x7f then none
      else if isWS c then some ([], r)
      else
        match token r with
        | none => none
        | some (t, r') => some (c :: t, r')

/-- `parseSimpleType` (jsoncanonicalizer.go:212-242), with the byte `index--` gives back. -/
def parseSimple (F : FloatFmt) (s : Str) : Option (Str × Str) := do
  let (t, r) ← token s
  if t = [] then none
  else if t = b!"true" ∨ t = b!"false" ∨ t = b!"null" then return (t, r)
  else do
    let bits ← F.parse t
    let out ← numberToJSON F bits
    return (out, r)

/-- Code point of a well-formed sequence of the given tail length. -/
def runeOf (b : UInt8) (tail : Str) : Nat :=
  match tail with
  | [] => b.toNat
  | [x] => (b.toNat % 32) * 64 + x.toNat % 64
  | [x, y] => (b.toNat % 16) * 4096 + x.toNat % 64 * 64 + y.toNat % 64
  | x :: y :: z :: _ =>
    (b.toNat % 8) * 262144 + x.toNat % 64 * 4096 + y.toNat % 64 * 64 + z.toNat % 64

/-- Worker of `runes`. -/
def runesAux : Nat → Str → List Nat
  | 0, _ => []
  | _ + 1, [] => []
  | n + 1, b :: rest =>
    match utf8Tail b rest with
    | some k => runeOf b (rest.take k) :: runesAux n (rest.drop k)
    | none => 0xFFFD :: runesAux n rest

/-- `[]rune(s)` -/
def runes (s : Str) : List Nat := runesAux s.length s

/-- `utf16.Encode` of one scalar value. -/
def utf16 (r : Nat) : List Nat :=
  if r < 0x10000 then [r]
  else [0xD800 + (r - 0x10000) / 1024, 0xDC00 + (r - 0x10000) % 1024]

/-- `utf16.Encode([]rune(rawUTF8))` (jsoncanonicalizer.go:322) -/
def sortKey (s : Str) : List Nat := (runes s).flatMap utf16

/-- `lexicographicallyPrecedes` (jsoncanonicalizer.go:275-303): `lt` is true, `gt` false, and
`eq` is the duplicate-key error. -/
def cmpKeys : List Nat → List Nat → Ordering
  | [], [] => .eq
  | [], _ :: _ => .lt
  | _ :: _, [] => .gt
  | a :: as, b :: bs => if a < b then .lt else if b < a then .gt else cmpKeys as bs

/-- `nameValueType` (jsoncanonicalizer.go:29-33): name, sort key and value text. -/
structure NameValue where
  name : Str
  key : List Nat
  value : Str
  deriving DecidableEq, Repr

/-- The insertion loop of `parseObject` (jsoncanonicalizer.go:325-336). -/
def insert (m : NameValue) : List NameValue → Option (List NameValue)
  | [] => some [m]
  | e :: es =>
    match cmpKeys m.key e.key with
    | .lt => some (m :: e :: es)
    | .eq => none
    | .gt =>
      match insert m es with
      | none => none
      | some es' => some (e :: es')

/-- Texts separated by commas. -/
def commaSep : List Str → Str
  | [] => []
  | [x] => x
  | x :: xs => x ++ b!"," ++ commaSep xs

/-- The text of an array (jsoncanonicalizer.go:257-273). -/
def arrayText (vs : List Str) : Str := b!"[" ++ commaSep vs ++ b!"]"

/-- The text of an object (jsoncanonicalizer.go:340-355). -/
def objectText (ms : List NameValue) : Str :=
  b!"{" ++ commaSep (ms.map (fun m => decorate m.name ++ b!":" ++ m.value)) ++ b!"}"

mutual
/-- `parseElement` (jsoncanonicalizer.go:244-255) -/
def parseElement (F : FloatFmt) : Nat → Str → Option (Str × Str)
  | 0, _ => none
  | n + 1, s =>
    match scan s with
    | none => none
    | some (c, r) =>
      if c = 123 then do
        let (ms, r) ← objLoop F n false [] r
        return (objectText ms, r)
      else if c = 34 then do
        let (t, r) ← parseQuoted (r.length + 1) r
        return (decorate t, r)
      else if c = 91 then do
        let (vs, r) ← arrLoop F n false r
        return (arrayText vs, r)
      else parseSimple F (c :: r)

/-- The loop of `parseArray` and the `scan` after it (jsoncanonicalizer.go:257-273). -/
def arrLoop (F : FloatFmt) : Nat → Bool → Str → Option (List Str × Str)
  | 0, _, _ => none
  | n + 1, next, s =>
    match scan s with
    | none => none
    | some (p, r) =>
      if p = 93 then some ([], r)
      else do
        let s ← if next then scanFor 44 s else some s
        let (v, s) ← parseElement F n s
        let (vs, s) ← arrLoop F n true s
        return (v :: vs, s)

/-- The loop of `parseObject` and the `scan` after it (jsoncanonicalizer.go:305-339). -/
def objLoop (F : FloatFmt) : Nat → Bool → List NameValue → Str → Option (List NameValue × Str)
  | 0, _, _, _ => none
  | n + 1, next, acc, s =>
    match scan s with
    | none => none
    | some (p, r) =>
      if p = 125 then some (acc, r)
      else do
        let s ← if next then scanFor 44 s else some s
        let s ← scanFor 34 s
        let (name, s) ← parseQuoted (s.length + 1) s
        let s ← scanFor 58 s
        let (v, s) ← parseElement F n s
        let acc ← insert ⟨name, sortKey name, v⟩ acc
        objLoop F n true acc s
end

/-- `Transform` (jsoncanonicalizer.go:44-378); `none` is a non-nil error.  The fuel of the
loops is enough for every input (`parse_fuel` in Lemmas/CanonFuel.lean). -/
def transform (F : FloatFmt) (s : Str) : Option Str :=
  match scan s with
  | none => none
  | some (c, r) =>
    let res :=
      if c = 91 then (arrLoop F (2 * s.length + 2) false r).map (fun p => (arrayText p.1, p.2))
      else if c = 123 then (objLoop F (2 * s.length + 2) false [] r).map (fun p => (objectText p.1, p.2))
      else none
    match res with
    | none => none
    | some (out, r) => if skipWS r = [] then some out else none

end Stix.Canon
