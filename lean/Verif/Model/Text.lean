import Verif.Model.Process

/-!
# JSON texts

The bytes of a document.  `encoding/json` is not part of the repository; this file is the model's
account of its scanner (scanner.go) and of how it reads strings (decode.go, `unquoteBytes`), and
`FromJSON` on bytes.
-/

namespace Stix.Text
open Stix
open Stix.Canon (isWS skipWS hexVal getUEscape isSurrogate decodePair encodeRune)

/-- The letters of the two-character escapes (scanner.go, `stateInStringEsc`). -/
def isEscape (c : UInt8) : Bool := (b!"bfnrt\\/\"").contains c

/-- A string after its opening quote: the bytes up to the closing one, and the rest (scanner.go,
`stateInString` and the states of escapes). -/
def strBody : Str → Option (Str × Str)
  | [] => none
  | c :: r =>
    if c = 34 then some ([], r)
    else if c = 92 then
      match r with
      | [] => none
      | e :: r =>
        if isEscape e then (strBody r).map fun p => (92 :: e :: p.1, p.2)
        else if e = 117 then
          match r with
          | h1 :: h2 :: h3 :: h4 :: r =>
            if (hexVal h1).isSome && (hexVal h2).isSome && (hexVal h3).isSome && (hexVal h4).isSome
            then (strBody r).map fun p => (92 :: 117 :: h1 :: h2 :: h3 :: h4 :: p.1, p.2)
            else none
          | _ => none
        else none
    else if c < 0x20 then none
    else (strBody r).map fun p => (c :: p.1, p.2)

/-- `getu4` (decode.go): the value of `\uXXXX` at the start, and what follows. -/
def getu4 : Str → Option (Nat × Str)
  | 92 :: 117 :: r => getUEscape r
  | _ => none

/-- What a two-character escape stands for (decode.go, `unquoteBytes`). -/
def escaped (c : UInt8) : UInt8 :=
  if c = 98 then 8 else if c = 102 then 12 else if c = 110 then 10 else if c = 114 then 13
  else if c = 116 then 9 else c

/-- Worker of `unquote`; the fuel is the length. -/
def unquoteAux : Nat → Str → Str
  | 0, _ => []
  | _ + 1, [] => []
  | n + 1, c :: r =>
    if c = 92 then
      match getu4 (c :: r) with
      | some (u, r) =>
        if isSurrogate u then
          match getu4 r with
          | some (v, r') =>
            if decodePair u v ≠ 0xFFFD then encodeRune (decodePair u v) ++ unquoteAux n r'
            else encodeRune 0xFFFD ++ unquoteAux n r
          | none => encodeRune 0xFFFD ++ unquoteAux n r
        else encodeRune u ++ unquoteAux n r
      | none =>
        match r with
        | [] => []
        | e :: r => escaped e :: unquoteAux n r
    else if c < 0x80 then c :: unquoteAux n r
    else
      match utf8Tail c r with
      | some k => c :: r.take k ++ unquoteAux n (r.drop k)
      | none => encodeRune 0xFFFD ++ unquoteAux n r

/-- The text of a string, from the bytes between its quotes (decode.go, `unquoteBytes`).  The
scanner has passed the bytes, so that every backslash starts an escape. -/
def unquote (raw : Str) : Str := unquoteAux raw.length raw

/-- Leading digits. -/
def digits : Str → Str × Str
  | [] => ([], [])
  | c :: r => if 48 ≤ c ∧ c ≤ 57 then (c :: (digits r).1, (digits r).2) else ([], c :: r)

/-- Integer part of a number (scanner.go, `stateNeg`, `state0`, `state1`). -/
def intPart : Str → Option (Str × Str)
  | 48 :: r => some ([48], r)
  | s => if (digits s).1 = [] then none else some (digits s)

/-- Fraction, if there is one (`stateDot`, `stateDot0`). -/
def fracPart : Str → Option (Str × Str)
  | 46 :: r => if (digits r).1 = [] then none else some (46 :: (digits r).1, (digits r).2)
  | s => some ([], s)

/-- The sign of an exponent (`stateE`). -/
def expSign : Str → Str × Str
  | 43 :: r => ([43], r)
  | 45 :: r => ([45], r)
  | s => ([], s)

/-- Digits of an exponent, with a sign or without (`stateE`, `stateESign`, `stateE0`). -/
def expDigits (s : Str) : Option (Str × Str) :=
  let p := expSign s
  if (digits p.2).1 = [] then none else some (p.1 ++ (digits p.2).1, (digits p.2).2)

/-- Exponent, if there is one. -/
def expPart : Str → Option (Str × Str)
  | 101 :: r => (expDigits r).map fun p => (101 :: p.1, p.2)
  | 69 :: r => (expDigits r).map fun p => (69 :: p.1, p.2)
  | s => some ([], s)

/-- A number without its sign. -/
def unsigned (s : Str) : Option (Str × Str) :=
  (intPart s).bind fun a => (fracPart a.2).bind fun b => (expPart b.2).map fun c =>
    (a.1 ++ b.1 ++ c.1, c.2)

/-- A number and the rest. -/
def number : Str → Option (Str × Str)
  | 45 :: r => (unsigned r).map fun p => (45 :: p.1, p.2)
  | s => unsigned s

/-- What follows a prefix. -/
def after : Str → Str → Option Str
  | [], s => some s
  | c :: p, d :: s => if c = d then after p s else none
  | _, [] => none

/-- A literal or a number (scanner.go, `stateBeginValue`). -/
def simple (s : Str) : Option (Json × Str) :=
  match s with
  | 116 :: _ => (after (b!"true") s).map (Json.bool true, ·)
  | 102 :: _ => (after (b!"false") s).map (Json.bool false, ·)
  | 110 :: _ => (after (b!"null") s).map (Json.null, ·)
  | _ => (number s).map fun p => (.num p.1, p.2)

mutual
/-- A value and the rest; `d` is how many more arrays and objects may be opened (scanner.go,
`pushParseState`).  The fuel is enough for every document (`parse_iff`). -/
def value : Nat → Nat → Str → Option (Json × Str)
  | 0, _, _ => none
  | n + 1, d, s =>
    match skipWS s with
    | [] => none
    | c :: r =>
      if c = 34 then (strBody r).map fun p => (.str p.1 (unquote p.1), p.2)
      else if c = 91 then
        if d = 0 then none
        else match skipWS r with
          | 93 :: r' => some (.arr [], r')
          | _ => (elements n (d - 1) r).map fun p => (.arr p.1, p.2)
      else if c = 123 then
        if d = 0 then none
        else match skipWS r with
          | 125 :: r' => some (.obj [], r')
          | _ => (members n (d - 1) r).map fun p => (.obj p.1, p.2)
      else simple (c :: r)

/-- The elements of an array up to the bracket. -/
def elements : Nat → Nat → Str → Option (List Json × Str)
  | 0, _, _ => none
  | n + 1, d, s =>
    (value n d s).bind fun p =>
      match skipWS p.2 with
      | 44 :: r => (elements n d r).map fun q => (p.1 :: q.1, q.2)
      | 93 :: r => some ([p.1], r)
      | _ => none

/-- The members of an object up to the brace. -/
def members : Nat → Nat → Str → Option (List (Str × Json) × Str)
  | 0, _, _ => none
  | n + 1, d, s =>
    match skipWS s with
    | 34 :: r =>
      (strBody r).bind fun k =>
        match skipWS k.2 with
        | 58 :: r =>
          (value n d r).bind fun p =>
            match skipWS p.2 with
            | 44 :: r => (members n d r).map fun q => ((unquote k.1, p.1) :: q.1, q.2)
            | 125 :: r => some ([(unquote k.1, p.1)], r)
            | _ => none
        | _ => none
    | _ => none
end

/-- `maxNestingDepth` (scanner.go) -/
def maxDepth : Nat := 10000

/-- The value a document has (`checkValid`, scanner.go): one value, and white space. -/
def parse (s : Str) : Option Json :=
  match value (2 * s.length + 2) maxDepth s with
  | some (j, r) => if skipWS r = [] then some j else none
  | none => none

end Stix.Text

namespace Stix
variable {U : Type} [UserType U]

/-- `FromJSON` (stix.go:953-978), of bytes. -/
def fromJSONText (F : Canon.FloatFmt) (opts : List (CollOption U)) (data : Str) :
    Res (Coll (Any U)) :=
  fromJSON F opts (Text.parse data)

end Stix
