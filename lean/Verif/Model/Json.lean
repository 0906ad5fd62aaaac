import Verif.Model.Basic

/-!
# JSON values

`encoding/json` is not part of the repository; what the model keeps of it is the value
level.  A document is a tree; for strings both spellings are kept because some
`UnmarshalJSON` methods look at the raw bytes between the quotes and others at the decoded
text.  White space between tokens is not kept.
-/

namespace Stix

/-- A JSON value.  `num` has the literal as written; `str raw dec` has the bytes between the
quotes as written and the decoded text; object members are in document order and may repeat. -/
inductive Json where
  | null
  | bool (b : Bool)
  | num (lit : Str)
  | str (raw dec : Str)
  | arr (l : List Json)
  | obj (m : List (Str × Json))

/-- Length of the well-formed UTF-8 sequence starting with byte `b`, after the first byte
(`utf8.DecodeRune` of the Go standard library); `none` when it is not well formed. -/
def utf8Tail (b : UInt8) (rest : Str) : Option Nat :=
  let cont (x : UInt8) : Bool := 0x80 ≤ x && x ≤ 0xBF
  let rng (lo hi x : UInt8) : Bool := lo ≤ x && x ≤ hi
  if b < 0x80 then some 0
  else match rest with
  | [] => none
  | x :: r1 =>
    if rng 0xC2 0xDF b then (if cont x then some 1 else none)
    else match r1 with
    | [] => none
    | y :: r2 =>
      if b = 0xE0 then (if rng 0xA0 0xBF x && cont y then some 2 else none)
      else if b = 0xED then (if rng 0x80 0x9F x && cont y then some 2 else none)
      else if rng 0xE1 0xEF b then (if cont x && cont y then some 2 else none)
      else match r2 with
      | [] => none
      | z :: _ =>
        if b = 0xF0 then (if rng 0x90 0xBF x && cont y && cont z then some 3 else none)
        else if b = 0xF4 then (if rng 0x80 0x8F x && cont y && cont z then some 3 else none)
        else if rng 0xF1 0xF3 b then (if cont x && cont y && cont z then some 3 else none)
        else none

/-- Worker of `sanitize`: structural in the fuel, which is the length of the string. -/
def sanitizeAux : Nat → Str → Str
  | 0, _ => []
  | _ + 1, [] => []
  | n + 1, b :: rest =>
    match utf8Tail b rest with
    | some k => b :: rest.take k ++ sanitizeAux n (rest.drop k)
    | none => [0xEF, 0xBF, 0xBD] ++ sanitizeAux n rest

/-- What a Go string decodes to after having been written as a JSON string: every byte that
is not part of well-formed UTF-8 is replaced by U+FFFD (encoding/json, `encodeState.string`). -/
def sanitize (s : Str) : Str := sanitizeAux s.length s

/-- The string is well-formed UTF-8. -/
def ValidUTF8 (s : Str) : Prop := sanitize s = s

instance (s : Str) : Decidable (ValidUTF8 s) := inferInstanceAs (Decidable (_ = _))

/-- Lower-case hexadecimal digit (encoding/json, `hex`). -/
def hexLower (n : UInt8) : UInt8 := if n < 10 then 48 + n else 87 + n

/-- Worker of `jsonQuote`. -/
def jsonQuoteAux : Nat → Str → Str
  | 0, _ => []
  | _ + 1, [] => []
  | n + 1, b :: rest =>
    if b < 0x80 then
      (if b = 34 ∨ b = 92 then [92, b]
       else if b = 10 then b!"\\n"
       else if b = 13 then b!"\\r"
       else if b = 9 then b!"\\t"
       else if b < 0x20 ∨ b = 60 ∨ b = 62 ∨ b = 38 then
         b!"\\u00" ++ [hexLower (b / 16), hexLower (b % 16)]
       else [b]) ++ jsonQuoteAux n rest
    else match utf8Tail b rest with
    | some k =>
      let seq := b :: rest.take k
      (if seq = [0xE2, 0x80, 0xA8] then b!"\\u2028"
       else if seq = [0xE2, 0x80, 0xA9] then b!"\\u2029" else seq) ++
        jsonQuoteAux n (rest.drop k)
    | none => b!"\\ufffd" ++ jsonQuoteAux n rest

/-- The bytes `json.Marshal` writes between the quotes for a Go string (encoding/json,
`encodeState.string` with HTML escaping). -/
def jsonQuote (s : Str) : Str := jsonQuoteAux s.length s

/-- The JSON value `json.Marshal` produces for a Go string. -/
def Json.ofStr (s : Str) : Json := .str (jsonQuote s) (sanitize s)

mutual
/-- The raw text of a value, as an `UnmarshalJSON` method receives it.  Object keys are
written with `jsonQuote`, and no white space is kept; no method modelled here depends on
either. -/
def Json.raw : Json → Str
  | .null => b!"null"
  | .bool true => b!"true"
  | .bool false => b!"false"
  | .num lit => lit
  | .str raw _ => b!"\"" ++ raw ++ b!"\""
  | .arr l => b!"[" ++ Json.rawArr l ++ b!"]"
  | .obj m => b!"{" ++ Json.rawObj m ++ b!"}"

/-- Elements of an array, separated by commas. -/
def Json.rawArr : List Json → Str
  | [] => []
  | [j] => j.raw
  | j :: js => j.raw ++ b!"," ++ Json.rawArr js

/-- Members of an object, separated by commas. -/
def Json.rawObj : List (Str × Json) → Str
  | [] => []
  | [(k, j)] => b!"\"" ++ jsonQuote k ++ b!"\":" ++ j.raw
  | (k, j) :: ms => b!"\"" ++ jsonQuote k ++ b!"\":" ++ j.raw ++ b!"," ++ Json.rawObj ms
end

/-- An ASCII digit. -/
def IsDigit (c : UInt8) : Prop := 48 ≤ c ∧ c ≤ 57

instance (c : UInt8) : Decidable (IsDigit c) := inferInstanceAs (Decidable (_ ∧ _))

end Stix
