import Verif.Model.Basic

/-!
# Identifiers (data-types.go:160-228) and the UUID text forms
-/

namespace Stix

/-- The byte `-`. -/
def dash : UInt8 := 45

/-- `strings.Split(s, "--")` (used at stix.go:90, data-types.go:183, :218):
cut at the leftmost, non-overlapping occurrences of the two-byte separator. -/
def splitDD : Str → List Str
  | [] => [[]]
  | [c] => [[c]]
  | c₁ :: c₂ :: r =>
    if c₁ = dash ∧ c₂ = dash then [] :: splitDD r
    else match splitDD (c₂ :: r) with
      | h :: t => (c₁ :: h) :: t
      | [] => [[c₁]]

/-- `xvalues` of google/uuid `util.go`: value of a hexadecimal digit, `none` for 255. -/
def xvalue (c : UInt8) : Option UInt8 :=
  if 48 ≤ c ∧ c ≤ 57 then some (c - 48)
  else if 97 ≤ c ∧ c ≤ 102 then some (c - 87)
  else if 65 ≤ c ∧ c ≤ 70 then some (c - 55)
  else none

/-- `xtob(x1, x2)` of google/uuid `util.go`: two digits to a byte. -/
def xtob (x1 x2 : UInt8) : Option UInt8 :=
  match xvalue x1, xvalue x2 with
  | some a, some b => some ((a <<< 4) ||| b)
  | _, _ => none

/-- `xtob(s[x], s[x+1])`; the out-of-range case cannot occur where it is used. -/
def xtobAt (s : Str) (x : Nat) : Option UInt8 :=
  match s[x]?, s[x+1]? with
  | some a, some b => xtob a b
  | _, _ => none

/-- Lower-casing of an ASCII byte, for `strings.ToLower(s[:9])` in `uuid.Parse`. (A
9-byte string with a multi-byte rune never lowers to the 9 ASCII bytes compared with.) -/
def lowerB (c : UInt8) : UInt8 := if 65 ≤ c ∧ c ≤ 90 then c + 32 else c

/-- The part of `uuid.Parse` after the length switch: dashes at 8, 13, 18, 23 and
hex pairs at the sixteen offsets. -/
def uuidParse36 (s : Str) : Option (List UInt8) :=
  if s[8]? = some dash ∧ s[13]? = some dash ∧ s[18]? = some dash ∧ s[23]? = some dash then
    [0, 2, 4, 6, 9, 11, 14, 16, 19, 21, 24, 26, 28, 30, 32, 34].mapM (xtobAt s)
  else none

/-- `uuid.Parse` of github.com/google/uuid v1.3.0 (`uuid.go`): 36 characters, 45 with
a case-insensitive `urn:uuid:` prefix, 38 (the braces are dropped unchecked) or 32 hex
digits; `none` stands for a non-nil error. -/
def uuidParse (s : Str) : Option (List UInt8) :=
  if s.length = 36 then uuidParse36 s
  else if s.length = 45 then
    if (s.take 9).map lowerB = b!"urn:uuid:" then uuidParse36 (s.drop 9) else none
  else if s.length = 38 then uuidParse36 (s.drop 1)
  else if s.length = 32 then
    (List.range 16).mapM (fun i => xtobAt s (i * 2))
  else none

/-- A lower-case hexadecimal digit (`encoding/hex`). -/
def hexDigit (n : UInt8) : UInt8 := if n < 10 then n + 48 else n + 87

/-- `hex.Encode`. -/
def hexEncode : List UInt8 → Str
  | [] => []
  | b :: r => hexDigit (b >>> 4) :: hexDigit (b &&& 15) :: hexEncode r

/-- `uuid.UUID.String` (google/uuid `encodeHex`): groups of 4, 2, 2, 2, 6 bytes. -/
def uuidString (u : List UInt8) : Str :=
  hexEncode (u.take 4) ++ [dash] ++ hexEncode ((u.drop 4).take 2) ++ [dash] ++
  hexEncode ((u.drop 6).take 2) ++ [dash] ++ hexEncode ((u.drop 8).take 2) ++ [dash] ++
  hexEncode (u.drop 10)

/-- Set version and RFC 4122 variant: `uuid[6] = (uuid[6] & 0x0f) | v<<4`,
`uuid[8] = (uuid[8] & 0x3f) | 0x80` (google/uuid `version4.go`, `hash.go`). -/
def uuidStamp (version : UInt8) (u : List UInt8) : List UInt8 :=
  (u.modify 6 (fun x : UInt8 => (x &&& (0x0f : UInt8)) ||| (version <<< 4))).modify 8
    (fun x : UInt8 => (x &&& (0x3f : UInt8)) ||| 0x80)

/-- `NewIdentifier(typ)` (data-types.go:205-208); `rnd` are the sixteen random bytes
drawn by `uuid.New()`. -/
def newIdentifier (rnd : List UInt8) (typ : Str) : Str :=
  typ ++ b!"--" ++ uuidString (uuidStamp 4 rnd)

/-- `CyberObservableNamespace` (data-types.go:199): the bytes of
`00abedb4-aa42-466c-9c01-fed23315a9b7`. -/
def cyberObservableNamespace : List UInt8 :=
  [0x00, 0xab, 0xed, 0xb4, 0xaa, 0x42, 0x46, 0x6c, 0x9c, 0x01, 0xfe, 0xd2, 0x33, 0x15, 0xa9, 0xb7]

/-- `uuid.NewSHA1(ns, data)` with SHA-1 as a parameter: hash of `ns ++ data`, first 16
bytes, version 5. -/
def uuidSHA1 (sha1 : Str → List UInt8) (data : Str) : List UInt8 :=
  uuidStamp 5 ((sha1 (cyberObservableNamespace ++ data)).take 16)

/-- `NewObservableIdentifier(value, typ)` (data-types.go:211-214). -/
def newObservableIdentifier (sha1 : Str → List UInt8) (value typ : Str) : Str :=
  typ ++ b!"--" ++ uuidString (uuidSHA1 sha1 value)

/-- `IsValidIdentifier` (data-types.go:217-228). -/
def isValidIdentifier (id : Str) : Bool :=
  match splitDD id with
  | [_, u] => (uuidParse u).isSome
  | _ => false

/-- `HasValidIdentifier` (data-types.go:182-195), as a function of what `GetID` and
`GetType` return. -/
def hasValidIdentifier (id typ : Str) : Bool :=
  match splitDD id with
  | [t, u] => if t ≠ typ then false else if t = [] then false else (uuidParse u).isSome
  | _ => false

/-- `strings.Index(s, sub) == 0`: `sub` occurs at offset 0 (Go's `Index` returns 0 for
an empty `sub`). -/
def indexIsZero (s sub : Str) : Bool := sub.isPrefixOf s

/-- `Identifier.ForType` (data-types.go:166-168). -/
def forType (id typ : Str) : Bool := indexIsZero id typ

/-- `Identifier.ForTypes` (data-types.go:172-179): first match returns true. -/
def forTypes (id : Str) : List Str → Bool
  | [] => false
  | t :: ts => if forType id t then true else forTypes id ts

end Stix
