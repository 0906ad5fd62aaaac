import Verif.Model.Json

/-!
# Binary

`Binary` (data-types.go:16-37).  `encoding/base64` is not part of the repository; `b64Encode`
and `b64Decode` model `base64.StdEncoding`.
-/

namespace Stix

/-- The standard alphabet. -/
def b64Alphabet : Str := b!"ABCDEFGHIJKLMNOPQRSTUVWXYZabcdefghijklmnopqrstuvwxyz0123456789+/"

/-- The character of a six-bit value. -/
def b64Char (n : Nat) : UInt8 := b64Alphabet.getD n 0

/-- `base64.StdEncoding.EncodeToString` -/
def b64Encode : Str → Str
  | [] => []
  | [a] => [b64Char (a.toNat / 4), b64Char (a.toNat % 4 * 16), 61, 61]
  | [a, b] =>
    [b64Char (a.toNat / 4), b64Char (a.toNat % 4 * 16 + b.toNat / 16), b64Char (b.toNat % 16 * 4), 61]
  | a :: b :: c :: rest =>
    b64Char (a.toNat / 4) :: b64Char (a.toNat % 4 * 16 + b.toNat / 16) ::
      b64Char (b.toNat % 16 * 4 + c.toNat / 64) :: b64Char (c.toNat % 64) :: b64Encode rest

/-- The value of a character of the alphabet. -/
def b64Val (c : UInt8) : Option Nat :=
  if 65 ≤ c ∧ c ≤ 90 then some (c.toNat - 65)
  else if 97 ≤ c ∧ c ≤ 122 then some (c.toNat - 71)
  else if 48 ≤ c ∧ c ≤ 57 then some (c.toNat + 4)
  else if c = 43 then some 62
  else if c = 47 then some 63
  else none

/-- Decoding once line breaks are gone; unused bits of the last character are ignored
(`StdEncoding` is not strict). -/
def b64DecodeGo : Str → Option Str
  | [] => some []
  | a :: b :: c :: d :: rest => do
    let va ← b64Val a
    let vb ← b64Val b
    if d = 61 ∧ rest = [] then
      if c = 61 then return [(va * 4 + vb / 16).toUInt8]
      else do
        let vc ← b64Val c
        return [(va * 4 + vb / 16).toUInt8, (vb % 16 * 16 + vc / 4).toUInt8]
    else do
      let vc ← b64Val c
      let vd ← b64Val d
      let r ← b64DecodeGo rest
      return (va * 4 + vb / 16).toUInt8 :: (vb % 16 * 16 + vc / 4).toUInt8 ::
        (vc % 4 * 64 + vd).toUInt8 :: r
  | _ => none

/-- `base64.StdEncoding.Decode`: carriage returns and line feeds are skipped. -/
def b64Decode (s : Str) : Option Str := b64DecodeGo (s.filter (fun c => c ≠ 10 ∧ c ≠ 13))

/-- `Binary.String` (data-types.go:21-24) -/
def binaryString (b : Option Str) : Str := b64Encode (b.getD [])

/-- `Binary.MarshalJSON` (data-types.go:35-37): `json.Marshal([]byte(typ))`, which is `null`
for a nil slice. -/
def binaryMarshal : Option Str → Json
  | none => .null
  | some b => .str (b64Encode b) (b64Encode b)

/-- Elements of a JSON array decoded as bytes (encoding/json on `[]byte`): non-negative
integers below 256; `null` leaves the zero. -/
def byteOfJson : Json → Option UInt8
  | .null => some 0
  | .num lit =>
    if lit ≠ [] ∧ lit.all (fun c => 48 ≤ c && c ≤ 57) then
      let n := lit.foldl (fun a c => 10 * a + (c.toNat - 48)) 0
      if n < 256 then some n.toUInt8 else none
    else none
  | _ => none

/-- `Binary.UnmarshalJSON` (data-types.go:27-32): `json.Unmarshal(b, &buf)` into `[]byte`. -/
def binaryUnmarshal : Json → Res (Option Str)
  | .null => .ok none
  | .str _ dec =>
    match b64Decode dec with
    | some b => .ok (some b)
    | none => .err .other
  | .arr l =>
    match l.mapM byteOfJson with
    | some b => .ok (some b)
    | none => .err .other
  | _ => .err .other

end Stix
