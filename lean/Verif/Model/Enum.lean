import Verif.Gen.Enums
import Verif.Model.Json

/-!
# Enumerations

`String`, `MarshalJSON` and `UnmarshalJSON` of the ten enumerated types.  The name tables are
generated (`Verif.Gen.Enums`, with file and line).
-/

namespace Stix

/-- `String()`: a map read, `""` when absent (artifact.go:84-86, opinion.go:99-105,
network.go:257-259, 321-323, process.go:119-121, 194-196, 253-255, 304-306, regkey.go:97-99,
extension.go:229-231). -/
def enumName (e : EnumId) (n : UInt8) : Str := (amLookup n (enumTable e)).getD []

/-- `MarshalJSON` (artifact.go:89-91 and extension.go:234-236 with `json.Marshal`,
opinion.go:107-109, network.go:262-264, 326-328, process.go:124-126, 199-201, 258-260, 309-311,
regkey.go:102-104 with `fmt.Sprintf`; no name needs escaping, see `enumName_quote`, so both give this). -/
def enumMarshal (e : EnumId) (n : UInt8) : Json := Json.ofStr (enumName e n)

/-- `for k, v := range table { if v == t { *typ = k; return } }` followed by the assignment of
the zero constant; `visit` is the order in which the map is visited. -/
def enumFind (visit : List (UInt8 × Str)) (t : Str) : UInt8 :=
  match visit with
  | [] => 0
  | (k, v) :: rest => if v = t then k else enumFind rest t

/-- Go slice expression `b[1 : len(b)-1]`, which panics when `len(b) < 2`. -/
def goMiddle (b : Str) : Res Str :=
  if b.length < 2 then .panic else .ok (b.drop 1).dropLast

/-- `json.Unmarshal(b, &s)` into a fresh Go string variable: a string, `null` (no-op) or an
error. -/
def jsonIntoString (j : Json) : Res Str :=
  match j with
  | .str _ dec => .ok dec
  | .null => .ok []
  | _ => .err .other

/-- `UnmarshalJSON` of an enumeration, for a map visiting order `visit`:
sliced (artifact.go:94-104, opinion.go:112-122), guarded (network.go:267-281, 331-345,
process.go:129-143, 204-218, 263-277, 314-328, regkey.go:107-121), via a string
(extension.go:239-255). -/
def enumUnmarshal (visit : List (UInt8 × Str)) (e : EnumId) (j : Json) : Res UInt8 :=
  match enumMode e with
  | .sliced => do
    let t ← goMiddle j.raw
    return enumFind visit t
  | .guarded =>
    if j.raw.length < 3 then .ok 0
    else do
      let t ← goMiddle j.raw
      return enumFind visit t
  | .viaString => do
    let s ← jsonIntoString j
    return enumFind visit s

end Stix
