import Verif.Spec.Ctor
import Verif.Spec.Value

/-!
# What a contributing property adds to an identifier (specification for C11)
-/

namespace Stix.Spec
open Stix

/-- The value of a contributing property, as far as it counts: an empty or zero value counts as an
absent one, timestamps count in milliseconds, a set of hashes counts by its preferred one,
extensions by their canonical JSON text. -/
inductive Contribution where
  | absent
  | text (s : Str)
  | number (i : Int)
  | millis (n : Int)
  | bytes (b : Str)
  | hash (alg value : Str)
  | texts (l : List Str)
  /-- data, name of the data type, name -/
  | values (l : List (Str × Option Str × Str))
  | json (canonical : Str)

/-- A text, or nothing. -/
def textContribution (v : Option GV) : Contribution :=
  match v with
  | some (.str s) => if s = [] then .absent else .text s
  | _ => .absent

/-- The text of a field of a struct. -/
def textField (f : Str → GV) (n : Str) : Str := textOf (f n)

/-- A registry value: its data, data type and name. -/
def registryValue : GV → Str × Option Str × Str
  | .ptr (some (.struct f)) =>
    (textField f (b!"Data"),
     match f (b!"DataType") with
      | .enum n => if n = 0 then none else some (enumName .RegistryDataType n)
      | _ => none,
     textField f (b!"Name"))
  | _ => ([], none, [])

/-- The contribution of the value `v` of the property `p`. -/
def contribution (F : Canon.FloatFmt) (p : Str) (v : Option GV) : Contribution :=
  if p = b!"hashes" then
    match preferredHash (hashOf v) with
    | some (a, x) => .hash a x
    | none => .absent
  else if p = b!"extensions" then
    if entries v = [] then .absent
    else .json (match (v.bind (enc F (.ext knownExts))).bind fun j => Canon.transform F j.raw with
      | some t => t
      | none => [])
  else if p ∈ [b!"number", b!"src_port", b!"dst_port"] then
    match v with
    | some (.int i) => if i = 0 then .absent else .number i
    | _ => .absent
  else if p ∈ [b!"start", b!"end"] then
    match v with
    | some (.ptr (some (.time t))) => .millis (t.ns / 1000000)
    | _ => .absent
  else if p = b!"payload_bin" then
    match v with
    | some (.bin (some b)) => if b = [] then .absent else .bytes b
    | _ => .absent
  else if p = b!"protocols" then
    match v with
    | some (.slice (some l)) => if l = [] then .absent else .texts (l.map textOf)
    | _ => .absent
  else if p = b!"values" then
    match v with
    | some (.slice (some l)) => if l = [] then .absent else .values (l.map registryValue)
    | _ => .absent
  else textContribution v

/-- The property is given, with something in it. -/
def Given (F : Canon.FloatFmt) (p : Str) (v : Option GV) : Prop :=
  if p = b!"hashes" then entries v ≠ [] else contribution F p v ≠ .absent

/-- No quotation mark in the text. -/
def Unquoted (s : Str) : Prop := (34 : UInt8) ∉ s

/-- The texts that contribute have no quotation mark; times are in the years 0000 to 9999. -/
def Contribution.Clean : Contribution → Prop
  | .text s => Unquoted s
  | .hash _ v => Unquoted v
  | .texts l => ∀ s ∈ l, Unquoted s
  | .values l => ∀ e ∈ l, Unquoted e.1 ∧ Unquoted e.2.2
  | .millis n => 0 ≤ n ∧ n * 1000000 < endOfYears
  | _ => True

/-- The kinds with more than one contributing property of the same form, of which some can be
missing. -/
def Positional (s : SId) : Prop :=
  s ∈ [SId.EmailMessage, .File, .NetworkTraffic, .Software, .UserAccount]

/-- The kinds whose identifier is made from more than one text. -/
def Composed (s : SId) : Prop := Positional s ∨ s ∈ [SId.RegistryKey, .X509Certificate]

/-- The namespace of cyber-observable identifiers, `00abedb4-aa42-466c-9c01-fed23315a9b7`
(STIX 2.1, section 2.9). -/
def scoNamespace : List UInt8 :=
  [0x00, 0xab, 0xed, 0xb4, 0xaa, 0x42, 0x46, 0x6c, 0x9c, 0x01, 0xfe, 0xd2, 0x33, 0x15, 0xa9, 0xb7]

/-- Two digests collide as UUIDs of version 5 (RFC 4122, section 4.3): the first sixteen bytes are
the same, save for the four bits of the version (in byte 6) and the two of the variant (in byte 8). -/
def CollideV5 (d d' : List UInt8) : Prop :=
  (∀ i < 16, i ≠ 6 → i ≠ 8 → d[i]? = d'[i]?) ∧
  d[6]?.map (·.toNat % 16) = d'[6]?.map (·.toNat % 16) ∧
  d[8]?.map (·.toNat % 64) = d'[8]?.map (·.toNat % 64)

end Stix.Spec
