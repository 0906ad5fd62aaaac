import Verif.Spec.Standard
import Verif.Spec.Stamp
import Verif.Spec.Fate

/-!
# Documents of STIX 2.1 (specification)

What the standard allows an object in a document to be, after its tables (`Spec.Standard`): all required
properties, the others or not, each with a value of its data type, and besides them properties of
extensions or custom ones.  `Conforms` of `Spec.Standard` is narrower: it is about what the library writes.
-/

namespace Stix.Spec
open Stix

/-- Section 2.16: a moment in UTC by RFC 3339.  The last minute of a day may have a leap second. -/
structure Stamp.Moment (x : Stamp) : Prop where
  year : x.year ≤ 9999
  month : 1 ≤ x.month ∧ x.month ≤ 12
  day : 1 ≤ x.day ∧ x.day ≤ daysInMonth x.year x.month
  hour : x.hour ≤ 23
  minute : x.minute ≤ 59
  second : x.second ≤ 59 ∨ (x.second = 60 ∧ x.minute = 59 ∧ x.hour = 23)
  fraction : ∀ d ∈ x.fraction, d ≤ 9
  zone : x.zone = .utc

/-- The string with this spelling and value is a timestamp, `yyyy-mm-ddThh:mm:ss[.s+]Z`. -/
def Timestamp (_raw dec : Str) : Prop := ∃ x : Stamp, x.Moment ∧ dec = x.text

/-- It is not a leap second, and is spelled without escapes. -/
def PlainTimestamp (raw dec : Str) : Prop := raw = dec ∧ ∃ x : Stamp, x.Moment ∧ x.second ≤ 59 ∧ dec = x.text

/-- Section 2.10: an integer between `-(2 ^ 53) + 1` and `2 ^ 53 - 1`. -/
def SafeInteger (s : Str) : Prop :=
  ∃ (ds : List Nat) (i : Int), ds ≠ [] ∧ (∀ d ∈ ds, d ≤ 9) ∧
    ((s = ds.map digit ∧ i = decimal ds) ∨ (s = 45 :: ds.map digit ∧ i = -(decimal ds : Int))) ∧
    -2 ^ 53 < i ∧ i < 2 ^ 53

/-- A character of a name of a property: small letters, digits and underscores (sections 3.1 and 11.1). -/
def NameChar (c : UInt8) : Prop := (97 ≤ c ∧ c ≤ 122) ∨ (48 ≤ c ∧ c ≤ 57) ∨ c = 95

instance (c : UInt8) : Decidable (NameChar c) := by unfold NameChar; infer_instance

/-- The JSON value is one of the data type; `T` says which strings are timestamps. -/
inductive Stated (T : Str → Str → Prop) : STy → Json → Prop
  | text (raw dec) : Stated T .text (.str raw dec)
  | time (raw dec) : T raw dec → Stated T .time (.str raw dec)
  | binary (raw b) : Stated T .binary (.str raw (base64 b))
  | integer (s) : SafeInteger s → Stated T .integer (.num s)
  | number (s) : Stated T .number (.num s)
  | boolean (b) : Stated T .boolean (.bool b)
  | any (j) : Stated T .any j
  | list (t l) : (∀ j ∈ l, Stated T t j) → Stated T (.list t) (.arr l)
  | dict (t m) : (∀ e ∈ m, Stated T t e.2) → Stated T (.dict t) (.obj m)
  | object (ps m) : (∀ e ∈ m, ∀ c ∈ e.1, NameChar c) →
      (∀ e ∈ m, ∀ p, amLookup e.1 ps = some p → Stated T p.2 e.2) →
      (∀ p ∈ ps, p.2.1 = true → p.1 ∈ amKeys m) → Stated T (.object ps) (.obj m)
  | exts (es m) : (∀ e ∈ m, ∃ ms, e.2 = .obj ms) →
      (∀ e ∈ m, ∀ ps, amLookup e.1 es = some ps → Stated T (.object ps) e.2) → Stated T (.exts es) (.obj m)

/-- The value is an object of this type and identifier as the standard has it: an object of a type of
the standard with its properties, or one of another type. -/
inductive StixElement (T : Str → Str → Prop) (t id : Str) : Json → Prop
  | known {ps ms u} : (t, ps) ∈ standard → Stated T (.object ps) (.obj ms) → (amKeys ms).Nodup →
      Text (.obj ms) (b!"type") t → Text (.obj ms) (b!"id") id → UUIDCanon u → id = t ++ b!"--" ++ u →
      StixElement T t id (.obj ms)
  | custom {ms u} : t ∉ amKeys standard → t ≠ [] → TypePart t → (amKeys ms).Nodup →
      Text (.obj ms) (b!"type") t → Text (.obj ms) (b!"id") id → UUIDCanon u → id = t ++ b!"--" ++ u →
      StixElement T t id (.obj ms)

/-- The document holds these objects: it is the list of them, or a bundle (section 8.1). -/
inductive StixDocument : Json → List Json → Prop
  | array (l) : StixDocument (.arr l) l
  | bundle {ms id l} : (∀ e ∈ ms, ∀ c ∈ e.1, NameChar c) → (amKeys ms).Nodup → Text (.obj ms) (b!"type") (b!"bundle") →
      Text (.obj ms) (b!"id") id → member (b!"objects") ms = some (.arr l) → StixDocument (.obj ms) l
  | empty {ms id} : (∀ e ∈ ms, ∀ c ∈ e.1, NameChar c) → (amKeys ms).Nodup → Text (.obj ms) (b!"type") (b!"bundle") →
      Text (.obj ms) (b!"id") id → member (b!"objects") ms = none → StixDocument (.obj ms) []

end Stix.Spec
