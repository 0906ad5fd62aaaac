import Verif.Spec.Sha1
import Verif.Spec.ObsId
import Verif.Spec.Base64
import Verif.Spec.Time
import Verif.Spec.Canon
import Verif.Spec.Es6

/-!
# The identifiers the standard prescribes for observables (specification for C69)

STIX 2.1, section 2.9: the identifier of an observable should be the type, two dashes and a UUID of
version 5 (RFC 4122, section 4.3) in the namespace `00abedb4-aa42-466c-9c01-fed23315a9b7`, whose name
is the canonical JSON (RFC 8785) of the object of the contributing properties.
-/

namespace Stix.Spec.StdId
open Stix Stix.Spec Stix.Spec.Canon

/-- A hexadecimal digit, in lower case. -/
def hexDigit (n : Nat) : UInt8 := (b!"0123456789abcdef").getD n 0

/-- Bytes in hexadecimal. -/
def hex (l : List Nat) : Str := l.flatMap fun b => [hexDigit (b / 16), hexDigit (b % 16)]

/-- The text of a UUID from its bytes: 8-4-4-4-12 digits. -/
def uuidText (b : Nat → Nat) : Str :=
  hex [b 0, b 1, b 2, b 3] ++ b!"-" ++ hex [b 4, b 5] ++ b!"-" ++ hex [b 6, b 7] ++ b!"-" ++
    hex [b 8, b 9] ++ b!"-" ++ hex [b 10, b 11, b 12, b 13, b 14, b 15]

/-- The bytes of the UUID of a version made from random bytes or a digest: those bytes, with the
version as the first four bits of byte 6 and 10 as the first two bits of byte 8. -/
def version (v : Nat) (digest : List UInt8) (i : Nat) : Nat :=
  let d := (digest.getD i 0).toNat
  if i = 6 then v * 16 + d % 16 else if i = 8 then 2 * 64 + d % 64 else d

/-- The identifier of an observable of a type by its name. -/
def identifier (type name : Str) : Str :=
  type ++ b!"--" ++ uuidText (version 5 (Fips.sha1 (scoNamespace ++ name)))

/-- The JSON object of a registry value. -/
def registryObject (e : Str × Option Str × Str) : JV :=
  .obj ((if e.1 = [] then [] else [(b!"data", .str e.1)]) ++
    (match e.2.1 with | some t => [(b!"data_type", .str t)] | none => []) ++
    (if e.2.2 = [] then [] else [(b!"name", .str e.2.2)]))

/-- The JSON value of what a property contributes. -/
inductive ValueOf : Contribution → JV → Prop
  | text {s} : ValueOf (.text s) (.str s)
  | number {i ds} : Es6.Significant ds → decimal ds = i.natAbs →
      ValueOf (.number i) (.num ((if i < 0 then b!"-" else []) ++ Es6.chars ds))
  | millis {c : Civil} : c.Valid → ValueOf (.millis c.millis) (.str c.text)
  | bytes {b} : ValueOf (.bytes b) (.str (base64 b))
  | hash {a v} : ValueOf (.hash a v) (.obj [(a, .str v)])
  | texts {l} : ValueOf (.texts l) (.arr (l.map .str))
  | values {l} : ValueOf (.values l) (.arr (l.map registryObject))
  | json {v} : v.Sorted → ValueOf (.json v.print) v

/-- The name the standard prescribes for an object with these contributing properties. -/
def StandardName (F : Stix.Canon.FloatFmt) (o : Obj) (ps : List Str) (name : Str) : Prop :=
  ∃ ms : List (Str × JV), (JV.obj ms).Sorted ∧ name = (JV.obj ms).print ∧
    (ms.map Prod.fst).Nodup ∧
    (∀ e ∈ ms, e.1 ∈ ps ∧ ValueOf (contribution F e.1 (prop o e.1)) e.2) ∧
    (∀ p ∈ ps, contribution F p (prop o p) ≠ .absent → p ∈ ms.map Prod.fst)

/-- What the library has for a contribution in the array it hashes instead: nothing for an absent
one, the single values for registry values, the value otherwise. -/
def Elements (c : Contribution) (l : List JV) : Prop :=
  match c with
  | .absent => l = []
  | .values _ => ValueOf c (.arr l)
  | _ => ∃ v, ValueOf c v ∧ l = [v]

/-- A text that stands for itself between quotation marks: no control characters, quotation marks and
backslashes. -/
def PlainText (s : Str) : Prop := ∀ c ∈ s, 32 ≤ c ∧ c ≠ 34 ∧ c ≠ 92

instance (s : Str) : Decidable (PlainText s) := inferInstanceAs (Decidable (∀ c ∈ s, _))

/-- The texts that contribute are plain; times are in the years 0000 to 9999; extensions have a JSON
text. -/
def Plain : Contribution → Prop
  | .text s => PlainText s
  | .hash _ v => PlainText v
  | .texts l => ∀ s ∈ l, PlainText s
  | .values l => ∀ e ∈ l, PlainText e.1 ∧ PlainText e.2.2
  | .millis n => 0 ≤ n ∧ n * 1000000 < endOfYears
  | .json t => t ≠ []
  | _ => True

instance (c : Contribution) : Decidable (Plain c) := by
  cases c <;> simp only [Plain] <;> infer_instance

end Stix.Spec.StdId
