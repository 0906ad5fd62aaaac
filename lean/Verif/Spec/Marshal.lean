import Verif.Spec.Value
import Verif.Spec.Doc
import Verif.Spec.Collection

/-!
# Serialised objects (specification)
-/

namespace Stix.Spec
open Stix

/-- A property is unset when it has the zero value of its type, a struct when all its fields have;
a boolean is never unset. -/
def Unset : Ty → GV → Prop
  | .bool, _ => False
  | .struct _ fs, v => ∃ f, v = .struct f ∧ ∀ r ∈ fs.toList, f r.name = zero r.ty
  | t, v => v = zero t

/-- The extended properties of an object, as a map. -/
def extras (o : Obj) : List (Str × Dyn) := o.extra.getD []

/-- The field is one that extended properties do not override: one of the type's own, for a type
that embeds one of the common structs. -/
def Strong (s : SId) (r : FieldInfo) : Prop := baseOf s ≠ .none ∧ r ∈ (ownFields s).toList

/-- The member `k` with the value `j` belongs in the JSON of the object. -/
inductive Shown (F : Canon.FloatFmt) (o : Obj) (k : Str) (j : Json) : Prop
  | field (r : FieldInfo) : r ∈ objFields o.sid → r.key = k → ¬ Unset r.ty (o.val r.name) →
      (Strong o.sid r ∨ k ∉ amKeys (extras o)) → enc F r.ty (o.val r.name) = some j → Shown F o k j
  | extra (k0 : Str) (d : Dyn) : (k0, d) ∈ extras o → k = sanitize k0 →
      (∀ r ∈ objFields o.sid, Strong o.sid r → r.key = k0 → Unset r.ty (o.val r.name)) →
      encDyn F d = some j → Shown F o k j

/-- An object as Go can hold it: every field has a value of its type, every float is a number. -/
structure TypedObj (o : Obj) : Prop where
  fields : ∀ r ∈ objFields o.sid, Typed r.ty (o.val r.name)
  sorted : SortedKeys (extras o)
  extra : ∀ e ∈ extras o, typed.dyn e.2

/-! ### Round trips -/

/-- Numbers as large as an int64 are not out of range for `strconv.ParseFloat`.  (`strconv` is not
part of the repository.) -/
def IntegersParse (F : Canon.FloatFmt) : Prop :=
  ∀ t : Str, t ≠ [] → t.length ≤ 19 → (∀ c ∈ t, 48 ≤ c ∧ c ≤ 57) →
    (F.parse t).isSome = true ∧ (F.parse (45 :: t)).isSome = true

/-- The property is there in the JSON: it is set, or, for the type that uses the standard encoding,
not both optional and blank. -/
def Emitted (o : Obj) (r : FieldInfo) : Prop :=
  if o.sid = .ExtensionDefinition then (r.omitE && Blank (o.val r.name)) = false
  else ¬ Unset r.ty (o.val r.name)

/-- The second object is what the first is after a round trip: of the same Go type, the emitted
properties are settled (times to the millisecond, ...), the others have their zero value. -/
structure Survives (o o' : Obj) : Prop where
  sid : o'.sid = o.sid
  emitted : ∀ r ∈ objFields o.sid, Emitted o r → o'.val r.name = settled r.ty (o.val r.name)
  hidden : ∀ r ∈ objFields o.sid, ¬ Emitted o r → o'.val r.name = zero r.ty

/-- An object that can be sent: its type is the one of its Go type, its id is valid, its values are
such that JSON can carry them, its required properties are set (they need not be for the type that uses
the standard encoding, which writes them anyway), and its extended properties have names of their
own. -/
structure Sound (o : Obj) : Prop where
  type : (StixObject.getType o, o.sid) ∈ goTypes
  ident : Acceptable o
  fields : ∀ r ∈ objFields o.sid, Carriable r.ty (o.val r.name)
  required : o.sid ≠ .ExtensionDefinition →
    ∀ r ∈ objFields o.sid, r.omitE = false → ¬ Unset r.ty (o.val r.name)
  sorted : SortedKeys (extras o)
  extra : ∀ e ∈ extras o, Canon.Unicode e.1 ∧ carriable.dyn e.2
  apart : ∀ e ∈ extras o, e.1 ≠ [] ∧ ∀ r ∈ objFields o.sid, ¬ SameUpToCase e.1 r.key

/-- The object is written with this extended property. -/
def Extra (o : Obj) (e : Str × Dyn) : Prop := o.sid ≠ .ExtensionDefinition ∧ e ∈ extras o

/-- The extended properties that are left over after these objects, the latest first: those of the
latest one, and of the ones before it those that it has not and that are not the names of properties
of its type. -/
def Leaks : List Obj → Str × Dyn → Prop
  | [], _ => False
  | o :: earlier, e => Extra o e ∨
    (Leaks earlier e ∧ (∀ d, ¬ Extra o (e.1, d)) ∧ ∀ r ∈ objFields o.sid, r.key ≠ e.1)

/-- What becomes of an object that is sent in a list after the earlier ones: it survives, and its
extended properties are what is left over (or nothing, if they are dropped or cannot be kept). -/
structure Carried (drop : Prop) (earlier : List Obj) (o o' : Obj) : Prop where
  survives : Survives o o'
  dropped : drop → o'.extra = none
  definition : o.sid = .ExtensionDefinition → o'.extra = none
  exact : ¬ drop → o.sid ≠ .ExtensionDefinition → ∀ e, e ∈ extras o' ↔ Leaks (o :: earlier) e
  sorted : SortedKeys (extras o')
  nonempty : o'.extra ≠ some []

/-- The same for all the objects of a list. -/
inductive CarriedAll (drop : Prop) : List Obj → List Obj → List Obj → Prop
  | nil (earlier) : CarriedAll drop earlier [] []
  | cons {earlier o o' l l'} : Carried drop earlier o o' → CarriedAll drop (o :: earlier) l l' →
      CarriedAll drop earlier (o :: l) (o' :: l')

end Stix.Spec
