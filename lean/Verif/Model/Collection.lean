import Verif.Model.Ident
import Mathlib.Data.List.Forall2

/-!
# The collection

Model of `Collection` (stix.go:75-181).  The object type is a parameter: the collection
only ever asks an object for its id and type, and only while it is being added.
-/

namespace Stix

/-- The two methods of the `STIXObject` interface the collection calls
(`GetID`, `GetType`, object.go:124-132). -/
class StixObject (α : Type _) where
  getID : α → Str
  getType : α → Str

open StixObject

/-- `Collection` (stix.go:75-85): `objects` is `map[STIXType]map[Identifier]interface{}`.
The parser-only fields `dropCustom` and `customHandler` live in `Verif.Model.Process`.
A nil map and an empty map behave alike, so nil is not kept apart. -/
structure Coll (α : Type _) where
  objects : List (Str × List (Str × α)) := []
  noSort : Bool := false
  order : List Str := []
  deriving Repr

namespace Coll
variable {α : Type _} [StixObject α]

/-- `New` (stix.go:64-73); `noSort` is what `NoSortOption` (stix.go:41-45) sets.  The zero
value `&Collection{}` is `new false`. -/
def new (noSort : Bool) : Coll α := { noSort := noSort }

/-- `getObject` (stix.go:939-949) -/
def getObject (c : Coll α) (typ id : Str) : Option α :=
  match amLookup typ c.objects with
  | none => none
  | some bucket => amLookup id bucket

/-- `Collection.Get` (stix.go:89-101).  The assertion `obj.(STIXObject)` cannot fail: only
`Add` stores values and its parameter is a `STIXObject`. -/
def get (c : Coll α) (id : Str) : Option α :=
  match splitDD id with
  | [t, _] => c.getObject t id
  | _ => none

/-- `Collection.Add` (stix.go:104-130): the new state and whether an error was returned. -/
def add (c : Coll α) (obj : α) : Coll α × Bool :=
  if hasValidIdentifier (getID obj) (getType obj) = false then (c, true)
  else
    let bucket := (amLookup (getType obj) c.objects).getD []
    let update := (amLookup (getID obj) bucket).isSome
    let c' := { c with
      objects := amInsert (getType obj) (amInsert (getID obj) obj bucket) c.objects }
    (if c.noSort = false ∧ update = false then { c' with order := c.order ++ [getID obj] } else c',
      false)

/-- The order in which a `range` over a map visits its entries is any permutation. -/
def Iter {κ β} (m visited : List (κ × β)) : Prop := visited.Perm m

/-- `Collection.AllObjects` (stix.go:133-160), as a relation because the last two loops range
over maps: `out` is a possible result; `none` stands for a nil interface in the slice. -/
def AllObjects (c : Coll α) (out : List (Option α)) : Prop :=
  if c.noSort = false ∧ c.order.length ≠ 0 then out = c.order.map c.get
  else ∃ bs : List (Str × List (Str × α)), Iter c.objects bs ∧
    ∃ vs : List (List (Str × α)), List.Forall₂ (fun b v => Iter b.2 v) bs vs ∧
      out = (vs.flatten).map (fun e => some e.2)

/-- `Collection.GetAll` (stix.go:165-176): `none` is the nil slice. -/
def GetAll (c : Coll α) (typ : Str) (out : Option (List α)) : Prop :=
  match amLookup typ c.objects with
  | none => out = none
  | some bucket => ∃ vs, Iter bucket vs ∧ out = some (vs.map Prod.snd)

/-- A history of `Add` calls on a collection. -/
def addAll (c : Coll α) (h : List α) : Coll α := h.foldl (fun c o => (c.add o).1) c

end Coll

end Stix
