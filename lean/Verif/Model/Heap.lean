import Verif.Model.Collection

/-!
# Collections of references

`Add` stores the pointer it is given (stix.go:104-130, `c.objects[…][…] = obj`), and the getters return
it: an object is shared by the program and the collection.  This model has a heap and a program that
changes objects between its calls of `Add`.
-/

namespace Stix
open StixObject

/-- A pointer, with the id and the type its object had when it was added: all that `Add`
(stix.go:104-130) asks for, and nothing asks later. -/
structure Ref where
  ptr : Nat
  id : Str
  typ : Str
  deriving DecidableEq

instance : StixObject Ref := ⟨Ref.id, Ref.typ⟩

/-- What a program does: change an object, or add one. -/
inductive Event (α : Type) where
  | write (p : Nat) (o : α)
  | add (p : Nat)

/-- The objects in memory and the collection. -/
structure World (α : Type) where
  heap : Nat → α
  coll : Coll Ref

variable {α : Type} [StixObject α]

/-- A reference to the object as it is now. -/
def World.ref (w : World α) (p : Nat) : Ref := ⟨p, getID (w.heap p), getType (w.heap p)⟩

/-- One event. -/
def World.step (w : World α) : Event α → World α
  | .write p o => { w with heap := fun q => if q = p then o else w.heap q }
  | .add p => { w with coll := (w.coll.add (w.ref p)).1 }

/-- A program. -/
def World.run (w : World α) (es : List (Event α)) : World α := es.foldl World.step w

/-- A new collection (stix.go:64-73) with objects in memory. -/
def World.init (ns : Bool) (heap : Nat → α) : World α := ⟨heap, Coll.new ns⟩

end Stix
