import Verif.Model.Heap
import Verif.Spec.Collection

/-!
# Shared objects (specification for C71)

Stated on the events of the program alone.
-/

namespace Stix.Spec
open Stix StixObject

variable {α : Type} [StixObject α]

/-- What is at `p` after the events: what was written last, or what was there. -/
def Value (heap : Nat → α) (es : List (Event α)) (p : Nat) (o : α) : Prop :=
  (∃ before after, es = before ++ .write p o :: after ∧ ∀ o', .write p o' ∉ after) ∨
    ((∀ o', .write p o' ∉ es) ∧ o = heap p)

/-- After the events `before`, adding `p` is accepted for `id`: that is the id of the object then, and
it identifies an object of its type. -/
def AcceptedAs (heap : Nat → α) (before : List (Event α)) (p : Nat) (id : Str) : Prop :=
  ∃ o, Value heap before p o ∧ getID o = id ∧ Acceptable o

/-- `p` is the pointer that was last accepted for `id`. -/
def LastAdded (heap : Nat → α) (es : List (Event α)) (id : Str) (p : Nat) : Prop :=
  ∃ before after, es = before ++ .add p :: after ∧ AcceptedAs heap before p id ∧
    ∀ b' q a', after = b' ++ .add q :: a' → ¬ AcceptedAs heap (before ++ .add p :: b') q id

/-- The program does not change the id and the type of an object. -/
def KeepsIds (heap : Nat → α) (es : List (Event α)) : Prop :=
  ∀ p o, .write p o ∈ es → getID o = getID (heap p) ∧ getType o = getType (heap p)

end Stix.Spec
