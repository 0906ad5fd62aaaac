import Verif.Spec.Ident
import Verif.Model.Collection

/-!
# Specification of a collection

Stated on the history of `Add` calls alone (a list of objects, oldest first); nothing here
mentions buckets or the order list.
-/

namespace Stix.Spec
open Stix StixObject

variable {α : Type _} [StixObject α]

/-- The object is acceptable: its id identifies an object of its own type. -/
def Acceptable (o : α) : Prop := Identifies (getType o) (getID o)

/-- `o` is the object of the most recent acceptable `Add` call for `id`. -/
def Latest (h : List α) (id : Str) (o : α) : Prop :=
  ∃ before after, h = before ++ o :: after ∧ Acceptable o ∧ getID o = id ∧
    ∀ p ∈ after, getID p = id → ¬ Acceptable p

/-- `id` was first accepted before `id'` was: some prefix of the history has accepted `id`
but not `id'`. -/
def FirstBefore (h : List α) (id id' : Str) : Prop :=
  ∃ before after, h = before ++ after ∧ (∃ o ∈ before, Acceptable o ∧ getID o = id) ∧
    (∀ o ∈ before, Acceptable o → getID o ≠ id') ∧ ∃ o ∈ after, Acceptable o ∧ getID o = id'

end Stix.Spec
