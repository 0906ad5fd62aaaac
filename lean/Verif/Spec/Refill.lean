import Verif.Spec.Says
import Verif.Spec.Doc
import Verif.Model.Process

/-!
# An object with an element unmarshalled into it (specification)
-/

namespace Stix.Spec
open Stix

variable {U : Type} [UserType U]

/-- A value of the type is replaced as a whole: there are no structs or maps in it, whose other parts
would stay. -/
def Whole : Ty → Bool
  | .slice t => Whole t
  | .ptr t => Whole t
  | .map _ _ _ => false
  | .struct _ _ => false
  | _ => true

/-- The second object is the first after `json.Unmarshal` of the JSON value into it: an object of the
library keeps its type, its extended properties, and each property without a member; a property of a
whole type with a member is what that says.  A custom object has the values of the members, and keeps
the others.  A type of the user's has its own `UnmarshalJSON`. -/
inductive Refilled (F : Canon.FloatFmt) (j : Json) : Any U → Any U → Prop
  | lib (o o' : Obj) : o'.sid = o.sid → o'.extra = o.extra →
      (∀ r ∈ objFields o.sid, NoVariant j r.key →
        ((∀ v, ¬ Member j r.key v) → o'.val r.name = o.val r.name) ∧
        (∀ v x, Member j r.key v → Whole r.ty = true → Says F r.ty v x → o'.val r.name = x)) →
      Refilled F j (.lib o) (.lib o')
  | custom (m m' : List (Str × Dyn)) (q : Option (List (Str × Dyn))) : q.getD [] = m → (∃ ms, j = .obj ms) →
      (∀ k, (∀ v, ¬ Member j k v) → amLookup k m' = amLookup k m) →
      (∀ k v d, Member j k v → SaysDyn F v d → amLookup k m' = some d) →
      Refilled F j (.custom q) (.custom (some m'))
  | nil (q : Option (List (Str × Dyn))) : j = .null → Refilled F j (.custom q) (.custom none)
  | user (u u' : U) (x : Option (List (Str × Dyn))) : UserType.decode u j = .ok u' false →
      Refilled F j (.user u x) (.user u' x)

end Stix.Spec
