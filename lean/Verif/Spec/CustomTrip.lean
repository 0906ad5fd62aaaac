import Verif.Spec.Marshal

/-!
# Custom objects that are sent (specification)
-/

namespace Stix.Spec
open Stix StixObject

/-- A custom object that can be sent: it is of a type that the library does not have, its id is one of
that type, and what it holds are values as JSON has them: nil, booleans, finite floats, UTF-8 text, lists
and maps. -/
structure SoundCustom (m : List (Str × Dyn)) : Prop where
  sorted : SortedKeys m
  members : ∀ e ∈ m, Canon.Unicode e.1 ∧ carriable.dyn e.2
  ident : ∃ t id, (b!"type", Dyn.str t) ∈ m ∧ (b!"id", Dyn.str id) ∈ m ∧ Identifies t id ∧ ∀ s, (t, s) ∉ goTypes

/-- What becomes of an object that is sent in a bundle: one of the library survives with its extended
properties, a custom one is the same, or is left out if custom objects are dropped. -/
inductive Arrives {U : Type} (drop : Prop) : Any U → Option (Any U) → Prop
  | lib {o o' : Obj} : Survives o o' → (drop → o'.extra = none) →
      (¬ drop → o.sid ≠ .ExtensionDefinition → ∀ e ∈ extras o, e ∈ extras o') → Arrives drop (.lib o) (some (.lib o'))
  | custom {m : List (Str × Dyn)} : ¬ drop → Arrives drop (.custom (some m)) (some (.custom (some m)))
  | dropped {m : List (Str × Dyn)} : drop → Arrives drop (.custom (some m)) none

end Stix.Spec
