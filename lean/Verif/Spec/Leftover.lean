import Verif.Spec.Means

/-!
# What the elements of a document become (specification)

Members that are no property of an object are kept as its extended top-level properties.  Those of the
objects before it are, too, if nothing in between takes them away.
-/

namespace Stix.Spec
open Stix

/-- Reading the object takes the name away: it is a property of its type (or empty, but for extension
definitions), and custom properties are not dropped. -/
def TakesAway (drop : Prop) (before : List Json) (ms : List (Str × Json)) (k : Str) : Prop :=
  ¬ drop ∧ ∃ t s, TypedAs drop before ms t ∧ (t, s) ∈ goTypes ∧ (k ∈ properties s ∨ (k = [] ∧ s ≠ .ExtensionDefinition))

/-- After the elements, this is left of the members: the last value of a name, if nothing has taken it
away, and there is nothing but objects since. -/
inductive LeftOver (drop : Prop) : List Json → Str → Json → Prop
  | here {before ms k v} : member k ms = some v → ¬ TakesAway drop before ms k →
      LeftOver drop (before ++ [.obj ms]) k v
  | past {before ms k v} : LeftOver drop before k v → member k ms = none → ¬ TakesAway drop before ms k →
      LeftOver drop (before ++ [.obj ms]) k v

/-- What becomes of an element of a document that is accepted: nothing; an object of the library; or a
custom object. -/
inductive Becomes {U : Type} (F : Canon.FloatFmt) (drop : Prop) (before : List Json) : Json → Option (Any U) → Prop
  | null : Becomes F drop before .null none
  | untyped {ms} : member (b!"type") ms = none → (∀ t, ¬ TypeLeft drop before t) → Becomes F drop before (.obj ms) none
  | dropped {ms t} : TypedAs drop before ms t → (∀ s, (t, s) ∉ goTypes) → drop → Becomes F drop before (.obj ms) none
  | custom {ms t m} : TypedAs drop before ms t → (∀ s, (t, s) ∉ goTypes) → ¬ drop →
      (∀ k d, amLookup k m = some d ↔ ∃ v, member k ms = some v ∧ MeansDyn F v d) →
      Becomes F drop before (.obj ms) (some (.custom (some m)))
  | object {ms t} {o : Obj} : TypedAs drop before ms t → (t, o.sid) ∈ goTypes →
      o.getStr (b!"ID") = (lastText (b!"id") ms).getD [] → o.getStr (b!"Type") = (lastText (b!"type") ms).getD [] →
      (drop → Any.extended (U := U) (.lib o) = none) →
      (¬ drop → o.sid ≠ .ExtensionDefinition → ∀ k d, amLookup k ((Any.extended (U := U) (.lib o)).getD []) = some d ↔
        ∃ v, LeftOver drop (before ++ [.obj ms]) k v ∧ MeansDyn F v d) →
      (¬ drop → o.sid ≠ .ExtensionDefinition → (Any.extended (U := U) (.lib o) = none ↔
        ∀ k v, ¬ LeftOver drop (before ++ [.obj ms]) k v)) →
      Becomes F drop before (.obj ms) (some (.lib o))

end Stix.Spec
