import Verif.Spec.CustomTrip
import Verif.Model.Text

/-!
# Bundles that are passed on from one program to the next (specification)
-/

namespace Stix.Spec
open Stix StixObject

/-- `doc'` is what comes out when the JSON text of the bundle `doc` is passed on by programs with these
options, one after the other: each reads the text it gets with `FromJSON`, and makes a bundle of its
collection with `ToBundle`, the JSON of which is sent to the next. -/
inductive PassedOn {U : Type} [UserType U] (F : Canon.FloatFmt) : List (List (CollOption U)) → Json → Json → Prop
  | done (doc : Json) : PassedOn F [] doc doc
  | next {opts : List (CollOption U)} {hops : List (List (CollOption U))} {doc doc' doc'' : Json} {c : Coll (Any U)}
      {rnd : List UInt8} {v : GV} :
      fromJSONText F opts doc.raw = .ok c → rnd.length = 16 → toBundle F rnd c (.ok v) →
      enc F tyBundle v = some doc' → PassedOn F hops doc' doc'' → PassedOn F (opts :: hops) doc doc''

/-- What becomes of an object: one of the library survives with exactly its extended properties, a custom
one is the same. -/
inductive Remains {U : Type} : Any U → Any U → Prop
  | lib {o o' : Obj} : Survives o o' → (o.sid ≠ .ExtensionDefinition → extras o' = extras o) → Remains (.lib o) (.lib o')
  | custom (m : Option (List (Str × Dyn))) : Remains (.custom m) (.custom m)

/-- No object of the list has extended properties. -/
def Unextended (os : List Obj) : Prop := ∀ o ∈ os, o.sid = .ExtensionDefinition ∨ extras o = []

end Stix.Spec
