import Verif.Model.Snapshot

/-!
# The memory of bundles and listings (specification for C82)
-/

namespace Stix.Spec.Snapshot
open Stix Stix.Snapshot

variable {U : Type} [UserType U]

/-- The bundle at `b` has the id and these objects. -/
def Shows (m : Memory U) (b : Nat) (id : Str) (js : List Json) : Prop :=
  ∃ t as, m.cell b = .bundle TypeBundle id t ∧ m.cell t = .msgs as ∧
    List.Forall₂ (fun a j => m.cell a = .bytes j) as js

/-- `a` is memory of the bundle at `b`: the struct, the array of its objects, or the bytes of one. -/
def Part (m : Memory U) (b a : Nat) : Prop :=
  a = b ∨ ∃ typ id t, m.cell b = .bundle typ id t ∧ (a = t ∨ ∃ as, m.cell t = .msgs as ∧ a ∈ as)

/-- The JSON texts are those of the objects as they are in memory; of nil it is `null`. -/
def Written (F : Canon.FloatFmt) (m : Memory U) (ps : List (Option Nat)) (js : List Json) : Prop :=
  List.Forall₂ (fun p j => (p = none ∧ j = .null) ∨
    ∃ q o, p = some q ∧ m.cell q = .obj o ∧ marshalAny F o = some j) ps js

/-- The program changes what is at `a`. -/
def Changes (l : List (Act U × Option Nat)) (a : Nat) : Prop := ∃ c r, (Act.write a c, r) ∈ l

/-- The JSON text of a bundle. -/
def doc (id : Str) (js : List Json) : Json :=
  .obj ([(b!"type", .ofStr (b!"bundle")), (b!"id", .ofStr id)] ++
    if js = [] then [] else [(b!"objects", .arr js)])

/-- A state that a program reaches. -/
def Reached (F : Canon.FloatFmt) (s : State U) : Prop := ∃ ns l, Run F (.init ns) l s

end Stix.Spec.Snapshot
