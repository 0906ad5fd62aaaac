import Verif.Model.Tlp
import Verif.Spec.Option
import Verif.Spec.Time
import Verif.Spec.Collection

/-!
# The TLP markings (specification)

From section 7.2.1.4 of the STIX 2.1 specification.
-/

namespace Stix.Spec
open Stix

/-- The identifier of each marking. -/
def tlpId : Tlp → Str
  | .white => b!"marking-definition--613f2e26-407d-48c7-9eca-b8e91df99dc9"
  | .green => b!"marking-definition--34098fce-860f-48ae-8e50-ebd3cc5e41da"
  | .amber => b!"marking-definition--f88d31f6-486f-44da-b317-01333bde0b82"
  | .red => b!"marking-definition--5e57c739-391a-4eb3-b6be-7d15ca92d5ed"

/-- The level. -/
def tlpLevel : Tlp → Str
  | .white => b!"white"
  | .green => b!"green"
  | .amber => b!"amber"
  | .red => b!"red"

/-- The name. -/
def tlpName : Tlp → Str
  | .white => b!"TLP:WHITE"
  | .green => b!"TLP:GREEN"
  | .amber => b!"TLP:AMBER"
  | .red => b!"TLP:RED"

/-- The beginning of 20 January 2017. -/
def tlpCreated : Civil := ⟨2017, 1, 20, 0, 0, 0, 0⟩

/-- The properties of a marking that are set, and their values. -/
def tlpProps (l : Tlp) : List (Str × GV) :=
  [(b!"type", .str (b!"marking-definition")), (b!"spec_version", .str (b!"2.1")),
   (b!"id", .str (tlpId l)),
   (b!"created", .ptr (some (.time { ns := tlpCreated.millis * 1000000, off := 0 }))),
   (b!"definition_type", .str (b!"tlp")), (b!"name", .str (tlpName l)),
   (b!"definition", .dyn (.obj [(b!"tlp", .str (tlpLevel l))]))]

/-- The object is the marking: it has these properties and no others. -/
structure IsTlp (l : Tlp) (o : Obj) : Prop where
  kind : o.sid = .MarkingDefinition
  set : ∀ e ∈ tlpProps l, prop o e.1 = some e.2
  unset : ∀ r ∈ objFields o.sid, r.key ∉ (tlpProps l).map Prod.fst → o.val r.name = zero r.ty
  plain : o.extra = none

end Stix.Spec
