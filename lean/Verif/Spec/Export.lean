import Verif.Spec.Standard

/-!
# Passing on what was received (specification)
-/

namespace Stix.Spec
open Stix

/-- The object has the properties that STIX 2.1 requires of its type, and those of `overRequired`; nothing
is asked of extension definitions. -/
def Complete (o : Obj) : Prop :=
  o.sid = .ExtensionDefinition ∨ ∀ t ps, (t, o.sid) ∈ goTypes → (t, ps) ∈ standard →
    (∀ p ∈ ps, p.2.1 = true → IsSet o p.1) ∧ ∀ k, OverRequired t k → IsSet o k

end Stix.Spec
