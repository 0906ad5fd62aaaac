import Verif.Spec.Accept

/-!
# Passing a document on (specification)
-/

namespace Stix.Spec
open Stix

/-- The value is the other one or stands somewhere in it. -/
inductive Inside (x : Json) : Json → Prop
  | self : Inside x x
  | elem {j l} : j ∈ l → Inside x j → Inside x (.arr l)
  | member {e ms} : e ∈ ms → Inside x e.2 → Inside x (.obj ms)

/-- No string in the value is a timestamp that, in UTC, is before the year 0 or after the year 9999.
(Timestamps in UTC never are.) -/
def InYears (j : Json) : Prop :=
  ∀ raw dec, Inside (.str raw dec) j → ∀ x : Stamp, x.Valid → x.zone.Within 24 60 → x.Loose raw →
    0 ≤ x.nanos ∧ x.nanos < endOfYears

end Stix.Spec
