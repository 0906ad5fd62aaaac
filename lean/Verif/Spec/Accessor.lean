import Verif.Spec.Doc
import Verif.Spec.Stamp

/-!
# The times of an object (specification)
-/

namespace Stix.Spec
open Stix

/-- The kinds of object that have a `created` property in STIX 2.1: all but the observables. -/
def hasCreated : SId → Bool
  | .AutonomousSystem | .Artifact | .Directory | .DomainName | .EmailAddress | .EmailMessage | .File
  | .IPv4Address | .IPv6Address | .MACAddress | .Mutex | .NetworkTraffic | .Process | .RegistryKey
  | .Software | .URL | .UserAccount | .X509Certificate => false
  | _ => true

/-- The kinds of object that have a `modified` property in STIX 2.1: of those, all but the marking
definition. -/
def hasModified (s : SId) : Bool := hasCreated s && s != .MarkingDefinition

/-- The time that the member `key` of an object says: none if there is no such member or it is null,
else the one that its text denotes. -/
inductive SaysTime (key : Str) (ms : List (Str × Json)) : Option GoTime → Prop
  | absent : member key ms = none → SaysTime key ms none
  | null : member key ms = some .null → SaysTime key ms none
  | stamp {raw dec : Str} {x : Stamp} : member key ms = some (.str raw dec) → x.Valid →
      x.zone.Within 24 60 → x.Loose raw →
      SaysTime key ms (some { ns := x.nanos, off := x.zone.seconds })

end Stix.Spec
