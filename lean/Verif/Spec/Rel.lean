import Verif.Spec.Ident
import Verif.Gen.Rels

/-!
# What relationship helpers promise (specification)

Written from the relationship tables of the STIX 2.1 specification.
-/

namespace Stix.Spec
open Stix

/-- The words of a method name, lower case, with dashes between them. -/
def kebabAux : Bool → Str → Str
  | _, [] => []
  | first, c :: s =>
    if 65 ≤ c ∧ c ≤ 90 then (if first then [] else [45]) ++ (c + 32) :: kebabAux false s
    else c :: kebabAux false s

/-- The relationship type a method is named after: `AddAttributedTo` makes `attributed-to`. -/
def namedAfter (method : Str) : Str := kebabAux true (method.drop 3)

/-- What a helper may point to. -/
inductive Targets where
  /-- the identifier of anything -/
  | any
  /-- a well-formed identifier (`AddConsistsOf`: any observable, including custom ones) -/
  | identifier
  /-- an object of one of these types -/
  | types (ts : List Str)

/-- The helpers, and what the STIX specification lets the relationship point to. -/
def helpers : List (Recv × Str × Targets) :=
  [(.obj .AttackPattern, b!"AddDelivers", .types [b!"malware"]),
   (.obj .AttackPattern, b!"AddTargets", .types [b!"identity", b!"location", b!"vulnerability"]),
   (.obj .AttackPattern, b!"AddUses", .types [b!"malware", b!"tool"]),
   (.obj .Campaign, b!"AddAttributedTo", .types [b!"intrusion-set", b!"threat-actor"]),
   (.obj .Campaign, b!"AddCompromises", .types [b!"infrastructure"]),
   (.obj .Campaign, b!"AddOriginatesFrom", .types [b!"location"]),
   (.obj .Campaign, b!"AddTargets", .types [b!"identity", b!"location", b!"vulnerability"]),
   (.obj .Campaign, b!"AddUses", .types [b!"attack-pattern", b!"infrastructure", b!"malware", b!"tool"]),
   (.obj .CourseOfAction, b!"AddInvestigates", .types [b!"indicator"]),
   (.obj .CourseOfAction, b!"AddMitigates", .types [b!"attack-pattern", b!"indicator", b!"malware", b!"tool", b!"vulnerability"]),
   (.obj .CourseOfAction, b!"AddRemediates", .types [b!"malware", b!"vulnerability"]),
   (.obj .Identity, b!"AddLocatedAt", .types [b!"location"]),
   (.obj .Indicator, b!"AddIndicates", .types [b!"attack-pattern", b!"campaign", b!"infrastructure", b!"intrusion-set", b!"malware", b!"threat-actor", b!"tool"]),
   (.obj .Indicator, b!"AddBasedOn", .types [b!"observed-data"]),
   (.obj .Infrastructure, b!"AddCommunicatesWith", .types [b!"infrastructure", b!"ipv4-addr", b!"ipv6-addr", b!"domain-name", b!"url"]),
   (.obj .Infrastructure, b!"AddConsistsOf", .identifier),
   (.obj .Infrastructure, b!"AddControls", .types [b!"infrastructure", b!"malware"]),
   (.obj .Infrastructure, b!"AddDelivers", .types [b!"malware"]),
   (.obj .Infrastructure, b!"AddHas", .types [b!"vulnerability"]),
   (.obj .Infrastructure, b!"AddHosts", .types [b!"tool", b!"malware"]),
   (.obj .Infrastructure, b!"AddLocatedAt", .types [b!"location"]),
   (.obj .Infrastructure, b!"AddUses", .types [b!"infrastructure"]),
   (.obj .IntrusionSet, b!"AddAttributedTo", .types [b!"threat-actor"]),
   (.obj .IntrusionSet, b!"AddCompromises", .types [b!"infrastructure"]),
   (.obj .IntrusionSet, b!"AddHosts", .types [b!"infrastructure"]),
   (.obj .IntrusionSet, b!"AddOwns", .types [b!"infrastructure"]),
   (.obj .IntrusionSet, b!"AddOriginatesFrom", .types [b!"location"]),
   (.obj .IntrusionSet, b!"AddTargets", .types [b!"identity", b!"location", b!"vulnerability"]),
   (.obj .IntrusionSet, b!"AddUses", .types [b!"attack-pattern", b!"infrastructure", b!"malware", b!"tool"]),
   (.obj .Malware, b!"AddAuthoredBy", .types [b!"threat-actor", b!"intrusion-set"]),
   (.obj .Malware, b!"AddBeaconsTo", .types [b!"infrastructure"]),
   (.obj .Malware, b!"AddExfiltratesTo", .types [b!"infrastructure"]),
   (.obj .Malware, b!"AddCommunicatesWith", .types [b!"ipv4-addr", b!"ipv6-addr", b!"domain-name", b!"url"]),
   (.obj .Malware, b!"AddControls", .types [b!"malware"]),
   (.obj .Malware, b!"AddDownloads", .types [b!"malware", b!"tool", b!"file"]),
   (.obj .Malware, b!"AddDrops", .types [b!"malware", b!"tool", b!"file"]),
   (.obj .Malware, b!"AddExploits", .types [b!"vulnerability"]),
   (.obj .Malware, b!"AddOriginatesFrom", .types [b!"location"]),
   (.obj .Malware, b!"AddTargets", .types [b!"identity", b!"infrastructure", b!"location", b!"vulnerability"]),
   (.obj .Malware, b!"AddUses", .types [b!"attack-pattern", b!"infrastructure", b!"malware", b!"tool"]),
   (.obj .Malware, b!"AddVariantOf", .types [b!"malware"]),
   (.obj .MalwareAnalysis, b!"AddCharacterizes", .types [b!"malware"]),
   (.obj .MalwareAnalysis, b!"AddAnalysisOf", .types [b!"malware"]),
   (.obj .MalwareAnalysis, b!"AddStaticAnalysisOf", .types [b!"malware"]),
   (.obj .MalwareAnalysis, b!"AddDynamicAnalysisOf", .types [b!"malware"]),
   (.obj .ThreatActor, b!"AddAttributedTo", .types [b!"identity"]),
   (.obj .ThreatActor, b!"AddCompromises", .types [b!"infrastructure"]),
   (.obj .ThreatActor, b!"AddHosts", .types [b!"infrastructure"]),
   (.obj .ThreatActor, b!"AddOwns", .types [b!"infrastructure"]),
   (.obj .ThreatActor, b!"AddImpersonates", .types [b!"identity"]),
   (.obj .ThreatActor, b!"AddLocatedAt", .types [b!"location"]),
   (.obj .ThreatActor, b!"AddTargets", .types [b!"identity", b!"location", b!"vulnerability"]),
   (.obj .ThreatActor, b!"AddUses", .types [b!"attack-pattern", b!"infrastructure", b!"malware", b!"tool"]),
   (.obj .Tool, b!"AddDelivers", .types [b!"malware"]),
   (.obj .Tool, b!"AddDrops", .types [b!"malware"]),
   (.obj .Tool, b!"AddHas", .types [b!"vulnerability"]),
   (.obj .Tool, b!"AddTargets", .types [b!"identity", b!"infrastructure", b!"location", b!"vulnerability"]),
   (.obj .Tool, b!"AddUses", .types [b!"infrastructure"]),
   (.obj .DomainName, b!"AddResolvesTo", .types [b!"domain-name", b!"ipv4-addr", b!"ipv6-addr"]),
   (.obj .IPv4Address, b!"AddResolvesTo", .types [b!"mac-addr"]),
   (.obj .IPv4Address, b!"AddBelongsTo", .types [b!"autonomous-system"]),
   (.obj .IPv6Address, b!"AddResolvesTo", .types [b!"mac-addr"]),
   (.obj .IPv6Address, b!"AddBelongsTo", .types [b!"autonomous-system"]),
   (.base .sdo, b!"AddDerivedFrom", .any),
   (.base .sdo, b!"AddDuplicateOf", .any),
   (.base .sdo, b!"AddRelatedTo", .any),
   (.base .sco, b!"AddDerivedFrom", .any),
   (.base .sco, b!"AddDuplicateOf", .any),
   (.base .sco, b!"AddRelatedTo", .any)]

/-- The entry of a helper. -/
def targetsOf (r : Recv) (method : Str) : Option Targets :=
  (helpers.find? fun e => e.1 == r && e.2.1 == method).map (·.2.2)

/-- The identifier may be the target. -/
def Targets.Allows : Targets → Str → Prop
  | .any, id => id ≠ []
  | .identifier, id => ∃ t u, TypePart t ∧ UUIDText u ∧ id = t ++ b!"--" ++ u
  | .types ts, id => ∃ t ∈ ts, Identifies t id

end Stix.Spec
