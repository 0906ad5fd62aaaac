import Verif.Spec.Rel

/-!
# The relationships of STIX 2.1 (specification for C72)

The relationship summary table of the STIX 2.1 standard (appendix B): source, relationship type,
targets.
-/

namespace Stix.Spec
open Stix

/-- The types of the observables of the standard. -/
def stdObservables : List Str :=
  [b!"artifact", b!"autonomous-system", b!"directory", b!"domain-name", b!"email-addr",
   b!"email-message", b!"file", b!"ipv4-addr", b!"ipv6-addr", b!"mac-addr", b!"mutex",
   b!"network-traffic", b!"process", b!"software", b!"url", b!"user-account",
   b!"windows-registry-key", b!"x509-certificate"]

/-- The table. -/
def stdRels : List (Str × Str × List Str) :=
  [(b!"attack-pattern", b!"delivers", [b!"malware"]),
   (b!"attack-pattern", b!"targets", [b!"identity", b!"location", b!"vulnerability"]),
   (b!"attack-pattern", b!"uses", [b!"malware", b!"tool"]),
   (b!"campaign", b!"attributed-to", [b!"intrusion-set", b!"threat-actor"]),
   (b!"campaign", b!"compromises", [b!"infrastructure"]),
   (b!"campaign", b!"originates-from", [b!"location"]),
   (b!"campaign", b!"targets", [b!"identity", b!"location", b!"vulnerability"]),
   (b!"campaign", b!"uses", [b!"attack-pattern", b!"infrastructure", b!"malware", b!"tool"]),
   (b!"course-of-action", b!"investigates", [b!"indicator"]),
   (b!"course-of-action", b!"mitigates",
    [b!"attack-pattern", b!"indicator", b!"malware", b!"tool", b!"vulnerability"]),
   (b!"course-of-action", b!"remediates", [b!"malware", b!"vulnerability"]),
   (b!"identity", b!"located-at", [b!"location"]),
   (b!"indicator", b!"indicates",
    [b!"attack-pattern", b!"campaign", b!"infrastructure", b!"intrusion-set", b!"malware",
     b!"threat-actor", b!"tool"]),
   (b!"indicator", b!"based-on", [b!"observed-data"]),
   (b!"infrastructure", b!"communicates-with",
    [b!"infrastructure", b!"ipv4-addr", b!"ipv6-addr", b!"domain-name", b!"url"]),
   (b!"infrastructure", b!"consists-of", b!"infrastructure" :: b!"observed-data" :: stdObservables),
   (b!"infrastructure", b!"controls", [b!"infrastructure", b!"malware"]),
   (b!"infrastructure", b!"delivers", [b!"malware"]),
   (b!"infrastructure", b!"has", [b!"vulnerability"]),
   (b!"infrastructure", b!"hosts", [b!"tool", b!"malware"]),
   (b!"infrastructure", b!"located-at", [b!"location"]),
   (b!"infrastructure", b!"uses", [b!"infrastructure"]),
   (b!"intrusion-set", b!"attributed-to", [b!"threat-actor"]),
   (b!"intrusion-set", b!"compromises", [b!"infrastructure"]),
   (b!"intrusion-set", b!"hosts", [b!"infrastructure"]),
   (b!"intrusion-set", b!"owns", [b!"infrastructure"]),
   (b!"intrusion-set", b!"originates-from", [b!"location"]),
   (b!"intrusion-set", b!"targets", [b!"identity", b!"location", b!"vulnerability"]),
   (b!"intrusion-set", b!"uses", [b!"attack-pattern", b!"infrastructure", b!"malware", b!"tool"]),
   (b!"malware", b!"authored-by", [b!"threat-actor", b!"intrusion-set"]),
   (b!"malware", b!"beacons-to", [b!"infrastructure"]),
   (b!"malware", b!"exfiltrates-to", [b!"infrastructure"]),
   (b!"malware", b!"communicates-with", [b!"ipv4-addr", b!"ipv6-addr", b!"domain-name", b!"url"]),
   (b!"malware", b!"controls", [b!"malware"]),
   (b!"malware", b!"downloads", [b!"malware", b!"tool", b!"file"]),
   (b!"malware", b!"drops", [b!"malware", b!"tool", b!"file"]),
   (b!"malware", b!"exploits", [b!"vulnerability"]),
   (b!"malware", b!"originates-from", [b!"location"]),
   (b!"malware", b!"targets", [b!"identity", b!"infrastructure", b!"location", b!"vulnerability"]),
   (b!"malware", b!"uses", [b!"attack-pattern", b!"infrastructure", b!"malware", b!"tool"]),
   (b!"malware", b!"variant-of", [b!"malware"]),
   (b!"malware-analysis", b!"characterizes", [b!"malware"]),
   (b!"malware-analysis", b!"analysis-of", [b!"malware"]),
   (b!"malware-analysis", b!"static-analysis-of", [b!"malware"]),
   (b!"malware-analysis", b!"dynamic-analysis-of", [b!"malware"]),
   (b!"threat-actor", b!"attributed-to", [b!"identity"]),
   (b!"threat-actor", b!"compromises", [b!"infrastructure"]),
   (b!"threat-actor", b!"hosts", [b!"infrastructure"]),
   (b!"threat-actor", b!"owns", [b!"infrastructure"]),
   (b!"threat-actor", b!"impersonates", [b!"identity"]),
   (b!"threat-actor", b!"located-at", [b!"location"]),
   (b!"threat-actor", b!"targets", [b!"identity", b!"location", b!"vulnerability"]),
   (b!"threat-actor", b!"uses", [b!"attack-pattern", b!"infrastructure", b!"malware", b!"tool"]),
   (b!"tool", b!"delivers", [b!"malware"]),
   (b!"tool", b!"drops", [b!"malware"]),
   (b!"tool", b!"has", [b!"vulnerability"]),
   (b!"tool", b!"targets", [b!"identity", b!"infrastructure", b!"location", b!"vulnerability"]),
   (b!"tool", b!"uses", [b!"infrastructure"]),
   (b!"domain-name", b!"resolves-to", [b!"domain-name", b!"ipv4-addr", b!"ipv6-addr"]),
   (b!"ipv4-addr", b!"resolves-to", [b!"mac-addr"]),
   (b!"ipv4-addr", b!"belongs-to", [b!"autonomous-system"]),
   (b!"ipv6-addr", b!"resolves-to", [b!"mac-addr"]),
   (b!"ipv6-addr", b!"belongs-to", [b!"autonomous-system"])]

/-- The standard defines the relationship between objects of these types: it is in the table, or one of
the common ones: `related-to` between any two objects, `derived-from` and `duplicate-of` between two of
the same type. -/
def Defined (source rel target : Str) : Prop :=
  (∃ e ∈ stdRels, e.1 = source ∧ e.2.1 = rel ∧ target ∈ e.2.2) ∨ rel = b!"related-to" ∨
    (rel = b!"derived-from" ∨ rel = b!"duplicate-of") ∧ source = target

/-- The Go types of the sources in the table. -/
def sources : List (SId × Str) :=
  [(.AttackPattern, b!"attack-pattern"), (.Campaign, b!"campaign"), (.CourseOfAction, b!"course-of-action"),
   (.Identity, b!"identity"), (.Indicator, b!"indicator"), (.Infrastructure, b!"infrastructure"),
   (.IntrusionSet, b!"intrusion-set"), (.Malware, b!"malware"), (.MalwareAnalysis, b!"malware-analysis"),
   (.ThreatActor, b!"threat-actor"), (.Tool, b!"tool"), (.DomainName, b!"domain-name"),
   (.IPv4Address, b!"ipv4-addr"), (.IPv6Address, b!"ipv6-addr")]

end Stix.Spec
