import Verif.Gen.OptionDocs
import Verif.Spec.Option

/-!
# What options are documented for (specification)

The lists of types in the comments of the option functions (`optionDocs`, generated) and the STIX
2.1 classes of objects that they mention.
-/

namespace Stix.Spec
open Stix

/-- STIX 2.1, section 4 -/
def domainObjects : List SId :=
  [.AttackPattern, .Campaign, .CourseOfAction, .Grouping, .Identity, .Incident, .Indicator,
   .Infrastructure, .IntrusionSet, .Location, .Malware, .MalwareAnalysis, .Note, .ObservedData,
   .Opinion, .Report, .ThreatActor, .Tool, .Vulnerability]

/-- STIX 2.1, section 5 -/
def relationshipObjects : List SId := [.Relationship, .Sighting]

/-- STIX 2.1, section 6 -/
def observables : List SId :=
  [.Artifact, .AutonomousSystem, .Directory, .DomainName, .EmailAddress, .EmailMessage, .File,
   .IPv4Address, .IPv6Address, .MACAddress, .Mutex, .NetworkTraffic, .Process, .Software, .URL,
   .UserAccount, .RegistryKey, .X509Certificate]

/-- Objects of that kind belong to the audience.  (A bundle is no object.) -/
def InAudience (s : SId) : Audience → Prop
  | .domain => s ∈ domainObjects
  | .relationship => s ∈ relationshipObjects
  | .observable => s ∈ observables
  | .bundle => False
  | .allButExtension => s ≠ .ExtensionDefinition
  | .kind t => s = t

instance (s : SId) (a : Audience) : Decidable (InAudience s a) := by
  cases a <;> unfold InAudience <;> infer_instance

/-- The name of the option function. -/
def optionName : Opt → Str
  | .field row _ => row.name
  | .extension _ _ => b!"OptionExtension"
  | .user _ => []

/-- The comment of the option function lists that kind of object. -/
def Documented (name : Str) (s : SId) : Prop :=
  ∃ e ∈ optionDocs, e.1 = name ∧ ∃ a ∈ e.2, InAudience s a

/-- Listed, but the option does not apply. -/
def wronglyListed : List (Str × List SId) :=
  [(b!"OptionBelongsTo", [.IPv4Address, .IPv6Address]),
   (b!"OptionUserID", [.Software])]

/-- Not listed, but the option applies. -/
def unlisted : List (Str × List SId) :=
  [(b!"OptionSpecVersion", .ExtensionDefinition :: observables),
   (b!"OptionCreatedBy", [.ExtensionDefinition]),
   (b!"OptionCreated", [.ExtensionDefinition]),
   (b!"OptionModified", [.ExtensionDefinition]),
   (b!"OptionRevoked", [.ExtensionDefinition]),
   (b!"OptionLabels", [.ExtensionDefinition]),
   (b!"OptionExternalReferences", [.ExtensionDefinition]),
   (b!"OptionObjectMarking", [.ExtensionDefinition]),
   (b!"OptionGranularMarking", [.ExtensionDefinition]),
   (b!"OptionDescription", [.ExtensionDefinition, .Incident]),
   (b!"OptionName", [.AttackPattern, .Campaign, .CourseOfAction, .ExtensionDefinition, .File,
     .Incident, .Identity, .Infrastructure, .IntrusionSet, .Mutex, .Report, .Software, .ThreatActor,
     .Tool, .Vulnerability]),
   (b!"OptionVersion", [.ExtensionDefinition]),
   (b!"OptionSubject", [.X509Certificate]),
   (b!"OptionUserID", [.UserAccount]),
   (b!"OptionCredential", [.UserAccount])]

/-- The table has the kind under that name. -/
def Has (table : List (Str × List SId)) (name : Str) (s : SId) : Prop :=
  ∃ e ∈ table, e.1 = name ∧ s ∈ e.2

end Stix.Spec
