import Verif.Model.Ctor
import Verif.Spec.Option
import Verif.Spec.Ident

/-!
# What constructors promise (specification)

From the STIX 2.1 specification and the documentation comments of the constructors, in terms of
JSON properties.
-/

namespace Stix.Spec
open Stix

/-- What a constructor makes: the Go type, the STIX type, and the properties that its arguments
are. -/
structure Promise where
  kind : SId
  type : Str
  args : List (Str × GV)

/-- The promise of each constructor. -/
def promise : Ctor → Promise
  | .attackPattern n => ⟨.AttackPattern, b!"attack-pattern", [(b!"name", .str n)]⟩
  | .campaign n => ⟨.Campaign, b!"campaign", [(b!"name", .str n)]⟩
  | .courseOfAction n => ⟨.CourseOfAction, b!"course-of-action", [(b!"name", .str n)]⟩
  | .grouping c os => ⟨.Grouping, b!"grouping", [(b!"context", .str c), (b!"object_refs", gvStrs os)]⟩
  | .identity n => ⟨.Identity, b!"identity", [(b!"name", .str n)]⟩
  | .incident n => ⟨.Incident, b!"incident", [(b!"name", .str n)]⟩
  | .indicator p pt vf => ⟨.Indicator, b!"indicator", [(b!"pattern", .str p), (b!"pattern_type", .str pt), (b!"valid_from", .ptr (vf.map .time))]⟩
  | .infrastructure n => ⟨.Infrastructure, b!"infrastructure", [(b!"name", .str n)]⟩
  | .intrusionSet n => ⟨.IntrusionSet, b!"intrusion-set", [(b!"name", .str n)]⟩
  | .location r c lat long => ⟨.Location, b!"location", [(b!"region", .str r), (b!"country", .str c), (b!"latitude", .flt lat), (b!"longitude", .flt long)]⟩
  | .malware f => ⟨.Malware, b!"malware", [(b!"is_family", .bool f)]⟩
  | .malwareAnalysis p r s => ⟨.MalwareAnalysis, b!"malware-analysis", [(b!"product", .str p), (b!"result", .str r), (b!"analysis_sco_refs", gvStrs s)]⟩
  | .note c os => ⟨.Note, b!"note", [(b!"content", .str c), (b!"object_refs", gvStrs os)]⟩
  | .observedData f l n r => ⟨.ObservedData, b!"observed-data", [(b!"first_observed", .ptr (f.map .time)), (b!"last_observed", .ptr (l.map .time)), (b!"number_observed", .int n), (b!"object_refs", gvStrs r)]⟩
  | .opinion v os => ⟨.Opinion, b!"opinion", [(b!"opinion", .enum v), (b!"object_refs", gvStrs os)]⟩
  | .report n p os => ⟨.Report, b!"report", [(b!"name", .str n), (b!"published", .ptr (p.map .time)), (b!"object_refs", gvStrs os)]⟩
  | .threatActor n => ⟨.ThreatActor, b!"threat-actor", [(b!"name", .str n)]⟩
  | .tool n => ⟨.Tool, b!"tool", [(b!"name", .str n)]⟩
  | .vulnerability n => ⟨.Vulnerability, b!"vulnerability", [(b!"name", .str n)]⟩
  | .relationship r s t => ⟨.Relationship, b!"relationship", [(b!"relationship_type", .str r), (b!"source_ref", .str s), (b!"target_ref", .str t)]⟩
  | .sighting s => ⟨.Sighting, b!"sighting", [(b!"sighting_of_ref", .str s)]⟩
  | .languageContent o c => ⟨.LanguageContent, b!"language-content", [(b!"object_ref", .str o), (b!"contents", .map c)]⟩
  | .markingDefinition t d => ⟨.MarkingDefinition, b!"marking-definition", [(b!"definition_type", .str t), (b!"definition", .dyn d)]⟩
  | .extensionDefinition n s v e => ⟨.ExtensionDefinition, b!"extension-definition", [(b!"name", .str n), (b!"schema", .str s), (b!"version", .str v), (b!"extension_types", .slice (e.map (·.map .enum)))]⟩
  | .autonomousSystem n => ⟨.AutonomousSystem, b!"autonomous-system", [(b!"number", .int n)]⟩
  | .directory v => ⟨.Directory, b!"directory", [(b!"path", .str v)]⟩
  | .domainName v => ⟨.DomainName, b!"domain-name", [(b!"value", .str v)]⟩
  | .emailAddress v => ⟨.EmailAddress, b!"email-addr", [(b!"value", .str v)]⟩
  | .ipv4 v => ⟨.IPv4Address, b!"ipv4-addr", [(b!"value", .str v)]⟩
  | .ipv6 v => ⟨.IPv6Address, b!"ipv6-addr", [(b!"value", .str v)]⟩
  | .mac v => ⟨.MACAddress, b!"mac-addr", [(b!"value", .str v)]⟩
  | .mutex v => ⟨.Mutex, b!"mutex", [(b!"name", .str v)]⟩
  | .url v => ⟨.URL, b!"url", [(b!"value", .str v)]⟩
  | .artifact => ⟨.Artifact, b!"artifact", []⟩
  | .emailMessage m => ⟨.EmailMessage, b!"email-message", [(b!"is_multipart", .bool m)]⟩
  | .file n h => ⟨.File, b!"file", [(b!"name", .str n), (b!"hashes", gvHashes h)]⟩
  | .networkTraffic p => ⟨.NetworkTraffic, b!"network-traffic", [(b!"protocols", gvStrs p)]⟩
  | .process => ⟨.Process, b!"process", []⟩
  | .registryKey => ⟨.RegistryKey, b!"windows-registry-key", []⟩
  | .software n => ⟨.Software, b!"software", [(b!"name", .str n)]⟩
  | .userAccount => ⟨.UserAccount, b!"user-account", []⟩
  | .x509 => ⟨.X509Certificate, b!"x509-certificate", []⟩

/-- The properties every constructor fills in, where objects of the kind have them. -/
def defaults (now : GoTime) : List (Str × GV) :=
  [(b!"spec_version", .str (b!"2.1")), (b!"created", .ptr (some (.time now))),
   (b!"modified", .ptr (some (.time now)))]

/-- No option in the list is for the property. -/
def Untouched (s : SId) (opts : List (Option Opt)) (p : Str) : Prop :=
  ∀ opt, some opt ∈ opts → target s opt ≠ some p

/-- The value that the last option for the property gives. -/
def lastSet (s : SId) (p : Str) : List (Option Opt) → Option GV
  | [] => none
  | some (.field row v) :: opts =>
    match lastSet s p opts with
    | some w => some w
    | none => if optionProperty s row.name = some p then some v else none
  | _ :: opts => lastSet s p opts

/-- All options in the list come from the library. -/
def AllLibrary (opts : List (Option Opt)) : Prop := ∀ opt, some opt ∈ opts → Library opt

/-- The properties that contribute to the identifier of an observable, from the STIX 2.1
specification, except that the `swid` of software is left out (`c69_swid`); `none` for kinds whose
identifier is random. -/
def contributing : SId → Option (List Str)
  | .Artifact => some [b!"hashes", b!"payload_bin"]
  | .AutonomousSystem => some [b!"number"]
  | .Directory => some [b!"path"]
  | .DomainName => some [b!"value"]
  | .EmailAddress => some [b!"value"]
  | .EmailMessage => some [b!"from_ref", b!"subject", b!"body"]
  | .File => some [b!"hashes", b!"name", b!"extensions", b!"parent_directory_ref"]
  | .IPv4Address => some [b!"value"]
  | .IPv6Address => some [b!"value"]
  | .MACAddress => some [b!"value"]
  | .Mutex => some [b!"name"]
  | .NetworkTraffic => some [b!"start", b!"end", b!"src_ref", b!"dst_ref", b!"src_port", b!"dst_port",
      b!"protocols", b!"extensions"]
  | .Software => some [b!"name", b!"cpe", b!"vendor", b!"version"]
  | .URL => some [b!"value"]
  | .UserAccount => some [b!"account_type", b!"user_id", b!"account_login"]
  | .RegistryKey => some [b!"key", b!"values"]
  | .X509Certificate => some [b!"hashes", b!"serial_number"]
  | _ => none

/-- The hash that stands for a set of hashes in an identifier: the first of MD5, SHA-1, SHA-256 and
SHA-512 that is there. -/
def preferredHash (h : Str → Option Str) : Option (Str × Str) :=
  [b!"MD5", b!"SHA-1", b!"SHA-256", b!"SHA-512"].findSome? fun a => (h a).map fun v => (a, v)

/-- The text of a string value. -/
def textOf : GV → Str
  | .str s => s
  | _ => []

/-- The value an algorithm has in a property that holds hashes. -/
def hashOf (v : Option GV) (alg : Str) : Option Str := (amLookup alg (entries v)).map textOf

/-- The surroundings are as they should be: a UUID has 16 random bytes and SHA-1 gives 20. -/
def Sane (env : Env) : Prop := env.rnd.length = 16 ∧ ∀ x, (env.sha1 x).length = 20

end Stix.Spec
