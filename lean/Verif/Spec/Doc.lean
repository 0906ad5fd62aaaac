import Verif.Model.Process

/-!
# Documents (specification)

What a document says, without reference to the parser.
-/

namespace Stix.Spec
open Stix

/-- The value of a member; of several with the same name the last. -/
def member (k : Str) : List (Str × Json) → Option Json
  | [] => none
  | (k', j) :: ms =>
    match member k ms with
    | some v => some v
    | none => if k' = k then some j else none

/-- The value of a member of a JSON value. -/
def Member (j : Json) (k : Str) (v : Json) : Prop := ∃ ms, j = .obj ms ∧ member k ms = some v

/-- The value is this text. -/
def IsText (j : Json) (s : Str) : Prop := ∃ raw, j = .str raw s

/-- The text of a member. -/
def Text (j : Json) (k s : Str) : Prop := ∃ v, Member j k v ∧ IsText v s

/-- Two names that only differ in case, as `encoding/json` compares the names of members and
properties. -/
def SameUpToCase (a b : Str) : Prop := foldName a = foldName b

/-- No member has a name that is `k` up to case, other than `k`. -/
def NoVariant (j : Json) (k : Str) : Prop :=
  ∀ ms, j = .obj ms → ∀ x ∈ amKeys ms, SameUpToCase x k → x = k

/-- A bundle of the listed objects: a JSON object without repeated members with the objects in an
array, whose type and id, if there are any, are texts. -/
structure IsBundle (doc : Json) (l : List Json) : Prop where
  distinct : ∀ ms, doc = .obj ms → (amKeys ms).Nodup
  objects : Member doc (b!"objects") (.arr l)
  typ : ∀ v, Member doc (b!"type") v → ∃ s, IsText v s
  id : ∀ v, Member doc (b!"id") v → ∃ s, IsText v s
  noVariant : NoVariant doc (b!"objects") ∧ NoVariant doc (b!"type") ∧ NoVariant doc (b!"id")

/-- The document lists these objects: as an array or as a bundle. -/
def Lists (doc : Json) (l : List Json) : Prop := doc = .arr l ∨ IsBundle doc l

/-- The Go types the parser makes of the STIX types, written from the names of the
specification's object types. -/
def goTypes : List (Str × SId) :=
  [(b!"attack-pattern", .AttackPattern),
   (b!"campaign", .Campaign),
   (b!"course-of-action", .CourseOfAction),
   (b!"grouping", .Grouping),
   (b!"identity", .Identity),
   (b!"incident", .Incident),
   (b!"indicator", .Indicator),
   (b!"infrastructure", .Infrastructure),
   (b!"intrusion-set", .IntrusionSet),
   (b!"location", .Location),
   (b!"malware", .Malware),
   (b!"malware-analysis", .MalwareAnalysis),
   (b!"note", .Note),
   (b!"observed-data", .ObservedData),
   (b!"opinion", .Opinion),
   (b!"report", .Report),
   (b!"threat-actor", .ThreatActor),
   (b!"tool", .Tool),
   (b!"vulnerability", .Vulnerability),
   (b!"relationship", .Relationship),
   (b!"sighting", .Sighting),
   (b!"artifact", .Artifact),
   (b!"autonomous-system", .AutonomousSystem),
   (b!"directory", .Directory),
   (b!"domain-name", .DomainName),
   (b!"email-addr", .EmailAddress),
   (b!"email-message", .EmailMessage),
   (b!"file", .File),
   (b!"ipv4-addr", .IPv4Address),
   (b!"ipv6-addr", .IPv6Address),
   (b!"mac-addr", .MACAddress),
   (b!"mutex", .Mutex),
   (b!"network-traffic", .NetworkTraffic),
   (b!"process", .Process),
   (b!"software", .Software),
   (b!"url", .URL),
   (b!"user-account", .UserAccount),
   (b!"windows-registry-key", .RegistryKey),
   (b!"x509-certificate", .X509Certificate),
   (b!"language-content", .LanguageContent),
   (b!"marking-definition", .MarkingDefinition),
   (b!"extension-definition", .ExtensionDefinition)]

/-- The object without its extended top-level properties. -/
def core {U : Type} : Any U → Any U
  | .lib o => .lib { o with extra := none }
  | .custom m => .custom m
  | .user u _ => .user u none

/-- The options make `h` the parser for the type: it is the last one given for it. -/
def ParserFor {U : Type} (opts : List (CollOption U)) (t : Str) (h : Handler U) : Prop :=
  ∃ before after, opts = before ++ .parser t (some h) :: after ∧
    ∀ o ∈ after, ∀ h', o ≠ .parser t h'

/-- The type is left to the library: there is no parser for it. -/
def NoParser {U : Type} (opts : List (CollOption U)) (t : Str) : Prop :=
  ∀ h, ¬ ParserFor opts t h

/-- No option is a parser. -/
def NoParsers {U : Type} (opts : List (CollOption U)) : Prop :=
  ∀ o ∈ opts, ∀ t h, o ≠ .parser t h

end Stix.Spec
