import Verif.Spec.Ctor
import Verif.Spec.Float

/-!
# The rules that the documentation of the types states (specification)

The sentences with MUST in the documentation comments of the types and their properties, as far as they
are about one object and do not refer to other documents (registries, RFCs, digests).
-/

namespace Stix.Spec
open Stix

/-- A value that leaves its property out of the JSON of the object: nil, the empty string, zero.
Booleans are always written. -/
def LeftOut : GV → Prop
  | .str s => s = []
  | .int i => i = 0
  | .flt f => f64Val f = 0
  | .enum n => n = 0
  | .bin b => b = none
  | .slice l => l.isNone
  | .map m => m.isNone
  | .ptr p => p.isNone
  | _ => False

instance : DecidablePred LeftOut := fun v => by
  cases v <;> simp only [LeftOut] <;> infer_instance

/-- The object has the property. -/
def HasProp (o : Obj) (p : Str) : Prop :=
  match prop o p with
  | some v => ¬ LeftOut v
  | none => False

instance (o : Obj) (p : Str) : Decidable (HasProp o p) := by
  unfold HasProp; cases prop o p <;> infer_instance

/-- The time in a property. -/
def timeOf (o : Obj) (p : Str) : Option Int :=
  match prop o p with
  | some (.ptr (some (.time t))) => some t.ns
  | _ => none

/-- The identifiers (or other texts) in a property, one or a list. -/
def textsOf (o : Obj) (p : Str) : List Str :=
  match prop o p with
  | some (.str s) => if s = [] then [] else [s]
  | some (.slice (some l)) => l.filterMap fun v => match v with
    | .str s => some s
    | _ => none
  | _ => []

/-- A rule about one object. -/
inductive Rule
  /-- one of the properties at least -/
  | anyOf (ps : List Str)
  /-- not both properties -/
  | notBoth (p q : Str)
  /-- the first only together with the second -/
  | needs (p q : Str)
  /-- if the first is true, the second is there -/
  | ifTrue (p q : Str)
  /-- if the first has that truth value, the second is not there -/
  | ifNot (p : Str) (b : Bool) (q : Str)
  /-- an integer, if it is there, is in the range; no upper end for `none` -/
  | between (p : Str) (lo : Int) (hi : Option Int)
  /-- a number is at most that far from zero -/
  | within (p : Str) (n : Nat)
  /-- the second time is not before the first -/
  | notBefore (p q : Str)
  /-- the second time is after the first -/
  | after (p q : Str)
  /-- only references to these types -/
  | refs (p : Str) (types : List Str)
  /-- no references to these types -/
  | notRefs (p : Str) (types : List Str)
  /-- an identifier -/
  | ident (p : Str)
  /-- only `a`–`z`, `0`–`9` and `-` -/
  | chars (p : Str)
  /-- only if the second, a list, has that enumeration value -/
  | onlyWith (p q : Str) (n : UInt8)
  deriving DecidableEq

/-- The object keeps the rule. -/
def Rule.Holds (o : Obj) : Rule → Prop
  | .anyOf ps => ∃ p ∈ ps, HasProp o p
  | .notBoth p q => ¬ (HasProp o p ∧ HasProp o q)
  | .needs p q => HasProp o p → HasProp o q
  | .ifTrue p q => match prop o p with
    | some (.bool true) => HasProp o q
    | _ => True
  | .ifNot p b q => match prop o p with
    | some (.bool b') => b' = b → ¬ HasProp o q
    | _ => True
  | .between p lo hi => match prop o p with
    | some (.int i) => lo ≤ i ∧ ∀ h ∈ hi, i ≤ h
    | _ => True
  | .within p n => match prop o p with
    | some (.flt f) => -(n : ℚ) ≤ f64Val f ∧ f64Val f ≤ n
    | _ => True
  | .notBefore p q => ∀ s ∈ timeOf o p, ∀ t ∈ timeOf o q, s ≤ t
  | .after p q => ∀ s ∈ timeOf o p, ∀ t ∈ timeOf o q, s < t
  | .refs p ts => ∀ s ∈ textsOf o p, ∃ t ∈ ts, t ++ b!"--" <+: s
  | .notRefs p ts => ∀ s ∈ textsOf o p, ∀ t ∈ ts, ¬ t ++ b!"--" <+: s
  | .ident p => ∀ s ∈ textsOf o p, b!"--" <:+: s
  | .chars p => ∀ s ∈ textsOf o p, ∀ c ∈ s, (97 ≤ c ∧ c ≤ 122) ∨ (48 ≤ c ∧ c ≤ 57) ∨ c = 45
  | .onlyWith p q n => HasProp o p → match prop o q with
    | some (.slice (some l)) => ∃ v ∈ l, match v with
      | .enum m => m = n
      | _ => False
    | _ => False

/-- The properties that are the kind's own. -/
def ownProperties (s : SId) : List Str := (ownFields s).toList.map (·.key)

/-- The types that a relationship cannot point to (relationship.go:36-43). -/
def notRelatable : List Str :=
  [b!"relationship", b!"sighting", b!"bundle", b!"language-content", b!"marking-definition"]

/-- Rules that the constructors enforce. -/
def enforced : SId → List Rule
  -- artifact.go:12-32
  | .Artifact => [.anyOf [b!"payload_bin", b!"url"], .notBoth (b!"payload_bin") (b!"url"),
      .needs (b!"url") (b!"hashes")]
  -- location.go:23-62
  | .Location => [.anyOf [b!"region", b!"country", b!"latitude"], .needs (b!"latitude") (b!"longitude"),
      .needs (b!"longitude") (b!"latitude"), .within (b!"latitude") 90, .within (b!"longitude") 180,
      .needs (b!"precision") (b!"latitude")]
  -- malware.go:29-30
  | .Malware => [.ifTrue (b!"is_family") (b!"name")]
  -- malware-analysis.go:122-123
  | .MalwareAnalysis => [.anyOf [b!"result", b!"analysis_sco_refs"]]
  -- network.go:20-22
  | .NetworkTraffic => [.anyOf [b!"protocols"], .anyOf [b!"src_ref", b!"dst_ref"]]
  -- observed-data.go:49-69
  | .ObservedData => [.anyOf [b!"objects", b!"object_refs"], .notBoth (b!"objects") (b!"object_refs"),
      .between (b!"number_observed") 1 none]
  -- sighting.go:53-61, the first with "not before" for "later than"
  | .Sighting => [.notBefore (b!"first_seen") (b!"last_seen"), .between (b!"count") 0 (some 999999999)]
  -- process.go:11-12, user.go:13-15, x509.go:12-14: these have properties that are always written
  | .Process => [.anyOf (ownProperties .Process)]
  | .UserAccount => [.anyOf (ownProperties .UserAccount)]
  | .X509Certificate => [.anyOf (ownProperties .X509Certificate)]
  | _ => []

/-- Rules that they do not enforce, for particular kinds. -/
def unenforcedOwn : SId → List Rule
  -- dns.go:15-18
  | .DomainName => [.refs (b!"resolves_to_refs") [b!"ipv4-addr", b!"ipv6-addr", b!"domain-name"]]
  -- email.go:94-98
  | .EmailMessage => [.ifNot (b!"is_multipart") true (b!"body"),
      .ifNot (b!"is_multipart") false (b!"body_multipart")]
  -- extension.go:161-166
  | .ExtensionDefinition => [.onlyWith (b!"extension_properties") (b!"extension_types") 5]
  -- file.go:11-18
  | .File => [.anyOf [b!"name", b!"hashes"], .between (b!"size") 0 none]
  -- meta.go:90-92
  | .LanguageContent => [.ident (b!"object_ref")]
  -- malware.go:56-61
  | .Malware => [.refs (b!"operating_system_refs") [b!"software"]]
  -- malware-analysis.go:17-34
  | .MalwareAnalysis => [.refs (b!"host_vm_ref") [b!"software"],
      .refs (b!"operating_system_ref") [b!"software"], .refs (b!"installed_software_refs") [b!"software"]]
  -- network.go:38-43
  | .NetworkTraffic => [.between (b!"src_port") 0 (some 65535), .between (b!"dst_port") 0 (some 65535)]
  -- observed-data.go:58-61
  | .ObservedData => [.between (b!"number_observed") 1 (some 999999999)]
  -- regkey.go:11-13
  | .RegistryKey => [.anyOf (ownProperties .RegistryKey)]
  -- relationship.go:27-58
  | .Relationship => [.chars (b!"relationship_type"), .notRefs (b!"source_ref") notRelatable,
      .notRefs (b!"target_ref") notRelatable, .after (b!"start_time") (b!"stop_time")]
  -- sighting.go:53-94
  | .Sighting => [.after (b!"first_seen") (b!"last_seen"), .notRefs (b!"sighting_of_ref") notRelatable,
      .refs (b!"observed_data_refs") [b!"observed-data"],
      .refs (b!"where_sighted_refs") [b!"identity", b!"location"]]
  | _ => []

/-- Rules for all kinds with the properties: the confidence (object.go:85-88) and the time of the last
change (object.go:59-66). -/
def unenforcedCommon (s : SId) : List Rule :=
  (if b!"confidence" ∈ properties s then [.between (b!"confidence") 0 (some 100)] else []) ++
  (if b!"modified" ∈ properties s then [.notBefore (b!"created") (b!"modified")] else [])

/-- The rules that they do not enforce. -/
def unenforced (s : SId) : List Rule := unenforcedOwn s ++ unenforcedCommon s

/-- All rules for a kind of object. -/
def documented (s : SId) : List Rule := enforced s ++ unenforced s

end Stix.Spec
