import Verif.Model.Ctor
import Verif.Props.Option

/-!
# Constructors in a common form

Each constructor is: a test of the arguments, a composite literal, the options, and a
continuation.
-/

namespace Stix
open Spec

/-- The kind a constructor makes. -/
def Ctor.kind : Ctor → SId
  | .attackPattern _ => .AttackPattern
  | .campaign _ => .Campaign
  | .courseOfAction _ => .CourseOfAction
  | .grouping _ _ => .Grouping
  | .identity _ => .Identity
  | .incident _ => .Incident
  | .indicator _ _ _ => .Indicator
  | .infrastructure _ => .Infrastructure
  | .intrusionSet _ => .IntrusionSet
  | .location _ _ _ _ => .Location
  | .malware _ => .Malware
  | .malwareAnalysis _ _ _ => .MalwareAnalysis
  | .note _ _ => .Note
  | .observedData _ _ _ _ => .ObservedData
  | .opinion _ _ => .Opinion
  | .report _ _ _ => .Report
  | .threatActor _ => .ThreatActor
  | .tool _ => .Tool
  | .vulnerability _ => .Vulnerability
  | .relationship _ _ _ => .Relationship
  | .sighting _ => .Sighting
  | .languageContent _ _ => .LanguageContent
  | .markingDefinition _ _ => .MarkingDefinition
  | .extensionDefinition _ _ _ _ => .ExtensionDefinition
  | .autonomousSystem _ => .AutonomousSystem
  | .directory _ => .Directory
  | .domainName _ => .DomainName
  | .emailAddress _ => .EmailAddress
  | .ipv4 _ => .IPv4Address
  | .ipv6 _ => .IPv6Address
  | .mac _ => .MACAddress
  | .mutex _ => .Mutex
  | .url _ => .URL
  | .artifact => .Artifact
  | .emailMessage _ => .EmailMessage
  | .file _ _ => .File
  | .networkTraffic _ => .NetworkTraffic
  | .process => .Process
  | .registryKey => .RegistryKey
  | .software _ => .Software
  | .userAccount => .UserAccount
  | .x509 => .X509Certificate

/-- The type a constructor writes. -/
def Ctor.typ : Ctor → Str
  | .attackPattern _ => TypeAttackPattern
  | .campaign _ => TypeCampaign
  | .courseOfAction _ => TypeCourseOfAction
  | .grouping _ _ => TypeGrouping
  | .identity _ => TypeIdentity
  | .incident _ => TypeIncident
  | .indicator _ _ _ => TypeIndicator
  | .infrastructure _ => TypeInfrastructure
  | .intrusionSet _ => TypeIntrusionSet
  | .location _ _ _ _ => TypeLocation
  | .malware _ => TypeMalware
  | .malwareAnalysis _ _ _ => TypeMalwareAnalysis
  | .note _ _ => TypeNote
  | .observedData _ _ _ _ => TypeObservedData
  | .opinion _ _ => TypeOpinion
  | .report _ _ _ => TypeReport
  | .threatActor _ => TypeThreatActor
  | .tool _ => TypeTool
  | .vulnerability _ => TypeVulnerability
  | .relationship _ _ _ => TypeRelationship
  | .sighting _ => TypeSighting
  | .languageContent _ _ => TypeLanguageContent
  | .markingDefinition _ _ => TypeMarkingDefinition
  | .extensionDefinition _ _ _ _ => TypeExtensionDefinition
  | .autonomousSystem _ => TypeAutonomousSystem
  | .directory _ => TypeDirectory
  | .domainName _ => TypeDomainName
  | .emailAddress _ => TypeEmailAddress
  | .ipv4 _ => TypeIPv4Addr
  | .ipv6 _ => TypeIPv6Addr
  | .mac _ => TypeMACAddress
  | .mutex _ => TypeMutex
  | .url _ => TypeURL
  | .artifact => TypeArtifact
  | .emailMessage _ => TypeEmailMessage
  | .file _ _ => TypeFile
  | .networkTraffic _ => TypeNetworkTraffic
  | .process => TypeProcess
  | .registryKey => TypeRegistryKey
  | .software _ => TypeSoftware
  | .userAccount => TypeUserAccount
  | .x509 => TypeX509Certificate

/-- The fields beyond the common ones. -/
def Ctor.own : Ctor → List (Str × GV)
  | .attackPattern n => [(b!"Name", .str n)]
  | .campaign n => [(b!"Name", .str n)]
  | .courseOfAction n => [(b!"Name", .str n)]
  | .grouping c os => [(b!"Context", .str c), (b!"Objects", gvStrs os)]
  | .identity n => [(b!"Name", .str n)]
  | .incident n => [(b!"Name", .str n)]
  | .indicator p pt vf => [(b!"Pattern", .str p), (b!"PatternType", .str pt), (b!"ValidFrom", .ptr (vf.map .time))]
  | .infrastructure n => [(b!"Name", .str n)]
  | .intrusionSet n => [(b!"Name", .str n)]
  | .location r c lat long => [(b!"Region", .str r), (b!"Country", .str c), (b!"Latitude", .flt lat), (b!"Longitude", .flt long)]
  | .malware f => [(b!"IsFamily", .bool f)]
  | .malwareAnalysis p r s => [(b!"Product", .str p), (b!"AnalysisSCOs", gvStrs s), (b!"Result", .str r)]
  | .note c os => [(b!"Content", .str c), (b!"Objects", gvStrs os)]
  | .observedData f l n r => [(b!"FirstObserved", .ptr (f.map .time)), (b!"LastObserved", .ptr (l.map .time)), (b!"NumberObserved", .int n), (b!"ObjectRefs", gvStrs r)]
  | .opinion v os => [(b!"Value", .enum v), (b!"Objects", gvStrs os)]
  | .report n p os => [(b!"Name", .str n), (b!"Published", .ptr (p.map .time)), (b!"Objects", gvStrs os)]
  | .threatActor n => [(b!"Name", .str n)]
  | .tool n => [(b!"Name", .str n)]
  | .vulnerability n => [(b!"Name", .str n)]
  | .relationship r s t => [(b!"Source", .str s), (b!"Target", .str t), (b!"RelationshipType", .str r)]
  | .sighting s => [(b!"SightingOf", .str s)]
  | .languageContent o c => [(b!"Object", .str o), (b!"Contents", .map c)]
  | .markingDefinition t d => [(b!"DefinitionType", .str t), (b!"Definition", .dyn d)]
  | .extensionDefinition n s v e => [(b!"Name", .str n), (b!"Schema", .str s), (b!"Version", .str v), (b!"ExtensionTypes", .slice (e.map (·.map .enum)))]
  | .autonomousSystem n => [(b!"Number", .int n)]
  | .directory p => [(b!"Path", .str p)]
  | .domainName v => [(b!"Value", .str v)]
  | .emailAddress v => [(b!"Value", .str v)]
  | .ipv4 v => [(b!"Value", .str v)]
  | .ipv6 v => [(b!"Value", .str v)]
  | .mac v => [(b!"Value", .str v)]
  | .mutex v => [(b!"Name", .str v)]
  | .url v => [(b!"Value", .str v)]
  | .artifact => []
  | .emailMessage m => [(b!"IsMultipart", .bool m)]
  | .file n h => [(b!"Name", .str n), (b!"Hashes", gvHashes h)]
  | .networkTraffic p => [(b!"Protocols", gvStrs p)]
  | .process => []
  | .registryKey => []
  | .software n => [(b!"Name", .str n)]
  | .userAccount => []
  | .x509 => []

/-- The common fields. -/
def Ctor.common (env : Env) (c : Ctor) : List (Str × GV) :=
  match c with
  | .markingDefinition _ _ =>
    [(b!"Type", .str TypeMarkingDefinition),
     (b!"ID", .str (newIdentifier env.rnd TypeMarkingDefinition)),
     (b!"SpecVersion", .str specVersion21), (b!"Created", gvTime env.now)]
  | .process => scoLit TypeProcess ++ [(b!"ID", .str (newIdentifier env.rnd TypeProcess))]
  | c => if baseOf c.kind = .sco then scoLit c.typ else baseLit env c.typ

/-- The object before the options. -/
def Ctor.base (env : Env) (c : Ctor) : Obj := Obj.lit c.kind (c.common env ++ c.own)

/-- The test of the arguments, given the number of options. -/
def Ctor.pre (nopts : Nat) : Ctor → Option Err
  | .attackPattern n => if n = [] then some .propertyMissing else none
  | .campaign n => if n = [] then some .propertyMissing else none
  | .courseOfAction n => if n = [] then some .propertyMissing else none
  | .grouping c os => if c = [] ∨ os.getD [] = [] then some .propertyMissing else none
  | .identity n => if n = [] then some .propertyMissing else none
  | .incident n => if n = [] then some .propertyMissing else none
  | .indicator p pt vf => if p = [] ∨ pt = [] ∨ vf = none then some .propertyMissing else none
  | .infrastructure n => if n = [] then some .propertyMissing else none
  | .intrusionSet n => if n = [] then some .propertyMissing else none
  | .location r c lat long =>
    if r = [] ∧ c = [] ∧ fltEq lat 0 ∧ fltEq long 0 then some .propertyMissing
    else if fltLt lat fltNeg90 || fltLt flt90 lat || fltLt long fltNeg180 || fltLt flt180 long ||
      (fltEq lat 0 && !fltEq long 0) || (!fltEq lat 0 && fltEq long 0) then some .invalidProperty
    else none
  | .malware _ => none
  | .malwareAnalysis p r s => if p = [] ∨ (s.getD [] = [] ∧ r = []) then some .propertyMissing else none
  | .note _ os => if os.getD [] = [] then some .propertyMissing else none
  | .observedData f l n r => if r.getD [] = [] ∨ f = none ∨ l = none ∨ n < 1 then some .propertyMissing else none
  | .opinion _ os => if os.getD [] = [] then some .propertyMissing else none
  | .report n p os => if n = [] ∨ p = none ∨ os.getD [] = [] then some .propertyMissing else none
  | .threatActor n => if n = [] then some .propertyMissing else none
  | .tool n => if n = [] then some .propertyMissing else none
  | .vulnerability n => if n = [] then some .propertyMissing else none
  | .relationship r s t => if r = [] ∨ s = [] ∨ t = [] then some .propertyMissing else none
  | .sighting s => if s = [] then some .propertyMissing else none
  | .languageContent o c => if o = [] ∨ c.isNone then some .propertyMissing else none
  | .markingDefinition t d => if t = [] ∨ d.isNil then some .propertyMissing else none
  | .extensionDefinition n s v e => if n = [] ∨ s = [] ∨ v = [] ∨ e.getD [] = [] then some .invalidParameter else none
  | .autonomousSystem n => if n = 0 then some .invalidParameter else none
  | .directory p => if p = [] then some .invalidParameter else none
  | .domainName v => if v = [] then some .invalidParameter else none
  | .emailAddress v => if v = [] then some .invalidParameter else none
  | .ipv4 v => if v = [] then some .invalidParameter else none
  | .ipv6 v => if v = [] then some .invalidParameter else none
  | .mac v => if v = [] then some .invalidParameter else none
  | .mutex v => if v = [] then some .invalidParameter else none
  | .url v => if v = [] then some .invalidParameter else none
  | .artifact => none
  | .emailMessage _ => none
  | .file n h => if n = [] ∧ h = none then some .invalidParameter else none
  | .networkTraffic p => if p.getD [] = [] then some .invalidParameter else none
  | .process => if nopts < 1 then some .propertyMissing else none
  | .registryKey => if nopts = 0 then some .propertyMissing else none
  | .software n => if n = [] then some .invalidParameter else none
  | .userAccount => if nopts = 0 then some .propertyMissing else none
  | .x509 => if nopts = 0 then some .propertyMissing else none

/-- The text hashed for the identifier; `none` for constructors that do not hash. -/
def Ctor.text (env : Env) (c : Ctor) (o : Obj) : Option (Res Str) :=
  match c with
  | .autonomousSystem n => some (.ok (b!"[" ++ intLit n ++ b!"]"))
  | .directory v => some (.ok (bracketQuoted v))
  | .domainName v => some (.ok (bracketQuoted v))
  | .emailAddress v => some (.ok (bracketQuoted v))
  | .ipv4 v => some (.ok (bracketQuoted v))
  | .ipv6 v => some (.ok (bracketQuoted v))
  | .mac v => some (.ok (bracketQuoted v))
  | .mutex v => some (.ok (bracketQuoted v))
  | .url v => some (.ok (bracketQuoted v))
  | .artifact => some (.ok (artifactContrib o))
  | .emailMessage _ => some (.ok (emailMessageContrib o))
  | .file _ _ => some (.ok (fileContrib env.F o))
  | .networkTraffic _ => some (.ok (networkContrib env.F o))
  | .registryKey => some (registryContrib o)
  | .software _ => some (.ok (softwareContrib o))
  | .userAccount => some (.ok (userContrib o))
  | .x509 => some (.ok (x509Contrib o))
  | _ => none

/-- The tests after the options. -/
def Ctor.check (c : Ctor) (o : Obj) (e : Option Err) : Option Err :=
  match c with
  | .campaign _ => if seenWrong o then some .invalidProperty else none
  | .location _ _ lat long =>
    if !fltEq (o.getFlt (b!"Precision")) 0 && (fltEq lat 0 || fltEq long 0) then some .invalidProperty
    else none
  | .malware f => if f && o.getStr (b!"Name") = [] then some .invalidProperty else none
  | .sighting _ => match e with
    | some e => some e
    | none =>
      if o.getInt (b!"Count") < 0 ∨ o.getInt (b!"Count") > 999999999 then some .invalidProperty
      else if seenWrong o then some .invalidProperty
      else none
  | .artifact => match e with
    | some e => some e
    | none =>
      if (o.getBin (b!"Payload")).isNone && o.getStr (b!"URL") = [] then some .propertyMissing
      else if (o.getBin (b!"Payload")).isSome && o.getStr (b!"URL") ≠ [] then some .invalidParameter
      else if o.getStr (b!"URL") ≠ [] && (o.getHashes (b!"Hashes")).isNone then some .propertyMissing
      else none
  | .networkTraffic _ => match e with
    | some e => some e
    | none => if o.getStr (b!"Src") = [] && o.getStr (b!"Dst") = [] then some .other else none
  | _ => none

/-- Everything after the options. -/
def Ctor.post (env : Env) (c : Ctor) (o : Obj) (e : Option Err) : Ret :=
  match c.check o e with
  | some e => .fail e
  | none =>
    match c.text env o with
    | none => .ret (some o) e
    | some (.ok t) => .ret (some (setObsID env o t c.typ)) e
    | some _ => .panic

theorem withOptions_congr {o : Obj} {opts : List (Option Opt)} {k k' : Obj → Option Err → Ret}
    (h : ∀ o e, k o e = k' o e) : withOptions o opts k = withOptions o opts k' := by
  have : k = k' := by funext o e; exact h o e
  rw [this]

theorem if_to_match {p q : Prop} [Decidable p] [Decidable q] {e e' : Err} {a b : Ret} (hpq : p ↔ q)
    (hab : (¬ p) → a = b) (he : e = e' := by rfl) : (if p then Ret.fail e else a) =
      match (if q then some e' else none) with
      | some e => Ret.fail e
      | none => b := by
  subst he
  by_cases h : p
  · rw [if_pos h, if_pos (hpq.1 h)]
  · rw [if_neg h, if_neg (fun h' => h (hpq.2 h'))]; exact hab h

theorem run_eq (env : Env) (c : Ctor) (opts : List (Option Opt)) :
    c.run env opts = match c.pre opts.length with
      | some e => .fail e
      | none => withOptions (c.base env) opts (c.post env) := by
  cases c
  case malware f =>
    simp only [Ctor.run, Ctor.pre, newMalware]
    apply withOptions_congr; intro o e
    simp only [Ctor.post, Ctor.check, Ctor.text]
    split <;> simp_all
  case artifact =>
    simp only [Ctor.run, Ctor.pre, newArtifact]
    apply withOptions_congr; intro o e
    cases e with
    | some e => rfl
    | none =>
      simp only [Ctor.post, Ctor.check, Ctor.text]
      split
      · rfl
      · split
        · rfl
        · split <;> rfl
  case emailMessage m => rfl
  case location r co lat long =>
    simp only [Ctor.run, Ctor.pre, newLocation]
    by_cases h : r = [] ∧ co = [] ∧ fltEq lat 0 = true ∧ fltEq long 0 = true
    · rw [if_pos h]; obtain ⟨a, b, c, d⟩ := h; simp [a, b, c, d]
    · rw [if_neg h, if_neg (by simpa [and_assoc] using h)]
      split
      · rfl
      · apply withOptions_congr; intro o e
        simp only [Ctor.post, Ctor.check, Ctor.text]
        split <;> simp_all
  case campaign n =>
    simp only [Ctor.run, Ctor.pre, newCampaign]
    split
    · rfl
    · apply withOptions_congr; intro o e
      simp only [Ctor.post, Ctor.check, Ctor.text]
      split <;> simp_all
  case sighting n =>
    simp only [Ctor.run, Ctor.pre, newSighting]
    split
    · rfl
    · apply withOptions_congr; intro o e
      cases e with
      | some e => rfl
      | none =>
        simp only [Ctor.post, Ctor.check, Ctor.text]
        split
        · rfl
        · split <;> rfl
  case networkTraffic p =>
    simp only [Ctor.run, Ctor.pre, newNetworkTraffic]
    split
    · rfl
    · apply withOptions_congr; intro o e
      cases e with
      | some e => rfl
      | none =>
        simp only [Ctor.post, Ctor.check, Ctor.text]
        split <;> rfl
  case registryKey =>
    simp only [Ctor.run, Ctor.pre, newRegistryKey]
    split
    · rfl
    · apply withOptions_congr; intro o e
      simp only [Ctor.post, Ctor.check, Ctor.text]
      cases registryContrib o <;> rfl
  all_goals
    simp only [Ctor.run, Ctor.pre, newAttackPattern, newCourseOfAction, newGrouping, newIdentity,
      newIncident, newIndicator, newInfrastructure, newIntrusionSet, newMalwareAnalysis, newNote,
      newObservedData, newOpinion, newReport, newThreatActor, newTool, newVulnerability,
      newRelationship, newLanguageContent, newMarkingDefinition, newExtensionDefinition,
      newAutonomousSystem, newDirectory, newDomainName, newEmailAddress, newIPv4Address,
      newIPv6Address, newMACAddress, newMutex, newURL, newFile, newProcess, newSoftware,
      newUserAccount, newX509Certificate, newSDO, newSimpleSCO]
    refine if_to_match ?_ ?_
    · simp [Option.isNone_iff_eq_none, or_assoc]
    · intro _; rfl

/-! ### Reading composite literals -/

theorem lit_sid (s : SId) (fs : List (Str × GV)) : (Obj.lit s fs).sid = s := by
  have : ∀ (fs : List (Str × GV)) (o : Obj),
      (fs.foldl (fun o e => o.set e.1 e.2) o).sid = o.sid := by
    intro fs
    induction fs with
    | nil => intro o; rfl
    | cons e fs ih => intro o; rw [List.foldl_cons, ih]; rfl
  exact this fs _

theorem lit_extra (s : SId) (fs : List (Str × GV)) : (Obj.lit s fs).extra = none := by
  have : ∀ (fs : List (Str × GV)) (o : Obj),
      (fs.foldl (fun o e => o.set e.1 e.2) o).extra = o.extra := by
    intro fs
    induction fs with
    | nil => intro o; rfl
    | cons e fs ih => intro o; rw [List.foldl_cons, ih]; rfl
  exact this fs _

/-- The last value given to a field. -/
def litLookup (n : Str) : List (Str × GV) → Option GV
  | [] => none
  | e :: fs => match litLookup n fs with
    | some v => some v
    | none => if n = e.1 then some e.2 else none

theorem lit_val (s : SId) (fs : List (Str × GV)) (n : Str) :
    (Obj.lit s fs).val n = (litLookup n fs).getD (zeroVal (objFields s) n) := by
  have : ∀ (fs : List (Str × GV)) (o : Obj),
      (fs.foldl (fun o e => o.set e.1 e.2) o).val n = (litLookup n fs).getD (o.val n) := by
    intro fs
    induction fs with
    | nil => intro o; rfl
    | cons e fs ih =>
      intro o; rw [List.foldl_cons, ih]
      simp only [litLookup]
      cases litLookup n fs with
      | some v => rfl
      | none =>
        by_cases h : n = e.1
        · rw [if_pos h, h]; exact set_val _ _ _
        · rw [if_neg h]; exact set_val_ne _ _ h
  exact this fs _

/-- The kind has a field of that Go name and JSON name. -/
def hasField (s : SId) (n k : Str) : Bool := (objFields s).any fun f => f.name == n && f.key == k

theorem prop_of {o : Obj} {n k : Str} (h : hasField o.sid n k = true) : prop o k = some (o.val n) := by
  obtain ⟨f, hf, he⟩ := List.any_eq_true.1 h
  simp only [Bool.and_eq_true, beq_iff_eq] at he
  obtain ⟨rfl, rfl⟩ := he
  exact prop_field hf

theorem hasField_id_type (s : SId) :
    hasField s (b!"ID") (b!"id") = true ∧ hasField s (b!"Type") (b!"type") = true := by
  have h : ∀ s ∈ allSIds,
      hasField s (b!"ID") (b!"id") = true ∧ hasField s (b!"Type") (b!"type") = true := by
    decide +kernel
  exact h s (mem_allSIds s)

theorem prop_id (o : Obj) : prop o (b!"id") = some (o.val (b!"ID")) := prop_of (hasField_id_type _).1
theorem prop_type (o : Obj) : prop o (b!"type") = some (o.val (b!"Type")) :=
  prop_of (hasField_id_type _).2

/-- No option is for the id or the type. -/
theorem target_ne (opt : Opt) (hl : Library opt) (s : SId) :
    target s opt ≠ some (b!"id") ∧ target s opt ≠ some (b!"type") := by
  constructor
  · intro h
    exact ((c16_option_frame opt hl (zeroObj s)).2.2 _ h).1 rfl
  · intro h
    exact ((c16_option_frame opt hl (zeroObj s)).2.2 _ h).2.1 rfl

theorem options_id_type {o o' : Obj} {opts : List (Option Opt)} {r : Res Unit}
    (hl : ∀ opt, some opt ∈ opts → Library opt) (h : applyOptions o opts = (o', r)) :
    o'.sid = o.sid ∧ o'.extra = o.extra ∧ o'.val (b!"ID") = o.val (b!"ID") ∧
      o'.val (b!"Type") = o.val (b!"Type") := by
  have h1 := applyOptions_sid o opts hl
  have h2 := c17_untouched o opts hl (b!"id") (fun opt ho => (target_ne opt (hl opt ho) _).1)
  have h3 := c17_untouched o opts hl (b!"type") (fun opt ho => (target_ne opt (hl opt ho) _).2)
  rw [h] at h1 h2 h3
  rw [prop_id, prop_id] at h2
  rw [prop_type, prop_type] at h3
  exact ⟨h1.1, h1.2, Option.some.inj h2, Option.some.inj h3⟩

/-- What an error-free run of a constructor did. -/
theorem run_ok {env : Env} {c : Ctor} {opts : List (Option Opt)} {x : Option Obj}
    (h : c.run env opts = .ret x none) :
    c.pre opts.length = none ∧ ∃ o', applyOptions (c.base env) opts = (o', .ok ()) ∧
      c.check o' none = none ∧
      ((c.text env o' = none ∧ x = some o') ∨
       ∃ t, c.text env o' = some (.ok t) ∧ x = some (setObsID env o' t c.typ)) := by
  rw [run_eq] at h
  cases hp : c.pre opts.length with
  | some e => rw [hp] at h; cases h
  | none =>
    rw [hp] at h
    refine ⟨rfl, ?_⟩
    simp only [withOptions] at h
    rcases ha : applyOptions (c.base env) opts with ⟨o', r⟩
    rw [ha] at h
    cases r with
    | ok u =>
      refine ⟨o', rfl, ?_⟩
      simp only [Ctor.post] at h
      cases hc : c.check o' none with
      | some e => rw [hc] at h; cases h
      | none =>
        rw [hc] at h
        refine ⟨rfl, ?_⟩
        cases ht : c.text env o' with
        | none => rw [ht] at h; cases h; exact .inl ⟨rfl, rfl⟩
        | some t =>
          rw [ht] at h
          cases t with
          | ok t => cases h; exact .inr ⟨t, rfl, rfl⟩
          | err e => cases h
          | panic => cases h
    | err e =>
      simp only [Ctor.post] at h
      cases hc : c.check o' (some e) with
      | some e => rw [hc] at h; cases h
      | none =>
        rw [hc] at h
        cases ht : c.text env o' with
        | none => rw [ht] at h; cases h
        | some t => rw [ht] at h; cases t <;> cases h
    | panic => cases h

theorem base_sid (env : Env) (c : Ctor) : (c.base env).sid = c.kind := lit_sid _ _

theorem base_type (env : Env) (c : Ctor) : (c.base env).val (b!"Type") = .str c.typ := by
  rw [Ctor.base, lit_val]
  cases c <;> rfl

/-- Constructors that do not hash draw a random identifier. -/
theorem base_id (env : Env) (c : Ctor) (o : Obj) (h : c.text env o = none) :
    (c.base env).val (b!"ID") = .str (newIdentifier env.rnd c.typ) := by
  rw [Ctor.base, lit_val]
  cases c <;> first | rfl | cases h

theorem typ_mem (c : Ctor) : c.typ ∈ typeConsts := by
  cases c <;> (simp only [Ctor.typ]; decide +kernel)

end Stix
