import Verif.Model.Marshal
import Verif.Model.Collection
import Verif.Gen.TypeConsts

/-!
# Constructors

Every `NewX` of the library.  A constructor returns a pointer and an error, and several return
both; `Ret` keeps both.
-/

namespace Stix

/-- What a constructor takes from its surroundings: the random bytes of the UUID, the clock,
SHA-1, and the float formatting of `strconv`. -/
structure Env where
  rnd : List UInt8
  now : GoTime
  sha1 : Str → List UInt8
  F : Canon.FloatFmt

/-- The two results of a constructor: `none` is a nil pointer, resp. a nil error. -/
inductive Ret where
  | ret (obj : Option Obj) (err : Option Err)
  | panic

/-- `return nil, e` -/
def Ret.fail (e : Err) : Ret := .ret none (some e)

/-- `err := applyOptions(obj, opts)` followed by `k`. -/
def withOptions (o : Obj) (opts : List (Option Opt)) (k : Obj → Option Err → Ret) : Ret :=
  match applyOptions o opts with
  | (o', .ok _) => k o' none
  | (o', .err e) => k o' (some e)
  | (_, .panic) => .panic

/-- Composite literal: the listed fields, others zero. -/
def Obj.lit (s : SId) (fs : List (Str × GV)) : Obj :=
  fs.foldl (fun o e => o.set e.1 e.2) (zeroObj s)

/-- `&Timestamp{t}` -/
def gvTime (t : GoTime) : GV := .ptr (some (.time t))

/-- `[]string`, `[]Identifier` -/
def gvStrs (l : Option (List Str)) : GV := .slice (l.map (·.map .str))

/-- `Hashes` -/
def gvHashes (m : Option (List (Str × Str))) : GV := .map (m.map (·.map fun e => (e.1, .str e.2)))

/-- `SpecVersion21` (data-types.go) -/
def specVersion21 : Str := b!"2.1"

/-- The fields set by `newSTIXDomainObject` (object.go:158-168), `newSTIXRelationshipObject`
(object.go:20-30) and literally in the constructors of the other kinds that have them. -/
def baseLit (env : Env) (typ : Str) : List (Str × GV) :=
  [(b!"Type", .str typ), (b!"ID", .str (newIdentifier env.rnd typ)),
   (b!"SpecVersion", .str specVersion21),
   (b!"Created", gvTime env.now), (b!"Modified", gvTime env.now)]

/-- The fields set by `newSTIXCyberObservableObject` (object.go:417-422). -/
def scoLit (typ : Str) : List (Str × GV) :=
  [(b!"Type", .str typ), (b!"SpecVersion", .str specVersion21)]

/-! ### Reading fields -/

/-- A field of kind string. -/
def Obj.getStr (o : Obj) (n : Str) : Str := match o.val n with
  | .str s => s
  | _ => []

/-- `GetID` and `GetType` of every object kind (object.go:125-132, 288-295, 381-388,
meta.go:150-157, 286-293, extension.go:198-205): the fields. -/
instance : StixObject Obj := ⟨fun o => o.getStr (b!"ID"), fun o => o.getStr (b!"Type")⟩

/-- A field of kind int. -/
def Obj.getInt (o : Obj) (n : Str) : Int := match o.val n with
  | .int i => i
  | _ => 0

/-- A field of kind float64. -/
def Obj.getFlt (o : Obj) (n : Str) : F64 := match o.val n with
  | .flt f => f
  | _ => 0

/-- A field of type `*Timestamp`. -/
def Obj.getTime (o : Obj) (n : Str) : Option GoTime := match o.val n with
  | .ptr (some (.time t)) => some t
  | _ => none

/-- A field of type `Hashes`; `none` is nil. -/
def Obj.getHashes (o : Obj) (n : Str) : Option (List (Str × Str)) := match o.val n with
  | .map (some m) => some (m.map fun e => (e.1, match e.2 with | .str s => s | _ => []))
  | _ => none

/-- A field of type `[]string`. -/
def Obj.getStrs (o : Obj) (n : Str) : List Str := match o.val n with
  | .slice (some l) => l.map fun v => match v with | .str s => s | _ => []
  | _ => []

/-- A field of type `Binary`. -/
def Obj.getBin (o : Obj) (n : Str) : Option Str := match o.val n with
  | .bin b => b
  | _ => none

/-- `len` of a map field. -/
def Obj.mapLen (o : Obj) (n : Str) : Nat := match o.val n with
  | .map (some m) => m.length
  | _ => 0

/-! ### Contributions to deterministic identifiers -/

/-- `strings.Join(l, sep)` -/
def join (sep : Str) : List Str → Str
  | [] => []
  | [s] => s
  | s :: l => s ++ sep ++ join sep l

/-- `fmt.Sprintf("\"%s\"", s)`: quotes around the string, nothing in it is escaped. -/
def quoted (s : Str) : Str := b!"\"" ++ s ++ b!"\""

/-- `Hashes.getIDContribution` (data-types.go:142-156) -/
def hashesContribution (m : List (Str × Str)) : Str :=
  match amLookup (b!"MD5") m with
  | some v => b!"{\"MD5\":\"" ++ v ++ b!"\"}"
  | none => match amLookup (b!"SHA-1") m with
    | some v => b!"{\"SHA-1\":\"" ++ v ++ b!"\"}"
    | none => match amLookup (b!"SHA-256") m with
      | some v => b!"{\"SHA-256\":\"" ++ v ++ b!"\"}"
      | none => match amLookup (b!"SHA-512") m with
        | some v => b!"{\"SHA-512\":\"" ++ v ++ b!"\"}"
        | none => []

/-- `canonicalizeExtensions` (object.go:402-415) -/
def canonicalizeExtensions (F : Canon.FloatFmt) (o : Obj) : Str :=
  if o.mapLen (b!"Extensions") = 0 then []
  else match enc F (.ext knownExts) (o.val (b!"Extensions")) with
    | none => []
    | some j => (Canon.transform F j.raw).getD []

/-- A string field, if set. -/
def strPart (o : Obj) (n : Str) : List Str :=
  if o.getStr n ≠ [] then [quoted (o.getStr n)] else []

/-- The hashes, if there are any. -/
def hashPart (o : Obj) : List Str :=
  let h := (o.getHashes (b!"Hashes")).getD []
  if h.length ≠ 0 then [hashesContribution h] else []

/-- The extensions, if there are any. -/
def extPart (F : Canon.FloatFmt) (o : Obj) : List Str :=
  if o.mapLen (b!"Extensions") ≠ 0 then [canonicalizeExtensions F o] else []

/-- A timestamp, if set. -/
def timePart (o : Obj) (n : Str) : List Str :=
  match o.getTime n with
  | some t => [quoted (timestampString t)]
  | none => []

/-- A number, if not zero. -/
def intPart (o : Obj) (n : Str) : List Str :=
  if o.getInt n ≠ 0 then [intLit (o.getInt n)] else []

/-- `"[" + strings.Join(parts, ",") + "]"` -/
def bracket (parts : List Str) : Str := b!"[" ++ join (b!",") parts ++ b!"]"

/-- `RegistryValue.getIDContrib` (regkey.go:79-91); a nil pointer panics. -/
def regValueContrib : GV → Res Str
  | .ptr (some (.struct f)) =>
    let s (n : Str) : Str := match f n with
      | .str s => s
      | _ => []
    let dt : UInt8 := match f (b!"DataType") with
      | .enum n => n
      | _ => 0
    let a := (if s (b!"Data") ≠ [] then [b!"\"data\":" ++ quoted (s (b!"Data"))] else []) ++
      (if dt ≠ 0 then [b!"\"data_type\":" ++ quoted (enumName .RegistryDataType dt)] else []) ++
      (if s (b!"Name") ≠ [] then [b!"\"name\":" ++ quoted (s (b!"Name"))] else [])
    .ok (b!"{" ++ join (b!",") a ++ b!"}")
  | _ => .panic

/-- Contributions of all registry values. -/
def regValuesContrib : List GV → Res (List Str)
  | [] => .ok []
  | v :: l => do
    let a ← regValueContrib v
    let as ← regValuesContrib l
    return a :: as

/-- `obj.ID = NewObservableIdentifier(value, typ)` -/
def setObsID (env : Env) (o : Obj) (value typ : Str) : Obj :=
  o.set (b!"ID") (.str (newObservableIdentifier env.sha1 value typ))

/-! ### Floats -/

/-- NaN -/
def isNaN (b : F64) : Bool := b &&& 0x7fffffffffffffff > 0x7ff0000000000000

/-- Position of a float that is not NaN on the number line. -/
def fkey (b : F64) : Int :=
  let mag : Int := (b &&& 0x7fffffffffffffff).toNat
  if b &&& 0x8000000000000000 ≠ 0 then -mag else mag

/-- `a < b` on float64. -/
def fltLt (a b : F64) : Bool := !isNaN a && !isNaN b && fkey a < fkey b

/-- `a == b` on float64. -/
def fltEq (a b : F64) : Bool := !isNaN a && !isNaN b && fkey a = fkey b

/-! ### Domain objects -/

/-- Constructor of a domain object with required arguments and no check after the options. -/
def newSDO (env : Env) (s : SId) (typ : Str) (missing : Bool) (fields : List (Str × GV))
    (opts : List (Option Opt)) : Ret :=
  if missing then .fail .propertyMissing
  else withOptions (Obj.lit s (baseLit env typ ++ fields)) opts fun o e => .ret (some o) e

/-- attack.go:64-73 -/
def newAttackPattern (env : Env) (name : Str) (opts : List (Option Opt)) : Ret :=
  newSDO env .AttackPattern TypeAttackPattern (name = []) [(b!"Name", .str name)] opts

/-- `FirstSeen.After(LastSeen)` when both are there (campaign.go:101, sighting.go:134). -/
def seenWrong (o : Obj) : Bool :=
  match o.getTime (b!"FirstSeen"), o.getTime (b!"LastSeen") with
  | some f, some l => l.ns < f.ns
  | _, _ => false

/-- campaign.go:92-106 -/
def newCampaign (env : Env) (name : Str) (opts : List (Option Opt)) : Ret :=
  if name = [] then .fail .propertyMissing
  else withOptions (Obj.lit .Campaign (baseLit env TypeCampaign ++ [(b!"Name", .str name)])) opts
    fun o e => if seenWrong o then .fail .invalidProperty else .ret (some o) e

/-- course-of-action.go:57-66 -/
def newCourseOfAction (env : Env) (name : Str) (opts : List (Option Opt)) : Ret :=
  newSDO env .CourseOfAction TypeCourseOfAction (name = []) [(b!"Name", .str name)] opts

/-- grouping.go:42-51 -/
def newGrouping (env : Env) (context : Str) (objects : Option (List Str)) (opts : List (Option Opt)) : Ret :=
  newSDO env .Grouping TypeGrouping (context = [] || objects.getD [] = [])
    [(b!"Context", .str context), (b!"Objects", gvStrs objects)] opts

/-- identity.go:51-60 -/
def newIdentity (env : Env) (name : Str) (opts : List (Option Opt)) : Ret :=
  newSDO env .Identity TypeIdentity (name = []) [(b!"Name", .str name)] opts

/-- incident.go:26-36 -/
def newIncident (env : Env) (name : Str) (opts : List (Option Opt)) : Ret :=
  newSDO env .Incident TypeIncident (name = []) [(b!"Name", .str name)] opts

/-- indicator.go:76-85 -/
def newIndicator (env : Env) (pattern patternType : Str) (validFrom : Option GoTime)
    (opts : List (Option Opt)) : Ret :=
  newSDO env .Indicator TypeIndicator (pattern = [] || patternType = [] || validFrom.isNone)
    [(b!"Pattern", .str pattern), (b!"PatternType", .str patternType),
     (b!"ValidFrom", .ptr (validFrom.map .time))] opts

/-- infrastructure.go:122-131 -/
def newInfrastructure (env : Env) (name : Str) (opts : List (Option Opt)) : Ret :=
  newSDO env .Infrastructure TypeInfrastructure (name = []) [(b!"Name", .str name)] opts

/-- intrusion-set.go:145-154 -/
def newIntrusionSet (env : Env) (name : Str) (opts : List (Option Opt)) : Ret :=
  newSDO env .IntrusionSet TypeIntrusionSet (name = []) [(b!"Name", .str name)] opts

/-- The bits of 90.0. -/
def flt90 : F64 := 0x4056800000000000
/-- The bits of -90.0. -/
def fltNeg90 : F64 := 0xC056800000000000
/-- The bits of 180.0. -/
def flt180 : F64 := 0x4066800000000000
/-- The bits of -180.0. -/
def fltNeg180 : F64 := 0xC066800000000000

/-- location.go:86-109 -/
def newLocation (env : Env) (region country : Str) (lat long : F64) (opts : List (Option Opt)) : Ret :=
  if region = [] && country = [] && fltEq lat 0 && fltEq long 0 then .fail .propertyMissing
  else if fltLt lat fltNeg90 || fltLt flt90 lat || fltLt long fltNeg180 || fltLt flt180 long ||
      (fltEq lat 0 && !fltEq long 0) || (!fltEq lat 0 && fltEq long 0) then .fail .invalidProperty
  else withOptions (Obj.lit .Location (baseLit env TypeLocation ++
      [(b!"Region", .str region), (b!"Country", .str country), (b!"Latitude", .flt lat),
       (b!"Longitude", .flt long)])) opts
    fun o e => if !fltEq (o.getFlt (b!"Precision")) 0 && (fltEq lat 0 || fltEq long 0)
      then .fail .invalidProperty else .ret (some o) e

/-- malware.go:210-223 -/
def newMalware (env : Env) (family : Bool) (opts : List (Option Opt)) : Ret :=
  withOptions (Obj.lit .Malware (baseLit env TypeMalware ++ [(b!"IsFamily", .bool family)])) opts
    fun o e => if family && o.getStr (b!"Name") = [] then .fail .invalidProperty else .ret (some o) e

/-- malware-analysis.go:124-138 -/
def newMalwareAnalysis (env : Env) (product result : Str) (scos : Option (List Str))
    (opts : List (Option Opt)) : Ret :=
  newSDO env .MalwareAnalysis TypeMalwareAnalysis
    (product = [] || (scos.getD [] = [] && result = []))
    [(b!"Product", .str product), (b!"AnalysisSCOs", gvStrs scos), (b!"Result", .str result)] opts

/-- note.go:35-48 -/
def newNote (env : Env) (content : Str) (objects : Option (List Str)) (opts : List (Option Opt)) : Ret :=
  newSDO env .Note TypeNote (objects.getD [] = [])
    [(b!"Content", .str content), (b!"Objects", gvStrs objects)] opts

/-- observed-data.go:87-102 -/
def newObservedData (env : Env) (first last : Option GoTime) (number : Int) (refs : Option (List Str))
    (opts : List (Option Opt)) : Ret :=
  newSDO env .ObservedData TypeObservedData
    (refs.getD [] = [] || first.isNone || last.isNone || number < 1)
    [(b!"FirstObserved", .ptr (first.map .time)), (b!"LastObserved", .ptr (last.map .time)),
     (b!"NumberObserved", .int number), (b!"ObjectRefs", gvStrs refs)] opts

/-- opinion.go:51-64 -/
def newOpinion (env : Env) (val : UInt8) (objects : Option (List Str)) (opts : List (Option Opt)) : Ret :=
  newSDO env .Opinion TypeOpinion (objects.getD [] = [])
    [(b!"Value", .enum val), (b!"Objects", gvStrs objects)] opts

/-- report.go:43-57 -/
def newReport (env : Env) (name : Str) (published : Option GoTime) (objects : Option (List Str))
    (opts : List (Option Opt)) : Ret :=
  newSDO env .Report TypeReport (name = [] || published.isNone || objects.getD [] = [])
    [(b!"Name", .str name), (b!"Published", .ptr (published.map .time)),
     (b!"Objects", gvStrs objects)] opts

/-- threat-actor.go:156-168 -/
def newThreatActor (env : Env) (name : Str) (opts : List (Option Opt)) : Ret :=
  newSDO env .ThreatActor TypeThreatActor (name = []) [(b!"Name", .str name)] opts

/-- tool.go:93-105 -/
def newTool (env : Env) (name : Str) (opts : List (Option Opt)) : Ret :=
  newSDO env .Tool TypeTool (name = []) [(b!"Name", .str name)] opts

/-- vulnerability.go:34-46 -/
def newVulnerability (env : Env) (name : Str) (opts : List (Option Opt)) : Ret :=
  newSDO env .Vulnerability TypeVulnerability (name = []) [(b!"Name", .str name)] opts

/-! ### Relationships and meta objects -/

/-- relationship.go:68-83 -/
def newRelationship (env : Env) (relType source target : Str) (opts : List (Option Opt)) : Ret :=
  if relType = [] || source = [] || target = [] then .fail .propertyMissing
  else withOptions (Obj.lit .Relationship (baseLit env TypeRelationship ++
      [(b!"Source", .str source), (b!"Target", .str target), (b!"RelationshipType", .str relType)]))
    opts fun o e => .ret (some o) e

/-- sighting.go:108-143 -/
def newSighting (env : Env) (s : Str) (opts : List (Option Opt)) : Ret :=
  if s = [] then .fail .propertyMissing
  else withOptions (Obj.lit .Sighting (baseLit env TypeSighting ++ [(b!"SightingOf", .str s)])) opts
    fun o e => match e with
      | some e => .fail e
      | none =>
        if o.getInt (b!"Count") < 0 ∨ o.getInt (b!"Count") > 999999999 then .fail .invalidProperty
        else if seenWrong o then .fail .invalidProperty
        else .ret (some o) none

/-- meta.go:178-196; the contents map has language to property to translation. -/
def newLanguageContent (env : Env) (object : Str) (content : Option (List (Str × GV)))
    (opts : List (Option Opt)) : Ret :=
  newSDO env .LanguageContent TypeLanguageContent (object = [] || content.isNone)
    [(b!"Object", .str object), (b!"Contents", .map content)] opts

/-- `definition == nil` -/
def Dyn.isNil : Dyn → Bool
  | .nil => true
  | _ => false

/-- meta.go:311-328 -/
def newMarkingDefinition (env : Env) (typ : Str) (definition : Dyn) (opts : List (Option Opt)) : Ret :=
  if typ = [] || definition.isNil then .fail .propertyMissing
  else withOptions (Obj.lit .MarkingDefinition
      [(b!"Type", .str TypeMarkingDefinition),
       (b!"ID", .str (newIdentifier env.rnd TypeMarkingDefinition)),
       (b!"SpecVersion", .str specVersion21), (b!"Created", gvTime env.now),
       (b!"DefinitionType", .str typ), (b!"Definition", .dyn definition)])
    opts fun o e => .ret (some o) e

/-- extension.go:170-195 -/
def newExtensionDefinition (env : Env) (name schema version : Str) (extTypes : Option (List UInt8))
    (opts : List (Option Opt)) : Ret :=
  if name = [] || schema = [] || version = [] || extTypes.getD [] = [] then .fail .invalidParameter
  else withOptions (Obj.lit .ExtensionDefinition (baseLit env TypeExtensionDefinition ++
      [(b!"Name", .str name), (b!"Schema", .str schema), (b!"Version", .str version),
       (b!"ExtensionTypes", .slice (extTypes.map (·.map .enum)))]))
    opts fun o e => .ret (some o) e

/-! ### Observables -/

/-- Constructor of an observable whose identifier comes from the constructor's argument. -/
def newSimpleSCO (env : Env) (s : SId) (typ : Str) (missing : Bool) (field : Str × GV)
    (contrib : Str) (opts : List (Option Opt)) : Ret :=
  if missing then .fail .invalidParameter
  else withOptions (Obj.lit s (scoLit typ ++ [field])) opts
    fun o e => .ret (some (setObsID env o contrib typ)) e

/-- as.go:26-39 -/
def newAutonomousSystem (env : Env) (number : Int) (opts : List (Option Opt)) : Ret :=
  newSimpleSCO env .AutonomousSystem TypeAutonomousSystem (number = 0)
    (b!"Number", .int number) (b!"[" ++ intLit number ++ b!"]") opts

/-- `fmt.Sprintf("[\"%s\"]", value)` -/
def bracketQuoted (value : Str) : Str := b!"[\"" ++ value ++ b!"\"]"

/-- directory.go:39-52 -/
def newDirectory (env : Env) (path : Str) (opts : List (Option Opt)) : Ret :=
  newSimpleSCO env .Directory TypeDirectory (path = []) (b!"Path", .str path) (bracketQuoted path) opts

/-- dns.go:36-49 -/
def newDomainName (env : Env) (value : Str) (opts : List (Option Opt)) : Ret :=
  newSimpleSCO env .DomainName TypeDomainName (value = []) (b!"Value", .str value)
    (bracketQuoted value) opts

/-- email.go:30-43 -/
def newEmailAddress (env : Env) (value : Str) (opts : List (Option Opt)) : Ret :=
  newSimpleSCO env .EmailAddress TypeEmailAddress (value = []) (b!"Value", .str value)
    (bracketQuoted value) opts

/-- ip.go:47-60 -/
def newIPv4Address (env : Env) (value : Str) (opts : List (Option Opt)) : Ret :=
  newSimpleSCO env .IPv4Address TypeIPv4Addr (value = []) (b!"Value", .str value)
    (bracketQuoted value) opts

/-- ip.go:101-114 -/
def newIPv6Address (env : Env) (value : Str) (opts : List (Option Opt)) : Ret :=
  newSimpleSCO env .IPv6Address TypeIPv6Addr (value = []) (b!"Value", .str value)
    (bracketQuoted value) opts

/-- mac.go:20-33 -/
def newMACAddress (env : Env) (value : Str) (opts : List (Option Opt)) : Ret :=
  newSimpleSCO env .MACAddress TypeMACAddress (value = []) (b!"Value", .str value)
    (bracketQuoted value) opts

/-- mutex.go:20-33 -/
def newMutex (env : Env) (value : Str) (opts : List (Option Opt)) : Ret :=
  newSimpleSCO env .Mutex TypeMutex (value = []) (b!"Name", .str value) (bracketQuoted value) opts

/-- url.go:22-35 -/
def newURL (env : Env) (value : Str) (opts : List (Option Opt)) : Ret :=
  newSimpleSCO env .URL TypeURL (value = []) (b!"Value", .str value) (bracketQuoted value) opts

/-- Text hashed for an artifact (artifact.go:68-75) -/
def artifactContrib (o : Obj) : Str :=
  bracket (hashPart o ++
    (if (o.getBin (b!"Payload")).getD [] ≠ [] then [quoted (binaryString (o.getBin (b!"Payload")))]
     else []))

/-- artifact.go:47-77 -/
def newArtifact (env : Env) (opts : List (Option Opt)) : Ret :=
  withOptions (Obj.lit .Artifact (scoLit TypeArtifact)) opts fun o e => match e with
    | some e => .fail e
    | none =>
      if (o.getBin (b!"Payload")).isNone && o.getStr (b!"URL") = [] then .fail .propertyMissing
      else if (o.getBin (b!"Payload")).isSome && o.getStr (b!"URL") ≠ [] then .fail .invalidParameter
      else if o.getStr (b!"URL") ≠ [] && (o.getHashes (b!"Hashes")).isNone then .fail .propertyMissing
      else .ret (some (setObsID env o (artifactContrib o) TypeArtifact)) none

/-- Text hashed for an email message (email.go:119-129) -/
def emailMessageContrib (o : Obj) : Str :=
  bracket (strPart o (b!"From") ++ strPart o (b!"Subject") ++ strPart o (b!"Body"))

/-- email.go:111-131 -/
def newEmailMessage (env : Env) (multipart : Bool) (opts : List (Option Opt)) : Ret :=
  withOptions (Obj.lit .EmailMessage (scoLit TypeEmailMessage ++ [(b!"IsMultipart", .bool multipart)]))
    opts fun o e => .ret (some (setObsID env o (emailMessageContrib o) TypeEmailMessage)) e

/-- Text hashed for a file (file.go:119-132) -/
def fileContrib (F : Canon.FloatFmt) (o : Obj) : Str :=
  bracket (hashPart o ++ strPart o (b!"Name") ++ extPart F o ++ strPart o (b!"ParentDirectory"))

/-- file.go:107-134 -/
def newFile (env : Env) (name : Str) (hashes : Option (List (Str × Str))) (opts : List (Option Opt)) : Ret :=
  if name = [] && hashes.isNone then .fail .invalidParameter
  else withOptions (Obj.lit .File (scoLit TypeFile ++
      [(b!"Name", .str name), (b!"Hashes", gvHashes hashes)])) opts
    fun o e => .ret (some (setObsID env o (fileContrib env.F o) TypeFile)) e

/-- Text hashed for network traffic (network.go:164-190) -/
def networkContrib (F : Canon.FloatFmt) (o : Obj) : Str :=
  bracket (timePart o (b!"Start") ++ timePart o (b!"End") ++ strPart o (b!"Src") ++
    strPart o (b!"Dst") ++ intPart o (b!"SrcPort") ++ intPart o (b!"DstPort") ++
    [b!"[\"" ++ join (b!"\",\"") (o.getStrs (b!"Protocols")) ++ b!"\"]"] ++ extPart F o)

/-- network.go:145-192 -/
def newNetworkTraffic (env : Env) (proto : Option (List Str)) (opts : List (Option Opt)) : Ret :=
  if proto.getD [] = [] then .fail .invalidParameter
  else withOptions (Obj.lit .NetworkTraffic (scoLit TypeNetworkTraffic ++
      [(b!"Protocols", gvStrs proto)])) opts fun o e => match e with
    | some e => .fail e
    | none =>
      if o.getStr (b!"Src") = [] && o.getStr (b!"Dst") = [] then .fail .other
      else .ret (some (setObsID env o (networkContrib env.F o) TypeNetworkTraffic)) none

/-- process.go:72-84 -/
def newProcess (env : Env) (opts : List (Option Opt)) : Ret :=
  if opts.length < 1 then .fail .propertyMissing
  else withOptions (Obj.lit .Process (scoLit TypeProcess ++
      [(b!"ID", .str (newIdentifier env.rnd TypeProcess))])) opts fun o e => .ret (some o) e

/-- Text hashed for a registry key (regkey.go:50-61) -/
def registryContrib (o : Obj) : Res Str :=
  let vals := match o.val (b!"Values") with
    | .slice (some l) => l
    | _ => []
  do
    let a ← regValuesContrib vals
    return bracket (strPart o (b!"Key") ++ (if vals.length > 0 then [join (b!",") a] else []))

/-- regkey.go:39-63 -/
def newRegistryKey (env : Env) (opts : List (Option Opt)) : Ret :=
  if opts.length = 0 then .fail .propertyMissing
  else withOptions (Obj.lit .RegistryKey (scoLit TypeRegistryKey)) opts fun o e =>
    match registryContrib o with
    | .ok c => .ret (some (setObsID env o c TypeRegistryKey)) e
    | _ => .panic

/-- Text hashed for software (software.go:51-62) -/
def softwareContrib (o : Obj) : Str :=
  bracket ([quoted (o.getStr (b!"Name"))] ++ strPart o (b!"CPE") ++ strPart o (b!"Vendor") ++
    strPart o (b!"Version"))

/-- software.go:40-64 -/
def newSoftware (env : Env) (name : Str) (opts : List (Option Opt)) : Ret :=
  if name = [] then .fail .invalidParameter
  else withOptions (Obj.lit .Software (scoLit TypeSoftware ++ [(b!"Name", .str name)])) opts
    fun o e => .ret (some (setObsID env o (softwareContrib o) TypeSoftware)) e

/-- Text hashed for a user account (user.go:93-103) -/
def userContrib (o : Obj) : Str :=
  bracket (strPart o (b!"AccountType") ++ strPart o (b!"UserID") ++ strPart o (b!"AccountLogin"))

/-- user.go:82-105 -/
def newUserAccount (env : Env) (opts : List (Option Opt)) : Ret :=
  if opts.length = 0 then .fail .propertyMissing
  else withOptions (Obj.lit .UserAccount (scoLit TypeUserAccount)) opts
    fun o e => .ret (some (setObsID env o (userContrib o) TypeUserAccount)) e

/-- Text hashed for a certificate (x509.go:73-80) -/
def x509Contrib (o : Obj) : Str := bracket (hashPart o ++ strPart o (b!"SerialNumber"))

/-- x509.go:62-82 -/
def newX509Certificate (env : Env) (opts : List (Option Opt)) : Ret :=
  if opts.length = 0 then .fail .propertyMissing
  else withOptions (Obj.lit .X509Certificate (scoLit TypeX509Certificate)) opts
    fun o e => .ret (some (setObsID env o (x509Contrib o) TypeX509Certificate)) e

/-! ### All of them -/

/-- A call of a constructor, without its options. -/
inductive Ctor where
  | attackPattern (name : Str)
  | campaign (name : Str)
  | courseOfAction (name : Str)
  | grouping (context : Str) (objects : Option (List Str))
  | identity (name : Str)
  | incident (name : Str)
  | indicator (pattern patternType : Str) (validFrom : Option GoTime)
  | infrastructure (name : Str)
  | intrusionSet (name : Str)
  | location (region country : Str) (lat long : F64)
  | malware (family : Bool)
  | malwareAnalysis (product result : Str) (scos : Option (List Str))
  | note (content : Str) (objects : Option (List Str))
  | observedData (first last : Option GoTime) (number : Int) (refs : Option (List Str))
  | opinion (val : UInt8) (objects : Option (List Str))
  | report (name : Str) (published : Option GoTime) (objects : Option (List Str))
  | threatActor (name : Str)
  | tool (name : Str)
  | vulnerability (name : Str)
  | relationship (relType source target : Str)
  | sighting (s : Str)
  | languageContent (object : Str) (content : Option (List (Str × GV)))
  | markingDefinition (typ : Str) (definition : Dyn)
  | extensionDefinition (name schema version : Str) (extTypes : Option (List UInt8))
  | autonomousSystem (number : Int)
  | directory (path : Str)
  | domainName (value : Str)
  | emailAddress (value : Str)
  | ipv4 (value : Str)
  | ipv6 (value : Str)
  | mac (value : Str)
  | mutex (value : Str)
  | url (value : Str)
  | artifact
  | emailMessage (multipart : Bool)
  | file (name : Str) (hashes : Option (List (Str × Str)))
  | networkTraffic (proto : Option (List Str))
  | process
  | registryKey
  | software (name : Str)
  | userAccount
  | x509

/-- Running a constructor. -/
def Ctor.run (env : Env) : Ctor → List (Option Opt) → Ret
  | .attackPattern name => newAttackPattern env name
  | .campaign name => newCampaign env name
  | .courseOfAction name => newCourseOfAction env name
  | .grouping context objects => newGrouping env context objects
  | .identity name => newIdentity env name
  | .incident name => newIncident env name
  | .indicator pattern patternType validFrom => newIndicator env pattern patternType validFrom
  | .infrastructure name => newInfrastructure env name
  | .intrusionSet name => newIntrusionSet env name
  | .location region country lat long => newLocation env region country lat long
  | .malware family => newMalware env family
  | .malwareAnalysis product result scos => newMalwareAnalysis env product result scos
  | .note content objects => newNote env content objects
  | .observedData first last number refs => newObservedData env first last number refs
  | .opinion val objects => newOpinion env val objects
  | .report name published objects => newReport env name published objects
  | .threatActor name => newThreatActor env name
  | .tool name => newTool env name
  | .vulnerability name => newVulnerability env name
  | .relationship relType source target => newRelationship env relType source target
  | .sighting s => newSighting env s
  | .languageContent object content => newLanguageContent env object content
  | .markingDefinition typ definition => newMarkingDefinition env typ definition
  | .extensionDefinition name schema version extTypes =>
    newExtensionDefinition env name schema version extTypes
  | .autonomousSystem number => newAutonomousSystem env number
  | .directory path => newDirectory env path
  | .domainName value => newDomainName env value
  | .emailAddress value => newEmailAddress env value
  | .ipv4 value => newIPv4Address env value
  | .ipv6 value => newIPv6Address env value
  | .mac value => newMACAddress env value
  | .mutex value => newMutex env value
  | .url value => newURL env value
  | .artifact => newArtifact env
  | .emailMessage multipart => newEmailMessage env multipart
  | .file name hashes => newFile env name hashes
  | .networkTraffic proto => newNetworkTraffic env proto
  | .process => newProcess env
  | .registryKey => newRegistryKey env
  | .software name => newSoftware env name
  | .userAccount => newUserAccount env
  | .x509 => newX509Certificate env

end Stix
