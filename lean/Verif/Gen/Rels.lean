import Verif.Gen.Structs

/-! Generated from /repo by tools/gen.py; do not edit. -/

namespace Stix

/-- The receiver type of a method: an object struct or one of the embedded structs. -/
inductive Recv where
  | obj (s : SId)
  | base (b : Base)
  deriving DecidableEq, Repr

/-- The test before the relationship is made. -/
inductive Guard where
  /-- none -/
  | none
  /-- `IsValidIdentifier(id)` -/
  | valid
  /-- `IsValidIdentifier(id)` and `id.ForTypes(…)`; a conjunction of negated `ForType` calls is the same -/
  | types (ts : List Str)

/-- A relationship helper method: receiver, name, guard, relationship type. -/
structure RelRow where
  recv : Recv
  name : Str
  guard : Guard
  rel : Str

/-- `AttackPattern.AddDelivers` (attack.go:37-42) -/
def AttackPattern_AddDelivers : RelRow := ⟨.obj .AttackPattern, b!"AddDelivers", .types [TypeMalware], RelationshipTypeDelivers⟩

/-- `AttackPattern.AddTargets` (attack.go:46-52) -/
def AttackPattern_AddTargets : RelRow := ⟨.obj .AttackPattern, b!"AddTargets", .types [TypeLocation, TypeIdentity, TypeVulnerability], RelationshipTypeTargets⟩

/-- `AttackPattern.AddUses` (attack.go:56-61) -/
def AttackPattern_AddUses : RelRow := ⟨.obj .AttackPattern, b!"AddUses", .types [TypeMalware, TypeTool], RelationshipTypeTargets⟩

/-- `Campaign.AddTargets` (campaign.go:47-53) -/
def Campaign_AddTargets : RelRow := ⟨.obj .Campaign, b!"AddTargets", .types [TypeLocation, TypeIdentity, TypeVulnerability], RelationshipTypeTargets⟩

/-- `Campaign.AddUses` (campaign.go:57-62) -/
def Campaign_AddUses : RelRow := ⟨.obj .Campaign, b!"AddUses", .types [TypeAttackPattern, TypeInfrastructure, TypeMalware, TypeTool], RelationshipTypeUses⟩

/-- `Campaign.AddAttributedTo` (campaign.go:66-71) -/
def Campaign_AddAttributedTo : RelRow := ⟨.obj .Campaign, b!"AddAttributedTo", .types [TypeIntrusionSet, TypeThreatActor], RelationshipTypeAttributedTo⟩

/-- `Campaign.AddCompromises` (campaign.go:75-80) -/
def Campaign_AddCompromises : RelRow := ⟨.obj .Campaign, b!"AddCompromises", .types [TypeInfrastructure], RelationshipTypeCompromises⟩

/-- `Campaign.AddOriginatesFrom` (campaign.go:84-89) -/
def Campaign_AddOriginatesFrom : RelRow := ⟨.obj .Campaign, b!"AddOriginatesFrom", .types [TypeLocation], RelationshipTypeOriginatesFrom⟩

/-- `CourseOfAction.AddInvestigates` (course-of-action.go:31-36) -/
def CourseOfAction_AddInvestigates : RelRow := ⟨.obj .CourseOfAction, b!"AddInvestigates", .types [TypeIndicator], RelationshipTypeInvestigates⟩

/-- `CourseOfAction.AddMitigates` (course-of-action.go:40-45) -/
def CourseOfAction_AddMitigates : RelRow := ⟨.obj .CourseOfAction, b!"AddMitigates", .types [TypeAttackPattern, TypeIndicator, TypeMalware, TypeTool, TypeVulnerability], RelationshipTypeMitigates⟩

/-- `CourseOfAction.AddRemediates` (course-of-action.go:49-54) -/
def CourseOfAction_AddRemediates : RelRow := ⟨.obj .CourseOfAction, b!"AddRemediates", .types [TypeMalware, TypeVulnerability], RelationshipTypeRemediates⟩

/-- `DomainName.AddResolvesTo` (dns.go:28-33) -/
def DomainName_AddResolvesTo : RelRow := ⟨.obj .DomainName, b!"AddResolvesTo", .types [TypeDomainName, TypeIPv4Addr, TypeIPv6Addr], RelationshipTypeResolvesTo⟩

/-- `Identity.AddLocatedAt` (identity.go:43-48) -/
def Identity_AddLocatedAt : RelRow := ⟨.obj .Identity, b!"AddLocatedAt", .types [TypeLocation], RelationshipTypeLocatedAt⟩

/-- `Indicator.AddIndicates` (indicator.go:59-64) -/
def Indicator_AddIndicates : RelRow := ⟨.obj .Indicator, b!"AddIndicates", .types [TypeAttackPattern, TypeCampaign, TypeInfrastructure, TypeIntrusionSet, TypeMalware, TypeThreatActor, TypeTool], RelationshipTypeIndicates⟩

/-- `Indicator.AddBasedOn` (indicator.go:68-73) -/
def Indicator_AddBasedOn : RelRow := ⟨.obj .Indicator, b!"AddBasedOn", .types [TypeObservedData], RelationshipTypeBasedOn⟩

/-- `Infrastructure.AddConsistsOf` (infrastructure.go:45-56) -/
def Infrastructure_AddConsistsOf : RelRow := ⟨.obj .Infrastructure, b!"AddConsistsOf", .valid, RelationshipTypeConsistsOf⟩

/-- `Infrastructure.AddControls` (infrastructure.go:60-65) -/
def Infrastructure_AddControls : RelRow := ⟨.obj .Infrastructure, b!"AddControls", .types [TypeInfrastructure, TypeMalware], RelationshipTypeControls⟩

/-- `Infrastructure.AddCommunicatesWith` (infrastructure.go:69-74) -/
def Infrastructure_AddCommunicatesWith : RelRow := ⟨.obj .Infrastructure, b!"AddCommunicatesWith", .types [TypeInfrastructure, TypeIPv4Addr, TypeIPv6Addr, TypeDomainName, TypeURL], RelationshipTypeCommunicatesWith⟩

/-- `Infrastructure.AddDelivers` (infrastructure.go:78-83) -/
def Infrastructure_AddDelivers : RelRow := ⟨.obj .Infrastructure, b!"AddDelivers", .types [TypeMalware], RelationshipTypeDelivers⟩

/-- `Infrastructure.AddHas` (infrastructure.go:87-92) -/
def Infrastructure_AddHas : RelRow := ⟨.obj .Infrastructure, b!"AddHas", .types [TypeVulnerability], RelationshipTypeHas⟩

/-- `Infrastructure.AddHosts` (infrastructure.go:96-101) -/
def Infrastructure_AddHosts : RelRow := ⟨.obj .Infrastructure, b!"AddHosts", .types [TypeMalware, TypeTool], RelationshipTypeHosts⟩

/-- `Infrastructure.AddLocatedAt` (infrastructure.go:105-110) -/
def Infrastructure_AddLocatedAt : RelRow := ⟨.obj .Infrastructure, b!"AddLocatedAt", .types [TypeLocation], RelationshipTypeLocatedAt⟩

/-- `Infrastructure.AddUses` (infrastructure.go:114-119) -/
def Infrastructure_AddUses : RelRow := ⟨.obj .Infrastructure, b!"AddUses", .types [TypeInfrastructure], RelationshipTypeUses⟩

/-- `IntrusionSet.AddAttributedTo` (intrusion-set.go:82-87) -/
def IntrusionSet_AddAttributedTo : RelRow := ⟨.obj .IntrusionSet, b!"AddAttributedTo", .types [TypeThreatActor], RelationshipTypeAttributedTo⟩

/-- `IntrusionSet.AddCompromises` (intrusion-set.go:91-96) -/
def IntrusionSet_AddCompromises : RelRow := ⟨.obj .IntrusionSet, b!"AddCompromises", .types [TypeInfrastructure], RelationshipTypeCompromises⟩

/-- `IntrusionSet.AddHosts` (intrusion-set.go:100-105) -/
def IntrusionSet_AddHosts : RelRow := ⟨.obj .IntrusionSet, b!"AddHosts", .types [TypeInfrastructure], RelationshipTypeHosts⟩

/-- `IntrusionSet.AddOwns` (intrusion-set.go:109-114) -/
def IntrusionSet_AddOwns : RelRow := ⟨.obj .IntrusionSet, b!"AddOwns", .types [TypeInfrastructure], RelationshipTypeOwns⟩

/-- `IntrusionSet.AddOriginatesFrom` (intrusion-set.go:118-123) -/
def IntrusionSet_AddOriginatesFrom : RelRow := ⟨.obj .IntrusionSet, b!"AddOriginatesFrom", .types [TypeLocation], RelationshipTypeOriginatesFrom⟩

/-- `IntrusionSet.AddTargets` (intrusion-set.go:128-133) -/
def IntrusionSet_AddTargets : RelRow := ⟨.obj .IntrusionSet, b!"AddTargets", .types [TypeLocation, TypeIdentity, TypeVulnerability], RelationshipTypeTargets⟩

/-- `IntrusionSet.AddUses` (intrusion-set.go:137-142) -/
def IntrusionSet_AddUses : RelRow := ⟨.obj .IntrusionSet, b!"AddUses", .types [TypeAttackPattern, TypeInfrastructure, TypeMalware, TypeTool], RelationshipTypeUses⟩

/-- `IPv4Address.AddResolvesTo` (ip.go:30-35) -/
def IPv4Address_AddResolvesTo : RelRow := ⟨.obj .IPv4Address, b!"AddResolvesTo", .types [TypeMACAddress], RelationshipTypeResolvesTo⟩

/-- `IPv4Address.AddBelongsTo` (ip.go:39-44) -/
def IPv4Address_AddBelongsTo : RelRow := ⟨.obj .IPv4Address, b!"AddBelongsTo", .types [TypeAutonomousSystem], RelationshipTypeBelongsTo⟩

/-- `IPv6Address.AddResolvesTo` (ip.go:84-89) -/
def IPv6Address_AddResolvesTo : RelRow := ⟨.obj .IPv6Address, b!"AddResolvesTo", .types [TypeMACAddress], RelationshipTypeResolvesTo⟩

/-- `IPv6Address.AddBelongsTo` (ip.go:93-98) -/
def IPv6Address_AddBelongsTo : RelRow := ⟨.obj .IPv6Address, b!"AddBelongsTo", .types [TypeAutonomousSystem], RelationshipTypeBelongsTo⟩

/-- `MalwareAnalysis.AddCharacterizes` (malware-analysis.go:88-93) -/
def MalwareAnalysis_AddCharacterizes : RelRow := ⟨.obj .MalwareAnalysis, b!"AddCharacterizes", .types [TypeMalware], RelationshipTypeCharacterizes⟩

/-- `MalwareAnalysis.AddAnalysisOf` (malware-analysis.go:97-102) -/
def MalwareAnalysis_AddAnalysisOf : RelRow := ⟨.obj .MalwareAnalysis, b!"AddAnalysisOf", .types [TypeMalware], RelationshipTypeAnalysisOf⟩

/-- `MalwareAnalysis.AddStaticAnalysisOf` (malware-analysis.go:106-111) -/
def MalwareAnalysis_AddStaticAnalysisOf : RelRow := ⟨.obj .MalwareAnalysis, b!"AddStaticAnalysisOf", .types [TypeMalware], RelationshipTypeStaticAnalysisOf⟩

/-- `MalwareAnalysis.AddDynamicAnalysisOf` (malware-analysis.go:115-120) -/
def MalwareAnalysis_AddDynamicAnalysisOf : RelRow := ⟨.obj .MalwareAnalysis, b!"AddDynamicAnalysisOf", .types [TypeMalware], RelationshipTypeDynamicAnalysisOf⟩

/-- `Malware.AddAuthoredBy` (malware.go:84-89) -/
def Malware_AddAuthoredBy : RelRow := ⟨.obj .Malware, b!"AddAuthoredBy", .types [TypeThreatActor, TypeIntrusionSet], RelationshipTypeAuthoredBy⟩

/-- `Malware.AddBeaconsTo` (malware.go:93-98) -/
def Malware_AddBeaconsTo : RelRow := ⟨.obj .Malware, b!"AddBeaconsTo", .types [TypeInfrastructure], RelationshipTypeBeaconsTo⟩

/-- `Malware.AddExfiltratesTo` (malware.go:102-107) -/
def Malware_AddExfiltratesTo : RelRow := ⟨.obj .Malware, b!"AddExfiltratesTo", .types [TypeInfrastructure], RelationshipTypeExfiltratesTo⟩

/-- `Malware.AddCommunicatesWith` (malware.go:112-117) -/
def Malware_AddCommunicatesWith : RelRow := ⟨.obj .Malware, b!"AddCommunicatesWith", .types [TypeIPv4Addr, TypeIPv6Addr, TypeDomainName, TypeURL], RelationshipTypeCommunicatesWith⟩

/-- `Malware.AddControls` (malware.go:125-130) -/
def Malware_AddControls : RelRow := ⟨.obj .Malware, b!"AddControls", .types [TypeMalware], RelationshipTypeControls⟩

/-- `Malware.AddDownloads` (malware.go:135-140) -/
def Malware_AddDownloads : RelRow := ⟨.obj .Malware, b!"AddDownloads", .types [TypeMalware, TypeTool, TypeFile], RelationshipTypeDownloads⟩

/-- `Malware.AddDrops` (malware.go:145-150) -/
def Malware_AddDrops : RelRow := ⟨.obj .Malware, b!"AddDrops", .types [TypeMalware, TypeTool, TypeFile], RelationshipTypeDrops⟩

/-- `Malware.AddExploits` (malware.go:154-159) -/
def Malware_AddExploits : RelRow := ⟨.obj .Malware, b!"AddExploits", .types [TypeVulnerability], RelationshipTypeExploits⟩

/-- `Malware.AddOriginatesFrom` (malware.go:163-168) -/
def Malware_AddOriginatesFrom : RelRow := ⟨.obj .Malware, b!"AddOriginatesFrom", .types [TypeLocation], RelationshipTypeOriginatesFrom⟩

/-- `Malware.AddTargets` (malware.go:174-179) -/
def Malware_AddTargets : RelRow := ⟨.obj .Malware, b!"AddTargets", .types [TypeLocation, TypeIdentity, TypeInfrastructure, TypeVulnerability], RelationshipTypeTargets⟩

/-- `Malware.AddUses` (malware.go:183-188) -/
def Malware_AddUses : RelRow := ⟨.obj .Malware, b!"AddUses", .types [TypeAttackPattern, TypeMalware, TypeInfrastructure, TypeTool], RelationshipTypeUses⟩

/-- `Malware.AddVariantOf` (malware.go:202-207) -/
def Malware_AddVariantOf : RelRow := ⟨.obj .Malware, b!"AddVariantOf", .types [TypeMalware], RelationshipTypeVariantOf⟩

/-- `STIXDomainObject.AddDerivedFrom` (object.go:271-273) -/
def STIXDomainObject_AddDerivedFrom : RelRow := ⟨.base .sdo, b!"AddDerivedFrom", .none, RelationshipTypeDerivedFrom⟩

/-- `STIXDomainObject.AddDuplicateOf` (object.go:277-279) -/
def STIXDomainObject_AddDuplicateOf : RelRow := ⟨.base .sdo, b!"AddDuplicateOf", .none, RelationshipTypeDuplicateOf⟩

/-- `STIXDomainObject.AddRelatedTo` (object.go:283-285) -/
def STIXDomainObject_AddRelatedTo : RelRow := ⟨.base .sdo, b!"AddRelatedTo", .none, RelationshipTypeRelatedTo⟩

/-- `STIXCyberObservableObject.AddDerivedFrom` (object.go:364-366) -/
def STIXCyberObservableObject_AddDerivedFrom : RelRow := ⟨.base .sco, b!"AddDerivedFrom", .none, RelationshipTypeDerivedFrom⟩

/-- `STIXCyberObservableObject.AddDuplicateOf` (object.go:370-372) -/
def STIXCyberObservableObject_AddDuplicateOf : RelRow := ⟨.base .sco, b!"AddDuplicateOf", .none, RelationshipTypeDuplicateOf⟩

/-- `STIXCyberObservableObject.AddRelatedTo` (object.go:376-378) -/
def STIXCyberObservableObject_AddRelatedTo : RelRow := ⟨.base .sco, b!"AddRelatedTo", .none, RelationshipTypeRelatedTo⟩

/-- `ThreatActor.AddAttributedTo` (threat-actor.go:81-86) -/
def ThreatActor_AddAttributedTo : RelRow := ⟨.obj .ThreatActor, b!"AddAttributedTo", .types [TypeIdentity], RelationshipTypeAttributedTo⟩

/-- `ThreatActor.AddCompromises` (threat-actor.go:90-95) -/
def ThreatActor_AddCompromises : RelRow := ⟨.obj .ThreatActor, b!"AddCompromises", .types [TypeInfrastructure], RelationshipTypeCompromises⟩

/-- `ThreatActor.AddHosts` (threat-actor.go:100-105) -/
def ThreatActor_AddHosts : RelRow := ⟨.obj .ThreatActor, b!"AddHosts", .types [TypeInfrastructure], RelationshipTypeHosts⟩

/-- `ThreatActor.AddOwns` (threat-actor.go:110-115) -/
def ThreatActor_AddOwns : RelRow := ⟨.obj .ThreatActor, b!"AddOwns", .types [TypeInfrastructure], RelationshipTypeOwns⟩

/-- `ThreatActor.AddImpersonates` (threat-actor.go:119-124) -/
def ThreatActor_AddImpersonates : RelRow := ⟨.obj .ThreatActor, b!"AddImpersonates", .types [TypeIdentity], RelationshipTypeImpersonates⟩

/-- `ThreatActor.AddLocatedAt` (threat-actor.go:128-133) -/
def ThreatActor_AddLocatedAt : RelRow := ⟨.obj .ThreatActor, b!"AddLocatedAt", .types [TypeLocation], RelationshipTypeLocatedAt⟩

/-- `ThreatActor.AddTargets` (threat-actor.go:138-143) -/
def ThreatActor_AddTargets : RelRow := ⟨.obj .ThreatActor, b!"AddTargets", .types [TypeIdentity, TypeLocation, TypeVulnerability], RelationshipTypeTargets⟩

/-- `ThreatActor.AddUses` (threat-actor.go:148-153) -/
def ThreatActor_AddUses : RelRow := ⟨.obj .ThreatActor, b!"AddUses", .types [TypeAttackPattern, TypeInfrastructure, TypeMalware, TypeTool], RelationshipTypeUses⟩

/-- `Tool.AddDelivers` (tool.go:48-53) -/
def Tool_AddDelivers : RelRow := ⟨.obj .Tool, b!"AddDelivers", .types [TypeMalware], RelationshipTypeDelivers⟩

/-- `Tool.AddDrops` (tool.go:57-62) -/
def Tool_AddDrops : RelRow := ⟨.obj .Tool, b!"AddDrops", .types [TypeMalware], RelationshipTypeDrops⟩

/-- `Tool.AddHas` (tool.go:66-71) -/
def Tool_AddHas : RelRow := ⟨.obj .Tool, b!"AddHas", .types [TypeVulnerability], RelationshipTypeHas⟩

/-- `Tool.AddTargets` (tool.go:76-81) -/
def Tool_AddTargets : RelRow := ⟨.obj .Tool, b!"AddTargets", .types [TypeIdentity, TypeInfrastructure, TypeLocation, TypeVulnerability], RelationshipTypeTargets⟩

/-- `Tool.AddUses` (tool.go:85-90) -/
def Tool_AddUses : RelRow := ⟨.obj .Tool, b!"AddUses", .types [TypeInfrastructure], RelationshipTypeUses⟩

/-- Every relationship helper. -/
def relTable : List RelRow :=
  [AttackPattern_AddDelivers,
   AttackPattern_AddTargets,
   AttackPattern_AddUses,
   Campaign_AddTargets,
   Campaign_AddUses,
   Campaign_AddAttributedTo,
   Campaign_AddCompromises,
   Campaign_AddOriginatesFrom,
   CourseOfAction_AddInvestigates,
   CourseOfAction_AddMitigates,
   CourseOfAction_AddRemediates,
   DomainName_AddResolvesTo,
   Identity_AddLocatedAt,
   Indicator_AddIndicates,
   Indicator_AddBasedOn,
   Infrastructure_AddConsistsOf,
   Infrastructure_AddControls,
   Infrastructure_AddCommunicatesWith,
   Infrastructure_AddDelivers,
   Infrastructure_AddHas,
   Infrastructure_AddHosts,
   Infrastructure_AddLocatedAt,
   Infrastructure_AddUses,
   IntrusionSet_AddAttributedTo,
   IntrusionSet_AddCompromises,
   IntrusionSet_AddHosts,
   IntrusionSet_AddOwns,
   IntrusionSet_AddOriginatesFrom,
   IntrusionSet_AddTargets,
   IntrusionSet_AddUses,
   IPv4Address_AddResolvesTo,
   IPv4Address_AddBelongsTo,
   IPv6Address_AddResolvesTo,
   IPv6Address_AddBelongsTo,
   MalwareAnalysis_AddCharacterizes,
   MalwareAnalysis_AddAnalysisOf,
   MalwareAnalysis_AddStaticAnalysisOf,
   MalwareAnalysis_AddDynamicAnalysisOf,
   Malware_AddAuthoredBy,
   Malware_AddBeaconsTo,
   Malware_AddExfiltratesTo,
   Malware_AddCommunicatesWith,
   Malware_AddControls,
   Malware_AddDownloads,
   Malware_AddDrops,
   Malware_AddExploits,
   Malware_AddOriginatesFrom,
   Malware_AddTargets,
   Malware_AddUses,
   Malware_AddVariantOf,
   STIXDomainObject_AddDerivedFrom,
   STIXDomainObject_AddDuplicateOf,
   STIXDomainObject_AddRelatedTo,
   STIXCyberObservableObject_AddDerivedFrom,
   STIXCyberObservableObject_AddDuplicateOf,
   STIXCyberObservableObject_AddRelatedTo,
   ThreatActor_AddAttributedTo,
   ThreatActor_AddCompromises,
   ThreatActor_AddHosts,
   ThreatActor_AddOwns,
   ThreatActor_AddImpersonates,
   ThreatActor_AddLocatedAt,
   ThreatActor_AddTargets,
   ThreatActor_AddUses,
   Tool_AddDelivers,
   Tool_AddDrops,
   Tool_AddHas,
   Tool_AddTargets,
   Tool_AddUses]

end Stix
