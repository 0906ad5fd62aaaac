import Verif.Model.Basic

/-! Generated from /repo by tools/gen.py; do not edit. -/

namespace Stix

/-- `TypeAutonomousSystem` (data-types.go:235) -/
def TypeAutonomousSystem : Str := b!"autonomous-system"

/-- `TypeArtifact` (data-types.go:237) -/
def TypeArtifact : Str := b!"artifact"

/-- `TypeAttackPattern` (data-types.go:239) -/
def TypeAttackPattern : Str := b!"attack-pattern"

/-- `TypeBundle` (data-types.go:241) -/
def TypeBundle : Str := b!"bundle"

/-- `TypeCampaign` (data-types.go:243) -/
def TypeCampaign : Str := b!"campaign"

/-- `TypeCourseOfAction` (data-types.go:245) -/
def TypeCourseOfAction : Str := b!"course-of-action"

/-- `TypeDirectory` (data-types.go:247) -/
def TypeDirectory : Str := b!"directory"

/-- `TypeDomainName` (data-types.go:249) -/
def TypeDomainName : Str := b!"domain-name"

/-- `TypeEmailAddress` (data-types.go:251) -/
def TypeEmailAddress : Str := b!"email-addr"

/-- `TypeEmailMIME` (data-types.go:253) -/
def TypeEmailMIME : Str := b!"mime-part-type"

/-- `TypeEmailMessage` (data-types.go:255) -/
def TypeEmailMessage : Str := b!"email-message"

/-- `TypeExtensionDefinition` (data-types.go:257) -/
def TypeExtensionDefinition : Str := b!"extension-definition"

/-- `TypeFile` (data-types.go:259) -/
def TypeFile : Str := b!"file"

/-- `TypeGrouping` (data-types.go:261) -/
def TypeGrouping : Str := b!"grouping"

/-- `TypeIncident` (data-types.go:263) -/
def TypeIncident : Str := b!"incident"

/-- `TypeIPv4Addr` (data-types.go:265) -/
def TypeIPv4Addr : Str := b!"ipv4-addr"

/-- `TypeIPv6Addr` (data-types.go:267) -/
def TypeIPv6Addr : Str := b!"ipv6-addr"

/-- `TypeIdentity` (data-types.go:269) -/
def TypeIdentity : Str := b!"identity"

/-- `TypeIndicator` (data-types.go:271) -/
def TypeIndicator : Str := b!"indicator"

/-- `TypeInfrastructure` (data-types.go:273) -/
def TypeInfrastructure : Str := b!"infrastructure"

/-- `TypeIntrusionSet` (data-types.go:275) -/
def TypeIntrusionSet : Str := b!"intrusion-set"

/-- `TypeLanguageContent` (data-types.go:277) -/
def TypeLanguageContent : Str := b!"language-content"

/-- `TypeLocation` (data-types.go:279) -/
def TypeLocation : Str := b!"location"

/-- `TypeMACAddress` (data-types.go:281) -/
def TypeMACAddress : Str := b!"mac-addr"

/-- `TypeMalware` (data-types.go:283) -/
def TypeMalware : Str := b!"malware"

/-- `TypeMalwareAnalysis` (data-types.go:285) -/
def TypeMalwareAnalysis : Str := b!"malware-analysis"

/-- `TypeMarkingDefinition` (data-types.go:287) -/
def TypeMarkingDefinition : Str := b!"marking-definition"

/-- `TypeMutex` (data-types.go:289) -/
def TypeMutex : Str := b!"mutex"

/-- `TypeNetworkTraffic` (data-types.go:291) -/
def TypeNetworkTraffic : Str := b!"network-traffic"

/-- `TypeNote` (data-types.go:293) -/
def TypeNote : Str := b!"note"

/-- `TypeObservedData` (data-types.go:295) -/
def TypeObservedData : Str := b!"observed-data"

/-- `TypeOpinion` (data-types.go:297) -/
def TypeOpinion : Str := b!"opinion"

/-- `TypeProcess` (data-types.go:299) -/
def TypeProcess : Str := b!"process"

/-- `TypeRegistryKey` (data-types.go:301) -/
def TypeRegistryKey : Str := b!"windows-registry-key"

/-- `TypeRelationship` (data-types.go:303) -/
def TypeRelationship : Str := b!"relationship"

/-- `TypeReport` (data-types.go:305) -/
def TypeReport : Str := b!"report"

/-- `TypeSighting` (data-types.go:307) -/
def TypeSighting : Str := b!"sighting"

/-- `TypeSoftware` (data-types.go:309) -/
def TypeSoftware : Str := b!"software"

/-- `TypeThreatActor` (data-types.go:311) -/
def TypeThreatActor : Str := b!"threat-actor"

/-- `TypeTool` (data-types.go:313) -/
def TypeTool : Str := b!"tool"

/-- `TypeURL` (data-types.go:315) -/
def TypeURL : Str := b!"url"

/-- `TypeUserAccount` (data-types.go:317) -/
def TypeUserAccount : Str := b!"user-account"

/-- `TypeVulnerability` (data-types.go:319) -/
def TypeVulnerability : Str := b!"vulnerability"

/-- `TypeX509Certificate` (data-types.go:321) -/
def TypeX509Certificate : Str := b!"x509-certificate"

/-- `AllTypes` (data-types.go:325-369) -/
def allTypes : List Str :=
  [TypeAutonomousSystem,
   TypeArtifact,
   TypeAttackPattern,
   TypeCampaign,
   TypeCourseOfAction,
   TypeDirectory,
   TypeDomainName,
   TypeEmailAddress,
   TypeEmailMIME,
   TypeEmailMessage,
   TypeExtensionDefinition,
   TypeFile,
   TypeGrouping,
   TypeIPv4Addr,
   TypeIPv6Addr,
   TypeIdentity,
   TypeIncident,
   TypeIndicator,
   TypeInfrastructure,
   TypeIntrusionSet,
   TypeLanguageContent,
   TypeLocation,
   TypeMACAddress,
   TypeMalware,
   TypeMalwareAnalysis,
   TypeMarkingDefinition,
   TypeMutex,
   TypeNetworkTraffic,
   TypeNote,
   TypeObservedData,
   TypeOpinion,
   TypeProcess,
   TypeRegistryKey,
   TypeRelationship,
   TypeReport,
   TypeSighting,
   TypeSoftware,
   TypeThreatActor,
   TypeTool,
   TypeURL,
   TypeUserAccount,
   TypeVulnerability,
   TypeX509Certificate]

/-- All declared type constants, `TypeBundle` included (data-types.go:235-321). -/
def typeConsts : List Str :=
  [TypeAutonomousSystem,
   TypeArtifact,
   TypeAttackPattern,
   TypeBundle,
   TypeCampaign,
   TypeCourseOfAction,
   TypeDirectory,
   TypeDomainName,
   TypeEmailAddress,
   TypeEmailMIME,
   TypeEmailMessage,
   TypeExtensionDefinition,
   TypeFile,
   TypeGrouping,
   TypeIncident,
   TypeIPv4Addr,
   TypeIPv6Addr,
   TypeIdentity,
   TypeIndicator,
   TypeInfrastructure,
   TypeIntrusionSet,
   TypeLanguageContent,
   TypeLocation,
   TypeMACAddress,
   TypeMalware,
   TypeMalwareAnalysis,
   TypeMarkingDefinition,
   TypeMutex,
   TypeNetworkTraffic,
   TypeNote,
   TypeObservedData,
   TypeOpinion,
   TypeProcess,
   TypeRegistryKey,
   TypeRelationship,
   TypeReport,
   TypeSighting,
   TypeSoftware,
   TypeThreatActor,
   TypeTool,
   TypeURL,
   TypeUserAccount,
   TypeVulnerability,
   TypeX509Certificate]

/-- `ExtArchive` (data-types.go:373) -/
def ExtArchive : Str := b!"archive-ext"

/-- `ExtNTFS` (data-types.go:375) -/
def ExtNTFS : Str := b!"ntfs-ext"

/-- `ExtPDF` (data-types.go:377) -/
def ExtPDF : Str := b!"pdf-ext"

/-- `ExtRasterImage` (data-types.go:379) -/
def ExtRasterImage : Str := b!"raster-image-ext"

/-- `ExtWindowsPEBinary` (data-types.go:381) -/
def ExtWindowsPEBinary : Str := b!"windows-pebinary-ext"

/-- `ExtHTTPRequest` (data-types.go:383) -/
def ExtHTTPRequest : Str := b!"http-request-ext"

/-- `ExtICMP` (data-types.go:385) -/
def ExtICMP : Str := b!"icmp-ext"

/-- `ExtSocket` (data-types.go:387) -/
def ExtSocket : Str := b!"socket-ext"

/-- `ExtTCP` (data-types.go:389) -/
def ExtTCP : Str := b!"tcp-ext"

/-- `ExtWindowsProcess` (data-types.go:391) -/
def ExtWindowsProcess : Str := b!"windows-process-ext"

/-- `ExtWindowsService` (data-types.go:393) -/
def ExtWindowsService : Str := b!"windows-service-ext"

/-- `ExtUnixAccount` (data-types.go:395) -/
def ExtUnixAccount : Str := b!"unix-account-ext"

/-- `RelationshipTypeAnalysisOf` (relationship.go:90) -/
def RelationshipTypeAnalysisOf : Str := b!"analysis-of"

/-- `RelationshipTypeAttributedTo` (relationship.go:92) -/
def RelationshipTypeAttributedTo : Str := b!"attributed-to"

/-- `RelationshipTypeAuthoredBy` (relationship.go:94) -/
def RelationshipTypeAuthoredBy : Str := b!"authored-by"

/-- `RelationshipTypeBasedOn` (relationship.go:96) -/
def RelationshipTypeBasedOn : Str := b!"based-on"

/-- `RelationshipTypeBeaconsTo` (relationship.go:98) -/
def RelationshipTypeBeaconsTo : Str := b!"beacons-to"

/-- `RelationshipTypeBelongsTo` (relationship.go:100) -/
def RelationshipTypeBelongsTo : Str := b!"belongs-to"

/-- `RelationshipTypeCharacterizes` (relationship.go:102) -/
def RelationshipTypeCharacterizes : Str := b!"characterizes"

/-- `RelationshipTypeCommunicatesWith` (relationship.go:104) -/
def RelationshipTypeCommunicatesWith : Str := b!"communicates-with"

/-- `RelationshipTypeCompromises` (relationship.go:106) -/
def RelationshipTypeCompromises : Str := b!"compromises"

/-- `RelationshipTypeConsistsOf` (relationship.go:108) -/
def RelationshipTypeConsistsOf : Str := b!"consists-of"

/-- `RelationshipTypeControls` (relationship.go:110) -/
def RelationshipTypeControls : Str := b!"controls"

/-- `RelationshipTypeDelivers` (relationship.go:112) -/
def RelationshipTypeDelivers : Str := b!"delivers"

/-- `RelationshipTypeDerivedFrom` (relationship.go:114) -/
def RelationshipTypeDerivedFrom : Str := b!"derived-from"

/-- `RelationshipTypeDownloads` (relationship.go:116) -/
def RelationshipTypeDownloads : Str := b!"downloads"

/-- `RelationshipTypeDrops` (relationship.go:118) -/
def RelationshipTypeDrops : Str := b!"drops"

/-- `RelationshipTypeDuplicateOf` (relationship.go:120) -/
def RelationshipTypeDuplicateOf : Str := b!"duplicate-of"

/-- `RelationshipTypeDynamicAnalysisOf` (relationship.go:122) -/
def RelationshipTypeDynamicAnalysisOf : Str := b!"dynamic-analysis-of"

/-- `RelationshipTypeExfiltratesTo` (relationship.go:124) -/
def RelationshipTypeExfiltratesTo : Str := b!"exfiltrates-to"

/-- `RelationshipTypeExploits` (relationship.go:126) -/
def RelationshipTypeExploits : Str := b!"exploits"

/-- `RelationshipTypeHas` (relationship.go:128) -/
def RelationshipTypeHas : Str := b!"has"

/-- `RelationshipTypeHosts` (relationship.go:130) -/
def RelationshipTypeHosts : Str := b!"hosts"

/-- `RelationshipTypeImpersonates` (relationship.go:132) -/
def RelationshipTypeImpersonates : Str := b!"impersonates"

/-- `RelationshipTypeIndicates` (relationship.go:134) -/
def RelationshipTypeIndicates : Str := b!"indicates"

/-- `RelationshipTypeInvestigates` (relationship.go:136) -/
def RelationshipTypeInvestigates : Str := b!"investigates"

/-- `RelationshipTypeLocatedAt` (relationship.go:138) -/
def RelationshipTypeLocatedAt : Str := b!"located-at"

/-- `RelationshipTypeMitigates` (relationship.go:140) -/
def RelationshipTypeMitigates : Str := b!"mitigates"

/-- `RelationshipTypeOriginatesFrom` (relationship.go:142) -/
def RelationshipTypeOriginatesFrom : Str := b!"originates-from"

/-- `RelationshipTypeOwns` (relationship.go:144) -/
def RelationshipTypeOwns : Str := b!"owns"

/-- `RelationshipTypeRelatedTo` (relationship.go:146) -/
def RelationshipTypeRelatedTo : Str := b!"related-to"

/-- `RelationshipTypeRemediates` (relationship.go:148) -/
def RelationshipTypeRemediates : Str := b!"remediates"

/-- `RelationshipTypeResolvesTo` (relationship.go:150) -/
def RelationshipTypeResolvesTo : Str := b!"resolves-to"

/-- `RelationshipTypeStaticAnalysisOf` (relationship.go:152) -/
def RelationshipTypeStaticAnalysisOf : Str := b!"static-analysis-of"

/-- `RelationshipTypeTargets` (relationship.go:154) -/
def RelationshipTypeTargets : Str := b!"targets"

/-- `RelationshipTypeUses` (relationship.go:156) -/
def RelationshipTypeUses : Str := b!"uses"

/-- `RelationshipTypeVariantOf` (relationship.go:158) -/
def RelationshipTypeVariantOf : Str := b!"variant-of"

end Stix
