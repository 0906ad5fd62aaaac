import Verif.Gen.Structs

/-! Generated from /repo by tools/gen.py; do not edit. -/

namespace Stix

/-- An entry of the list of types in the comment of an option function. -/
inductive Audience where
  | domain
  | relationship
  | observable
  | bundle
  | allButExtension
  | kind (s : SId)
  deriving DecidableEq, Repr

/-- What the comments of the option functions say they are valid for (option.go:19-1439).  (One comment has an empty list.) -/
def optionDocs : List (Str × List Audience) :=
  [(b!"OptionSpecVersion", [.domain, .relationship, .kind .LanguageContent, .kind .MarkingDefinition, .bundle]),
   (b!"OptionCreatedBy", [.domain, .relationship, .kind .LanguageContent, .kind .MarkingDefinition]),
   (b!"OptionCreated", [.domain, .relationship, .kind .LanguageContent, .kind .MarkingDefinition]),
   (b!"OptionModified", [.domain, .relationship, .kind .LanguageContent]),
   (b!"OptionRevoked", [.domain, .relationship, .kind .LanguageContent]),
   (b!"OptionLabels", [.domain, .relationship, .kind .LanguageContent]),
   (b!"OptionConfidence", [.domain, .relationship, .kind .LanguageContent]),
   (b!"OptionLang", [.domain, .relationship]),
   (b!"OptionExternalReferences", [.domain, .relationship, .kind .LanguageContent, .kind .MarkingDefinition]),
   (b!"OptionObjectMarking", [.domain, .observable, .relationship, .kind .LanguageContent, .kind .MarkingDefinition]),
   (b!"OptionGranularMarking", [.domain, .observable, .relationship, .kind .LanguageContent, .kind .MarkingDefinition]),
   (b!"OptionDefanged", [.observable]),
   (b!"OptionExtension", [.allButExtension]),
   (b!"OptionExtensionProperties", [.kind .ExtensionDefinition]),
   (b!"OptionDescription", [.kind .AttackPattern, .kind .Campaign, .kind .CourseOfAction, .kind .Grouping, .kind .Identity, .kind .Indicator, .kind .Infrastructure, .kind .IntrusionSet, .kind .Location, .kind .Malware, .kind .Report, .kind .ThreatActor, .kind .Tool, .kind .Vulnerability, .kind .Relationship, .kind .Sighting]),
   (b!"OptionAliases", [.kind .AttackPattern, .kind .Campaign, .kind .Infrastructure, .kind .IntrusionSet, .kind .Malware, .kind .ThreatActor, .kind .Tool]),
   (b!"OptionKillChainPhase", [.kind .AttackPattern, .kind .Indicator, .kind .Infrastructure, .kind .Malware, .kind .Tool]),
   (b!"OptionFirstSeen", [.kind .Campaign, .kind .Infrastructure, .kind .IntrusionSet, .kind .Malware, .kind .ThreatActor, .kind .Sighting]),
   (b!"OptionLastSeen", [.kind .Campaign, .kind .Infrastructure, .kind .IntrusionSet, .kind .Malware, .kind .ThreatActor, .kind .Sighting]),
   (b!"OptionObjective", [.kind .Campaign]),
   (b!"OptionName", [.kind .Grouping, .kind .Indicator, .kind .Location, .kind .Malware, .kind .AutonomousSystem, .kind .MarkingDefinition]),
   (b!"OptionClass", [.kind .Identity]),
   (b!"OptionRoles", [.kind .Identity, .kind .ThreatActor]),
   (b!"OptionSectors", [.kind .Identity]),
   (b!"OptionContactInformation", [.kind .Identity]),
   (b!"OptionTypes", [.kind .Indicator, .kind .Infrastructure, .kind .Malware, .kind .Report, .kind .ThreatActor, .kind .Tool]),
   (b!"OptionPatternVersion", [.kind .Indicator]),
   (b!"OptionValidUntil", [.kind .Indicator]),
   (b!"OptionGoals", [.kind .IntrusionSet, .kind .ThreatActor]),
   (b!"OptionResourceLevel", [.kind .IntrusionSet, .kind .ThreatActor]),
   (b!"OptionPrimaryMotivation", [.kind .IntrusionSet, .kind .ThreatActor]),
   (b!"OptionSecondaryMotivations", [.kind .IntrusionSet, .kind .ThreatActor]),
   (b!"OptionPrecision", [.kind .Location]),
   (b!"OptionAdministrativeArea", [.kind .Location]),
   (b!"OptionCity", [.kind .Location]),
   (b!"OptionStreetAddress", [.kind .Location]),
   (b!"OptionPostalCode", [.kind .Location]),
   (b!"OptionOperatingSystems", [.kind .Malware]),
   (b!"OptionArchitecture", [.kind .Malware]),
   (b!"OptionLanguages", [.kind .Malware, .kind .Software]),
   (b!"OptionCapabilities", [.kind .Malware]),
   (b!"OptionSamples", [.kind .Malware]),
   (b!"OptionVersion", [.kind .MalwareAnalysis, .kind .Tool, .kind .Software, .kind .X509Certificate]),
   (b!"OptionHostVM", [.kind .MalwareAnalysis]),
   (b!"OptionOperatingSystem", [.kind .MalwareAnalysis]),
   (b!"OptionInstalledSoftware", [.kind .MalwareAnalysis]),
   (b!"OptionConfigurationVersion", [.kind .MalwareAnalysis]),
   (b!"OptionModules", [.kind .MalwareAnalysis]),
   (b!"OptionAnalysisEngineVersion", [.kind .MalwareAnalysis]),
   (b!"OptionAnalysisDefinitionVersion", [.kind .MalwareAnalysis]),
   (b!"OptionSubmitted", [.kind .MalwareAnalysis]),
   (b!"OptionAnalysisStarted", [.kind .MalwareAnalysis]),
   (b!"OptionAnalysisEnded", [.kind .MalwareAnalysis]),
   (b!"OptionResultName", [.kind .MalwareAnalysis]),
   (b!"OptionSample", [.kind .MalwareAnalysis]),
   (b!"OptionAbstract", [.kind .Note]),
   (b!"OptionAuthors", [.kind .Note, .kind .Opinion]),
   (b!"OptionExplanation", [.kind .Opinion]),
   (b!"OptionSophistication", [.kind .ThreatActor]),
   (b!"OptionPersonalMotivations", [.kind .ThreatActor]),
   (b!"OptionStartTime", [.kind .Relationship]),
   (b!"OptionStopTime", [.kind .Relationship]),
   (b!"OptionCount", [.kind .Sighting]),
   (b!"OptionObservedData", [.kind .Sighting]),
   (b!"OptionWhereSighted", [.kind .Sighting]),
   (b!"OptionSummary", [.kind .Sighting]),
   (b!"OptionMimeType", [.kind .Artifact, .kind .File]),
   (b!"OptionPayload", [.kind .Artifact]),
   (b!"OptionURL", [.kind .Artifact]),
   (b!"OptionHashes", [.kind .Artifact, .kind .File, .kind .X509Certificate]),
   (b!"OptionEncryption", [.kind .Artifact]),
   (b!"OptionKey", [.kind .Artifact, .kind .RegistryKey]),
   (b!"OptionRIR", [.kind .AutonomousSystem]),
   (b!"OptionPathEncoding", [.kind .Directory]),
   (b!"OptionCtime", [.kind .Directory, .kind .File]),
   (b!"OptionMtime", [.kind .Directory, .kind .File]),
   (b!"OptionAtime", [.kind .Directory, .kind .File]),
   (b!"OptionContains", [.kind .Directory, .kind .File]),
   (b!"OptionResolvesTo", [.kind .DomainName, .kind .IPv4Address, .kind .IPv6Address]),
   (b!"OptionDisplayName", [.kind .EmailAddress, .kind .UserAccount]),
   (b!"OptionBelongsTo", [.kind .EmailAddress, .kind .IPv4Address, .kind .IPv6Address]),
   (b!"OptionDate", [.kind .EmailMessage]),
   (b!"OptionContentType", [.kind .EmailMessage]),
   (b!"OptionFrom", [.kind .EmailMessage]),
   (b!"OptionSender", [.kind .EmailMessage]),
   (b!"OptionTo", [.kind .EmailMessage]),
   (b!"OptionCC", [.kind .EmailMessage]),
   (b!"OptionBCC", [.kind .EmailMessage]),
   (b!"OptionMessageID", [.kind .EmailMessage]),
   (b!"OptionSubject", [.kind .EmailMessage]),
   (b!"OptionReceivedLines", [.kind .EmailMessage]),
   (b!"OptionAdditionalHeaderFields", [.kind .EmailMessage]),
   (b!"OptionBody", [.kind .EmailMessage]),
   (b!"OptionBodyMultipart", [.kind .EmailMessage]),
   (b!"OptionRawEmail", [.kind .EmailMessage]),
   (b!"OptionSize", [.kind .File]),
   (b!"OptionNameEnc", [.kind .File]),
   (b!"OptionMagicNumber", [.kind .File]),
   (b!"OptionParentDirectory", [.kind .File]),
   (b!"OptionContent", [.kind .File]),
   (b!"OptionStart", [.kind .NetworkTraffic]),
   (b!"OptionEnd", [.kind .NetworkTraffic]),
   (b!"OptionIsActive", [.kind .NetworkTraffic]),
   (b!"OptionSrc", [.kind .NetworkTraffic]),
   (b!"OptionDst", [.kind .NetworkTraffic]),
   (b!"OptionSrcPort", [.kind .NetworkTraffic]),
   (b!"OptionDstPort", [.kind .NetworkTraffic]),
   (b!"OptionSrcByteCount", [.kind .NetworkTraffic]),
   (b!"OptionDstByteCount", [.kind .NetworkTraffic]),
   (b!"OptionSrcPackets", [.kind .NetworkTraffic]),
   (b!"OptionDstPackets", [.kind .NetworkTraffic]),
   (b!"OptionIPFIX", [.kind .NetworkTraffic]),
   (b!"OptionSrcPayload", [.kind .NetworkTraffic]),
   (b!"OptionDstPayload", [.kind .NetworkTraffic]),
   (b!"OptionEncapsulates", [.kind .NetworkTraffic]),
   (b!"OptionEncapsulated", [.kind .NetworkTraffic]),
   (b!"OptionIsHidden", [.kind .Process]),
   (b!"OptionPID", [.kind .Process]),
   (b!"OptionCreatedTime", [.kind .Process]),
   (b!"OptionCwd", [.kind .Process]),
   (b!"OptionCommandLine", [.kind .Process]),
   (b!"OptionEnvVars", [.kind .Process]),
   (b!"OptionOpenedConnections", [.kind .Process]),
   (b!"OptionCreatorUser", [.kind .Process, .kind .RegistryKey]),
   (b!"OptionImage", [.kind .Process]),
   (b!"OptionParent", [.kind .Process]),
   (b!"OptionChild", [.kind .Process]),
   (b!"OptionCPE", [.kind .Software]),
   (b!"OptionSWID", [.kind .Software]),
   (b!"OptionVendor", [.kind .Software]),
   (b!"OptionUserID", [.kind .Software]),
   (b!"OptionCredential", []),
   (b!"OptionAccountLogin", [.kind .UserAccount]),
   (b!"OptionAccountType", [.kind .UserAccount]),
   (b!"OptionIsServiceAccount", [.kind .UserAccount]),
   (b!"OptionIsPrivileged", [.kind .UserAccount]),
   (b!"OptionCanEscalatePrivs", [.kind .UserAccount]),
   (b!"OptionIsDisabled", [.kind .UserAccount]),
   (b!"OptionAccountCreated", [.kind .UserAccount]),
   (b!"OptionAccountExpires", [.kind .UserAccount]),
   (b!"OptionCredentialLastChanged", [.kind .UserAccount]),
   (b!"OptionAccountFirstLogin", [.kind .UserAccount]),
   (b!"OptionAccountLastLogin", [.kind .UserAccount]),
   (b!"OptionValues", [.kind .RegistryKey]),
   (b!"OptionModifiedTime", [.kind .RegistryKey]),
   (b!"OptionNumberOfSubkeys", [.kind .RegistryKey]),
   (b!"OptionSelfSigned", [.kind .X509Certificate]),
   (b!"OptionSerialNumber", [.kind .X509Certificate]),
   (b!"OptionSignatureAlgorithm", [.kind .X509Certificate]),
   (b!"OptionIssuer", [.kind .X509Certificate]),
   (b!"OptionValidityNotBefore", [.kind .X509Certificate]),
   (b!"OptionValidityNotAfter", [.kind .X509Certificate]),
   (b!"OptionSubjectPublicKeyAlgorithm", [.kind .X509Certificate]),
   (b!"OptionSubjectPublicKeyModulus", [.kind .X509Certificate]),
   (b!"OptionSubjectPublicKeyExponent", [.kind .X509Certificate]),
   (b!"OptionV3Extensions", [.kind .X509Certificate]),
   (b!"OptionObjectModified", [.kind .LanguageContent])]

end Stix
