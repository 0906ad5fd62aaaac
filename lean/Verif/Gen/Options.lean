import Verif.Gen.Structs

/-! Generated from /repo by tools/gen.py; do not edit. -/

namespace Stix

/-- An option function that sets a field: its name, the type of its parameter, the field it
names and the kind it expects. -/
structure OptRow where
  name : Str
  ty : Ty
  field : Str
  kind : Kind

/-- option.go:25-29 -/
def OptionSpecVersion : OptRow := ⟨b!"OptionSpecVersion", .str (b!"string"), b!"SpecVersion", .string⟩

/-- option.go:36-40 -/
def OptionCreatedBy : OptRow := ⟨b!"OptionCreatedBy", .str (b!"Identifier"), b!"CreatedBy", .string⟩

/-- option.go:47-51 -/
def OptionCreated : OptRow := ⟨b!"OptionCreated", .ptr (.time), b!"Created", .ptr⟩

/-- option.go:57-61 -/
def OptionModified : OptRow := ⟨b!"OptionModified", .ptr (.time), b!"Modified", .ptr⟩

/-- option.go:67-71 -/
def OptionRevoked : OptRow := ⟨b!"OptionRevoked", .bool, b!"Revoked", .bool⟩

/-- option.go:77-81 -/
def OptionLabels : OptRow := ⟨b!"OptionLabels", .slice (.str (b!"string")), b!"Labels", .slice⟩

/-- option.go:87-91 -/
def OptionConfidence : OptRow := ⟨b!"OptionConfidence", .int (b!"int"), b!"Confidence", .int⟩

/-- option.go:96-100 -/
def OptionLang : OptRow := ⟨b!"OptionLang", .str (b!"string"), b!"Lang", .string⟩

/-- option.go:107-111 -/
def OptionExternalReferences : OptRow := ⟨b!"OptionExternalReferences", .slice (.ptr (.struct (b!"ExternalReference") fieldsExternalReference)), b!"ExternalReferences", .slice⟩

/-- option.go:119-123 -/
def OptionObjectMarking : OptRow := ⟨b!"OptionObjectMarking", .slice (.str (b!"Identifier")), b!"ObjectMarking", .slice⟩

/-- option.go:131-135 -/
def OptionGranularMarking : OptRow := ⟨b!"OptionGranularMarking", .slice (.ptr (.struct (b!"GranularMarking") fieldsGranularMarking)), b!"GranularMarking", .slice⟩

/-- option.go:139-143 -/
def OptionDefanged : OptRow := ⟨b!"OptionDefanged", .bool, b!"Defanged", .bool⟩

/-- option.go:214-218 -/
def OptionExtensionProperties : OptRow := ⟨b!"OptionExtensionProperties", .slice (.str (b!"string")), b!"ExtensionProperties", .slice⟩

/-- option.go:241-245 -/
def OptionDescription : OptRow := ⟨b!"OptionDescription", .str (b!"string"), b!"Description", .string⟩

/-- option.go:255-259 -/
def OptionAliases : OptRow := ⟨b!"OptionAliases", .slice (.str (b!"string")), b!"Aliases", .slice⟩

/-- option.go:267-271 -/
def OptionKillChainPhase : OptRow := ⟨b!"OptionKillChainPhase", .slice (.ptr (.struct (b!"KillChainPhase") fieldsKillChainPhase)), b!"KillChainPhase", .slice⟩

/-- option.go:280-284 -/
def OptionFirstSeen : OptRow := ⟨b!"OptionFirstSeen", .ptr (.time), b!"FirstSeen", .ptr⟩

/-- option.go:293-297 -/
def OptionLastSeen : OptRow := ⟨b!"OptionLastSeen", .ptr (.time), b!"LastSeen", .ptr⟩

/-- option.go:301-305 -/
def OptionObjective : OptRow := ⟨b!"OptionObjective", .str (b!"string"), b!"Objective", .string⟩

/-- option.go:314-318 -/
def OptionName : OptRow := ⟨b!"OptionName", .str (b!"string"), b!"Name", .string⟩

/-- option.go:322-326 -/
def OptionClass : OptRow := ⟨b!"OptionClass", .str (b!"string"), b!"Class", .string⟩

/-- option.go:331-335 -/
def OptionRoles : OptRow := ⟨b!"OptionRoles", .slice (.str (b!"string")), b!"Roles", .slice⟩

/-- option.go:339-343 -/
def OptionSectors : OptRow := ⟨b!"OptionSectors", .slice (.str (b!"string")), b!"Sectors", .slice⟩

/-- option.go:347-351 -/
def OptionContactInformation : OptRow := ⟨b!"OptionContactInformation", .str (b!"string"), b!"ContactInformation", .string⟩

/-- option.go:360-364 -/
def OptionTypes : OptRow := ⟨b!"OptionTypes", .slice (.str (b!"string")), b!"Types", .slice⟩

/-- option.go:368-372 -/
def OptionPatternVersion : OptRow := ⟨b!"OptionPatternVersion", .str (b!"string"), b!"PatternVersion", .string⟩

/-- option.go:376-380 -/
def OptionValidUntil : OptRow := ⟨b!"OptionValidUntil", .ptr (.time), b!"ValidUntil", .ptr⟩

/-- option.go:385-389 -/
def OptionGoals : OptRow := ⟨b!"OptionGoals", .slice (.str (b!"string")), b!"Goals", .slice⟩

/-- option.go:394-398 -/
def OptionResourceLevel : OptRow := ⟨b!"OptionResourceLevel", .str (b!"string"), b!"ResourceLevel", .string⟩

/-- option.go:403-407 -/
def OptionPrimaryMotivation : OptRow := ⟨b!"OptionPrimaryMotivation", .str (b!"string"), b!"PrimaryMotivation", .string⟩

/-- option.go:412-416 -/
def OptionSecondaryMotivations : OptRow := ⟨b!"OptionSecondaryMotivations", .slice (.str (b!"string")), b!"SecondaryMotivations", .slice⟩

/-- option.go:420-424 -/
def OptionPrecision : OptRow := ⟨b!"OptionPrecision", .flt, b!"Precision", .float64⟩

/-- option.go:428-432 -/
def OptionAdministrativeArea : OptRow := ⟨b!"OptionAdministrativeArea", .str (b!"string"), b!"AdministrativeArea", .string⟩

/-- option.go:436-440 -/
def OptionCity : OptRow := ⟨b!"OptionCity", .str (b!"string"), b!"City", .string⟩

/-- option.go:444-448 -/
def OptionStreetAddress : OptRow := ⟨b!"OptionStreetAddress", .str (b!"string"), b!"StreetAddress", .string⟩

/-- option.go:452-456 -/
def OptionPostalCode : OptRow := ⟨b!"OptionPostalCode", .str (b!"string"), b!"PostalCode", .string⟩

/-- option.go:460-464 -/
def OptionOperatingSystems : OptRow := ⟨b!"OptionOperatingSystems", .slice (.str (b!"Identifier")), b!"OperatingSystems", .slice⟩

/-- option.go:468-472 -/
def OptionArchitecture : OptRow := ⟨b!"OptionArchitecture", .slice (.str (b!"string")), b!"Architecture", .slice⟩

/-- option.go:477-481 -/
def OptionLanguages : OptRow := ⟨b!"OptionLanguages", .slice (.str (b!"string")), b!"Languages", .slice⟩

/-- option.go:485-489 -/
def OptionCapabilities : OptRow := ⟨b!"OptionCapabilities", .slice (.str (b!"string")), b!"Capabilities", .slice⟩

/-- option.go:493-497 -/
def OptionSamples : OptRow := ⟨b!"OptionSamples", .slice (.str (b!"Identifier")), b!"Samples", .slice⟩

/-- option.go:504-508 -/
def OptionVersion : OptRow := ⟨b!"OptionVersion", .str (b!"string"), b!"Version", .string⟩

/-- option.go:512-516 -/
def OptionHostVM : OptRow := ⟨b!"OptionHostVM", .str (b!"Identifier"), b!"HostVM", .string⟩

/-- option.go:520-524 -/
def OptionOperatingSystem : OptRow := ⟨b!"OptionOperatingSystem", .str (b!"Identifier"), b!"OperatingSystem", .string⟩

/-- option.go:528-532 -/
def OptionInstalledSoftware : OptRow := ⟨b!"OptionInstalledSoftware", .slice (.str (b!"Identifier")), b!"InstalledSoftware", .slice⟩

/-- option.go:537-541 -/
def OptionConfigurationVersion : OptRow := ⟨b!"OptionConfigurationVersion", .str (b!"string"), b!"ConfigurationVersion", .string⟩

/-- option.go:545-549 -/
def OptionModules : OptRow := ⟨b!"OptionModules", .slice (.str (b!"string")), b!"Modules", .slice⟩

/-- option.go:554-558 -/
def OptionAnalysisEngineVersion : OptRow := ⟨b!"OptionAnalysisEngineVersion", .str (b!"string"), b!"AnalysisEngineVersion", .string⟩

/-- option.go:563-567 -/
def OptionAnalysisDefinitionVersion : OptRow := ⟨b!"OptionAnalysisDefinitionVersion", .str (b!"string"), b!"AnalysisDefinitionVersion", .string⟩

/-- option.go:571-575 -/
def OptionSubmitted : OptRow := ⟨b!"OptionSubmitted", .ptr (.time), b!"Submitted", .ptr⟩

/-- option.go:579-583 -/
def OptionAnalysisStarted : OptRow := ⟨b!"OptionAnalysisStarted", .ptr (.time), b!"AnalysisStarted", .ptr⟩

/-- option.go:587-591 -/
def OptionAnalysisEnded : OptRow := ⟨b!"OptionAnalysisEnded", .ptr (.time), b!"AnalysisEnded", .ptr⟩

/-- option.go:595-599 -/
def OptionResultName : OptRow := ⟨b!"OptionResultName", .str (b!"string"), b!"ResultName", .string⟩

/-- option.go:603-607 -/
def OptionSample : OptRow := ⟨b!"OptionSample", .str (b!"Identifier"), b!"Sample", .string⟩

/-- option.go:611-615 -/
def OptionAbstract : OptRow := ⟨b!"OptionAbstract", .str (b!"string"), b!"Abstract", .string⟩

/-- option.go:620-624 -/
def OptionAuthors : OptRow := ⟨b!"OptionAuthors", .slice (.str (b!"string")), b!"Authors", .slice⟩

/-- option.go:628-632 -/
def OptionExplanation : OptRow := ⟨b!"OptionExplanation", .str (b!"string"), b!"Explanation", .string⟩

/-- option.go:636-640 -/
def OptionSophistication : OptRow := ⟨b!"OptionSophistication", .str (b!"string"), b!"Sophistication", .string⟩

/-- option.go:644-648 -/
def OptionPersonalMotivations : OptRow := ⟨b!"OptionPersonalMotivations", .slice (.str (b!"string")), b!"PersonalMotivations", .slice⟩

/-- option.go:652-656 -/
def OptionStartTime : OptRow := ⟨b!"OptionStartTime", .ptr (.time), b!"StartTime", .ptr⟩

/-- option.go:660-664 -/
def OptionStopTime : OptRow := ⟨b!"OptionStopTime", .ptr (.time), b!"StopTime", .ptr⟩

/-- option.go:668-672 -/
def OptionCount : OptRow := ⟨b!"OptionCount", .int (b!"int64"), b!"Count", .int64⟩

/-- option.go:676-680 -/
def OptionObservedData : OptRow := ⟨b!"OptionObservedData", .slice (.str (b!"Identifier")), b!"ObservedData", .slice⟩

/-- option.go:684-688 -/
def OptionWhereSighted : OptRow := ⟨b!"OptionWhereSighted", .slice (.str (b!"Identifier")), b!"WhereSighted", .slice⟩

/-- option.go:692-696 -/
def OptionSummary : OptRow := ⟨b!"OptionSummary", .bool, b!"Summary", .bool⟩

/-- option.go:701-705 -/
def OptionMimeType : OptRow := ⟨b!"OptionMimeType", .str (b!"string"), b!"MimeType", .string⟩

/-- option.go:709-713 -/
def OptionPayload : OptRow := ⟨b!"OptionPayload", .bin, b!"Payload", .slice⟩

/-- option.go:717-721 -/
def OptionURL : OptRow := ⟨b!"OptionURL", .str (b!"string"), b!"URL", .string⟩

/-- option.go:727-731 -/
def OptionHashes : OptRow := ⟨b!"OptionHashes", .map (b!"Hashes") (b!"HashAlgorithm") (.str (b!"string")), b!"Hashes", .map⟩

/-- option.go:735-739 -/
def OptionEncryption : OptRow := ⟨b!"OptionEncryption", .enum .EncryptionAlgorithm, b!"Encryption", .uint8⟩

/-- option.go:744-748 -/
def OptionKey : OptRow := ⟨b!"OptionKey", .str (b!"string"), b!"Key", .string⟩

/-- option.go:752-756 -/
def OptionRIR : OptRow := ⟨b!"OptionRIR", .str (b!"string"), b!"RIR", .string⟩

/-- option.go:760-764 -/
def OptionPathEncoding : OptRow := ⟨b!"OptionPathEncoding", .str (b!"string"), b!"PathEnc", .string⟩

/-- option.go:769-773 -/
def OptionCtime : OptRow := ⟨b!"OptionCtime", .ptr (.time), b!"Ctime", .ptr⟩

/-- option.go:778-782 -/
def OptionMtime : OptRow := ⟨b!"OptionMtime", .ptr (.time), b!"Mtime", .ptr⟩

/-- option.go:787-791 -/
def OptionAtime : OptRow := ⟨b!"OptionAtime", .ptr (.time), b!"Atime", .ptr⟩

/-- option.go:796-800 -/
def OptionContains : OptRow := ⟨b!"OptionContains", .slice (.str (b!"Identifier")), b!"Contains", .slice⟩

/-- option.go:806-810 -/
def OptionResolvesTo : OptRow := ⟨b!"OptionResolvesTo", .slice (.str (b!"Identifier")), b!"ResolvesTo", .slice⟩

/-- option.go:815-819 -/
def OptionDisplayName : OptRow := ⟨b!"OptionDisplayName", .str (b!"string"), b!"DisplayName", .string⟩

/-- option.go:825-829 -/
def OptionBelongsTo : OptRow := ⟨b!"OptionBelongsTo", .str (b!"Identifier"), b!"BelongsTo", .string⟩

/-- option.go:833-837 -/
def OptionDate : OptRow := ⟨b!"OptionDate", .ptr (.time), b!"Date", .ptr⟩

/-- option.go:841-845 -/
def OptionContentType : OptRow := ⟨b!"OptionContentType", .str (b!"string"), b!"ContentType", .string⟩

/-- option.go:849-853 -/
def OptionFrom : OptRow := ⟨b!"OptionFrom", .str (b!"Identifier"), b!"From", .string⟩

/-- option.go:857-861 -/
def OptionSender : OptRow := ⟨b!"OptionSender", .str (b!"Identifier"), b!"Sender", .string⟩

/-- option.go:865-869 -/
def OptionTo : OptRow := ⟨b!"OptionTo", .slice (.str (b!"Identifier")), b!"To", .slice⟩

/-- option.go:873-877 -/
def OptionCC : OptRow := ⟨b!"OptionCC", .slice (.str (b!"Identifier")), b!"CC", .slice⟩

/-- option.go:881-885 -/
def OptionBCC : OptRow := ⟨b!"OptionBCC", .slice (.str (b!"Identifier")), b!"BCC", .slice⟩

/-- option.go:889-893 -/
def OptionMessageID : OptRow := ⟨b!"OptionMessageID", .str (b!"string"), b!"MessageID", .string⟩

/-- option.go:897-901 -/
def OptionSubject : OptRow := ⟨b!"OptionSubject", .str (b!"string"), b!"Subject", .string⟩

/-- option.go:905-909 -/
def OptionReceivedLines : OptRow := ⟨b!"OptionReceivedLines", .slice (.str (b!"string")), b!"ReceivedLines", .slice⟩

/-- option.go:914-918 -/
def OptionAdditionalHeaderFields : OptRow := ⟨b!"OptionAdditionalHeaderFields", .map [] (b!"string") (.slice (.str (b!"string"))), b!"AdditionalHeaderFields", .map⟩

/-- option.go:922-926 -/
def OptionBody : OptRow := ⟨b!"OptionBody", .str (b!"string"), b!"Body", .string⟩

/-- option.go:930-934 -/
def OptionBodyMultipart : OptRow := ⟨b!"OptionBodyMultipart", .slice (.struct (b!"EmailMIME") fieldsEmailMIME), b!"BodyMultipart", .slice⟩

/-- option.go:938-942 -/
def OptionRawEmail : OptRow := ⟨b!"OptionRawEmail", .str (b!"Identifier"), b!"RawEmail", .string⟩

/-- option.go:946-950 -/
def OptionSize : OptRow := ⟨b!"OptionSize", .int (b!"int64"), b!"Size", .int64⟩

/-- option.go:954-958 -/
def OptionNameEnc : OptRow := ⟨b!"OptionNameEnc", .str (b!"string"), b!"NameEnc", .string⟩

/-- option.go:962-966 -/
def OptionMagicNumber : OptRow := ⟨b!"OptionMagicNumber", .str (b!"Hex"), b!"MagicNumber", .string⟩

/-- option.go:970-974 -/
def OptionParentDirectory : OptRow := ⟨b!"OptionParentDirectory", .str (b!"Identifier"), b!"ParentDirectory", .string⟩

/-- option.go:978-982 -/
def OptionContent : OptRow := ⟨b!"OptionContent", .str (b!"Identifier"), b!"Content", .string⟩

/-- option.go:986-990 -/
def OptionStart : OptRow := ⟨b!"OptionStart", .ptr (.time), b!"Start", .ptr⟩

/-- option.go:994-998 -/
def OptionEnd : OptRow := ⟨b!"OptionEnd", .ptr (.time), b!"End", .ptr⟩

/-- option.go:1002-1006 -/
def OptionIsActive : OptRow := ⟨b!"OptionIsActive", .bool, b!"IsActive", .bool⟩

/-- option.go:1010-1014 -/
def OptionSrc : OptRow := ⟨b!"OptionSrc", .str (b!"Identifier"), b!"Src", .string⟩

/-- option.go:1018-1022 -/
def OptionDst : OptRow := ⟨b!"OptionDst", .str (b!"Identifier"), b!"Dst", .string⟩

/-- option.go:1026-1030 -/
def OptionSrcPort : OptRow := ⟨b!"OptionSrcPort", .int (b!"int64"), b!"SrcPort", .int64⟩

/-- option.go:1034-1038 -/
def OptionDstPort : OptRow := ⟨b!"OptionDstPort", .int (b!"int64"), b!"DstPort", .int64⟩

/-- option.go:1042-1046 -/
def OptionSrcByteCount : OptRow := ⟨b!"OptionSrcByteCount", .int (b!"int64"), b!"SrcByteCount", .int64⟩

/-- option.go:1050-1054 -/
def OptionDstByteCount : OptRow := ⟨b!"OptionDstByteCount", .int (b!"int64"), b!"DstByteCount", .int64⟩

/-- option.go:1058-1062 -/
def OptionSrcPackets : OptRow := ⟨b!"OptionSrcPackets", .int (b!"int64"), b!"SrcPackets", .int64⟩

/-- option.go:1066-1070 -/
def OptionDstPackets : OptRow := ⟨b!"OptionDstPackets", .int (b!"int64"), b!"DstPackets", .int64⟩

/-- option.go:1074-1078 -/
def OptionIPFIX : OptRow := ⟨b!"OptionIPFIX", .map [] (b!"string") (.dyn), b!"IPFIX", .map⟩

/-- option.go:1082-1086 -/
def OptionSrcPayload : OptRow := ⟨b!"OptionSrcPayload", .str (b!"Identifier"), b!"SrcPayload", .string⟩

/-- option.go:1090-1094 -/
def OptionDstPayload : OptRow := ⟨b!"OptionDstPayload", .str (b!"Identifier"), b!"DstPayload", .string⟩

/-- option.go:1098-1102 -/
def OptionEncapsulates : OptRow := ⟨b!"OptionEncapsulates", .slice (.str (b!"Identifier")), b!"Encapsulates", .slice⟩

/-- option.go:1106-1110 -/
def OptionEncapsulated : OptRow := ⟨b!"OptionEncapsulated", .str (b!"Identifier"), b!"Encapsulated", .string⟩

/-- option.go:1114-1118 -/
def OptionIsHidden : OptRow := ⟨b!"OptionIsHidden", .bool, b!"IsHidden", .bool⟩

/-- option.go:1122-1126 -/
def OptionPID : OptRow := ⟨b!"OptionPID", .int (b!"int64"), b!"PID", .int64⟩

/-- option.go:1130-1134 -/
def OptionCreatedTime : OptRow := ⟨b!"OptionCreatedTime", .ptr (.time), b!"CreatedTime", .ptr⟩

/-- option.go:1138-1142 -/
def OptionCwd : OptRow := ⟨b!"OptionCwd", .str (b!"string"), b!"Cwd", .string⟩

/-- option.go:1146-1150 -/
def OptionCommandLine : OptRow := ⟨b!"OptionCommandLine", .str (b!"string"), b!"CommandLine", .string⟩

/-- option.go:1154-1158 -/
def OptionEnvVars : OptRow := ⟨b!"OptionEnvVars", .map [] (b!"string") (.str (b!"string")), b!"EnvVars", .map⟩

/-- option.go:1162-1166 -/
def OptionOpenedConnections : OptRow := ⟨b!"OptionOpenedConnections", .slice (.str (b!"Identifier")), b!"OpenedConnections", .slice⟩

/-- option.go:1171-1175 -/
def OptionCreatorUser : OptRow := ⟨b!"OptionCreatorUser", .str (b!"Identifier"), b!"CreatorUser", .string⟩

/-- option.go:1179-1183 -/
def OptionImage : OptRow := ⟨b!"OptionImage", .str (b!"Identifier"), b!"Image", .string⟩

/-- option.go:1187-1191 -/
def OptionParent : OptRow := ⟨b!"OptionParent", .str (b!"Identifier"), b!"Parent", .string⟩

/-- option.go:1195-1199 -/
def OptionChild : OptRow := ⟨b!"OptionChild", .slice (.str (b!"Identifier")), b!"Child", .slice⟩

/-- option.go:1203-1207 -/
def OptionCPE : OptRow := ⟨b!"OptionCPE", .str (b!"string"), b!"CPE", .string⟩

/-- option.go:1211-1215 -/
def OptionSWID : OptRow := ⟨b!"OptionSWID", .str (b!"string"), b!"SWID", .string⟩

/-- option.go:1219-1223 -/
def OptionVendor : OptRow := ⟨b!"OptionVendor", .str (b!"string"), b!"Vendor", .string⟩

/-- option.go:1227-1231 -/
def OptionUserID : OptRow := ⟨b!"OptionUserID", .str (b!"string"), b!"UserID", .string⟩

/-- option.go:1234-1238 -/
def OptionCredential : OptRow := ⟨b!"OptionCredential", .str (b!"string"), b!"Credential", .string⟩

/-- option.go:1242-1246 -/
def OptionAccountLogin : OptRow := ⟨b!"OptionAccountLogin", .str (b!"string"), b!"AccountLogin", .string⟩

/-- option.go:1250-1254 -/
def OptionAccountType : OptRow := ⟨b!"OptionAccountType", .str (b!"string"), b!"AccountType", .string⟩

/-- option.go:1258-1262 -/
def OptionIsServiceAccount : OptRow := ⟨b!"OptionIsServiceAccount", .bool, b!"IsServiceAccount", .bool⟩

/-- option.go:1266-1270 -/
def OptionIsPrivileged : OptRow := ⟨b!"OptionIsPrivileged", .bool, b!"IsPrivileged", .bool⟩

/-- option.go:1274-1278 -/
def OptionCanEscalatePrivs : OptRow := ⟨b!"OptionCanEscalatePrivs", .bool, b!"CanEscalatePrivs", .bool⟩

/-- option.go:1282-1286 -/
def OptionIsDisabled : OptRow := ⟨b!"OptionIsDisabled", .bool, b!"IsDisabled", .bool⟩

/-- option.go:1290-1294 -/
def OptionAccountCreated : OptRow := ⟨b!"OptionAccountCreated", .ptr (.time), b!"AccountCreated", .ptr⟩

/-- option.go:1298-1302 -/
def OptionAccountExpires : OptRow := ⟨b!"OptionAccountExpires", .ptr (.time), b!"AccountExpires", .ptr⟩

/-- option.go:1307-1311 -/
def OptionCredentialLastChanged : OptRow := ⟨b!"OptionCredentialLastChanged", .ptr (.time), b!"CredentialLastChanged", .ptr⟩

/-- option.go:1315-1319 -/
def OptionAccountFirstLogin : OptRow := ⟨b!"OptionAccountFirstLogin", .ptr (.time), b!"AccountFirstLogin", .ptr⟩

/-- option.go:1323-1327 -/
def OptionAccountLastLogin : OptRow := ⟨b!"OptionAccountLastLogin", .ptr (.time), b!"AccountLastLogin", .ptr⟩

/-- option.go:1331-1335 -/
def OptionValues : OptRow := ⟨b!"OptionValues", .slice (.ptr (.struct (b!"RegistryValue") fieldsRegistryValue)), b!"Values", .slice⟩

/-- option.go:1339-1343 -/
def OptionModifiedTime : OptRow := ⟨b!"OptionModifiedTime", .ptr (.time), b!"ModifiedTime", .ptr⟩

/-- option.go:1347-1351 -/
def OptionNumberOfSubkeys : OptRow := ⟨b!"OptionNumberOfSubkeys", .int (b!"int64"), b!"NumberOfSubkeys", .int64⟩

/-- option.go:1355-1359 -/
def OptionSelfSigned : OptRow := ⟨b!"OptionSelfSigned", .bool, b!"SelfSigned", .bool⟩

/-- option.go:1363-1367 -/
def OptionSerialNumber : OptRow := ⟨b!"OptionSerialNumber", .str (b!"string"), b!"SerialNumber", .string⟩

/-- option.go:1371-1375 -/
def OptionSignatureAlgorithm : OptRow := ⟨b!"OptionSignatureAlgorithm", .str (b!"string"), b!"SignatureAlgorithm", .string⟩

/-- option.go:1379-1383 -/
def OptionIssuer : OptRow := ⟨b!"OptionIssuer", .str (b!"string"), b!"Issuer", .string⟩

/-- option.go:1388-1392 -/
def OptionValidityNotBefore : OptRow := ⟨b!"OptionValidityNotBefore", .ptr (.time), b!"ValidityNotBefore", .ptr⟩

/-- option.go:1397-1401 -/
def OptionValidityNotAfter : OptRow := ⟨b!"OptionValidityNotAfter", .ptr (.time), b!"ValidityNotAfter", .ptr⟩

/-- option.go:1406-1410 -/
def OptionSubjectPublicKeyAlgorithm : OptRow := ⟨b!"OptionSubjectPublicKeyAlgorithm", .str (b!"string"), b!"SubjectPublicKeyAlgorithm", .string⟩

/-- option.go:1415-1419 -/
def OptionSubjectPublicKeyModulus : OptRow := ⟨b!"OptionSubjectPublicKeyModulus", .str (b!"string"), b!"SubjectPublicKeyModulus", .string⟩

/-- option.go:1424-1428 -/
def OptionSubjectPublicKeyExponent : OptRow := ⟨b!"OptionSubjectPublicKeyExponent", .int (b!"int64"), b!"SubjectPublicKeyExponent", .int64⟩

/-- option.go:1432-1436 -/
def OptionV3Extensions : OptRow := ⟨b!"OptionV3Extensions", .struct (b!"X509v3Extension") fieldsX509v3Extension, b!"X509v3Extensions", .struct⟩

/-- option.go:1440-1444 -/
def OptionObjectModified : OptRow := ⟨b!"OptionObjectModified", .ptr (.time), b!"ObjectModified", .ptr⟩

/-- Every option function that calls `setField`. -/
def optTable : List OptRow :=
  [OptionSpecVersion,
   OptionCreatedBy,
   OptionCreated,
   OptionModified,
   OptionRevoked,
   OptionLabels,
   OptionConfidence,
   OptionLang,
   OptionExternalReferences,
   OptionObjectMarking,
   OptionGranularMarking,
   OptionDefanged,
   OptionExtensionProperties,
   OptionDescription,
   OptionAliases,
   OptionKillChainPhase,
   OptionFirstSeen,
   OptionLastSeen,
   OptionObjective,
   OptionName,
   OptionClass,
   OptionRoles,
   OptionSectors,
   OptionContactInformation,
   OptionTypes,
   OptionPatternVersion,
   OptionValidUntil,
   OptionGoals,
   OptionResourceLevel,
   OptionPrimaryMotivation,
   OptionSecondaryMotivations,
   OptionPrecision,
   OptionAdministrativeArea,
   OptionCity,
   OptionStreetAddress,
   OptionPostalCode,
   OptionOperatingSystems,
   OptionArchitecture,
   OptionLanguages,
   OptionCapabilities,
   OptionSamples,
   OptionVersion,
   OptionHostVM,
   OptionOperatingSystem,
   OptionInstalledSoftware,
   OptionConfigurationVersion,
   OptionModules,
   OptionAnalysisEngineVersion,
   OptionAnalysisDefinitionVersion,
   OptionSubmitted,
   OptionAnalysisStarted,
   OptionAnalysisEnded,
   OptionResultName,
   OptionSample,
   OptionAbstract,
   OptionAuthors,
   OptionExplanation,
   OptionSophistication,
   OptionPersonalMotivations,
   OptionStartTime,
   OptionStopTime,
   OptionCount,
   OptionObservedData,
   OptionWhereSighted,
   OptionSummary,
   OptionMimeType,
   OptionPayload,
   OptionURL,
   OptionHashes,
   OptionEncryption,
   OptionKey,
   OptionRIR,
   OptionPathEncoding,
   OptionCtime,
   OptionMtime,
   OptionAtime,
   OptionContains,
   OptionResolvesTo,
   OptionDisplayName,
   OptionBelongsTo,
   OptionDate,
   OptionContentType,
   OptionFrom,
   OptionSender,
   OptionTo,
   OptionCC,
   OptionBCC,
   OptionMessageID,
   OptionSubject,
   OptionReceivedLines,
   OptionAdditionalHeaderFields,
   OptionBody,
   OptionBodyMultipart,
   OptionRawEmail,
   OptionSize,
   OptionNameEnc,
   OptionMagicNumber,
   OptionParentDirectory,
   OptionContent,
   OptionStart,
   OptionEnd,
   OptionIsActive,
   OptionSrc,
   OptionDst,
   OptionSrcPort,
   OptionDstPort,
   OptionSrcByteCount,
   OptionDstByteCount,
   OptionSrcPackets,
   OptionDstPackets,
   OptionIPFIX,
   OptionSrcPayload,
   OptionDstPayload,
   OptionEncapsulates,
   OptionEncapsulated,
   OptionIsHidden,
   OptionPID,
   OptionCreatedTime,
   OptionCwd,
   OptionCommandLine,
   OptionEnvVars,
   OptionOpenedConnections,
   OptionCreatorUser,
   OptionImage,
   OptionParent,
   OptionChild,
   OptionCPE,
   OptionSWID,
   OptionVendor,
   OptionUserID,
   OptionCredential,
   OptionAccountLogin,
   OptionAccountType,
   OptionIsServiceAccount,
   OptionIsPrivileged,
   OptionCanEscalatePrivs,
   OptionIsDisabled,
   OptionAccountCreated,
   OptionAccountExpires,
   OptionCredentialLastChanged,
   OptionAccountFirstLogin,
   OptionAccountLastLogin,
   OptionValues,
   OptionModifiedTime,
   OptionNumberOfSubkeys,
   OptionSelfSigned,
   OptionSerialNumber,
   OptionSignatureAlgorithm,
   OptionIssuer,
   OptionValidityNotBefore,
   OptionValidityNotAfter,
   OptionSubjectPublicKeyAlgorithm,
   OptionSubjectPublicKeyModulus,
   OptionSubjectPublicKeyExponent,
   OptionV3Extensions,
   OptionObjectModified]

end Stix
