import Verif.Model.Option

/-!
# Specification of options

Stated on the JSON properties of an object.  `optionProperties` is written from the STIX 2.1
specification: the property an option function is named after.  It does not mention Go fields.
-/

namespace Stix.Spec
open Stix

/-- The value of the JSON property `p` of an object; `none` when objects of its kind have no such
property. -/
def prop (o : Obj) (p : Str) : Option GV :=
  ((objFields o.sid).find? (fun f => f.key == p)).map (fun f => o.val f.name)

/-- The JSON properties an object kind has. -/
def properties (s : SId) : List Str := (objFields s).map (·.key)

/-- What each option is named after.  Several names are alternatives: the property is called
differently in different kinds of object (`tool_types`, `malware_types`, …). -/
def optionProperties : List (Str × List Str) :=
  [(b!"OptionSpecVersion", [b!"spec_version"]),
   (b!"OptionCreatedBy", [b!"created_by_ref"]),
   (b!"OptionCreated", [b!"created"]),
   (b!"OptionModified", [b!"modified"]),
   (b!"OptionRevoked", [b!"revoked"]),
   (b!"OptionLabels", [b!"labels"]),
   (b!"OptionConfidence", [b!"confidence"]),
   (b!"OptionLang", [b!"lang"]),
   (b!"OptionExternalReferences", [b!"external_references"]),
   (b!"OptionObjectMarking", [b!"object_marking_refs"]),
   (b!"OptionGranularMarking", [b!"granular_markings"]),
   (b!"OptionDefanged", [b!"defanged"]),
   (b!"OptionExtensionProperties", [b!"extension_properties"]),
   (b!"OptionDescription", [b!"description"]),
   (b!"OptionAliases", [b!"aliases"]),
   (b!"OptionKillChainPhase", [b!"kill_chain_phases"]),
   (b!"OptionFirstSeen", [b!"first_seen"]),
   (b!"OptionLastSeen", [b!"last_seen"]),
   (b!"OptionObjective", [b!"objective"]),
   (b!"OptionName", [b!"name"]),
   (b!"OptionClass", [b!"identity_class"]),
   (b!"OptionRoles", [b!"roles"]),
   (b!"OptionSectors", [b!"sectors"]),
   (b!"OptionContactInformation", [b!"contact_information"]),
   (b!"OptionTypes", [b!"indicator_types", b!"infrastructure_types", b!"malware_types", b!"report_types", b!"threat_actor_types", b!"tool_types"]),
   (b!"OptionPatternVersion", [b!"pattern_version"]),
   (b!"OptionValidUntil", [b!"valid_until"]),
   (b!"OptionGoals", [b!"goals"]),
   (b!"OptionResourceLevel", [b!"resource_level"]),
   (b!"OptionPrimaryMotivation", [b!"primary_motivation"]),
   (b!"OptionSecondaryMotivations", [b!"secondary_motivations"]),
   (b!"OptionPrecision", [b!"precision"]),
   (b!"OptionAdministrativeArea", [b!"administrative_area"]),
   (b!"OptionCity", [b!"city"]),
   (b!"OptionStreetAddress", [b!"street_address"]),
   (b!"OptionPostalCode", [b!"postal_code"]),
   (b!"OptionOperatingSystems", [b!"operating_system_refs"]),
   (b!"OptionArchitecture", [b!"architecture_execution_envs"]),
   (b!"OptionLanguages", [b!"implementation_languages", b!"languages"]),
   (b!"OptionCapabilities", [b!"capabilities"]),
   (b!"OptionSamples", [b!"sample_refs"]),
   (b!"OptionVersion", [b!"version", b!"tool_version"]),
   (b!"OptionHostVM", [b!"host_vm_ref"]),
   (b!"OptionOperatingSystem", [b!"operating_system_ref"]),
   (b!"OptionInstalledSoftware", [b!"installed_software_refs"]),
   (b!"OptionConfigurationVersion", [b!"configuration_version"]),
   (b!"OptionModules", [b!"modules"]),
   (b!"OptionAnalysisEngineVersion", [b!"analysis_engine_version"]),
   (b!"OptionAnalysisDefinitionVersion", [b!"analysis_definition_version"]),
   (b!"OptionSubmitted", [b!"submitted"]),
   (b!"OptionAnalysisStarted", [b!"analysis_started"]),
   (b!"OptionAnalysisEnded", [b!"analysis_ended"]),
   (b!"OptionResultName", [b!"result_name"]),
   (b!"OptionSample", [b!"sample_ref"]),
   (b!"OptionAbstract", [b!"abstract"]),
   (b!"OptionAuthors", [b!"authors"]),
   (b!"OptionExplanation", [b!"explanation"]),
   (b!"OptionSophistication", [b!"sophistication"]),
   (b!"OptionPersonalMotivations", [b!"personal_motivations"]),
   (b!"OptionStartTime", [b!"start_time"]),
   (b!"OptionStopTime", [b!"stop_time"]),
   (b!"OptionCount", [b!"count"]),
   (b!"OptionObservedData", [b!"observed_data_refs"]),
   (b!"OptionWhereSighted", [b!"where_sighted_refs"]),
   (b!"OptionSummary", [b!"summary"]),
   (b!"OptionMimeType", [b!"mime_type"]),
   (b!"OptionPayload", [b!"payload_bin"]),
   (b!"OptionURL", [b!"url"]),
   (b!"OptionHashes", [b!"hashes"]),
   (b!"OptionEncryption", [b!"encryption_algorithm"]),
   (b!"OptionKey", [b!"decryption_key", b!"key"]),
   (b!"OptionRIR", [b!"rir"]),
   (b!"OptionPathEncoding", [b!"path_enc"]),
   (b!"OptionCtime", [b!"ctime"]),
   (b!"OptionMtime", [b!"mtime"]),
   (b!"OptionAtime", [b!"atime"]),
   (b!"OptionContains", [b!"contains_refs"]),
   (b!"OptionResolvesTo", [b!"resolves_to_refs"]),
   (b!"OptionDisplayName", [b!"display_name"]),
   (b!"OptionBelongsTo", [b!"belongs_to_ref"]),
   (b!"OptionDate", [b!"date"]),
   (b!"OptionContentType", [b!"content_type"]),
   (b!"OptionFrom", [b!"from_ref"]),
   (b!"OptionSender", [b!"sender_ref"]),
   (b!"OptionTo", [b!"to_refs"]),
   (b!"OptionCC", [b!"cc_refs"]),
   (b!"OptionBCC", [b!"bcc_refs"]),
   (b!"OptionMessageID", [b!"message_id"]),
   (b!"OptionSubject", [b!"subject"]),
   (b!"OptionReceivedLines", [b!"received_lines"]),
   (b!"OptionAdditionalHeaderFields", [b!"additional_header_fields"]),
   (b!"OptionBody", [b!"body"]),
   (b!"OptionBodyMultipart", [b!"body_multipart"]),
   (b!"OptionRawEmail", [b!"raw_email_ref"]),
   (b!"OptionSize", [b!"size"]),
   (b!"OptionNameEnc", [b!"name_enc"]),
   (b!"OptionMagicNumber", [b!"magic_number_hex"]),
   (b!"OptionParentDirectory", [b!"parent_directory_ref"]),
   (b!"OptionContent", [b!"content_ref"]),
   (b!"OptionStart", [b!"start"]),
   (b!"OptionEnd", [b!"end"]),
   (b!"OptionIsActive", [b!"is_active"]),
   (b!"OptionSrc", [b!"src_ref"]),
   (b!"OptionDst", [b!"dst_ref"]),
   (b!"OptionSrcPort", [b!"src_port"]),
   (b!"OptionDstPort", [b!"dst_port"]),
   (b!"OptionSrcByteCount", [b!"src_byte_count"]),
   (b!"OptionDstByteCount", [b!"dst_byte_count"]),
   (b!"OptionSrcPackets", [b!"src_packets"]),
   (b!"OptionDstPackets", [b!"dst_packets"]),
   (b!"OptionIPFIX", [b!"ipfix"]),
   (b!"OptionSrcPayload", [b!"src_payload_ref"]),
   (b!"OptionDstPayload", [b!"dst_payload_ref"]),
   (b!"OptionEncapsulates", [b!"encapsulates_refs"]),
   (b!"OptionEncapsulated", [b!"encapsulated_by_ref"]),
   (b!"OptionIsHidden", [b!"is_hidden"]),
   (b!"OptionPID", [b!"pid"]),
   (b!"OptionCreatedTime", [b!"created_time"]),
   (b!"OptionCwd", [b!"cwd"]),
   (b!"OptionCommandLine", [b!"command_line"]),
   (b!"OptionEnvVars", [b!"environment_variables"]),
   (b!"OptionOpenedConnections", [b!"opened_connection_refs"]),
   (b!"OptionCreatorUser", [b!"creator_user_ref"]),
   (b!"OptionImage", [b!"image_ref"]),
   (b!"OptionParent", [b!"parent_ref"]),
   (b!"OptionChild", [b!"child_refs"]),
   (b!"OptionCPE", [b!"cpe"]),
   (b!"OptionSWID", [b!"swid"]),
   (b!"OptionVendor", [b!"vendor"]),
   (b!"OptionUserID", [b!"user_id"]),
   (b!"OptionCredential", [b!"credential"]),
   (b!"OptionAccountLogin", [b!"account_login"]),
   (b!"OptionAccountType", [b!"account_type"]),
   (b!"OptionIsServiceAccount", [b!"is_service_account"]),
   (b!"OptionIsPrivileged", [b!"is_privileged"]),
   (b!"OptionCanEscalatePrivs", [b!"can_escalate_privs"]),
   (b!"OptionIsDisabled", [b!"is_disabled"]),
   (b!"OptionAccountCreated", [b!"account_created"]),
   (b!"OptionAccountExpires", [b!"account_expires"]),
   (b!"OptionCredentialLastChanged", [b!"credential_last_changed"]),
   (b!"OptionAccountFirstLogin", [b!"account_first_login"]),
   (b!"OptionAccountLastLogin", [b!"account_last_login"]),
   (b!"OptionValues", [b!"values"]),
   (b!"OptionModifiedTime", [b!"modified_time"]),
   (b!"OptionNumberOfSubkeys", [b!"number_of_subkeys"]),
   (b!"OptionSelfSigned", [b!"is_self_signed"]),
   (b!"OptionSerialNumber", [b!"serial_number"]),
   (b!"OptionSignatureAlgorithm", [b!"signature_algorithm"]),
   (b!"OptionIssuer", [b!"issuer"]),
   (b!"OptionValidityNotBefore", [b!"validity_not_before"]),
   (b!"OptionValidityNotAfter", [b!"validity_not_after"]),
   (b!"OptionSubjectPublicKeyAlgorithm", [b!"subject_public_key_algorithm"]),
   (b!"OptionSubjectPublicKeyModulus", [b!"subject_public_key_modulus"]),
   (b!"OptionSubjectPublicKeyExponent", [b!"subject_public_key_exponent"]),
   (b!"OptionV3Extensions", [b!"x509_v3_extensions"]),
   (b!"OptionObjectModified", [b!"object_modified"])]

/-- The property of objects of kind `s` that an option is for, if they have it. -/
def optionProperty (s : SId) (optName : Str) : Option Str :=
  match amLookup optName optionProperties with
  | none => none
  | some alts => (properties s).find? (fun p => alts.contains p)

/-- The property an option call is for. -/
def target (s : SId) : Opt → Option Str
  | .field row _ => optionProperty s row.name
  | .extension _ _ => if (b!"extensions") ∈ properties s then some (b!"extensions") else none
  | .user _ => none

/-- The option is one of the library's. -/
def Library : Opt → Prop
  | .field row _ => row ∈ optTable
  | .extension _ _ => True
  | .user _ => False

/-- The entries of a map value. -/
def entries : Option GV → List (Str × GV)
  | some (.map (some m)) => m
  | _ => []

end Stix.Spec
