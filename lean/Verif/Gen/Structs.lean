import Verif.Gen.TypeConsts
import Verif.Model.Types

/-! Generated from /repo by tools/gen.py; do not edit. -/

namespace Stix

/-- `GranularMarking` (meta.go:334-345) -/
def fieldsGranularMarking : Fields := mkFields
  [⟨b!"Lang", b!"lang", true, .str (b!"string")⟩,
   ⟨b!"Marking", b!"marking_ref", true, .str (b!"Identifier")⟩,
   ⟨b!"Selectors", b!"selectors", false, .slice (.str (b!"string"))⟩]

/-- `ArchiveFileExtension` (file.go:139-145) -/
def fieldsArchiveFileExtension : Fields := mkFields
  [⟨b!"Contains", b!"contains_refs", false, .slice (.str (b!"Identifier"))⟩,
   ⟨b!"Comment", b!"comment", true, .str (b!"string")⟩]

/-- `HTTPRequestExtension` (network.go:196-214) -/
def fieldsHTTPRequestExtension : Fields := mkFields
  [⟨b!"Method", b!"request_method", false, .str (b!"string")⟩,
   ⟨b!"Value", b!"request_value", false, .str (b!"string")⟩,
   ⟨b!"HTTPVersion", b!"request_version", true, .str (b!"string")⟩,
   ⟨b!"Header", b!"request_header", true, .map [] (b!"string") (.slice (.str (b!"string")))⟩,
   ⟨b!"BodyLength", b!"message_body_length", true, .int (b!"int64")⟩,
   ⟨b!"Body", b!"message_body_data_ref", true, .str (b!"Identifier")⟩]

/-- `ICMPExtension` (network.go:218-223) -/
def fieldsICMPExtension : Fields := mkFields
  [⟨b!"Type", b!"icmp_type_hex", false, .str (b!"Hex")⟩,
   ⟨b!"Code", b!"icmp_code_hex", false, .str (b!"Hex")⟩]

/-- `AltDataStream` (file.go:161-169) -/
def fieldsAltDataStream : Fields := mkFields
  [⟨b!"Name", b!"name", false, .str (b!"string")⟩,
   ⟨b!"Hashes", b!"hashes", true, .map (b!"Hashes") (b!"HashAlgorithm") (.str (b!"string"))⟩,
   ⟨b!"Size", b!"size", true, .int (b!"int64")⟩]

/-- `NTFSFileExtension` (file.go:152-158) -/
def fieldsNTFSFileExtension : Fields := mkFields
  [⟨b!"SID", b!"sid", true, .str (b!"string")⟩,
   ⟨b!"AltDataStreams", b!"alternate_data_streams", true, .slice (.struct (b!"AltDataStream") fieldsAltDataStream)⟩]

/-- `PDFExtension` (file.go:175-194) -/
def fieldsPDFExtension : Fields := mkFields
  [⟨b!"Version", b!"version", true, .str (b!"string")⟩,
   ⟨b!"IsOptimized", b!"is_optimized", true, .bool⟩,
   ⟨b!"DocumentInfo", b!"document_info_dict", true, .map [] (b!"string") (.str (b!"string"))⟩,
   ⟨b!"PDFid0", b!"pdfid0", true, .str (b!"string")⟩,
   ⟨b!"PDFid1", b!"pdfid1", true, .str (b!"string")⟩]

/-- `RasterImageExtension` (file.go:200-216) -/
def fieldsRasterImageExtension : Fields := mkFields
  [⟨b!"Height", b!"image_height", true, .int (b!"int64")⟩,
   ⟨b!"Width", b!"image_width", true, .int (b!"int64")⟩,
   ⟨b!"BitsPerPixel", b!"bits_per_pixel", true, .int (b!"int64")⟩,
   ⟨b!"ExifTags", b!"exif_tags", true, .map [] (b!"string") (.dyn)⟩]

/-- `SocketExtension` (network.go:226-251) -/
def fieldsSocketExtension : Fields := mkFields
  [⟨b!"AddressFamily", b!"address_family", false, .enum .SocketAddressFamily⟩,
   ⟨b!"IsBlocking", b!"is_blocking", true, .bool⟩,
   ⟨b!"IsListening", b!"is_listening", false, .bool⟩,
   ⟨b!"Options", b!"options", true, .map [] (b!"string") (.int (b!"int64"))⟩,
   ⟨b!"SocketType", b!"socket_type", true, .enum .SocketType⟩,
   ⟨b!"SocketDescriptor", b!"socket_descriptor", true, .int (b!"int64")⟩,
   ⟨b!"SocketHandle", b!"socket_handle", true, .int (b!"int64")⟩]

/-- `TCPExtension` (network.go:380-389) -/
def fieldsTCPExtension : Fields := mkFields
  [⟨b!"SrcFlags", b!"src_flags_hex", true, .str (b!"Hex")⟩,
   ⟨b!"DstFlags", b!"dst_flags_hex", true, .str (b!"Hex")⟩]

/-- `UNIXAccountExtension` (user.go:134-144) -/
def fieldsUNIXAccountExtension : Fields := mkFields
  [⟨b!"GID", b!"gid", true, .int (b!"int64")⟩,
   ⟨b!"Groups", b!"groups", true, .slice (.str (b!"string"))⟩,
   ⟨b!"Home", b!"home_dir", true, .str (b!"string")⟩,
   ⟨b!"Shell", b!"shell", true, .str (b!"string")⟩]

/-- `WindowsPEOptionalHeader` (file.go:275-365) -/
def fieldsWindowsPEOptionalHeader : Fields := mkFields
  [⟨b!"Magic", b!"magic_hex", true, .str (b!"Hex")⟩,
   ⟨b!"MajorLinkerVersion", b!"major_linker_version", true, .int (b!"int64")⟩,
   ⟨b!"MinorLinkerVersion", b!"minor_linker_version", true, .int (b!"int64")⟩,
   ⟨b!"SizeOfCode", b!"size_of_code", true, .int (b!"int64")⟩,
   ⟨b!"SizeOfInitializedData", b!"size_of_initialized_data", true, .int (b!"int64")⟩,
   ⟨b!"SizeOfUninitializedData", b!"size_of_uninitialized_data", true, .int (b!"int64")⟩,
   ⟨b!"AddressOfEntryPoint", b!"address_of_entry_point", true, .int (b!"int64")⟩,
   ⟨b!"BaseOfCode", b!"base_of_code", true, .int (b!"int64")⟩,
   ⟨b!"BaseOfData", b!"base_of_data", true, .int (b!"int64")⟩,
   ⟨b!"ImageBase", b!"image_base", true, .int (b!"int64")⟩,
   ⟨b!"SectionAlignment", b!"section_alignment", true, .int (b!"int64")⟩,
   ⟨b!"FileAlignment", b!"file_alignment", true, .int (b!"int64")⟩,
   ⟨b!"MajorOSVersion", b!"major_os_version", true, .int (b!"int64")⟩,
   ⟨b!"MinorOSVersion", b!"minor_os_version", true, .int (b!"int64")⟩,
   ⟨b!"MajorImageVersion", b!"major_image_version", true, .int (b!"int64")⟩,
   ⟨b!"MinorImageVersion", b!"minor_image_version", true, .int (b!"int64")⟩,
   ⟨b!"MajorSubsystemVersion", b!"major_subsystem_version", true, .int (b!"int64")⟩,
   ⟨b!"MinorSubsystemVersion", b!"minor_subsystem_version", true, .int (b!"int64")⟩,
   ⟨b!"Win32VersionValue", b!"win32_version_value_hex", true, .str (b!"Hex")⟩,
   ⟨b!"SizeOfImage", b!"size_of_image", true, .int (b!"int64")⟩,
   ⟨b!"SizeOfHeaders", b!"size_of_headers", false, .int (b!"int64")⟩,
   ⟨b!"Checksum", b!"checksum_hex", true, .str (b!"Hex")⟩,
   ⟨b!"Subsystem", b!"subsystem_hex", true, .str (b!"Hex")⟩,
   ⟨b!"DLLCharacteristics", b!"dll_characteristics_hex", true, .str (b!"Hex")⟩,
   ⟨b!"SizeOfStackReserve", b!"size_of_stack_reserve", true, .int (b!"int64")⟩,
   ⟨b!"SizeOfStackCommit", b!"size_of_stack_commit", true, .int (b!"int64")⟩,
   ⟨b!"SizeOfHeapReserve", b!"size_of_heap_reserve", true, .int (b!"int64")⟩,
   ⟨b!"SizeOfHeapCommit", b!"size_of_heap_commit", true, .int (b!"int64")⟩,
   ⟨b!"LoaderFlags", b!"loader_flags_hex", true, .str (b!"Hex")⟩,
   ⟨b!"NumberOfRVAAndSizes", b!"number_of_rva_and_sizes", true, .int (b!"int64")⟩,
   ⟨b!"Hashes", b!"hashes", true, .map (b!"Hashes") (b!"HashAlgorithm") (.str (b!"string"))⟩]

/-- `WindowsPESection` (file.go:368-382) -/
def fieldsWindowsPESection : Fields := mkFields
  [⟨b!"Name", b!"name", false, .str (b!"string")⟩,
   ⟨b!"Size", b!"size", true, .int (b!"int64")⟩,
   ⟨b!"Entropy", b!"entropy", true, .flt⟩,
   ⟨b!"Hashes", b!"hashes", true, .map (b!"Hashes") (b!"HashAlgorithm") (.str (b!"string"))⟩]

/-- `WindowsPEBinaryExtension` (file.go:224-256) -/
def fieldsWindowsPEBinaryExtension : Fields := mkFields
  [⟨b!"PEType", b!"pe_type", false, .str (b!"WindowsPEBinaryType")⟩,
   ⟨b!"ImpHash", b!"imphash", true, .str (b!"string")⟩,
   ⟨b!"Machine", b!"machine_hex", true, .str (b!"Hex")⟩,
   ⟨b!"NumberOfSections", b!"number_of_sections", true, .int (b!"int64")⟩,
   ⟨b!"TimeDateStamp", b!"time_date_stamp", true, .ptr (.time)⟩,
   ⟨b!"PointerToSymbolTable", b!"pointer_to_symbol_table_hex", true, .str (b!"Hex")⟩,
   ⟨b!"NumberOfSymbols", b!"number_of_symbols", true, .int (b!"int64")⟩,
   ⟨b!"SizeOfOptionalHeader", b!"size_of_optional_header", true, .int (b!"int64")⟩,
   ⟨b!"Characteristics", b!"characteristics_hex", true, .str (b!"Hex")⟩,
   ⟨b!"FileHeaderHash", b!"file_header_hashes", true, .map (b!"Hashes") (b!"HashAlgorithm") (.str (b!"string"))⟩,
   ⟨b!"OptionalHeader", b!"optional_header", true, .struct (b!"WindowsPEOptionalHeader") fieldsWindowsPEOptionalHeader⟩,
   ⟨b!"Sections", b!"sections", true, .slice (.struct (b!"WindowsPESection") fieldsWindowsPESection)⟩]

/-- `WindowsProcessExtension` (process.go:88-112) -/
def fieldsWindowsProcessExtension : Fields := mkFields
  [⟨b!"ASLR", b!"aslr_enabled", true, .bool⟩,
   ⟨b!"DEP", b!"dep_enabled", true, .bool⟩,
   ⟨b!"Priority", b!"priority", true, .str (b!"string")⟩,
   ⟨b!"OwnerSID", b!"owner_sid", true, .str (b!"string")⟩,
   ⟨b!"WindowTitle", b!"window_title", true, .str (b!"string")⟩,
   ⟨b!"StartupInfo", b!"startup_info", true, .map [] (b!"string") (.dyn)⟩,
   ⟨b!"IntegrityLevel", b!"integrity_level", true, .enum .WindowsIntegrityLevel⟩]

/-- `WindowsServiceExtension` (process.go:168-188) -/
def fieldsWindowsServiceExtension : Fields := mkFields
  [⟨b!"Name", b!"service_name", true, .str (b!"string")⟩,
   ⟨b!"Descriptions", b!"descriptions", true, .slice (.str (b!"string"))⟩,
   ⟨b!"DisplayName", b!"display_name", true, .str (b!"string")⟩,
   ⟨b!"GroupName", b!"group_name", true, .str (b!"string")⟩,
   ⟨b!"StartType", b!"start_type", true, .enum .WindowsServiceStartType⟩,
   ⟨b!"ServiceDLL", b!"service_dll_refs", true, .slice (.str (b!"Identifier"))⟩,
   ⟨b!"ServiceType", b!"service_type", true, .enum .WindowsServiceType⟩,
   ⟨b!"ServiceStatus", b!"service_status", true, .enum .WindowsServiceStatusType⟩]

/-- The structs `Extensions.UnmarshalJSON` knows (extension.go:27-50), in the order of its cases. -/
def knownExts : Known := mkKnown
  [(ExtArchive, b!"ArchiveFileExtension", fieldsArchiveFileExtension),
   (ExtHTTPRequest, b!"HTTPRequestExtension", fieldsHTTPRequestExtension),
   (ExtICMP, b!"ICMPExtension", fieldsICMPExtension),
   (ExtNTFS, b!"NTFSFileExtension", fieldsNTFSFileExtension),
   (ExtPDF, b!"PDFExtension", fieldsPDFExtension),
   (ExtRasterImage, b!"RasterImageExtension", fieldsRasterImageExtension),
   (ExtSocket, b!"SocketExtension", fieldsSocketExtension),
   (ExtTCP, b!"TCPExtension", fieldsTCPExtension),
   (ExtUnixAccount, b!"UNIXAccountExtension", fieldsUNIXAccountExtension),
   (ExtWindowsPEBinary, b!"WindowsPEBinaryExtension", fieldsWindowsPEBinaryExtension),
   (ExtWindowsProcess, b!"WindowsProcessExtension", fieldsWindowsProcessExtension),
   (ExtWindowsService, b!"WindowsServiceExtension", fieldsWindowsServiceExtension)]

/-- `STIXCyberObservableObject` (object.go:318-350) -/
def fieldsSTIXCyberObservableObject : Fields := mkFields
  [⟨b!"Type", b!"type", false, .str (b!"STIXType")⟩,
   ⟨b!"ID", b!"id", false, .str (b!"Identifier")⟩,
   ⟨b!"SpecVersion", b!"spec_version", true, .str (b!"string")⟩,
   ⟨b!"ObjectMarking", b!"object_marking_refs", true, .slice (.str (b!"Identifier"))⟩,
   ⟨b!"GranularMarking", b!"granular_markings", true, .slice (.ptr (.struct (b!"GranularMarking") fieldsGranularMarking))⟩,
   ⟨b!"Defanged", b!"defanged", true, .bool⟩,
   ⟨b!"Extensions", b!"extensions", true, .ext knownExts⟩]

/-- `AutonomousSystem` (as.go:9-19): the fields of its own, beside the embedded `STIXCyberObservableObject` -/
def fieldsAutonomousSystem : Fields := mkFields
  [⟨b!"Number", b!"number", false, .int (b!"int64")⟩,
   ⟨b!"Name", b!"name", true, .str (b!"string")⟩,
   ⟨b!"RIR", b!"rir", true, .str (b!"string")⟩]

/-- `Artifact` (artifact.go:15-40): the fields of its own, beside the embedded `STIXCyberObservableObject` -/
def fieldsArtifact : Fields := mkFields
  [⟨b!"MimeType", b!"mime_type", true, .str (b!"string")⟩,
   ⟨b!"Payload", b!"payload_bin", true, .bin⟩,
   ⟨b!"URL", b!"url", true, .str (b!"string")⟩,
   ⟨b!"Hashes", b!"hashes", true, .map (b!"Hashes") (b!"HashAlgorithm") (.str (b!"string"))⟩,
   ⟨b!"Encryption", b!"encryption_algorithm", true, .enum .EncryptionAlgorithm⟩,
   ⟨b!"Key", b!"decryption_key", true, .str (b!"string")⟩]

/-- `ExternalReference` (data-types.go:87-100) -/
def fieldsExternalReference : Fields := mkFields
  [⟨b!"Name", b!"source_name", false, .str (b!"string")⟩,
   ⟨b!"Description", b!"description", true, .str (b!"string")⟩,
   ⟨b!"URL", b!"url", true, .str (b!"string")⟩,
   ⟨b!"Hashes", b!"hashes", true, .map (b!"Hashes") (b!"HashAlgorithm") (.str (b!"string"))⟩,
   ⟨b!"ExternalID", b!"external_id", true, .str (b!"string")⟩]

/-- `STIXDomainObject` (object.go:173-257) -/
def fieldsSTIXDomainObject : Fields := mkFields
  [⟨b!"Type", b!"type", false, .str (b!"STIXType")⟩,
   ⟨b!"ID", b!"id", false, .str (b!"Identifier")⟩,
   ⟨b!"SpecVersion", b!"spec_version", false, .str (b!"string")⟩,
   ⟨b!"CreatedBy", b!"created_by_ref", true, .str (b!"Identifier")⟩,
   ⟨b!"Created", b!"created", false, .ptr (.time)⟩,
   ⟨b!"Modified", b!"modified", false, .ptr (.time)⟩,
   ⟨b!"Revoked", b!"revoked", true, .bool⟩,
   ⟨b!"Labels", b!"labels", true, .slice (.str (b!"string"))⟩,
   ⟨b!"Confidence", b!"confidence", true, .int (b!"int")⟩,
   ⟨b!"Lang", b!"lang", true, .str (b!"string")⟩,
   ⟨b!"ExternalReferences", b!"external_references", true, .slice (.ptr (.struct (b!"ExternalReference") fieldsExternalReference))⟩,
   ⟨b!"ObjectMarking", b!"object_marking_refs", true, .slice (.str (b!"Identifier"))⟩,
   ⟨b!"GranularMarking", b!"granular_markings", true, .slice (.ptr (.struct (b!"GranularMarking") fieldsGranularMarking))⟩,
   ⟨b!"Extensions", b!"extensions", true, .ext knownExts⟩]

/-- `KillChainPhase` (data-types.go:402-411) -/
def fieldsKillChainPhase : Fields := mkFields
  [⟨b!"Name", b!"kill_chain_name", false, .str (b!"string")⟩,
   ⟨b!"Phase", b!"phase_name", false, .str (b!"string")⟩]

/-- `AttackPattern` (attack.go:18-30): the fields of its own, beside the embedded `STIXDomainObject` -/
def fieldsAttackPattern : Fields := mkFields
  [⟨b!"Name", b!"name", false, .str (b!"string")⟩,
   ⟨b!"Description", b!"description", true, .str (b!"string")⟩,
   ⟨b!"Aliases", b!"aliases", true, .slice (.str (b!"string"))⟩,
   ⟨b!"KillChainPhase", b!"kill_chain_phases", true, .slice (.ptr (.struct (b!"KillChainPhase") fieldsKillChainPhase))⟩]

/-- `Campaign` (campaign.go:22-39): the fields of its own, beside the embedded `STIXDomainObject` -/
def fieldsCampaign : Fields := mkFields
  [⟨b!"Name", b!"name", false, .str (b!"string")⟩,
   ⟨b!"Description", b!"description", true, .str (b!"string")⟩,
   ⟨b!"Aliases", b!"aliases", true, .slice (.str (b!"string"))⟩,
   ⟨b!"FirstSeen", b!"first_seen", true, .ptr (.time)⟩,
   ⟨b!"LastSeen", b!"last_seen", true, .ptr (.time)⟩,
   ⟨b!"Objective", b!"objective", true, .str (b!"string")⟩]

/-- `CourseOfAction` (course-of-action.go:14-23): the fields of its own, beside the embedded `STIXDomainObject` -/
def fieldsCourseOfAction : Fields := mkFields
  [⟨b!"Name", b!"name", false, .str (b!"string")⟩,
   ⟨b!"Description", b!"description", true, .str (b!"string")⟩]

/-- `Directory` (directory.go:10-32): the fields of its own, beside the embedded `STIXCyberObservableObject` -/
def fieldsDirectory : Fields := mkFields
  [⟨b!"Path", b!"path", false, .str (b!"string")⟩,
   ⟨b!"PathEnc", b!"path_enc", true, .str (b!"string")⟩,
   ⟨b!"Ctime", b!"ctime", true, .ptr (.time)⟩,
   ⟨b!"Mtime", b!"mtime", true, .ptr (.time)⟩,
   ⟨b!"Atime", b!"atime", true, .ptr (.time)⟩,
   ⟨b!"Contains", b!"contains_refs", true, .slice (.str (b!"Identifier"))⟩]

/-- `DomainName` (dns.go:9-20): the fields of its own, beside the embedded `STIXCyberObservableObject` -/
def fieldsDomainName : Fields := mkFields
  [⟨b!"Value", b!"value", false, .str (b!"string")⟩,
   ⟨b!"ResolvesTo", b!"resolves_to_refs", true, .slice (.str (b!"Identifier"))⟩]

/-- `EmailAddress` (email.go:12-23): the fields of its own, beside the embedded `STIXCyberObservableObject` -/
def fieldsEmailAddress : Fields := mkFields
  [⟨b!"Value", b!"value", false, .str (b!"string")⟩,
   ⟨b!"DisplayName", b!"display_name", true, .str (b!"string")⟩,
   ⟨b!"BelongsTo", b!"belongs_to_ref", true, .str (b!"Identifier")⟩]

/-- `EmailMIME` (email.go:134-149) -/
def fieldsEmailMIME : Fields := mkFields
  [⟨b!"Body", b!"body", true, .str (b!"string")⟩,
   ⟨b!"BodyRaw", b!"body_raw_ref", true, .str (b!"Identifier")⟩,
   ⟨b!"ContentType", b!"content_type", true, .str (b!"string")⟩,
   ⟨b!"ContentDisposition", b!"content_disposition", true, .str (b!"string")⟩]

/-- `EmailMessage` (email.go:55-104): the fields of its own, beside the embedded `STIXCyberObservableObject` -/
def fieldsEmailMessage : Fields := mkFields
  [⟨b!"IsMultipart", b!"is_multipart", false, .bool⟩,
   ⟨b!"Date", b!"date", true, .ptr (.time)⟩,
   ⟨b!"ContentType", b!"content_type", true, .str (b!"string")⟩,
   ⟨b!"From", b!"from_ref", true, .str (b!"Identifier")⟩,
   ⟨b!"Sender", b!"sender_ref", true, .str (b!"Identifier")⟩,
   ⟨b!"To", b!"to_refs", true, .slice (.str (b!"Identifier"))⟩,
   ⟨b!"CC", b!"cc_refs", true, .slice (.str (b!"Identifier"))⟩,
   ⟨b!"BCC", b!"bcc_refs", true, .slice (.str (b!"Identifier"))⟩,
   ⟨b!"MessageID", b!"message_id", true, .str (b!"string")⟩,
   ⟨b!"Subject", b!"subject", true, .str (b!"string")⟩,
   ⟨b!"ReceivedLines", b!"received_lines", true, .slice (.str (b!"string"))⟩,
   ⟨b!"AdditionalHeaderFields", b!"additional_header_fields", true, .map [] (b!"string") (.slice (.str (b!"string")))⟩,
   ⟨b!"Body", b!"body", true, .str (b!"string")⟩,
   ⟨b!"BodyMultipart", b!"body_multipart", true, .slice (.struct (b!"EmailMIME") fieldsEmailMIME)⟩,
   ⟨b!"RawEmail", b!"raw_email_ref", true, .str (b!"Identifier")⟩]

/-- `ExtensionDefinition` (extension.go:67-167) -/
def fieldsExtensionDefinition : Fields := mkFields
  [⟨b!"Type", b!"type", false, .str (b!"STIXType")⟩,
   ⟨b!"ID", b!"id", false, .str (b!"Identifier")⟩,
   ⟨b!"SpecVersion", b!"spec_version", false, .str (b!"string")⟩,
   ⟨b!"CreatedBy", b!"created_by_ref", false, .str (b!"Identifier")⟩,
   ⟨b!"Created", b!"created", false, .ptr (.time)⟩,
   ⟨b!"Modified", b!"modified", false, .ptr (.time)⟩,
   ⟨b!"Revoked", b!"revoked", true, .bool⟩,
   ⟨b!"Labels", b!"labels", true, .slice (.str (b!"string"))⟩,
   ⟨b!"ExternalReferences", b!"external_references", true, .slice (.ptr (.struct (b!"ExternalReference") fieldsExternalReference))⟩,
   ⟨b!"ObjectMarking", b!"object_marking_refs", true, .slice (.str (b!"Identifier"))⟩,
   ⟨b!"GranularMarking", b!"granular_markings", true, .slice (.ptr (.struct (b!"GranularMarking") fieldsGranularMarking))⟩,
   ⟨b!"Name", b!"name", false, .str (b!"string")⟩,
   ⟨b!"Description", b!"description", true, .str (b!"string")⟩,
   ⟨b!"Schema", b!"schema", false, .str (b!"string")⟩,
   ⟨b!"Version", b!"version", false, .str (b!"string")⟩,
   ⟨b!"ExtensionTypes", b!"extension_types", false, .slice (.enum .ExtensionType)⟩,
   ⟨b!"ExtensionProperties", b!"extension_properties", true, .slice (.str (b!"string"))⟩]

/-- `File` (file.go:13-53): the fields of its own, beside the embedded `STIXCyberObservableObject` -/
def fieldsFile : Fields := mkFields
  [⟨b!"Hashes", b!"hashes", true, .map (b!"Hashes") (b!"HashAlgorithm") (.str (b!"string"))⟩,
   ⟨b!"Size", b!"size", true, .int (b!"int64")⟩,
   ⟨b!"Name", b!"name", true, .str (b!"string")⟩,
   ⟨b!"NameEnc", b!"name_enc", true, .str (b!"string")⟩,
   ⟨b!"MagicNumber", b!"magic_number_hex", true, .str (b!"Hex")⟩,
   ⟨b!"MimeType", b!"mime_type", true, .str (b!"string")⟩,
   ⟨b!"Ctime", b!"ctime", true, .ptr (.time)⟩,
   ⟨b!"Mtime", b!"mtime", true, .ptr (.time)⟩,
   ⟨b!"Atime", b!"atime", true, .ptr (.time)⟩,
   ⟨b!"ParentDirectory", b!"parent_directory_ref", true, .str (b!"Identifier")⟩,
   ⟨b!"Contains", b!"contains_refs", true, .slice (.str (b!"Identifier"))⟩,
   ⟨b!"Content", b!"content_ref", true, .str (b!"Identifier")⟩]

/-- `Grouping` (grouping.go:21-35): the fields of its own, beside the embedded `STIXDomainObject` -/
def fieldsGrouping : Fields := mkFields
  [⟨b!"Name", b!"name", true, .str (b!"string")⟩,
   ⟨b!"Description", b!"description", true, .str (b!"string")⟩,
   ⟨b!"Context", b!"context", false, .str (b!"string")⟩,
   ⟨b!"Objects", b!"object_refs", false, .slice (.str (b!"Identifier"))⟩]

/-- `Incident` (incident.go:12-19): the fields of its own, beside the embedded `STIXDomainObject` -/
def fieldsIncident : Fields := mkFields
  [⟨b!"Name", b!"name", false, .str (b!"string")⟩,
   ⟨b!"Description", b!"description", true, .str (b!"string")⟩]

/-- `IPv4Address` (ip.go:10-22): the fields of its own, beside the embedded `STIXCyberObservableObject` -/
def fieldsIPv4Address : Fields := mkFields
  [⟨b!"Value", b!"value", false, .str (b!"string")⟩,
   ⟨b!"ResolvesTo", b!"resolves_to_refs", true, .slice (.str (b!"Identifier"))⟩,
   ⟨b!"BelongsTo", b!"belongs_to_refs", true, .slice (.str (b!"Identifier"))⟩]

/-- `IPv6Address` (ip.go:64-76): the fields of its own, beside the embedded `STIXCyberObservableObject` -/
def fieldsIPv6Address : Fields := mkFields
  [⟨b!"Value", b!"value", false, .str (b!"string")⟩,
   ⟨b!"ResolvesTo", b!"resolves_to_refs", true, .slice (.str (b!"Identifier"))⟩,
   ⟨b!"BelongsTo", b!"belongs_to_refs", true, .slice (.str (b!"Identifier"))⟩]

/-- `Identity` (identity.go:13-35): the fields of its own, beside the embedded `STIXDomainObject` -/
def fieldsIdentity : Fields := mkFields
  [⟨b!"Name", b!"name", false, .str (b!"string")⟩,
   ⟨b!"Description", b!"description", true, .str (b!"string")⟩,
   ⟨b!"Roles", b!"roles", true, .slice (.str (b!"string"))⟩,
   ⟨b!"Class", b!"identity_class", false, .str (b!"string")⟩,
   ⟨b!"Sectors", b!"sectors", true, .slice (.str (b!"string"))⟩,
   ⟨b!"ContactInformation", b!"contact_information", true, .str (b!"string")⟩]

/-- `Indicator` (indicator.go:16-48): the fields of its own, beside the embedded `STIXDomainObject` -/
def fieldsIndicator : Fields := mkFields
  [⟨b!"Name", b!"name", true, .str (b!"string")⟩,
   ⟨b!"Description", b!"description", true, .str (b!"string")⟩,
   ⟨b!"Types", b!"indicator_types", true, .slice (.str (b!"string"))⟩,
   ⟨b!"Pattern", b!"pattern", false, .str (b!"string")⟩,
   ⟨b!"PatternType", b!"pattern_type", false, .str (b!"string")⟩,
   ⟨b!"PatternVersion", b!"pattern_version", true, .str (b!"string")⟩,
   ⟨b!"ValidFrom", b!"valid_from", false, .ptr (.time)⟩,
   ⟨b!"ValidUntil", b!"valid_until", true, .ptr (.time)⟩,
   ⟨b!"KillChainPhase", b!"kill_chain_phases", true, .slice (.ptr (.struct (b!"KillChainPhase") fieldsKillChainPhase))⟩]

/-- `Infrastructure` (infrastructure.go:13-36): the fields of its own, beside the embedded `STIXDomainObject` -/
def fieldsInfrastructure : Fields := mkFields
  [⟨b!"Name", b!"name", false, .str (b!"string")⟩,
   ⟨b!"Description", b!"description", true, .str (b!"string")⟩,
   ⟨b!"Types", b!"infrastructure_types", true, .slice (.str (b!"string"))⟩,
   ⟨b!"Aliases", b!"aliases", true, .slice (.str (b!"string"))⟩,
   ⟨b!"KillChainPhase", b!"kill_chain_phases", true, .slice (.ptr (.struct (b!"KillChainPhase") fieldsKillChainPhase))⟩,
   ⟨b!"FirstSeen", b!"first_seen", true, .ptr (.time)⟩,
   ⟨b!"LastSeen", b!"last_seen", true, .ptr (.time)⟩]

/-- `IntrusionSet` (intrusion-set.go:25-74): the fields of its own, beside the embedded `STIXDomainObject` -/
def fieldsIntrusionSet : Fields := mkFields
  [⟨b!"Name", b!"name", false, .str (b!"string")⟩,
   ⟨b!"Description", b!"description", true, .str (b!"string")⟩,
   ⟨b!"Aliases", b!"aliases", true, .slice (.str (b!"string"))⟩,
   ⟨b!"FirstSeen", b!"first_seen", true, .ptr (.time)⟩,
   ⟨b!"LastSeen", b!"last_seen", true, .ptr (.time)⟩,
   ⟨b!"Goals", b!"goals", true, .slice (.str (b!"string"))⟩,
   ⟨b!"ResourceLevel", b!"resource_level", true, .str (b!"string")⟩,
   ⟨b!"PrimaryMotivation", b!"primary_motivation", true, .str (b!"string")⟩,
   ⟨b!"SecondaryMotivations", b!"secondary_motivations", true, .slice (.str (b!"string"))⟩]

/-- `LanguageContent` (meta.go:16-133) -/
def fieldsLanguageContent : Fields := mkFields
  [⟨b!"Type", b!"type", false, .str (b!"STIXType")⟩,
   ⟨b!"ID", b!"id", false, .str (b!"Identifier")⟩,
   ⟨b!"SpecVersion", b!"spec_version", false, .str (b!"string")⟩,
   ⟨b!"CreatedBy", b!"created_by_ref", true, .str (b!"Identifier")⟩,
   ⟨b!"Created", b!"created", false, .ptr (.time)⟩,
   ⟨b!"Modified", b!"modified", false, .ptr (.time)⟩,
   ⟨b!"Revoked", b!"revoked", true, .bool⟩,
   ⟨b!"Labels", b!"labels", true, .slice (.str (b!"string"))⟩,
   ⟨b!"Confidence", b!"confidence", true, .int (b!"int")⟩,
   ⟨b!"ExternalReferences", b!"external_references", true, .slice (.ptr (.struct (b!"ExternalReference") fieldsExternalReference))⟩,
   ⟨b!"ObjectMarking", b!"object_marking_refs", true, .slice (.str (b!"Identifier"))⟩,
   ⟨b!"GranularMarking", b!"granular_markings", true, .slice (.ptr (.struct (b!"GranularMarking") fieldsGranularMarking))⟩,
   ⟨b!"Extensions", b!"extensions", true, .ext knownExts⟩,
   ⟨b!"Object", b!"object_ref", false, .str (b!"Identifier")⟩,
   ⟨b!"ObjectModified", b!"object_modified", true, .ptr (.time)⟩,
   ⟨b!"Contents", b!"contents", false, .map [] (b!"string") (.map [] (b!"string") (.dyn))⟩]

/-- `Location` (location.go:41-79): the fields of its own, beside the embedded `STIXDomainObject` -/
def fieldsLocation : Fields := mkFields
  [⟨b!"Name", b!"name", true, .str (b!"string")⟩,
   ⟨b!"Description", b!"description", true, .str (b!"string")⟩,
   ⟨b!"Latitude", b!"latitude", true, .flt⟩,
   ⟨b!"Longitude", b!"longitude", true, .flt⟩,
   ⟨b!"Precision", b!"precision", true, .flt⟩,
   ⟨b!"Region", b!"region", true, .str (b!"string")⟩,
   ⟨b!"Country", b!"country", true, .str (b!"string")⟩,
   ⟨b!"AdministrativeArea", b!"administrative_area", true, .str (b!"string")⟩,
   ⟨b!"City", b!"city", true, .str (b!"string")⟩,
   ⟨b!"StreetAddress", b!"street_address", true, .str (b!"string")⟩,
   ⟨b!"PostalCode", b!"postal_code", true, .str (b!"string")⟩]

/-- `MACAddress` (mac.go:9-13): the fields of its own, beside the embedded `STIXCyberObservableObject` -/
def fieldsMACAddress : Fields := mkFields
  [⟨b!"Value", b!"value", false, .str (b!"string")⟩]

/-- `Malware` (malware.go:27-76): the fields of its own, beside the embedded `STIXDomainObject` -/
def fieldsMalware : Fields := mkFields
  [⟨b!"Name", b!"name", true, .str (b!"string")⟩,
   ⟨b!"Description", b!"description", true, .str (b!"string")⟩,
   ⟨b!"Types", b!"malware_types", true, .slice (.str (b!"string"))⟩,
   ⟨b!"IsFamily", b!"is_family", false, .bool⟩,
   ⟨b!"Aliases", b!"aliases", true, .slice (.str (b!"string"))⟩,
   ⟨b!"KillChainPhase", b!"kill_chain_phases", true, .slice (.ptr (.struct (b!"KillChainPhase") fieldsKillChainPhase))⟩,
   ⟨b!"FirstSeen", b!"first_seen", true, .ptr (.time)⟩,
   ⟨b!"LastSeen", b!"last_seen", true, .ptr (.time)⟩,
   ⟨b!"OperatingSystems", b!"operating_system_refs", true, .slice (.str (b!"Identifier"))⟩,
   ⟨b!"Architecture", b!"architecture_execution_envs", true, .slice (.str (b!"string"))⟩,
   ⟨b!"Languages", b!"implementation_languages", true, .slice (.str (b!"string"))⟩,
   ⟨b!"Capabilities", b!"capabilities", true, .slice (.str (b!"string"))⟩,
   ⟨b!"Samples", b!"sample_refs", true, .slice (.str (b!"Identifier"))⟩]

/-- `MalwareAnalysis` (malware-analysis.go:8-80): the fields of its own, beside the embedded `STIXDomainObject` -/
def fieldsMalwareAnalysis : Fields := mkFields
  [⟨b!"Product", b!"product", false, .str (b!"string")⟩,
   ⟨b!"Version", b!"version", true, .str (b!"string")⟩,
   ⟨b!"HostVM", b!"host_vm_ref", true, .str (b!"Identifier")⟩,
   ⟨b!"OperatingSystem", b!"operating_system_ref", true, .str (b!"Identifier")⟩,
   ⟨b!"InstalledSoftware", b!"installed_software_refs", true, .slice (.str (b!"Identifier"))⟩,
   ⟨b!"ConfigurationVersion", b!"configuration_version", true, .str (b!"string")⟩,
   ⟨b!"Modules", b!"modules", true, .slice (.str (b!"string"))⟩,
   ⟨b!"AnalysisEngineVersion", b!"analysis_engine_version", true, .str (b!"string")⟩,
   ⟨b!"AnalysisDefinitionVersion", b!"analysis_definition_version", true, .str (b!"string")⟩,
   ⟨b!"Submitted", b!"submitted", true, .ptr (.time)⟩,
   ⟨b!"AnalysisStarted", b!"analysis_started", true, .ptr (.time)⟩,
   ⟨b!"AnalysisEnded", b!"analysis_ended", true, .ptr (.time)⟩,
   ⟨b!"ResultName", b!"result_name", true, .str (b!"string")⟩,
   ⟨b!"Result", b!"result", true, .str (b!"string")⟩,
   ⟨b!"AnalysisSCOs", b!"analysis_sco_refs", true, .slice (.str (b!"Identifier"))⟩,
   ⟨b!"Sample", b!"sample_ref", true, .str (b!"Identifier")⟩]

/-- `MarkingDefinition` (meta.go:216-269) -/
def fieldsMarkingDefinition : Fields := mkFields
  [⟨b!"Type", b!"type", false, .str (b!"STIXType")⟩,
   ⟨b!"ID", b!"id", false, .str (b!"Identifier")⟩,
   ⟨b!"SpecVersion", b!"spec_version", false, .str (b!"string")⟩,
   ⟨b!"CreatedBy", b!"created_by_ref", true, .str (b!"Identifier")⟩,
   ⟨b!"Created", b!"created", false, .ptr (.time)⟩,
   ⟨b!"ExternalReferences", b!"external_references", true, .slice (.ptr (.struct (b!"ExternalReference") fieldsExternalReference))⟩,
   ⟨b!"ObjectMarking", b!"object_marking_refs", true, .slice (.str (b!"Identifier"))⟩,
   ⟨b!"GranularMarking", b!"granular_markings", true, .slice (.ptr (.struct (b!"GranularMarking") fieldsGranularMarking))⟩,
   ⟨b!"Extensions", b!"extensions", true, .ext knownExts⟩,
   ⟨b!"Name", b!"name", true, .str (b!"string")⟩,
   ⟨b!"DefinitionType", b!"definition_type", false, .str (b!"string")⟩,
   ⟨b!"Definition", b!"definition", false, .dyn⟩]

/-- `Mutex` (mutex.go:9-13): the fields of its own, beside the embedded `STIXCyberObservableObject` -/
def fieldsMutex : Fields := mkFields
  [⟨b!"Name", b!"name", false, .str (b!"string")⟩]

/-- `NetworkTraffic` (network.go:23-89): the fields of its own, beside the embedded `STIXCyberObservableObject` -/
def fieldsNetworkTraffic : Fields := mkFields
  [⟨b!"Start", b!"start", true, .ptr (.time)⟩,
   ⟨b!"End", b!"end", true, .ptr (.time)⟩,
   ⟨b!"IsActive", b!"is_active", true, .bool⟩,
   ⟨b!"Src", b!"src_ref", true, .str (b!"Identifier")⟩,
   ⟨b!"Dst", b!"dst_ref", true, .str (b!"Identifier")⟩,
   ⟨b!"SrcPort", b!"src_port", true, .int (b!"int64")⟩,
   ⟨b!"DstPort", b!"dst_port", true, .int (b!"int64")⟩,
   ⟨b!"Protocols", b!"protocols", false, .slice (.str (b!"string"))⟩,
   ⟨b!"SrcByteCount", b!"src_byte_count", true, .int (b!"int64")⟩,
   ⟨b!"DstByteCount", b!"dst_byte_count", true, .int (b!"int64")⟩,
   ⟨b!"SrcPackets", b!"src_packets", true, .int (b!"int64")⟩,
   ⟨b!"DstPackets", b!"dst_packets", true, .int (b!"int64")⟩,
   ⟨b!"IPFIX", b!"ipfix", true, .map [] (b!"string") (.dyn)⟩,
   ⟨b!"SrcPayload", b!"src_payload_ref", true, .str (b!"Identifier")⟩,
   ⟨b!"DstPayload", b!"dst_payload_ref", true, .str (b!"Identifier")⟩,
   ⟨b!"Encapsulates", b!"encapsulates_refs", true, .slice (.str (b!"Identifier"))⟩,
   ⟨b!"Encapsulated", b!"encapsulated_by_ref", true, .str (b!"Identifier")⟩]

/-- `Note` (note.go:17-28): the fields of its own, beside the embedded `STIXDomainObject` -/
def fieldsNote : Fields := mkFields
  [⟨b!"Abstract", b!"abstract", true, .str (b!"string")⟩,
   ⟨b!"Content", b!"content", false, .str (b!"string")⟩,
   ⟨b!"Authors", b!"authors", true, .slice (.str (b!"string"))⟩,
   ⟨b!"Objects", b!"object_refs", false, .slice (.str (b!"Identifier"))⟩]

/-- `ObservedData` (observed-data.go:51-80): the fields of its own, beside the embedded `STIXDomainObject` -/
def fieldsObservedData : Fields := mkFields
  [⟨b!"FirstObserved", b!"first_observed", false, .ptr (.time)⟩,
   ⟨b!"LastObserved", b!"last_observed", false, .ptr (.time)⟩,
   ⟨b!"NumberObserved", b!"number_observed", false, .int (b!"int64")⟩,
   ⟨b!"Objects", b!"objects", true, .map [] (b!"string") (.ptr (.struct (b!"STIXCyberObservableObject") fieldsSTIXCyberObservableObject))⟩,
   ⟨b!"ObjectRefs", b!"object_refs", true, .slice (.str (b!"Identifier"))⟩]

/-- `Opinion` (opinion.go:29-44): the fields of its own, beside the embedded `STIXDomainObject` -/
def fieldsOpinion : Fields := mkFields
  [⟨b!"Explanation", b!"explanation", true, .str (b!"string")⟩,
   ⟨b!"Authors", b!"authors", true, .slice (.str (b!"string"))⟩,
   ⟨b!"Value", b!"opinion", false, .enum .OpinionValue⟩,
   ⟨b!"Objects", b!"object_refs", false, .slice (.str (b!"Identifier"))⟩]

/-- `Process` (process.go:13-45): the fields of its own, beside the embedded `STIXCyberObservableObject` -/
def fieldsProcess : Fields := mkFields
  [⟨b!"IsHidden", b!"is_hidden", true, .bool⟩,
   ⟨b!"PID", b!"pid", true, .int (b!"int64")⟩,
   ⟨b!"CreatedTime", b!"created_time", true, .ptr (.time)⟩,
   ⟨b!"Cwd", b!"cwd", true, .str (b!"string")⟩,
   ⟨b!"CommandLine", b!"command_line", true, .str (b!"string")⟩,
   ⟨b!"EnvVars", b!"environment_variables", true, .map [] (b!"string") (.str (b!"string"))⟩,
   ⟨b!"OpenedConnections", b!"opened_connection_refs", true, .slice (.str (b!"Identifier"))⟩,
   ⟨b!"CreatorUser", b!"creator_user_ref", true, .str (b!"Identifier")⟩,
   ⟨b!"Image", b!"image_ref", true, .str (b!"Identifier")⟩,
   ⟨b!"Parent", b!"parent_ref", true, .str (b!"Identifier")⟩,
   ⟨b!"Child", b!"child_refs", true, .slice (.str (b!"Identifier"))⟩]

/-- `RegistryValue` (regkey.go:68-77) -/
def fieldsRegistryValue : Fields := mkFields
  [⟨b!"Name", b!"name", true, .str (b!"string")⟩,
   ⟨b!"Data", b!"data", true, .str (b!"string")⟩,
   ⟨b!"DataType", b!"data_type", true, .enum .RegistryDataType⟩]

/-- `RegistryKey` (regkey.go:14-32): the fields of its own, beside the embedded `STIXCyberObservableObject` -/
def fieldsRegistryKey : Fields := mkFields
  [⟨b!"Key", b!"key", true, .str (b!"string")⟩,
   ⟨b!"Values", b!"values", true, .slice (.ptr (.struct (b!"RegistryValue") fieldsRegistryValue))⟩,
   ⟨b!"ModifiedTime", b!"modified_time", true, .ptr (.time)⟩,
   ⟨b!"CreatorUser", b!"creator_user_ref", true, .str (b!"Identifier")⟩,
   ⟨b!"NumberOfSubkeys", b!"number_of_subkeys", true, .int (b!"int64")⟩]

/-- `STIXRelationshipObject` (object.go:36-118) -/
def fieldsSTIXRelationshipObject : Fields := mkFields
  [⟨b!"Type", b!"type", false, .str (b!"STIXType")⟩,
   ⟨b!"ID", b!"id", false, .str (b!"Identifier")⟩,
   ⟨b!"SpecVersion", b!"spec_version", false, .str (b!"string")⟩,
   ⟨b!"CreatedBy", b!"created_by_ref", true, .str (b!"Identifier")⟩,
   ⟨b!"Created", b!"created", false, .ptr (.time)⟩,
   ⟨b!"Modified", b!"modified", false, .ptr (.time)⟩,
   ⟨b!"Revoked", b!"revoked", true, .bool⟩,
   ⟨b!"Labels", b!"labels", true, .slice (.str (b!"string"))⟩,
   ⟨b!"Confidence", b!"confidence", true, .int (b!"int")⟩,
   ⟨b!"Lang", b!"lang", true, .str (b!"string")⟩,
   ⟨b!"ExternalReferences", b!"external_references", true, .slice (.ptr (.struct (b!"ExternalReference") fieldsExternalReference))⟩,
   ⟨b!"ObjectMarking", b!"object_marking_refs", true, .slice (.str (b!"Identifier"))⟩,
   ⟨b!"GranularMarking", b!"granular_markings", true, .slice (.ptr (.struct (b!"GranularMarking") fieldsGranularMarking))⟩,
   ⟨b!"Extensions", b!"extensions", true, .ext knownExts⟩]

/-- `Relationship` (relationship.go:25-61): the fields of its own, beside the embedded `STIXRelationshipObject` -/
def fieldsRelationship : Fields := mkFields
  [⟨b!"RelationshipType", b!"relationship_type", false, .str (b!"RelationshipType")⟩,
   ⟨b!"Description", b!"description", true, .str (b!"string")⟩,
   ⟨b!"Source", b!"source_ref", false, .str (b!"Identifier")⟩,
   ⟨b!"Target", b!"target_ref", false, .str (b!"Identifier")⟩,
   ⟨b!"StartTime", b!"start_time", true, .ptr (.time)⟩,
   ⟨b!"StopTime", b!"stop_time", true, .ptr (.time)⟩]

/-- `Report` (report.go:21-36): the fields of its own, beside the embedded `STIXDomainObject` -/
def fieldsReport : Fields := mkFields
  [⟨b!"Name", b!"name", false, .str (b!"string")⟩,
   ⟨b!"Description", b!"description", true, .str (b!"string")⟩,
   ⟨b!"Types", b!"report_types", true, .slice (.str (b!"string"))⟩,
   ⟨b!"Published", b!"published", false, .ptr (.time)⟩,
   ⟨b!"Objects", b!"object_refs", false, .slice (.str (b!"Identifier"))⟩]

/-- `Sighting` (sighting.go:47-99): the fields of its own, beside the embedded `STIXRelationshipObject` -/
def fieldsSighting : Fields := mkFields
  [⟨b!"Description", b!"description", true, .str (b!"string")⟩,
   ⟨b!"FirstSeen", b!"first_seen", true, .ptr (.time)⟩,
   ⟨b!"LastSeen", b!"last_seen", true, .ptr (.time)⟩,
   ⟨b!"Count", b!"count", true, .int (b!"int64")⟩,
   ⟨b!"SightingOf", b!"sighting_of_ref", false, .str (b!"Identifier")⟩,
   ⟨b!"ObservedData", b!"observed_data_refs", true, .slice (.str (b!"Identifier"))⟩,
   ⟨b!"WhereSighted", b!"where_sighted_refs", true, .slice (.str (b!"Identifier"))⟩,
   ⟨b!"Summary", b!"summary", true, .bool⟩]

/-- `Software` (software.go:13-32): the fields of its own, beside the embedded `STIXCyberObservableObject` -/
def fieldsSoftware : Fields := mkFields
  [⟨b!"Name", b!"name", false, .str (b!"string")⟩,
   ⟨b!"CPE", b!"cpe", true, .str (b!"string")⟩,
   ⟨b!"SWID", b!"swid", true, .str (b!"string")⟩,
   ⟨b!"Languages", b!"languages", true, .slice (.str (b!"string"))⟩,
   ⟨b!"Vendor", b!"vendor", true, .str (b!"string")⟩,
   ⟨b!"Version", b!"version", true, .str (b!"string")⟩]

/-- `ThreatActor` (threat-actor.go:17-74): the fields of its own, beside the embedded `STIXDomainObject` -/
def fieldsThreatActor : Fields := mkFields
  [⟨b!"Name", b!"name", false, .str (b!"string")⟩,
   ⟨b!"Description", b!"description", true, .str (b!"string")⟩,
   ⟨b!"Types", b!"threat_actor_types", true, .slice (.str (b!"string"))⟩,
   ⟨b!"Aliases", b!"aliases", true, .slice (.str (b!"string"))⟩,
   ⟨b!"FirstSeen", b!"first_seen", true, .ptr (.time)⟩,
   ⟨b!"LastSeen", b!"last_seen", true, .ptr (.time)⟩,
   ⟨b!"Roles", b!"roles", true, .slice (.str (b!"string"))⟩,
   ⟨b!"Goals", b!"goals", true, .slice (.str (b!"string"))⟩,
   ⟨b!"Sophistication", b!"sophistication", true, .str (b!"string")⟩,
   ⟨b!"ResourceLevel", b!"resource_level", true, .str (b!"string")⟩,
   ⟨b!"PrimaryMotivation", b!"primary_motivation", true, .str (b!"string")⟩,
   ⟨b!"SecondaryMotivations", b!"secondary_motivations", true, .slice (.str (b!"string"))⟩,
   ⟨b!"PersonalMotivations", b!"personal_motivations", true, .slice (.str (b!"string"))⟩]

/-- `Tool` (tool.go:24-40): the fields of its own, beside the embedded `STIXDomainObject` -/
def fieldsTool : Fields := mkFields
  [⟨b!"Name", b!"name", false, .str (b!"string")⟩,
   ⟨b!"Description", b!"description", true, .str (b!"string")⟩,
   ⟨b!"Types", b!"tool_types", true, .slice (.str (b!"string"))⟩,
   ⟨b!"Aliases", b!"aliases", true, .slice (.str (b!"string"))⟩,
   ⟨b!"KillChainPhase", b!"kill_chain_phases", true, .slice (.ptr (.struct (b!"KillChainPhase") fieldsKillChainPhase))⟩,
   ⟨b!"Version", b!"tool_version", true, .str (b!"string")⟩]

/-- `URL` (url.go:9-15): the fields of its own, beside the embedded `STIXCyberObservableObject` -/
def fieldsURL : Fields := mkFields
  [⟨b!"Value", b!"value", false, .str (b!"string")⟩]

/-- `UserAccount` (user.go:16-65): the fields of its own, beside the embedded `STIXCyberObservableObject` -/
def fieldsUserAccount : Fields := mkFields
  [⟨b!"UserID", b!"user_id", true, .str (b!"string")⟩,
   ⟨b!"Credential", b!"credential", true, .str (b!"string")⟩,
   ⟨b!"AccountLogin", b!"account_login", true, .str (b!"string")⟩,
   ⟨b!"AccountType", b!"account_type", true, .str (b!"string")⟩,
   ⟨b!"DisplayName", b!"display_name", true, .str (b!"string")⟩,
   ⟨b!"IsServiceAccount", b!"is_service_account", true, .bool⟩,
   ⟨b!"IsPrivileged", b!"is_privileged", true, .bool⟩,
   ⟨b!"CanEscalatePrivs", b!"can_escalate_privs", true, .bool⟩,
   ⟨b!"IsDisabled", b!"is_disabled", true, .bool⟩,
   ⟨b!"AccountCreated", b!"account_created", true, .ptr (.time)⟩,
   ⟨b!"AccountExpires", b!"account_expires", true, .ptr (.time)⟩,
   ⟨b!"CredentialLastChanged", b!"credential_last_changed", true, .ptr (.time)⟩,
   ⟨b!"AccountFirstLogin", b!"account_first_login", true, .ptr (.time)⟩,
   ⟨b!"AccountLastLogin", b!"account_last_login", true, .ptr (.time)⟩]

/-- `Vulnerability` (vulnerability.go:20-27): the fields of its own, beside the embedded `STIXDomainObject` -/
def fieldsVulnerability : Fields := mkFields
  [⟨b!"Name", b!"name", false, .str (b!"string")⟩,
   ⟨b!"Description", b!"description", true, .str (b!"string")⟩]

/-- `X509v3Extension` (x509.go:88-158) -/
def fieldsX509v3Extension : Fields := mkFields
  [⟨b!"BasicConstraints", b!"basic_constraints", true, .str (b!"string")⟩,
   ⟨b!"NameConstraints", b!"name_constraints", true, .str (b!"string")⟩,
   ⟨b!"PolicyConstraints", b!"policy_constraints", true, .str (b!"string")⟩,
   ⟨b!"KeyUsage", b!"key_usage", true, .str (b!"string")⟩,
   ⟨b!"ExtendedKeyUsage", b!"extended_key_usage", true, .str (b!"string")⟩,
   ⟨b!"SubjectKeyIdentifier", b!"subject_key_identifier", true, .str (b!"string")⟩,
   ⟨b!"AuthorityKeyIdentifier", b!"authority_key_identifier", true, .str (b!"string")⟩,
   ⟨b!"SubjectAltName", b!"subject_alternative_name", true, .str (b!"string")⟩,
   ⟨b!"IssuerAltName", b!"issuer_alternative_name", true, .str (b!"string")⟩,
   ⟨b!"SubjectDirectoryAttributes", b!"subject_directory_attributes", true, .str (b!"string")⟩,
   ⟨b!"CRLDistributionPoints", b!"crl_distribution_points", true, .str (b!"string")⟩,
   ⟨b!"InhibitAnyPolicy", b!"inhibit_any_policy", true, .str (b!"string")⟩,
   ⟨b!"PrivateKeyUsagePeriodNotBefore", b!"private_key_usage_period_not_before", true, .ptr (.time)⟩,
   ⟨b!"PrivateKeyUsagePeriodNotAfter", b!"private_key_usage_period_not_after", true, .ptr (.time)⟩,
   ⟨b!"CertificatePolicies", b!"certificate_policies", true, .str (b!"string")⟩,
   ⟨b!"PolicyMappings", b!"policy_mappings", true, .str (b!"string")⟩]

/-- `X509Certificate` (x509.go:15-55): the fields of its own, beside the embedded `STIXCyberObservableObject` -/
def fieldsX509Certificate : Fields := mkFields
  [⟨b!"SelfSigned", b!"is_self_signed", true, .bool⟩,
   ⟨b!"Hashes", b!"hashes", true, .map (b!"Hashes") (b!"HashAlgorithm") (.str (b!"string"))⟩,
   ⟨b!"Version", b!"version", true, .str (b!"string")⟩,
   ⟨b!"SerialNumber", b!"serial_number", true, .str (b!"string")⟩,
   ⟨b!"SignatureAlgorithm", b!"signature_algorithm", true, .str (b!"string")⟩,
   ⟨b!"Issuer", b!"issuer", true, .str (b!"string")⟩,
   ⟨b!"ValidityNotBefore", b!"validity_not_before", true, .ptr (.time)⟩,
   ⟨b!"ValidityNotAfter", b!"validity_not_after", true, .ptr (.time)⟩,
   ⟨b!"Subject", b!"subject", true, .str (b!"string")⟩,
   ⟨b!"SubjectPublicKeyAlgorithm", b!"subject_public_key_algorithm", true, .str (b!"string")⟩,
   ⟨b!"SubjectPublicKeyModulus", b!"subject_public_key_modulus", true, .str (b!"string")⟩,
   ⟨b!"SubjectPublicKeyExponent", b!"subject_public_key_exponent", true, .int (b!"int64")⟩,
   ⟨b!"X509v3Extensions", b!"x509_v3_extensions", true, .struct (b!"X509v3Extension") fieldsX509v3Extension⟩]

/-- `Bundle` (bundle.go:15-25) -/
def fieldsBundle : Fields := mkFields
  [⟨b!"Type", b!"type", false, .str (b!"STIXType")⟩,
   ⟨b!"ID", b!"id", false, .str (b!"Identifier")⟩,
   ⟨b!"Objects", b!"objects", true, .slice (.raw)⟩]

/-- The Go struct types of the library that are STIX objects. -/
inductive SId where
  /-- as.go:9 -/
  | AutonomousSystem
  /-- artifact.go:15 -/
  | Artifact
  /-- attack.go:18 -/
  | AttackPattern
  /-- campaign.go:22 -/
  | Campaign
  /-- course-of-action.go:14 -/
  | CourseOfAction
  /-- directory.go:10 -/
  | Directory
  /-- dns.go:9 -/
  | DomainName
  /-- email.go:12 -/
  | EmailAddress
  /-- email.go:55 -/
  | EmailMessage
  /-- extension.go:67 -/
  | ExtensionDefinition
  /-- file.go:13 -/
  | File
  /-- grouping.go:21 -/
  | Grouping
  /-- incident.go:12 -/
  | Incident
  /-- ip.go:10 -/
  | IPv4Address
  /-- ip.go:64 -/
  | IPv6Address
  /-- identity.go:13 -/
  | Identity
  /-- indicator.go:16 -/
  | Indicator
  /-- infrastructure.go:13 -/
  | Infrastructure
  /-- intrusion-set.go:25 -/
  | IntrusionSet
  /-- meta.go:16 -/
  | LanguageContent
  /-- location.go:41 -/
  | Location
  /-- mac.go:9 -/
  | MACAddress
  /-- malware.go:27 -/
  | Malware
  /-- malware-analysis.go:8 -/
  | MalwareAnalysis
  /-- meta.go:216 -/
  | MarkingDefinition
  /-- mutex.go:9 -/
  | Mutex
  /-- network.go:23 -/
  | NetworkTraffic
  /-- note.go:17 -/
  | Note
  /-- observed-data.go:51 -/
  | ObservedData
  /-- opinion.go:29 -/
  | Opinion
  /-- process.go:13 -/
  | Process
  /-- regkey.go:14 -/
  | RegistryKey
  /-- relationship.go:25 -/
  | Relationship
  /-- report.go:21 -/
  | Report
  /-- sighting.go:47 -/
  | Sighting
  /-- software.go:13 -/
  | Software
  /-- threat-actor.go:17 -/
  | ThreatActor
  /-- tool.go:24 -/
  | Tool
  /-- url.go:9 -/
  | URL
  /-- user.go:16 -/
  | UserAccount
  /-- vulnerability.go:20 -/
  | Vulnerability
  /-- x509.go:15 -/
  | X509Certificate
  deriving DecidableEq, Repr

/-- The embedded struct of an object type. -/
inductive Base where
  /-- object.go:36-118 -/
  | sro
  /-- object.go:173-257 -/
  | sdo
  /-- object.go:318-350 -/
  | sco
  /-- no embedded struct -/
  | none
  deriving DecidableEq, Repr

/-- Which struct is embedded. -/
def baseOf : SId → Base
  | .AutonomousSystem => .sco
  | .Artifact => .sco
  | .AttackPattern => .sdo
  | .Campaign => .sdo
  | .CourseOfAction => .sdo
  | .Directory => .sco
  | .DomainName => .sco
  | .EmailAddress => .sco
  | .EmailMessage => .sco
  | .ExtensionDefinition => .none
  | .File => .sco
  | .Grouping => .sdo
  | .Incident => .sdo
  | .IPv4Address => .sco
  | .IPv6Address => .sco
  | .Identity => .sdo
  | .Indicator => .sdo
  | .Infrastructure => .sdo
  | .IntrusionSet => .sdo
  | .LanguageContent => .none
  | .Location => .sdo
  | .MACAddress => .sco
  | .Malware => .sdo
  | .MalwareAnalysis => .sdo
  | .MarkingDefinition => .none
  | .Mutex => .sco
  | .NetworkTraffic => .sco
  | .Note => .sdo
  | .ObservedData => .sdo
  | .Opinion => .sdo
  | .Process => .sco
  | .RegistryKey => .sco
  | .Relationship => .sro
  | .Report => .sdo
  | .Sighting => .sro
  | .Software => .sco
  | .ThreatActor => .sdo
  | .Tool => .sdo
  | .URL => .sco
  | .UserAccount => .sco
  | .Vulnerability => .sdo
  | .X509Certificate => .sco

/-- The Go name of the struct. -/
def goName : SId → Str
  | .AutonomousSystem => b!"AutonomousSystem"
  | .Artifact => b!"Artifact"
  | .AttackPattern => b!"AttackPattern"
  | .Campaign => b!"Campaign"
  | .CourseOfAction => b!"CourseOfAction"
  | .Directory => b!"Directory"
  | .DomainName => b!"DomainName"
  | .EmailAddress => b!"EmailAddress"
  | .EmailMessage => b!"EmailMessage"
  | .ExtensionDefinition => b!"ExtensionDefinition"
  | .File => b!"File"
  | .Grouping => b!"Grouping"
  | .Incident => b!"Incident"
  | .IPv4Address => b!"IPv4Address"
  | .IPv6Address => b!"IPv6Address"
  | .Identity => b!"Identity"
  | .Indicator => b!"Indicator"
  | .Infrastructure => b!"Infrastructure"
  | .IntrusionSet => b!"IntrusionSet"
  | .LanguageContent => b!"LanguageContent"
  | .Location => b!"Location"
  | .MACAddress => b!"MACAddress"
  | .Malware => b!"Malware"
  | .MalwareAnalysis => b!"MalwareAnalysis"
  | .MarkingDefinition => b!"MarkingDefinition"
  | .Mutex => b!"Mutex"
  | .NetworkTraffic => b!"NetworkTraffic"
  | .Note => b!"Note"
  | .ObservedData => b!"ObservedData"
  | .Opinion => b!"Opinion"
  | .Process => b!"Process"
  | .RegistryKey => b!"RegistryKey"
  | .Relationship => b!"Relationship"
  | .Report => b!"Report"
  | .Sighting => b!"Sighting"
  | .Software => b!"Software"
  | .ThreatActor => b!"ThreatActor"
  | .Tool => b!"Tool"
  | .URL => b!"URL"
  | .UserAccount => b!"UserAccount"
  | .Vulnerability => b!"Vulnerability"
  | .X509Certificate => b!"X509Certificate"

/-- The fields of each struct without those of the embedded one. -/
def ownFields : SId → Fields
  | .AutonomousSystem => fieldsAutonomousSystem
  | .Artifact => fieldsArtifact
  | .AttackPattern => fieldsAttackPattern
  | .Campaign => fieldsCampaign
  | .CourseOfAction => fieldsCourseOfAction
  | .Directory => fieldsDirectory
  | .DomainName => fieldsDomainName
  | .EmailAddress => fieldsEmailAddress
  | .EmailMessage => fieldsEmailMessage
  | .ExtensionDefinition => fieldsExtensionDefinition
  | .File => fieldsFile
  | .Grouping => fieldsGrouping
  | .Incident => fieldsIncident
  | .IPv4Address => fieldsIPv4Address
  | .IPv6Address => fieldsIPv6Address
  | .Identity => fieldsIdentity
  | .Indicator => fieldsIndicator
  | .Infrastructure => fieldsInfrastructure
  | .IntrusionSet => fieldsIntrusionSet
  | .LanguageContent => fieldsLanguageContent
  | .Location => fieldsLocation
  | .MACAddress => fieldsMACAddress
  | .Malware => fieldsMalware
  | .MalwareAnalysis => fieldsMalwareAnalysis
  | .MarkingDefinition => fieldsMarkingDefinition
  | .Mutex => fieldsMutex
  | .NetworkTraffic => fieldsNetworkTraffic
  | .Note => fieldsNote
  | .ObservedData => fieldsObservedData
  | .Opinion => fieldsOpinion
  | .Process => fieldsProcess
  | .RegistryKey => fieldsRegistryKey
  | .Relationship => fieldsRelationship
  | .Report => fieldsReport
  | .Sighting => fieldsSighting
  | .Software => fieldsSoftware
  | .ThreatActor => fieldsThreatActor
  | .Tool => fieldsTool
  | .URL => fieldsURL
  | .UserAccount => fieldsUserAccount
  | .Vulnerability => fieldsVulnerability
  | .X509Certificate => fieldsX509Certificate

/-- The fields of the embedded structs. -/
def baseFields : Base → Fields
  | .sro => fieldsSTIXRelationshipObject
  | .sdo => fieldsSTIXDomainObject
  | .sco => fieldsSTIXCyberObservableObject
  | .none => .nil

def allSIds : List SId :=
  [.AutonomousSystem, .Artifact, .AttackPattern, .Campaign, .CourseOfAction, .Directory, .DomainName, .EmailAddress, .EmailMessage, .ExtensionDefinition, .File, .Grouping, .Incident, .IPv4Address, .IPv6Address, .Identity, .Indicator, .Infrastructure, .IntrusionSet, .LanguageContent, .Location, .MACAddress, .Malware, .MalwareAnalysis, .MarkingDefinition, .Mutex, .NetworkTraffic, .Note, .ObservedData, .Opinion, .Process, .RegistryKey, .Relationship, .Report, .Sighting, .Software, .ThreatActor, .Tool, .URL, .UserAccount, .Vulnerability, .X509Certificate]

/-- The cases of the type switch in `processObjects` (stix.go:1012-1095). -/
def dispatchTable : List (Str × SId) :=
  [(TypeAutonomousSystem, .AutonomousSystem),
   (TypeArtifact, .Artifact),
   (TypeAttackPattern, .AttackPattern),
   (TypeCampaign, .Campaign),
   (TypeCourseOfAction, .CourseOfAction),
   (TypeDirectory, .Directory),
   (TypeDomainName, .DomainName),
   (TypeEmailAddress, .EmailAddress),
   (TypeEmailMessage, .EmailMessage),
   (TypeExtensionDefinition, .ExtensionDefinition),
   (TypeFile, .File),
   (TypeGrouping, .Grouping),
   (TypeIncident, .Incident),
   (TypeIPv4Addr, .IPv4Address),
   (TypeIPv6Addr, .IPv6Address),
   (TypeIdentity, .Identity),
   (TypeIndicator, .Indicator),
   (TypeInfrastructure, .Infrastructure),
   (TypeIntrusionSet, .IntrusionSet),
   (TypeLanguageContent, .LanguageContent),
   (TypeLocation, .Location),
   (TypeMACAddress, .MACAddress),
   (TypeMalware, .Malware),
   (TypeMalwareAnalysis, .MalwareAnalysis),
   (TypeMarkingDefinition, .MarkingDefinition),
   (TypeMutex, .Mutex),
   (TypeNetworkTraffic, .NetworkTraffic),
   (TypeNote, .Note),
   (TypeObservedData, .ObservedData),
   (TypeOpinion, .Opinion),
   (TypeProcess, .Process),
   (TypeRegistryKey, .RegistryKey),
   (TypeRelationship, .Relationship),
   (TypeReport, .Report),
   (TypeSighting, .Sighting),
   (TypeSoftware, .Software),
   (TypeThreatActor, .ThreatActor),
   (TypeTool, .Tool),
   (TypeURL, .URL),
   (TypeUserAccount, .UserAccount),
   (TypeVulnerability, .Vulnerability),
   (TypeX509Certificate, .X509Certificate)]

/-- The type has a method `addCustomProperties` (interface `canHaveExtensions`, stix.go:31-33):
object.go:120-122, 259-261, 352-354 for the embedded structs, meta.go:139-141, 275-277. -/
def canHaveExtensions : SId → Bool
  | .AutonomousSystem => true
  | .Artifact => true
  | .AttackPattern => true
  | .Campaign => true
  | .CourseOfAction => true
  | .Directory => true
  | .DomainName => true
  | .EmailAddress => true
  | .EmailMessage => true
  | .ExtensionDefinition => false
  | .File => true
  | .Grouping => true
  | .Incident => true
  | .IPv4Address => true
  | .IPv6Address => true
  | .Identity => true
  | .Indicator => true
  | .Infrastructure => true
  | .IntrusionSet => true
  | .LanguageContent => true
  | .Location => true
  | .MACAddress => true
  | .Malware => true
  | .MalwareAnalysis => true
  | .MarkingDefinition => true
  | .Mutex => true
  | .NetworkTraffic => true
  | .Note => true
  | .ObservedData => true
  | .Opinion => true
  | .Process => true
  | .RegistryKey => true
  | .Relationship => true
  | .Report => true
  | .Sighting => true
  | .Software => true
  | .ThreatActor => true
  | .Tool => true
  | .URL => true
  | .UserAccount => true
  | .Vulnerability => true
  | .X509Certificate => true

/-- The type has a `MarshalJSON` that calls `marshalToJSONHelper`; the others are written by `encoding/json` itself.
(artifact.go:42-44, as.go:21-23, attack.go:32-34, campaign.go:41-43, course-of-action.go:25-27,
directory.go:34-36, dns.go:22-24, email.go:25-27, email.go:106-108, file.go:55-57,
grouping.go:37-39, identity.go:37-39, incident.go:21-23, indicator.go:50-52, infrastructure.go:38-40,
intrusion-set.go:76-78, ip.go:24-26, ip.go:78-80, location.go:81-83, mac.go:15-17,
malware-analysis.go:82-84, malware.go:78-80, meta.go:135-137, meta.go:271-273, mutex.go:15-17,
network.go:91-93, note.go:30-32, observed-data.go:82-84, opinion.go:46-48, process.go:47-49,
regkey.go:34-36, relationship.go:63-65, report.go:38-40, sighting.go:101-103, software.go:34-36,
threat-actor.go:76-78, tool.go:42-44, url.go:17-19, user.go:67-69, vulnerability.go:29-31,
x509.go:57-59) -/
def hasMarshalHelper : SId → Bool
  | .AutonomousSystem => true
  | .Artifact => true
  | .AttackPattern => true
  | .Campaign => true
  | .CourseOfAction => true
  | .Directory => true
  | .DomainName => true
  | .EmailAddress => true
  | .EmailMessage => true
  | .ExtensionDefinition => false
  | .File => true
  | .Grouping => true
  | .Incident => true
  | .IPv4Address => true
  | .IPv6Address => true
  | .Identity => true
  | .Indicator => true
  | .Infrastructure => true
  | .IntrusionSet => true
  | .LanguageContent => true
  | .Location => true
  | .MACAddress => true
  | .Malware => true
  | .MalwareAnalysis => true
  | .MarkingDefinition => true
  | .Mutex => true
  | .NetworkTraffic => true
  | .Note => true
  | .ObservedData => true
  | .Opinion => true
  | .Process => true
  | .RegistryKey => true
  | .Relationship => true
  | .Report => true
  | .Sighting => true
  | .Software => true
  | .ThreatActor => true
  | .Tool => true
  | .URL => true
  | .UserAccount => true
  | .Vulnerability => true
  | .X509Certificate => true

/-- Singular typed getters of `Collection` (stix.go:184-929): method, type constant, Go type asserted. -/
def singularGetters : List (Str × Str × SId) :=
  [(b!"AS", TypeAutonomousSystem, .AutonomousSystem),
   (b!"Artifact", TypeArtifact, .Artifact),
   (b!"AttackPattern", TypeAttackPattern, .AttackPattern),
   (b!"Campaign", TypeCampaign, .Campaign),
   (b!"CourseOfAction", TypeCourseOfAction, .CourseOfAction),
   (b!"Directory", TypeDirectory, .Directory),
   (b!"DomainName", TypeDomainName, .DomainName),
   (b!"EmailAddress", TypeEmailAddress, .EmailAddress),
   (b!"EmailMessage", TypeEmailMessage, .EmailMessage),
   (b!"ExtensionDefinition", TypeExtensionDefinition, .ExtensionDefinition),
   (b!"File", TypeFile, .File),
   (b!"Group", TypeGrouping, .Grouping),
   (b!"IPv4Address", TypeIPv4Addr, .IPv4Address),
   (b!"IPv6Address", TypeIPv6Addr, .IPv6Address),
   (b!"Identity", TypeIdentity, .Identity),
   (b!"Indicator", TypeIndicator, .Indicator),
   (b!"Infrastructure", TypeInfrastructure, .Infrastructure),
   (b!"IntrusionSet", TypeIntrusionSet, .IntrusionSet),
   (b!"LanguageContent", TypeLanguageContent, .LanguageContent),
   (b!"Location", TypeLocation, .Location),
   (b!"MAC", TypeMACAddress, .MACAddress),
   (b!"Malware", TypeMalware, .Malware),
   (b!"MalwareAnalysis", TypeMalwareAnalysis, .MalwareAnalysis),
   (b!"MarkingDefinition", TypeMarkingDefinition, .MarkingDefinition),
   (b!"Mutex", TypeMutex, .Mutex),
   (b!"NetworkTraffic", TypeNetworkTraffic, .NetworkTraffic),
   (b!"Note", TypeNote, .Note),
   (b!"ObservedData", TypeObservedData, .ObservedData),
   (b!"Opinion", TypeOpinion, .Opinion),
   (b!"Process", TypeProcess, .Process),
   (b!"RegistryKey", TypeRegistryKey, .RegistryKey),
   (b!"Relationship", TypeRelationship, .Relationship),
   (b!"Report", TypeReport, .Report),
   (b!"Sighting", TypeSighting, .Sighting),
   (b!"Software", TypeSoftware, .Software),
   (b!"ThreatActor", TypeThreatActor, .ThreatActor),
   (b!"Tool", TypeTool, .Tool),
   (b!"URL", TypeURL, .URL),
   (b!"UserAccount", TypeUserAccount, .UserAccount),
   (b!"Vulnerability", TypeVulnerability, .Vulnerability),
   (b!"X509Certificate", TypeX509Certificate, .X509Certificate),
   (b!"Incident", TypeIncident, .Incident)]

/-- Plural typed getters of `Collection` (stix.go:193-938): method, type constant, Go type asserted. -/
def pluralGetters : List (Str × Str × SId) :=
  [(b!"ASs", TypeAutonomousSystem, .AutonomousSystem),
   (b!"Artifacts", TypeArtifact, .Artifact),
   (b!"AttackPatterns", TypeAttackPattern, .AttackPattern),
   (b!"Campaigns", TypeCampaign, .Campaign),
   (b!"CourseOfActions", TypeCourseOfAction, .CourseOfAction),
   (b!"Directories", TypeDirectory, .Directory),
   (b!"DomainNames", TypeDomainName, .DomainName),
   (b!"EmailAddresses", TypeEmailAddress, .EmailAddress),
   (b!"EmailMessages", TypeEmailMessage, .EmailMessage),
   (b!"ExtensionDefinitions", TypeExtensionDefinition, .ExtensionDefinition),
   (b!"Files", TypeFile, .File),
   (b!"Groups", TypeGrouping, .Grouping),
   (b!"IPv4Addresses", TypeIPv4Addr, .IPv4Address),
   (b!"IPv6Addresses", TypeIPv6Addr, .IPv6Address),
   (b!"Identities", TypeIdentity, .Identity),
   (b!"Indicators", TypeIndicator, .Indicator),
   (b!"Infrastructures", TypeInfrastructure, .Infrastructure),
   (b!"IntrusionSets", TypeIntrusionSet, .IntrusionSet),
   (b!"LanguageContents", TypeLanguageContent, .LanguageContent),
   (b!"Locations", TypeLocation, .Location),
   (b!"MACs", TypeMACAddress, .MACAddress),
   (b!"AllMalware", TypeMalware, .Malware),
   (b!"MalwareAnalyses", TypeMalwareAnalysis, .MalwareAnalysis),
   (b!"MarkingDefinitions", TypeMarkingDefinition, .MarkingDefinition),
   (b!"Mutexes", TypeMutex, .Mutex),
   (b!"AllNetworkTraffic", TypeNetworkTraffic, .NetworkTraffic),
   (b!"Notes", TypeNote, .Note),
   (b!"AllObservedData", TypeObservedData, .ObservedData),
   (b!"Opinions", TypeOpinion, .Opinion),
   (b!"Processes", TypeProcess, .Process),
   (b!"RegistryKeys", TypeRegistryKey, .RegistryKey),
   (b!"Relationships", TypeRelationship, .Relationship),
   (b!"Reports", TypeReport, .Report),
   (b!"Sightings", TypeSighting, .Sighting),
   (b!"AllSoftware", TypeSoftware, .Software),
   (b!"ThreatActors", TypeThreatActor, .ThreatActor),
   (b!"Tools", TypeTool, .Tool),
   (b!"URLs", TypeURL, .URL),
   (b!"UserAccounts", TypeUserAccount, .UserAccount),
   (b!"Vulnerabilities", TypeVulnerability, .Vulnerability),
   (b!"X509Certificates", TypeX509Certificate, .X509Certificate),
   (b!"Incidents", TypeIncident, .Incident)]

end Stix
