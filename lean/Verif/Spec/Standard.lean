import Verif.Spec.Doc
import Verif.Spec.Value
import Verif.Spec.Marshal
import Verif.Spec.Time
import Verif.Spec.Base64

/-!
# The properties of STIX 2.1 objects (specification)

Written from the STIX 2.1 standard (OASIS, 10 June 2021), sections 2, 4, 5, 6, 7 and 8.2: for every
type of object its properties, which of them are required, and the JSON that represents them.  Of the
data types only the JSON is kept: identifiers, enumerations and hexadecimal data are strings.  Nothing here comes from the repository.
-/

namespace Stix.Spec
open Stix

/-- The JSON of a property. -/
inductive STy where
  /-- a string -/
  | text
  /-- section 2.16: a string, an instant in UTC -/
  | time
  /-- section 2.1: a string, base64 -/
  | binary
  | integer
  | number
  | boolean
  | any
  | list (t : STy)
  /-- an object with arbitrary names -/
  | dict (t : STy)
  /-- an object with the listed members: name, required, value -/
  | object (ps : List (Str × Bool × STy))
  /-- an object whose members of the listed names are such objects -/
  | exts (es : List (Str × List (Str × Bool × STy)))

/-- Members of an object: name, required, value. -/
abbrev Props := List (Str × Bool × STy)

/-- A required property. -/
def req (name : Str) (t : STy) : Str × Bool × STy := (name, true, t)

/-- An optional property. -/
def opt (name : Str) (t : STy) : Str × Bool × STy := (name, false, t)

/-- A JSON number without fraction or exponent. -/
def IntegerText (s : Str) : Prop :=
  ∃ ds, (s = ds ∨ s = 45 :: ds) ∧ ds ≠ [] ∧ ∀ c ∈ ds, IsDigit c

/-- The JSON value represents a property.  `null`, which STIX does not have, stands for nil. -/
inductive Conforms : STy → Json → Prop
  | null (t) : Conforms t .null
  | text (raw dec) : Conforms .text (.str raw dec)
  | time (c : Civil) : c.Valid → Conforms .time (.str c.text c.text)
  | binary (b) : Conforms .binary (.str (base64 b) (base64 b))
  | integer (s) : IntegerText s → Conforms .integer (.num s)
  | number (s) : Conforms .number (.num s)
  | boolean (b) : Conforms .boolean (.bool b)
  | any (j) : Conforms .any j
  | list (t l) : (∀ j ∈ l, Conforms t j) → Conforms (.list t) (.arr l)
  | dict (t m) : (∀ e ∈ m, Conforms t e.2) → Conforms (.dict t) (.obj m)
  | object (ps m) (τ : Str → STy) : (∀ e ∈ m, ∃ r, (e.1, r, τ e.1) ∈ ps) →
      (∀ e ∈ m, Conforms (τ e.1) e.2) → (∀ p ∈ ps, p.2.1 = true → p.1 ∈ amKeys m) →
      Conforms (.object ps) (.obj m)
  | exts (es m) (τ : Str → STy) : (∀ e ∈ m, (∃ ps, (e.1, ps) ∈ es ∧ τ e.1 = .object ps) ∨
      (e.1 ∉ amKeys es ∧ τ e.1 = .any)) → (∀ e ∈ m, Conforms (τ e.1) e.2) →
      Conforms (.exts es) (.obj m)

/-! ### Section 2, 7.2: common data types -/

/-- section 2.7 -/
def hashes : STy := .dict .text

/-- section 2.5 -/
def externalReference : STy := .object
  [req (b!"source_name") .text, opt (b!"description") .text, opt (b!"url") .text,
   opt (b!"hashes") hashes, opt (b!"external_id") .text]

/-- section 2.11 -/
def killChainPhase : STy := .object
  [req (b!"kill_chain_name") .text, req (b!"phase_name") .text]

/-- section 7.2.3 -/
def granularMarking : STy := .object
  [opt (b!"lang") .text, opt (b!"marking_ref") .text, req (b!"selectors") (.list .text)]

/-! ### Section 6: extensions of observables -/

/-- section 6.7.2 -/
def archiveExt : Props := [req (b!"contains_refs") (.list .text), opt (b!"comment") .text]

/-- section 6.7.3.2 -/
def alternateDataStream : STy := .object
  [req (b!"name") .text, opt (b!"hashes") hashes, opt (b!"size") .integer]

/-- section 6.7.3 -/
def ntfsExt : Props :=
  [opt (b!"sid") .text, opt (b!"alternate_data_streams") (.list alternateDataStream)]

/-- section 6.7.4 -/
def pdfExt : Props :=
  [opt (b!"version") .text, opt (b!"is_optimized") .boolean,
   opt (b!"document_info_dict") (.dict .text), opt (b!"pdfid0") .text, opt (b!"pdfid1") .text]

/-- section 6.7.5 -/
def rasterImageExt : Props :=
  [opt (b!"image_height") .integer, opt (b!"image_width") .integer,
   opt (b!"bits_per_pixel") .integer, opt (b!"exif_tags") (.dict .any)]

/-- section 6.7.6.2 -/
def windowsPEOptionalHeader : STy := .object
  [opt (b!"magic_hex") .text, opt (b!"major_linker_version") .integer,
   opt (b!"minor_linker_version") .integer, opt (b!"size_of_code") .integer,
   opt (b!"size_of_initialized_data") .integer, opt (b!"size_of_uninitialized_data") .integer,
   opt (b!"address_of_entry_point") .integer, opt (b!"base_of_code") .integer,
   opt (b!"base_of_data") .integer, opt (b!"image_base") .integer,
   opt (b!"section_alignment") .integer, opt (b!"file_alignment") .integer,
   opt (b!"major_os_version") .integer, opt (b!"minor_os_version") .integer,
   opt (b!"major_image_version") .integer, opt (b!"minor_image_version") .integer,
   opt (b!"major_subsystem_version") .integer, opt (b!"minor_subsystem_version") .integer,
   opt (b!"win32_version_value_hex") .text, opt (b!"size_of_image") .integer,
   opt (b!"size_of_headers") .integer, opt (b!"checksum_hex") .text, opt (b!"subsystem_hex") .text,
   opt (b!"dll_characteristics_hex") .text, opt (b!"size_of_stack_reserve") .integer,
   opt (b!"size_of_stack_commit") .integer, opt (b!"size_of_heap_reserve") .integer,
   opt (b!"size_of_heap_commit") .integer, opt (b!"loader_flags_hex") .text,
   opt (b!"number_of_rva_and_sizes") .integer, opt (b!"hashes") hashes]

/-- section 6.7.6.3 -/
def windowsPESection : STy := .object
  [req (b!"name") .text, opt (b!"size") .integer, opt (b!"entropy") .number, opt (b!"hashes") hashes]

/-- section 6.7.6 -/
def windowsPEBinaryExt : Props :=
  [req (b!"pe_type") .text, opt (b!"imphash") .text, opt (b!"machine_hex") .text,
   opt (b!"number_of_sections") .integer, opt (b!"time_date_stamp") .time,
   opt (b!"pointer_to_symbol_table_hex") .text, opt (b!"number_of_symbols") .integer,
   opt (b!"size_of_optional_header") .integer, opt (b!"characteristics_hex") .text,
   opt (b!"file_header_hashes") hashes, opt (b!"optional_header") windowsPEOptionalHeader,
   opt (b!"sections") (.list windowsPESection)]

/-- section 6.12.2 -/
def httpRequestExt : Props :=
  [req (b!"request_method") .text, req (b!"request_value") .text, opt (b!"request_version") .text,
   opt (b!"request_header") (.dict (.list .text)), opt (b!"message_body_length") .integer,
   opt (b!"message_body_data_ref") .text]

/-- section 6.12.3 -/
def icmpExt : Props := [req (b!"icmp_type_hex") .text, req (b!"icmp_code_hex") .text]

/-- section 6.12.4 -/
def socketExt : Props :=
  [req (b!"address_family") .text, opt (b!"is_blocking") .boolean, opt (b!"is_listening") .boolean,
   opt (b!"options") (.dict .integer), opt (b!"socket_type") .text,
   opt (b!"socket_descriptor") .integer, opt (b!"socket_handle") .integer]

/-- section 6.12.5 -/
def tcpExt : Props := [opt (b!"src_flags_hex") .text, opt (b!"dst_flags_hex") .text]

/-- section 6.13.2 -/
def windowsProcessExt : Props :=
  [opt (b!"aslr_enabled") .boolean, opt (b!"dep_enabled") .boolean, opt (b!"priority") .text,
   opt (b!"owner_sid") .text, opt (b!"window_title") .text, opt (b!"startup_info") (.dict .any),
   opt (b!"integrity_level") .text]

/-- section 6.13.3 -/
def windowsServiceExt : Props :=
  [opt (b!"service_name") .text, opt (b!"descriptions") (.list .text), opt (b!"display_name") .text,
   opt (b!"group_name") .text, opt (b!"start_type") .text, opt (b!"service_dll_refs") (.list .text),
   opt (b!"service_type") .text, opt (b!"service_status") .text]

/-- section 6.16.2 -/
def unixAccountExt : Props :=
  [opt (b!"gid") .integer, opt (b!"groups") (.list .text), opt (b!"home_dir") .text,
   opt (b!"shell") .text]

/-- Section 3.2, `extensions`, with the extensions the standard defines. -/
def extensions : STy := .exts
  [(b!"archive-ext", archiveExt), (b!"ntfs-ext", ntfsExt), (b!"pdf-ext", pdfExt),
   (b!"raster-image-ext", rasterImageExt), (b!"windows-pebinary-ext", windowsPEBinaryExt),
   (b!"http-request-ext", httpRequestExt), (b!"icmp-ext", icmpExt), (b!"socket-ext", socketExt),
   (b!"tcp-ext", tcpExt), (b!"windows-process-ext", windowsProcessExt),
   (b!"windows-service-ext", windowsServiceExt), (b!"unix-account-ext", unixAccountExt)]

/-! ### Section 3.2: common properties -/

/-- of domain and relationship objects -/
def commonObject : Props :=
  [req (b!"type") .text, req (b!"spec_version") .text, req (b!"id") .text,
   opt (b!"created_by_ref") .text, req (b!"created") .time, req (b!"modified") .time,
   opt (b!"revoked") .boolean, opt (b!"labels") (.list .text), opt (b!"confidence") .integer,
   opt (b!"lang") .text, opt (b!"external_references") (.list externalReference),
   opt (b!"object_marking_refs") (.list .text), opt (b!"granular_markings") (.list granularMarking),
   opt (b!"extensions") extensions]

/-- of observables -/
def commonObservable : Props :=
  [req (b!"type") .text, opt (b!"spec_version") .text, req (b!"id") .text,
   opt (b!"object_marking_refs") (.list .text), opt (b!"granular_markings") (.list granularMarking),
   opt (b!"defanged") .boolean, opt (b!"extensions") extensions]

/-! ### The types -/

/-- section 6.6.2 -/
def emailMime : STy := .object
  [opt (b!"body") .text, opt (b!"body_raw_ref") .text, opt (b!"content_type") .text,
   opt (b!"content_disposition") .text]

/-- section 6.17.2 -/
def registryKeyValue : STy := .object
  [opt (b!"name") .text, opt (b!"data") .text, opt (b!"data_type") .text]

/-- section 6.18.2 -/
def x509v3Extensions : STy := .object
  [opt (b!"basic_constraints") .text, opt (b!"name_constraints") .text,
   opt (b!"policy_constraints") .text, opt (b!"key_usage") .text, opt (b!"extended_key_usage") .text,
   opt (b!"subject_key_identifier") .text, opt (b!"authority_key_identifier") .text,
   opt (b!"subject_alternative_name") .text, opt (b!"issuer_alternative_name") .text,
   opt (b!"subject_directory_attributes") .text, opt (b!"crl_distribution_points") .text,
   opt (b!"inhibit_any_policy") .text, opt (b!"private_key_usage_period_not_before") .time,
   opt (b!"private_key_usage_period_not_after") .time, opt (b!"certificate_policies") .text,
   opt (b!"policy_mappings") .text]

/-- Section 4: the properties each type of domain object has besides the common ones. -/
def domainProps : List (Str × Props) :=
  [(b!"attack-pattern", [req (b!"name") .text, opt (b!"description") .text,
     opt (b!"aliases") (.list .text), opt (b!"kill_chain_phases") (.list killChainPhase)]),
   (b!"campaign", [req (b!"name") .text, opt (b!"description") .text, opt (b!"aliases") (.list .text),
     opt (b!"first_seen") .time, opt (b!"last_seen") .time, opt (b!"objective") .text]),
   (b!"course-of-action", [req (b!"name") .text, opt (b!"description") .text]),
   (b!"grouping", [opt (b!"name") .text, opt (b!"description") .text, req (b!"context") .text,
     req (b!"object_refs") (.list .text)]),
   (b!"identity", [req (b!"name") .text, opt (b!"description") .text, opt (b!"roles") (.list .text),
     opt (b!"identity_class") .text, opt (b!"sectors") (.list .text),
     opt (b!"contact_information") .text]),
   (b!"incident", [req (b!"name") .text, opt (b!"description") .text]),
   (b!"indicator", [opt (b!"name") .text, opt (b!"description") .text,
     opt (b!"indicator_types") (.list .text), req (b!"pattern") .text, req (b!"pattern_type") .text,
     opt (b!"pattern_version") .text, req (b!"valid_from") .time, opt (b!"valid_until") .time,
     opt (b!"kill_chain_phases") (.list killChainPhase)]),
   (b!"infrastructure", [req (b!"name") .text, opt (b!"description") .text,
     opt (b!"infrastructure_types") (.list .text), opt (b!"aliases") (.list .text),
     opt (b!"kill_chain_phases") (.list killChainPhase), opt (b!"first_seen") .time,
     opt (b!"last_seen") .time]),
   (b!"intrusion-set", [req (b!"name") .text, opt (b!"description") .text,
     opt (b!"aliases") (.list .text), opt (b!"first_seen") .time, opt (b!"last_seen") .time,
     opt (b!"goals") (.list .text), opt (b!"resource_level") .text,
     opt (b!"primary_motivation") .text, opt (b!"secondary_motivations") (.list .text)]),
   (b!"location", [opt (b!"name") .text, opt (b!"description") .text, opt (b!"latitude") .number,
     opt (b!"longitude") .number, opt (b!"precision") .number, opt (b!"region") .text,
     opt (b!"country") .text, opt (b!"administrative_area") .text, opt (b!"city") .text,
     opt (b!"street_address") .text, opt (b!"postal_code") .text]),
   (b!"malware", [opt (b!"name") .text, opt (b!"description") .text,
     opt (b!"malware_types") (.list .text), req (b!"is_family") .boolean,
     opt (b!"aliases") (.list .text), opt (b!"kill_chain_phases") (.list killChainPhase),
     opt (b!"first_seen") .time, opt (b!"last_seen") .time,
     opt (b!"operating_system_refs") (.list .text),
     opt (b!"architecture_execution_envs") (.list .text),
     opt (b!"implementation_languages") (.list .text), opt (b!"capabilities") (.list .text),
     opt (b!"sample_refs") (.list .text)]),
   (b!"malware-analysis", [req (b!"product") .text, opt (b!"version") .text,
     opt (b!"host_vm_ref") .text, opt (b!"operating_system_ref") .text,
     opt (b!"installed_software_refs") (.list .text), opt (b!"configuration_version") .text,
     opt (b!"modules") (.list .text), opt (b!"analysis_engine_version") .text,
     opt (b!"analysis_definition_version") .text, opt (b!"submitted") .time,
     opt (b!"analysis_started") .time, opt (b!"analysis_ended") .time, opt (b!"result_name") .text,
     opt (b!"result") .text, opt (b!"analysis_sco_refs") (.list .text), opt (b!"sample_ref") .text]),
   (b!"note", [opt (b!"abstract") .text, req (b!"content") .text, opt (b!"authors") (.list .text),
     req (b!"object_refs") (.list .text)]),
   (b!"observed-data", [req (b!"first_observed") .time, req (b!"last_observed") .time,
     req (b!"number_observed") .integer, opt (b!"objects") (.dict (.object commonObservable)),
     opt (b!"object_refs") (.list .text)]),
   (b!"opinion", [opt (b!"explanation") .text, opt (b!"authors") (.list .text),
     req (b!"opinion") .text, req (b!"object_refs") (.list .text)]),
   (b!"report", [req (b!"name") .text, opt (b!"description") .text,
     opt (b!"report_types") (.list .text), req (b!"published") .time,
     req (b!"object_refs") (.list .text)]),
   (b!"threat-actor", [req (b!"name") .text, opt (b!"description") .text,
     opt (b!"threat_actor_types") (.list .text), opt (b!"aliases") (.list .text),
     opt (b!"first_seen") .time, opt (b!"last_seen") .time, opt (b!"roles") (.list .text),
     opt (b!"goals") (.list .text), opt (b!"sophistication") .text, opt (b!"resource_level") .text,
     opt (b!"primary_motivation") .text, opt (b!"secondary_motivations") (.list .text),
     opt (b!"personal_motivations") (.list .text)]),
   (b!"tool", [req (b!"name") .text, opt (b!"description") .text, opt (b!"tool_types") (.list .text),
     opt (b!"aliases") (.list .text), opt (b!"kill_chain_phases") (.list killChainPhase),
     opt (b!"tool_version") .text]),
   (b!"vulnerability", [req (b!"name") .text, opt (b!"description") .text])]

/-- Section 5: the same for relationship objects. -/
def relationshipProps : List (Str × Props) :=
  [(b!"relationship", [req (b!"relationship_type") .text, opt (b!"description") .text,
     req (b!"source_ref") .text, req (b!"target_ref") .text, opt (b!"start_time") .time,
     opt (b!"stop_time") .time]),
   (b!"sighting", [opt (b!"description") .text, opt (b!"first_seen") .time, opt (b!"last_seen") .time,
     opt (b!"count") .integer, req (b!"sighting_of_ref") .text,
     opt (b!"observed_data_refs") (.list .text), opt (b!"where_sighted_refs") (.list .text),
     opt (b!"summary") .boolean])]

/-- Section 6: the same for observables. -/
def observableProps : List (Str × Props) :=
  [(b!"artifact", [opt (b!"mime_type") .text, opt (b!"payload_bin") .binary, opt (b!"url") .text,
     opt (b!"hashes") hashes, opt (b!"encryption_algorithm") .text, opt (b!"decryption_key") .text]),
   (b!"autonomous-system", [req (b!"number") .integer, opt (b!"name") .text, opt (b!"rir") .text]),
   (b!"directory", [req (b!"path") .text, opt (b!"path_enc") .text, opt (b!"ctime") .time,
     opt (b!"mtime") .time, opt (b!"atime") .time, opt (b!"contains_refs") (.list .text)]),
   (b!"domain-name", [req (b!"value") .text, opt (b!"resolves_to_refs") (.list .text)]),
   (b!"email-addr", [req (b!"value") .text, opt (b!"display_name") .text,
     opt (b!"belongs_to_ref") .text]),
   (b!"email-message", [req (b!"is_multipart") .boolean, opt (b!"date") .time,
     opt (b!"content_type") .text, opt (b!"from_ref") .text, opt (b!"sender_ref") .text,
     opt (b!"to_refs") (.list .text), opt (b!"cc_refs") (.list .text), opt (b!"bcc_refs") (.list .text),
     opt (b!"message_id") .text, opt (b!"subject") .text, opt (b!"received_lines") (.list .text),
     opt (b!"additional_header_fields") (.dict (.list .text)), opt (b!"body") .text,
     opt (b!"body_multipart") (.list emailMime), opt (b!"raw_email_ref") .text]),
   (b!"file", [opt (b!"hashes") hashes, opt (b!"size") .integer, opt (b!"name") .text,
     opt (b!"name_enc") .text, opt (b!"magic_number_hex") .text, opt (b!"mime_type") .text,
     opt (b!"ctime") .time, opt (b!"mtime") .time, opt (b!"atime") .time,
     opt (b!"parent_directory_ref") .text, opt (b!"contains_refs") (.list .text),
     opt (b!"content_ref") .text]),
   (b!"ipv4-addr", [req (b!"value") .text, opt (b!"resolves_to_refs") (.list .text),
     opt (b!"belongs_to_refs") (.list .text)]),
   (b!"ipv6-addr", [req (b!"value") .text, opt (b!"resolves_to_refs") (.list .text),
     opt (b!"belongs_to_refs") (.list .text)]),
   (b!"mac-addr", [req (b!"value") .text]),
   (b!"mutex", [req (b!"name") .text]),
   (b!"network-traffic", [opt (b!"start") .time, opt (b!"end") .time, opt (b!"is_active") .boolean,
     opt (b!"src_ref") .text, opt (b!"dst_ref") .text, opt (b!"src_port") .integer,
     opt (b!"dst_port") .integer, req (b!"protocols") (.list .text), opt (b!"src_byte_count") .integer,
     opt (b!"dst_byte_count") .integer, opt (b!"src_packets") .integer,
     opt (b!"dst_packets") .integer, opt (b!"ipfix") (.dict .any), opt (b!"src_payload_ref") .text,
     opt (b!"dst_payload_ref") .text, opt (b!"encapsulates_refs") (.list .text),
     opt (b!"encapsulated_by_ref") .text]),
   (b!"process", [opt (b!"is_hidden") .boolean, opt (b!"pid") .integer, opt (b!"created_time") .time,
     opt (b!"cwd") .text, opt (b!"command_line") .text,
     opt (b!"environment_variables") (.dict .text), opt (b!"opened_connection_refs") (.list .text),
     opt (b!"creator_user_ref") .text, opt (b!"image_ref") .text, opt (b!"parent_ref") .text,
     opt (b!"child_refs") (.list .text)]),
   (b!"software", [req (b!"name") .text, opt (b!"cpe") .text, opt (b!"swid") .text,
     opt (b!"languages") (.list .text), opt (b!"vendor") .text, opt (b!"version") .text]),
   (b!"url", [req (b!"value") .text]),
   (b!"user-account", [opt (b!"user_id") .text, opt (b!"credential") .text,
     opt (b!"account_login") .text, opt (b!"account_type") .text, opt (b!"display_name") .text,
     opt (b!"is_service_account") .boolean, opt (b!"is_privileged") .boolean,
     opt (b!"can_escalate_privs") .boolean, opt (b!"is_disabled") .boolean,
     opt (b!"account_created") .time, opt (b!"account_expires") .time,
     opt (b!"credential_last_changed") .time, opt (b!"account_first_login") .time,
     opt (b!"account_last_login") .time]),
   (b!"windows-registry-key", [opt (b!"key") .text, opt (b!"values") (.list registryKeyValue),
     opt (b!"modified_time") .time, opt (b!"creator_user_ref") .text,
     opt (b!"number_of_subkeys") .integer]),
   (b!"x509-certificate", [opt (b!"is_self_signed") .boolean, opt (b!"hashes") hashes,
     opt (b!"version") .text, opt (b!"serial_number") .text, opt (b!"signature_algorithm") .text,
     opt (b!"issuer") .text, opt (b!"validity_not_before") .time, opt (b!"validity_not_after") .time,
     opt (b!"subject") .text, opt (b!"subject_public_key_algorithm") .text,
     opt (b!"subject_public_key_modulus") .text, opt (b!"subject_public_key_exponent") .integer,
     opt (b!"x509_v3_extensions") x509v3Extensions])]

/-- Section 7: all the properties of the meta objects. -/
def metaProps : List (Str × Props) :=
  [(b!"language-content", [req (b!"type") .text, req (b!"spec_version") .text, req (b!"id") .text,
     opt (b!"created_by_ref") .text, req (b!"created") .time, req (b!"modified") .time,
     opt (b!"revoked") .boolean, opt (b!"labels") (.list .text), opt (b!"confidence") .integer,
     opt (b!"external_references") (.list externalReference),
     opt (b!"object_marking_refs") (.list .text),
     opt (b!"granular_markings") (.list granularMarking), opt (b!"extensions") extensions,
     req (b!"object_ref") .text, opt (b!"object_modified") .time,
     req (b!"contents") (.dict (.dict .any))]),
   (b!"marking-definition", [req (b!"type") .text, req (b!"spec_version") .text,
     req (b!"id") .text, opt (b!"created_by_ref") .text, req (b!"created") .time,
     opt (b!"external_references") (.list externalReference),
     opt (b!"object_marking_refs") (.list .text),
     opt (b!"granular_markings") (.list granularMarking), opt (b!"extensions") extensions,
     opt (b!"name") .text, opt (b!"definition_type") .text, opt (b!"definition") .any]),
   (b!"extension-definition", [req (b!"type") .text, req (b!"spec_version") .text,
     req (b!"id") .text, req (b!"created_by_ref") .text, req (b!"created") .time,
     req (b!"modified") .time, opt (b!"revoked") .boolean, opt (b!"labels") (.list .text),
     opt (b!"external_references") (.list externalReference),
     opt (b!"object_marking_refs") (.list .text),
     opt (b!"granular_markings") (.list granularMarking), req (b!"name") .text,
     opt (b!"description") .text, req (b!"schema") .text, req (b!"version") .text,
     req (b!"extension_types") (.list .text), opt (b!"extension_properties") (.list .text)])]

/-- The properties of each type of object. -/
def standard : List (Str × Props) :=
  domainProps.map (fun e => (e.1, commonObject ++ e.2)) ++
  relationshipProps.map (fun e => (e.1, commonObject ++ e.2)) ++
  observableProps.map (fun e => (e.1, commonObservable ++ e.2)) ++ metaProps

/-- Properties the library requires though the standard does not, by type. -/
def overRequired : List (Str × List Str) :=
  [(b!"identity", [b!"identity_class"]), (b!"marking-definition", [b!"definition_type", b!"definition"])]

/-- The library requires the property of that type, but the standard does not. -/
def OverRequired (type name : Str) : Prop := ∃ e ∈ overRequired, e.1 = type ∧ name ∈ e.2

/-- The property of the object is set. -/
def IsSet (o : Obj) (k : Str) : Prop :=
  ∃ r ∈ objFields o.sid, r.key = k ∧ ¬ Unset r.ty (o.val r.name)

/-- A value in which texts are Unicode, times are of the years 0 to 9999, floats are numbers, and the
extensions of the standard stand under their own keys. -/
def placed : Leaves :=
  { typed with str := Canon.Unicode, time := carriable.time, ownKey := true }

end Stix.Spec
