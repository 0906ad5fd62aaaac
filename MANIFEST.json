{
 "claims": [
  {
   "property": "C01",
   "status": "proved",
   "theorems": [
    "Stix.c01_get_latest",
    "Stix.c01_get_nil",
    "Stix.c01_parsed"
   ],
   "note": "c01_parsed: a collection that FromJSON returned has a history of accepted additions too, so the theorems about histories hold of it and of what is added later."
  },
  {
   "property": "C02",
   "status": "proved",
   "theorems": [
    "Stix.c02_allObjects_order",
    "Stix.c02_allObjects_deterministic",
    "Stix.c02_listing_unique"
   ],
   "note": ""
  },
  {
   "property": "C03",
   "status": "proved",
   "theorems": [
    "Stix.c03_nosort_permutation",
    "Stix.c03_getAll",
    "Stix.c03_returns"
   ],
   "note": "c03_returns: both have a result in every state, so the statements about every possible result are not empty."
  },
  {
   "property": "C04",
   "status": "proved",
   "theorems": [
    "Stix.c04_custom",
    "Stix.c04_accepts",
    "Stix.c04_no_trace"
   ],
   "note": "c04_custom says exactly what Add does with a CustomObject: it crashes if the id is not a string, or the id has two parts and the type is not a string; otherwise the rule is the one for all objects."
  },
  {
   "property": "C05",
   "status": "proved",
   "theorems": [
    "Stix.c05_getAll",
    "Stix.c05_partition",
    "Stix.c05_one_type"
   ],
   "note": ""
  },
  {
   "property": "C06",
   "status": "partial",
   "theorems": [
    "Stix.c06_singular_partial",
    "Stix.c06_plural_partial",
    "Stix.c06_variant_panics",
    "Stix.c06_returns",
    "Stix.c06_singular_exact",
    "Stix.c06_plural_exact",
    "Stix.c06_added",
    "Stix.c06_named"
   ],
   "note": "Proved for every parsed document whose objects have no member that differs from type in case only; c06_variant_panics shows the getter panics otherwise. c06_singular_exact and c06_plural_exact say exactly when a getter panics, for every history of additions of whatever objects; c06_named ties the names of the 42 pairs to the types of the standard."
  },
  {
   "property": "C07",
   "status": "proved",
   "theorems": [
    "Stix.c07_valid_identifier",
    "Stix.c07_unique_parts"
   ],
   "note": ""
  },
  {
   "property": "C08",
   "status": "proved",
   "theorems": [
    "Stix.c08_new_identifier",
    "Stix.c08_new_observable_identifier",
    "Stix.c08_condition_necessary",
    "Stix.c08_typePart_iff",
    "Stix.c08_library_types",
    "Stix.c08_allTypes",
    "Stix.c08_version4",
    "Stix.c08_version5",
    "Stix.c08_distinct"
   ],
   "note": ""
  },
  {
   "property": "C09",
   "status": "partial",
   "theorems": [
    "Stix.c09_forType_not_exact",
    "Stix.c09_forType_prefix_partial",
    "Stix.c09_forType_library_partial",
    "Stix.c09_forTypes",
    "Stix.c09_forTypes_library_partial"
   ],
   "note": "false of the code (c09_forType_not_exact): ForType is a prefix test; the exact behaviour is proved"
  },
  {
   "property": "C10",
   "status": "partial",
   "theorems": [
    "Stix.c10_deterministic_partial",
    "Stix.c10_valid",
    "Stix.c10_mutex_renamed"
   ],
   "note": "False for a mutex renamed by an option (c10_mutex_renamed): the identifier is that of the constructor's argument. The partial theorem covers every other case."
  },
  {
   "property": "C11",
   "status": "partial",
   "theorems": [
    "Stix.c11_distinct_partial",
    "Stix.c11_false_order",
    "Stix.c11_false_ports",
    "Stix.c11_false_quotes"
   ],
   "note": "Two observables of one kind with a differing contributing value hash different texts, for every hash function, so identifiers are equal exactly on a UUIDv5 collision of two different texts. Single-property kinds and artifacts need no side condition; kinds made from several texts need texts without quotation marks, and kinds whose properties are optional need the same ones given. Without these the claim is false of the code (c11_false_order, c11_false_ports, c11_false_quotes)."
  },
  {
   "property": "C12",
   "status": "proved",
   "theorems": [
    "Stix.c12_preferred_hash",
    "Stix.c12_only_preferred",
    "Stix.c12_identifier"
   ],
   "note": "The contribution, and the identifiers of artifacts, files and certificates."
  },
  {
   "property": "C13",
   "status": "partial",
   "theorems": [
    "Stix.c13_edge_partial",
    "Stix.c13_uses_is_targets",
    "Stix.c13_success",
    "Stix.c13_otherwise_error"
   ],
   "note": "False of the code for AttackPattern.AddUses, whose relationship type is \"targets\" (c13_uses_is_targets). c13_edge_partial covers every other helper, for all receivers, targets, options; c13_success and c13_otherwise_error settle when a helper succeeds."
  },
  {
   "property": "C14",
   "status": "partial",
   "theorems": [
    "Stix.c14_rejects_partial",
    "Stix.c14_not_identifier",
    "Stix.c14_library_type",
    "Stix.c14_prefix_accepted"
   ],
   "note": "False of the code for identifiers whose type merely starts with an allowed type (c14_prefix_accepted: malware-analysis passes for malware). c14_rejects_partial settles every identifier whose type is not such an extension; c14_library_type every library type without a common prefix; c14_not_identifier every string that is no identifier."
  },
  {
   "property": "C15",
   "status": "proved",
   "theorems": [
    "Stix.c15_missing",
    "Stix.c15_carries"
   ],
   "note": "Both directions, with what an option failure returns."
  },
  {
   "property": "C16",
   "status": "proved",
   "theorems": [
    "Stix.c16_option_frame"
   ],
   "note": ""
  },
  {
   "property": "C17",
   "status": "proved",
   "theorems": [
    "Stix.c17_nil_skipped",
    "Stix.c17_first_failure",
    "Stix.c17_untouched",
    "Stix.c17_last_wins",
    "Stix.c17_swap",
    "Stix.c17_extensions"
   ],
   "note": ""
  },
  {
   "property": "C18",
   "status": "partial",
   "theorems": [
    "Stix.c18_options_no_panic_partial",
    "Stix.c18_option_lists_no_panic_partial",
    "Stix.c18_content_on_note_panics"
   ],
   "note": "False of the code: OptionContent panics on a Note (c18_content_on_note_panics). The partial theorems show this is the only panic, over all options, all object kinds and all option lists."
  },
  {
   "property": "C19",
   "status": "proved",
   "theorems": [
    "Stix.c19_round_trip",
    "Stix.c19_undefined_value",
    "Stix.c19_names_distinct",
    "Stix.c19_constants"
   ],
   "note": ""
  },
  {
   "property": "C20",
   "status": "proved",
   "theorems": [
    "Stix.c20_unknown_name",
    "Stix.c20_known_name"
   ],
   "note": "Strings of the JSON grammar; for the raw-byte enumerations an escaped spelling of a name also decodes to the zero value."
  },
  {
   "property": "C21",
   "status": "partial",
   "theorems": [
    "Stix.c21_decode_panics",
    "Stix.c21_opinion_panics",
    "Stix.c21_decode_panic_iff_partial"
   ],
   "note": "false of the code (c21_decode_panics, c21_opinion_panics): one-digit numbers panic for encryption algorithm and opinion; c21_decode_panic_iff_partial says exactly when"
  },
  {
   "property": "C22",
   "status": "proved",
   "theorems": [
    "Stix.c22_timestamp_text",
    "Stix.c22_length_and_zone",
    "Stix.c22_year_10000"
   ],
   "note": ""
  },
  {
   "property": "C23",
   "status": "proved",
   "theorems": [
    "Stix.c23_round_trip",
    "Stix.c23_second_round_trip",
    "Stix.c23_year_10000_fails"
   ],
   "note": ""
  },
  {
   "property": "C24",
   "status": "proved",
   "theorems": [
    "Stix.c24_order_preserved",
    "Stix.c24_order_reflected"
   ],
   "note": ""
  },
  {
   "property": "C25",
   "status": "partial",
   "theorems": [
    "Stix.c25_decode_panics",
    "Stix.c25_decode_panic_iff_partial"
   ],
   "note": "false of the code (c25_decode_panics): one-digit numbers panic; c25_decode_panic_iff_partial says exactly when"
  },
  {
   "property": "C26",
   "status": "proved",
   "theorems": [
    "Stix.c26_round_trip",
    "Stix.c26_standard_base64",
    "Stix.c26_no_panic",
    "Stix.c26_reads_base64",
    "Stix.c26_rejects"
   ],
   "note": ""
  },
  {
   "property": "C27",
   "status": "partial",
   "theorems": [
    "Stix.c27_required_partial",
    "Stix.c27_members_partial",
    "Stix.c27_extensionDefinition_partial",
    "Stix.c27_false"
   ],
   "note": "False for ExtensionDefinition, which has no MarshalJSON of its own: it is marshalled even when required properties are unset (c27_false), and an empty optional list, or an optional false boolean, gives no member. The partial theorems give the exact condition and the exact members for the other 41 types, and for ExtensionDefinition. Every float in the object is assumed to be a number (NaN and infinities make encoding/json fail)."
  },
  {
   "property": "C28",
   "status": "partial",
   "theorems": [
    "Stix.c28_captured_partial",
    "Stix.c28_dropped",
    "Stix.c28_empty_name_lost",
    "Stix.c28_extension_definition"
   ],
   "note": "Exact capture for members with a non-empty name and every type but extension-definition; both exceptions are proved to lose members."
  },
  {
   "property": "C29",
   "status": "partial",
   "theorems": [
    "Stix.c29_strconv_partial",
    "Stix.c29_round_trip_partial",
    "Stix.c29_false",
    "Stix.c29_false_extended",
    "Stix.c29_text_partial"
   ],
   "note": "False for text that is not UTF-8 (c29_false) and for extended properties whose name is a property name in another case (c29_false_extended). c29_round_trip_partial is for every object of the 42 types whose values JSON can carry (UTF-8 text, years 0 to 9999, finite floats) and whose extended properties have names of their own; times come back to the millisecond, and blank optional parts of nested structs as absent. That floats are formatted and parsed faithfully is a hypothesis (FloatLaws, IntegersParse) in the general theorem, and is discharged for the model of strconv in c29_strconv_partial (by c68_assumptions)."
  },
  {
   "property": "C30",
   "status": "partial",
   "theorems": [
    "Stix.c30_prefix_failure",
    "Stix.c30_append_partial",
    "Stix.c30_append_drop_partial",
    "Stix.c30_append_plain_partial",
    "Stix.c30_leak",
    "Stix.c30_leaked_type"
   ],
   "note": "False: members leak into later objects (c30_leak, c30_leaked_type). Proved: same outcome and same object up to extended properties; exact equality with DropCustomOption or after objects without unknown members. What leaks is given exactly in C77."
  },
  {
   "property": "C31",
   "status": "proved",
   "theorems": [
    "Stix.c31_bundle_array",
    "Stix.c31_no_objects"
   ],
   "note": "For every bundle whose member names are distinct and whose type and id are texts, and every option."
  },
  {
   "property": "C32",
   "status": "proved",
   "theorems": [
    "Stix.c32_drop_custom"
   ],
   "note": "All documents, all options including user parsers."
  },
  {
   "property": "C33",
   "status": "partial",
   "theorems": [
    "Stix.c33_no_panic_partial",
    "Stix.c33_panics",
    "Stix.c33_text_partial",
    "Stix.c33_text_panics"
   ],
   "note": "False: c33_panics gives documents that panic. Proved: no panic for any document whose elements have text types and ids and no one-character number where a timestamp, encryption algorithm or opinion belongs, without user parsers. The exact condition for a panic is C76."
  },
  {
   "property": "C34",
   "status": "proved",
   "theorems": [
    "Stix.c34_accounts",
    "Stix.c34_all",
    "Stix.c34_nothing_else",
    "Stix.c34_badly_identified",
    "Stix.c34_malformed"
   ],
   "note": "For documents whose elements have no repeated members and none that differs from type or id in case only; malformed means a property whose JSON value has a kind its Go type does not take."
  },
  {
   "property": "C35",
   "status": "proved",
   "theorems": [
    "Stix.c35_succeeds",
    "Stix.c35_bundle",
    "Stix.c35_returns",
    "Stix.c35_new_bundle"
   ],
   "note": "For every history of additions; objects whose GetID panics (custom objects with an id that is not a string) cannot be added in the first place and are excluded. c35_returns: there is a result in every state. c35_new_bundle is about NewBundle of any objects, with nil and nil maps among them."
  },
  {
   "property": "C36",
   "status": "partial",
   "theorems": [
    "Stix.c36_round_trip_partial",
    "Stix.c36_no_extended",
    "Stix.c36_exact_partial",
    "Stix.c36_false",
    "Stix.c36_strconv_partial",
    "Stix.c36_text_partial"
   ],
   "note": "False: an object comes back with extended properties of objects before it in the bundle (c36_false). c36_round_trip_partial proves the rest: same ids in the same order, same Go types, same properties up to what JSON keeps, own extended properties kept, and exactly which earlier ones are added; c36_exact_partial: none are added if and only if each extended property of an object is one of the next, too, or named like a property of its type; c36_no_extended gives equality when there are none or they are dropped."
  },
  {
   "property": "C37",
   "status": "proved",
   "theorems": [
    "Stix.c37_wellformed"
   ],
   "note": "All 42 constructors, all arguments and all lists of the library's options."
  },
  {
   "property": "C38",
   "status": "partial",
   "theorems": [
    "Stix.c38_marshals_partial",
    "Stix.c38_false",
    "Stix.c38_false_nan"
   ],
   "note": "False of the code: NewIdentity without OptionClass, NewNote with empty content, NewOpinion with the zero value and NewLocation with NaN succeed but do not marshal (c38_false, c38_false_nan). c38_marshals_partial is the exact condition for every other case: given arguments and option values without NaN or infinite floats and no option that blanks a required property, a constructed object marshals iff those required properties were supplied."
  },
  {
   "property": "C39",
   "status": "proved",
   "theorems": [
    "Stix.c39_seen_order",
    "Stix.c39_seen_error"
   ],
   "note": "NewCampaign and NewSighting, for the times the object ends up with."
  },
  {
   "property": "C40",
   "status": "proved",
   "theorems": [
    "Stix.c40_count_range",
    "Stix.c40_count_error"
   ],
   "note": "NewSighting."
  },
  {
   "property": "C41",
   "status": "partial",
   "theorems": [
    "Stix.c41_location_partial",
    "Stix.c41_nan_accepted",
    "Stix.c41_refused"
   ],
   "note": "True for numbers; NaN coordinates are accepted (c41_nan_accepted). The partial theorem excludes NaN."
  },
  {
   "property": "C42",
   "status": "proved",
   "theorems": [
    "Stix.Props.Canon.c42_same_value_same_bytes",
    "Stix.Props.Canon.c42_member_order",
    "Stix.Props.Canon.c42_white_space",
    "Stix.Props.Canon.c42_tells_apart",
    "Stix.c42_strconv"
   ],
   "note": "Also covers the spelling of strings and numbers. c42_tells_apart: two documents get the same bytes exactly if they denote the same value (the double of each number, the characters of each string, the members of each object in any order). strconv is a parameter (FloatFmt) there with the laws FloatLaws; c42_strconv is the same with the model of strconv and no assumption"
  },
  {
   "property": "C43",
   "status": "proved",
   "theorems": [
    "Stix.Props.Canon.c43_sorted_and_idempotent",
    "Stix.Props.Canon.c43_accepted",
    "Stix.c43_strconv"
   ],
   "note": "strconv.ParseFloat/FormatFloat are a parameter (FloatFmt) with the laws FloatLaws as hypotheses of C43 only; they hold of the model of strconv (C68)"
  },
  {
   "property": "C44",
   "status": "proved",
   "theorems": [
    "Stix.Props.Canon.c44_duplicates_rejected",
    "Stix.Props.Canon.c44_accepts_iff_no_duplicates",
    "Stix.Props.Canon.c44_only_documents"
   ],
   "note": "A text is accepted only if it is a document without duplicate names whose numbers are floats; a document with Unicode names is accepted exactly if it has no duplicates. Which tokens are numbers is up to strconv (FloatFmt); C83 says which they are."
  },
  {
   "property": "C45",
   "status": "proved",
   "theorems": [
    "Stix.c45_decode",
    "Stix.c45_accept",
    "Stix.c45_error"
   ],
   "note": "Exact acceptance condition and exact result, for every member list and any previous value."
  },
  {
   "property": "C46",
   "status": "proved",
   "theorems": [
    "Stix.c46_get_after_sets",
    "Stix.c46_nil",
    "Stix.c46_string",
    "Stix.c46_strings",
    "Stix.c46_number",
    "Stix.c46_time"
   ],
   "note": "Sequences of Set by induction; each typed accessor is characterised completely (value, zero value, panic). Float to integer conversion outside int64 is implementation-defined in Go and left as a parameter."
  },
  {
   "property": "C47",
   "status": "proved",
   "theorems": [
    "Stix.c47_extension_definition"
   ],
   "note": "NewExtensionDefinition."
  },
  {
   "property": "C48",
   "status": "partial",
   "theorems": [
    "Stix.c48_reference_ok_iff",
    "Stix.c48_reference_error",
    "Stix.c48_reference_carries",
    "Stix.c48_phase",
    "Stix.c48_reference_round_trip_partial",
    "Stix.c48_phase_round_trip_partial",
    "Stix.c48_not_text",
    "Stix.c48_empty_hashes"
   ],
   "note": "Success conditions, error and carried arguments are proved for all arguments. The round trip holds for Unicode text and hashes that are absent or non-empty; it is false otherwise (c48_not_text, c48_empty_hashes)."
  },
  {
   "property": "C49",
   "status": "proved",
   "theorems": [
    "Stix.c49_go_type",
    "Stix.c49_bijective",
    "Stix.c49_present"
   ],
   "note": "For documents whose elements have no member that differs from type in case only."
  },
  {
   "property": "C50",
   "status": "proved",
   "theorems": [
    "Stix.c50_values",
    "Stix.c50_ids",
    "Stix.c50_collection",
    "Stix.c50_marshal",
    "Stix.c50_round_trip",
    "Stix.c50_bundle"
   ],
   "note": "Unchanged after parsing alone, for every option list without a parser of its own; in a bundle its properties are unchanged, and it gets no extended ones if no object of the collection has any (see C36). strconv is assumed faithful as in C29, though no number occurs."
  },
  {
   "property": "C51",
   "status": "proved",
   "theorems": [
    "Stix.c51_names",
    "Stix.c51_accessors",
    "Stix.c51_document"
   ],
   "note": "No panic for any accepted document; for documents that list objects without repeated or case-variant member names, the value is the one of the element with the id of the object."
  },
  {
   "property": "C52",
   "status": "proved",
   "theorems": [
    "Stix.c52_value",
    "Stix.c52_layout"
   ],
   "note": "On JSON texts nested at most 10000 deep, the limit of encoding/json."
  },
  {
   "property": "C53",
   "status": "proved",
   "theorems": [
    "Stix.c53_refused",
    "Stix.c53_truncated",
    "Stix.c53_trailing"
   ],
   "note": "The error and that nothing is returned; which error message is not modelled."
  },
  {
   "property": "C54",
   "status": "partial",
   "theorems": [
    "Stix.c54_document_partial",
    "Stix.c54_custom_partial",
    "Stix.c54_constructed",
    "Stix.c54_panics"
   ],
   "note": "False: both panic for an extension-definition without the member, and for a custom object whose member is not a string (c54_panics). Proved: exact result in every other case, for documents whose objects have no repeated or case-variant member names, and for every constructor."
  },
  {
   "property": "C55",
   "status": "proved",
   "theorems": [
    "Stix.c55_read",
    "Stix.c55_exact",
    "Stix.c55_only_strings",
    "Stix.c55_utc"
   ],
   "note": "Exact characterisation of accepted strings and of the instant. Leap seconds (:60) and lower-case t and z, which RFC 3339 allows, are refused."
  },
  {
   "property": "C56",
   "status": "partial",
   "theorems": [
    "Stix.c56_spelling_partial",
    "Stix.c56_timestamp",
    "Stix.c56_name"
   ],
   "note": "False: a timestamp or an enumeration name written with escapes is not recognised (c56_timestamp, c56_name). Proved on bytes: same result for every two texts of one value in which names and timestamps are not written with escapes."
  },
  {
   "property": "C57",
   "status": "partial",
   "theorems": [
    "Stix.c57_documented_partial",
    "Stix.c57_unchanged",
    "Stix.c57_list_partial",
    "Stix.c57_belongs_to",
    "Stix.c57_user_id"
   ],
   "note": "False: OptionBelongsTo on IP addresses and OptionUserID on software fail although listed, and 15 options apply to types their comments do not list (c57_belongs_to, c57_user_id). Proved: the exact set of types for each option, which is the documented one up to the two tables of exceptions; lists of documented options are applied whole."
  },
  {
   "property": "C58",
   "status": "proved",
   "theorems": [
    "Stix.c58_names",
    "Stix.c58_shape"
   ],
   "note": "Every member of the JSON is a property of the type in the standard's tables, with JSON of its data type (binary data as base64), or an extended property; all required properties are there. The tables of the standard are written by hand. nil inside a value is written as null."
  },
  {
   "property": "C59",
   "status": "partial",
   "theorems": [
    "Stix.c59_required_partial",
    "Stix.c59_marking",
    "Stix.c59_identity"
   ],
   "note": "False: identities without a class and marking definitions without a definition cannot be written (c59_identity, c59_marking), extension definitions always are. Proved: for the other types serialisation succeeds exactly if the properties the standard requires, and the library's three extra ones, are set."
  },
  {
   "property": "C60",
   "status": "proved",
   "theorems": [
    "Stix.c60_document",
    "Stix.c60_plain",
    "Stix.c60_last"
   ],
   "note": "Of documents whose elements are described in the sense of Spec/Says.lean: distinct member names, values of the right kind, no null for scalars, no unknown members inside nested structs. strconv.ParseFloat is a parameter. The inherited extended properties, which C30 is about, are given exactly (Inherits)."
  },
  {
   "property": "C61",
   "status": "proved",
   "theorems": [
    "Stix.c61_says"
   ],
   "note": "Of objects that can be sent (Sound): valid id and type, text in UTF-8, times of the years 0 to 9999, required properties set, extended properties with names of their own. Times are stated to the millisecond. strconv is a parameter with the laws of Spec/Float.lean."
  },
  {
   "property": "C62",
   "status": "partial",
   "theorems": [
    "Stix.c62_kept_partial",
    "Stix.c62_false",
    "Stix.c62_false_nested"
   ],
   "note": "False: members with zero values are dropped (c62_false), members of nested objects that the standard does not have are lost (c62_false_nested). Proved: the members of properties with other values and the extended properties are kept with the same meaning (times to the millisecond), and only booleans that are false are added."
  },
  {
   "property": "C63",
   "status": "partial",
   "theorems": [
    "Stix.c63_stable_partial",
    "Stix.c63_false"
   ],
   "note": "False: an extended property whose name is that of a property up to case also sets that property when it is read, so the second JSON has one more member (c63_false). Proved of all objects that can be sent (Sound), unless extended properties are dropped on request."
  },
  {
   "property": "C64",
   "status": "proved",
   "theorems": [
    "Stix.c64_sound",
    "Stix.c64_end_to_end",
    "Stix.c64_strconv"
   ],
   "note": "Objects from all 42 constructors, any library options; values that JSON can carry, no option blanking a required property, the three inputs of C38 supplied, documents at most 10000 levels deep (the limit of encoding/json)."
  },
  {
   "property": "C65",
   "status": "proved",
   "theorems": [
    "Stix.c65_succeeds"
   ],
   "note": "c65_succeeds is an iff for all 42 constructors, for options of the library and values of their Go types without NaN or infinite floats."
  },
  {
   "property": "C66",
   "status": "partial",
   "theorems": [
    "Stix.c66_something",
    "Stix.c66_object_and_error_partial",
    "Stix.c66_named_error_partial",
    "Stix.c66_panics_iff_partial",
    "Stix.c66_false"
   ],
   "note": "False of the code (c66_false): NewTool with OptionCount returns an object and an error, NewRegistryKey with a nil value panics, NewNote with OptionContent panics. c66_something: never neither. c66_object_and_error_partial and c66_panics_iff_partial say exactly when both are returned and when a call panics; c66_named_error_partial: a named error comes without object."
  },
  {
   "property": "C67",
   "status": "partial",
   "theorems": [
    "Stix.c67_enforced_partial",
    "Stix.c67_file_partial",
    "Stix.c67_false"
   ],
   "note": "False of the code: c67_false gives, for each of 23 rules of particular types, and for the confidence range and the order of created and modified in every type that has them, a legal call that succeeds and breaks the rule. c67_enforced_partial proves the 21 rules that are enforced for all calls; c67_file_partial the file rule when no option touches name and hashes. Rules that refer to registries, RFCs, digests or other objects are not expressed."
  },
  {
   "property": "C68",
   "status": "proved",
   "theorems": [
    "Stix.c68_exact",
    "Stix.c68_text",
    "Stix.c68_read",
    "Stix.c68_nearest_exists",
    "Stix.c68_canonical",
    "Stix.c68_marshal",
    "Stix.c68_assumptions"
   ],
   "note": "c68_text is an equivalence: the canonicaliser writes t for x exactly if x is finite and t is ECMAScript's text of x (Spec/Es6.lean), which includes that there is only one. strconv is modelled (Model/Strconv.lean) from its documentation: ParseFloat rounds correctly, FormatFloat with precision -1 gives the shortest, nearest, even digits. c68_read is for exponents below 100000 or texts of at most 9000 bytes: beyond, ParseFloat may misread the exponent. c68_assumptions: FloatLaws, IntegersParse and WritesNumbers, which other theorems assume of strconv, hold of the model; c29_strconv_partial, c36_strconv_partial, c43_strconv and c64_strconv are those theorems without assumptions. c68_exact is an equivalence too: out is written for a document with Unicode names exactly if out is the text of the same value, names sorted, numbers in ECMAScript's form, inside objects and arrays alike."
  },
  {
   "property": "C69",
   "status": "partial",
   "theorems": [
    "Stix.c69_identifier_partial",
    "Stix.c69_false_everywhere",
    "Stix.c69_sha1",
    "Stix.c69_false",
    "Stix.c69_swid",
    "Stix.c69_not_json"
   ],
   "note": "False of the code for every observable (`c69_false_everywhere`; `c69_false` has 198.51.100.3 with both identifiers): the name that is hashed is a JSON array of the values, not the object of the properties. What holds (`c69_identifier_partial`): type, namespace, version, SHA-1 and text form are the prescribed ones, and the name is the canonical JSON array of the contributing values in order, provided that texts need no escaping and hashes have a preferred one (`c69_not_json` shows names that are not JSON otherwise). `c69_swid`: the swid of software does not contribute."
  },
  {
   "property": "C70",
   "status": "partial",
   "theorems": [
    "Stix.c70_others",
    "Stix.c70_unregistered",
    "Stix.c70_returned_partial",
    "Stix.c70_kept_partial",
    "Stix.c70_error",
    "Stix.c70_false"
   ],
   "note": "False of the code (`c70_false`): after the parser, the element is unmarshalled once more into the object it returned, which undoes what the parser changed. Proved for all parsers: only what they return for elements of their type matters (`c70_others`); the collection has the returned object with the element unmarshalled into it, up to extended properties (`c70_returned_partial`), so the returned one if that changes nothing (`c70_kept_partial`); failing parsers make the call fail (`c70_error`)."
  },
  {
   "property": "C71",
   "status": "proved",
   "theorems": [
    "Stix.c71_get",
    "Stix.c71_shared",
    "Stix.c71_write",
    "Stix.c71_found",
    "Stix.c71_listed",
    "Stix.c71_renamed",
    "Stix.c71_twice"
   ],
   "note": ""
  },
  {
   "property": "C72",
   "status": "partial",
   "theorems": [
    "Stix.c72_defined_partial",
    "Stix.c72_common_partial",
    "Stix.c72_complete_partial",
    "Stix.c72_uses",
    "Stix.c72_prefix",
    "Stix.c72_consists",
    "Stix.c72_derived"
   ],
   "note": "False of the code in four ways: AttackPattern.AddUses makes \"targets\", so nothing makes attack-pattern uses (c72_uses); helpers for malware take a malware-analysis (c72_prefix); AddConsistsOf takes all types (c72_consists); AddDerivedFrom and AddDuplicateOf do not compare types (c72_derived). c72_defined_partial and c72_common_partial cover everything else, c72_complete_partial every other row of the tables."
  },
  {
   "property": "C73",
   "status": "proved",
   "theorems": [
    "Stix.c73_runs",
    "Stix.c73_well_formed",
    "Stix.c73_library",
    "Stix.c73_spoiled"
   ],
   "note": "An option that fails in NewCampaign, NewLocation or NewMalware may be reported as ErrInvalidProperty instead, and in NewRegistryKey with a nil value the call panics; both are in c73_runs. c73_spoiled shows that the condition on ID and Type is needed. Options are functions from the object to its new fields and a result; keeping a pointer to the object and changing it later is C71."
  },
  {
   "property": "C74",
   "status": "partial",
   "theorems": [
    "Stix.c74_constructs",
    "Stix.c74_kept",
    "Stix.c74_own_memory",
    "Stix.c74_private_partial",
    "Stix.c74_one_stamp",
    "Stix.c74_private_false"
   ],
   "note": "False of the code for sightings, language contents and extension definitions: NewSighting, NewLanguageContent and NewExtensionDefinition put one *Timestamp into Created and Modified, so setting Modified.Time of such an object sets Created too (c74_private_false, c74_one_stamp). c74_private_partial covers everything else; c74_constructs, c74_kept and c74_own_memory hold without exception. A block is everything reached through one reference; references inside blocks are not told apart, and assignments to fields by the program are not among the actions."
  },
  {
   "property": "C75",
   "status": "proved",
   "theorems": [
    "Stix.c75_names",
    "Stix.c75_shape",
    "Stix.c75_unique",
    "Stix.c75_text",
    "Stix.c75_empty"
   ],
   "note": "JSON text to document is C52 and C53. Whether the array of objects itself is accepted is C34 and C61."
  },
  {
   "property": "C76",
   "status": "proved",
   "theorems": [
    "Stix.c76_accepted",
    "Stix.c76_crashes",
    "Stix.c76_refused",
    "Stix.c76_every"
   ],
   "note": "No user parsers. If one extension of an object is refused and another crashes, Go may do either (map order is random); the model takes the crash. The type that is left over from an earlier object (the defect of C30) is part of the specification (TypeLeft)."
  },
  {
   "property": "C77",
   "status": "proved",
   "theorems": [
    "Stix.c77_entries"
   ],
   "note": "No user parsers. The extended properties of extension definitions, which the library never keeps, are left out (C28). Values of properties are given for elements that describe an object (Spec/Says); for all others see C78. What is left over between elements (the defect of C30) is part of the specification (LeftOver)."
  },
  {
   "property": "C78",
   "status": "proved",
   "theorems": [
    "Stix.c78_object",
    "Stix.c78_document",
    "Stix.c78_one_meaning",
    "Stix.c78_one_custom"
   ],
   "note": "No user parsers. Repeated members of slices, maps, structs and pointers to structs are left open: Go merges them into what is there, reusing elements of slices (not modelled). Numbers as floats are what F (strconv) reads."
  },
  {
   "property": "C79",
   "status": "proved",
   "theorems": [
    "Stix.c79_merge_get",
    "Stix.c79_merge_order",
    "Stix.c79_documents",
    "Stix.c79_nothing_left",
    "Stix.c79_not_exact"
   ],
   "note": "The elements of the second document that are objects must state a type (of whatever value); that the values, and not only the objects up to extended properties, agree needs dropped custom properties or nothing left over, and c79_not_exact shows an import where neither holds and they differ (the defect of C30). Order is claimed for collections that keep it."
  },
  {
   "property": "C80",
   "status": "proved",
   "theorems": [
    "Stix.c80_import",
    "Stix.c80_model",
    "Stix.c80_marshal",
    "Stix.c80_export",
    "Stix.c80_reexport",
    "Stix.c80_export_nosort",
    "Stix.c80_either"
   ],
   "note": "Relational versions of the parser and the writer, in which every range over a map of the library may take any order, a new one each time. c80_import compares two runs; c80_model says that the result of the functions used in all other theorems is the only possible one unless it is a crash; c80_either shows that a document can be refused in one run and crash in another, when one extension is refused and another one crashes. For ToBundle and the re-export the objects have maps for extended properties, as all that FromJSON makes without parsers of the user's have."
  },
  {
   "property": "C81",
   "status": "proved",
   "theorems": [
    "Stix.c81_one_by_one",
    "Stix.c81_no_race",
    "Stix.c81_goes_on",
    "Stix.c81_readers",
    "Stix.c81_locked",
    "Stix.c81_no_deadlock",
    "Stix.c81_race",
    "Stix.c81_lost"
   ],
   "note": "Every step touches one field or one map; runs interleave the steps of all goroutines arbitrarily. c81_one_by_one, c81_no_race and c81_goes_on hold for every run in which no Add overlaps another call; c81_readers and c81_locked show that readers alone and calls under a RWMutex are such runs, c81_no_deadlock that the lock never blocks everybody. c81_race and c81_lost are the schedules without a lock. Memory is sequentially consistent, which Go promises programs without races."
  },
  {
   "property": "C82",
   "status": "proved",
   "theorems": [
    "Stix.c82_bundle",
    "Stix.c82_newBundle",
    "Stix.c82_values",
    "Stix.c82_listing",
    "Stix.c82_own",
    "Stix.c82_collection",
    "Stix.c82_fails",
    "Stix.c82_returns"
   ],
   "note": "c82_values ties the bundle to the values of the objects, so that what is proved of reading bundles (C29, C36) is true of what is written later."
  },
  {
   "property": "C83",
   "status": "partial",
   "theorems": [
    "Stix.c83_false",
    "Stix.c83_value",
    "Stix.c83_only_literals",
    "Stix.c83_numbers",
    "Stix.c83_accepts",
    "Stix.c83_accepted_partial"
   ],
   "note": "False of the code: `c83_false` has six texts with a canonical form that are no JSON. What holds: numbers in an accepted text are the floating-point literals of the Go language with a sign (Spec/GoFloat.lean), and the text is JSON if these are numbers of JSON (`c83_accepted_partial`); exactly the literals in the range of doubles are accepted (`c83_numbers`, `c83_accepts`), for the nearest double (`c83_value`). Exponents of six digits and more are left out of the last three, since ParseFloat may misread them. The package is internal and is only given output of encoding/json."
  },
  {
   "property": "C84",
   "status": "partial",
   "theorems": [
    "Stix.c84_accepted_partial",
    "Stix.c84_false"
   ],
   "note": "False of the code: c84_false has a leap second, which RFC 3339 and STIX allow, and a timestamp spelled with a JSON escape, which UnmarshalJSON compares before it is decoded; both documents are refused whole. c84_accepted_partial is the whole claim for all other timestamps. The standard's tables (Spec/Standard) and data types (Spec/Accept) are written by hand; identifiers, enumerations and hexadecimal data are any texts there, so more is shown to be accepted than the standard allows. Numbers too large for a double and nesting beyond 10000 are left out. No user parsers."
  },
  {
   "property": "C85",
   "status": "partial",
   "theorems": [
    "Stix.c85_values",
    "Stix.c85_export_partial",
    "Stix.c85_strconv_partial",
    "Stix.c85_false"
   ],
   "note": "False of the code: c85_false has an identity without a class, which STIX 2.1 allows and FromJSON accepts; ToBundle of any collection with it fails, so nothing in the collection is exported. c85_export_partial: ToBundle never panics, and succeeds exactly if every object of the library (but extension definitions) has the properties that the standard requires and the library's three extra ones; c85_values: every property of what was read has a value of its type, so C27, C58 and C59 hold of all imports. No user parsers. Numbers: strconv gives finite numbers for JSON numbers (c85_strconv_partial assumes nothing)."
  },
  {
   "property": "C86",
   "status": "proved",
   "theorems": [
    "Stix.c86_sound",
    "Stix.c86_relay",
    "Stix.c86_strconv",
    "Stix.c86_exact"
   ],
   "note": "c86_sound: every object in a collection read from such a document is one that can be sent (Sound of C36), if it can be written at all (C85 says when); c86_relay: the rest. Timestamps with an offset that, in UTC, are before the year 0 or after 9999 are left out (InYears; STIX wants UTC, so there are none), as is a bundle nested deeper than 10000. Extended properties of objects sent before it may be added to an object: that is C36; c86_exact: if identifiers are distinct, there is no extension definition and the first collection is ordered, nothing is added but what the first import has added already. Objects of types outside the standard are left out: their arbitrary member names would come with the leftovers. c86_strconv assumes nothing of strconv."
  },
  {
   "property": "C87",
   "status": "proved",
   "theorems": [
    "Stix.c87_contributions",
    "Stix.c87_received",
    "Stix.c87_rebuilt",
    "Stix.c87_strconv"
   ],
   "note": "For objects of the constructors, end to end; the hypothesis on mutexes excludes the case in which C10 is false. Two programs are compared that have the same hash function and number formats; with the number formats of Go in c87_strconv."
  },
  {
   "property": "C88",
   "status": "proved",
   "theorems": [
    "Stix.c88_arrives",
    "Stix.c88_custom_strconv",
    "Stix.c88_read",
    "Stix.c88_relay"
   ],
   "note": "c88_arrives: mixed collections; c88_read: the custom objects of any accepted text can be sent; c88_relay composes them; c88_custom_strconv: with the number formats of Go. Values that a program stores in a custom object and that JSON has no type for (int, []string) are left out: they come back as float64 and []interface{}. That members of a custom object may turn up as extended properties of library objects after it is C30 and C36."
  },
  {
   "property": "C89",
   "status": "proved",
   "theorems": [
    "Stix.c89_passed_on",
    "Stix.c89_strconv",
    "Stix.c89_any_order"
   ],
   "note": "c89_passed_on: any number of programs, induction over them; c89_any_order: programs with any options, for objects without extended properties; c89_strconv: collections without extended properties and custom objects, with the number formats of Go. The condition on extended properties is the one of c36_exact_partial: without it the parser leaves properties of one object in the next (C30, C36), so that the bundle does change. Texts nested deeper than 10000 are left out: Go refuses them."
  },
  {
   "property": "C90",
   "status": "partial",
   "theorems": [
    "Stix.c90_arrives",
    "Stix.c90_accessors_partial",
    "Stix.c90_strings_panic",
    "Stix.c90_receiver_partial",
    "Stix.c90_false"
   ],
   "note": "False of the code: GetAsStringSlice panics on every list of texts that was sent (c90_strings_panic), and GetAsNumber gives a rounded number for integers greater than 2^53 (c90_false). c90_arrives: what each value becomes; c90_accessors_partial: the other accessors, and GetAsNumber for floats and integers of at most 2^53, agree. Values of other Go types that a program may store (int, structs) are not modelled."
  }
 ]
}