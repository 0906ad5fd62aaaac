{
 "C01": [
  "proved",
  "c01_parsed: a collection that FromJSON returned has a history of accepted additions too, so the theorems about histories hold of it and of what is added later."
 ],
 "C02": [
  "proved",
  ""
 ],
 "C03": [
  "proved",
  "c03_returns: both have a result in every state, so the statements about every possible result are not empty."
 ],
 "C04": [
  "proved",
  "c04_custom says exactly what Add does with a CustomObject: it crashes if the id is not a string, or the id has two parts and the type is not a string; otherwise the rule is the one for all objects."
 ],
 "C05": [
  "proved",
  ""
 ],
 "C07": [
  "proved",
  ""
 ],
 "C08": [
  "proved",
  ""
 ],
 "C09": [
  "partial",
  "false of the code (c09_forType_not_exact): ForType is a prefix test; the exact behaviour is proved"
 ],
 "C19": [
  "proved",
  ""
 ],
 "C20": [
  "proved",
  "Strings of the JSON grammar; for the raw-byte enumerations an escaped spelling of a name also decodes to the zero value."
 ],
 "C21": [
  "partial",
  "false of the code (c21_decode_panics, c21_opinion_panics): one-digit numbers panic for encryption algorithm and opinion; c21_decode_panic_iff_partial says exactly when"
 ],
 "C22": [
  "proved",
  ""
 ],
 "C23": [
  "proved",
  ""
 ],
 "C24": [
  "proved",
  ""
 ],
 "C25": [
  "partial",
  "false of the code (c25_decode_panics): one-digit numbers panic; c25_decode_panic_iff_partial says exactly when"
 ],
 "C26": [
  "proved",
  ""
 ],
 "C42": [
  "proved",
  "Also covers the spelling of strings and numbers. c42_tells_apart: two documents get the same bytes exactly if they denote the same value (the double of each number, the characters of each string, the members of each object in any order). strconv is a parameter (FloatFmt) there with the laws FloatLaws; c42_strconv is the same with the model of strconv and no assumption"
 ],
 "C43": [
  "proved",
  "strconv.ParseFloat/FormatFloat are a parameter (FloatFmt) with the laws FloatLaws as hypotheses of C43 only; they hold of the model of strconv (C68)"
 ],
 "C44": [
  "proved",
  "A text is accepted only if it is a document without duplicate names whose numbers are floats; a document with Unicode names is accepted exactly if it has no duplicates. Which tokens are numbers is up to strconv (FloatFmt); C83 says which they are."
 ],
 "C16": [
  "proved",
  ""
 ],
 "C17": [
  "proved",
  ""
 ],
 "C18": [
  "partial",
  "False of the code: OptionContent panics on a Note (c18_content_on_note_panics). The partial theorems show this is the only panic, over all options, all object kinds and all option lists."
 ],
 "C37": [
  "proved",
  "All 42 constructors, all arguments and all lists of the library's options."
 ],
 "C15": [
  "proved",
  "Both directions, with what an option failure returns."
 ],
 "C39": [
  "proved",
  "NewCampaign and NewSighting, for the times the object ends up with."
 ],
 "C40": [
  "proved",
  "NewSighting."
 ],
 "C47": [
  "proved",
  "NewExtensionDefinition."
 ],
 "C41": [
  "partial",
  "True for numbers; NaN coordinates are accepted (c41_nan_accepted). The partial theorem excludes NaN."
 ],
 "C10": [
  "partial",
  "False for a mutex renamed by an option (c10_mutex_renamed): the identifier is that of the constructor's argument. The partial theorem covers every other case."
 ],
 "C12": [
  "proved",
  "The contribution, and the identifiers of artifacts, files and certificates."
 ],
 "C13": [
  "partial",
  "False of the code for AttackPattern.AddUses, whose relationship type is \"targets\" (c13_uses_is_targets). c13_edge_partial covers every other helper, for all receivers, targets, options; c13_success and c13_otherwise_error settle when a helper succeeds."
 ],
 "C14": [
  "partial",
  "False of the code for identifiers whose type merely starts with an allowed type (c14_prefix_accepted: malware-analysis passes for malware). c14_rejects_partial settles every identifier whose type is not such an extension; c14_library_type every library type without a common prefix; c14_not_identifier every string that is no identifier."
 ],
 "C48": [
  "partial",
  "Success conditions, error and carried arguments are proved for all arguments. The round trip holds for Unicode text and hashes that are absent or non-empty; it is false otherwise (c48_not_text, c48_empty_hashes)."
 ],
 "C06": [
  "partial",
  "Proved for every parsed document whose objects have no member that differs from type in case only; c06_variant_panics shows the getter panics otherwise. c06_singular_exact and c06_plural_exact say exactly when a getter panics, for every history of additions of whatever objects; c06_named ties the names of the 42 pairs to the types of the standard."
 ],
 "C31": [
  "proved",
  "For every bundle whose member names are distinct and whose type and id are texts, and every option."
 ],
 "C32": [
  "proved",
  "All documents, all options including user parsers."
 ],
 "C49": [
  "proved",
  "For documents whose elements have no member that differs from type in case only."
 ],
 "C28": [
  "partial",
  "Exact capture for members with a non-empty name and every type but extension-definition; both exceptions are proved to lose members."
 ],
 "C30": [
  "partial",
  "False: members leak into later objects (c30_leak, c30_leaked_type). Proved: same outcome and same object up to extended properties; exact equality with DropCustomOption or after objects without unknown members. What leaks is given exactly in C77."
 ],
 "C34": [
  "proved",
  "For documents whose elements have no repeated members and none that differs from type or id in case only; malformed means a property whose JSON value has a kind its Go type does not take."
 ],
 "C33": [
  "partial",
  "False: c33_panics gives documents that panic. Proved: no panic for any document whose elements have text types and ids and no one-character number where a timestamp, encryption algorithm or opinion belongs, without user parsers. The exact condition for a panic is C76."
 ],
 "C45": [
  "proved",
  "Exact acceptance condition and exact result, for every member list and any previous value."
 ],
 "C46": [
  "proved",
  "Sequences of Set by induction; each typed accessor is characterised completely (value, zero value, panic). Float to integer conversion outside int64 is implementation-defined in Go and left as a parameter."
 ],
 "C51": [
  "proved",
  "No panic for any accepted document; for documents that list objects without repeated or case-variant member names, the value is the one of the element with the id of the object."
 ],
 "C27": [
  "partial",
  "False for ExtensionDefinition, which has no MarshalJSON of its own: it is marshalled even when required properties are unset (c27_false), and an empty optional list, or an optional false boolean, gives no member. The partial theorems give the exact condition and the exact members for the other 41 types, and for ExtensionDefinition. Every float in the object is assumed to be a number (NaN and infinities make encoding/json fail)."
 ],
 "C29": [
  "partial",
  "False for text that is not UTF-8 (c29_false) and for extended properties whose name is a property name in another case (c29_false_extended). c29_round_trip_partial is for every object of the 42 types whose values JSON can carry (UTF-8 text, years 0 to 9999, finite floats) and whose extended properties have names of their own; times come back to the millisecond, and blank optional parts of nested structs as absent. That floats are formatted and parsed faithfully is a hypothesis (FloatLaws, IntegersParse) in the general theorem, and is discharged for the model of strconv in c29_strconv_partial (by c68_assumptions)."
 ],
 "C35": [
  "proved",
  "For every history of additions; objects whose GetID panics (custom objects with an id that is not a string) cannot be added in the first place and are excluded. c35_returns: there is a result in every state. c35_new_bundle is about NewBundle of any objects, with nil and nil maps among them."
 ],
 "C36": [
  "partial",
  "False: an object comes back with extended properties of objects before it in the bundle (c36_false). c36_round_trip_partial proves the rest: same ids in the same order, same Go types, same properties up to what JSON keeps, own extended properties kept, and exactly which earlier ones are added; c36_exact_partial: none are added if and only if each extended property of an object is one of the next, too, or named like a property of its type; c36_no_extended gives equality when there are none or they are dropped."
 ],
 "C50": [
  "proved",
  "Unchanged after parsing alone, for every option list without a parser of its own; in a bundle its properties are unchanged, and it gets no extended ones if no object of the collection has any (see C36). strconv is assumed faithful as in C29, though no number occurs."
 ],
 "C38": [
  "partial",
  "False of the code: NewIdentity without OptionClass, NewNote with empty content, NewOpinion with the zero value and NewLocation with NaN succeed but do not marshal (c38_false, c38_false_nan). c38_marshals_partial is the exact condition for every other case: given arguments and option values without NaN or infinite floats and no option that blanks a required property, a constructed object marshals iff those required properties were supplied."
 ],
 "C11": [
  "partial",
  "Two observables of one kind with a differing contributing value hash different texts, for every hash function, so identifiers are equal exactly on a UUIDv5 collision of two different texts. Single-property kinds and artifacts need no side condition; kinds made from several texts need texts without quotation marks, and kinds whose properties are optional need the same ones given. Without these the claim is false of the code (c11_false_order, c11_false_ports, c11_false_quotes)."
 ],
 "C52": [
  "proved",
  "On JSON texts nested at most 10000 deep, the limit of encoding/json."
 ],
 "C53": [
  "proved",
  "The error and that nothing is returned; which error message is not modelled."
 ],
 "C54": [
  "partial",
  "False: both panic for an extension-definition without the member, and for a custom object whose member is not a string (c54_panics). Proved: exact result in every other case, for documents whose objects have no repeated or case-variant member names, and for every constructor."
 ],
 "C55": [
  "proved",
  "Exact characterisation of accepted strings and of the instant. Leap seconds (:60) and lower-case t and z, which RFC 3339 allows, are refused."
 ],
 "C56": [
  "partial",
  "False: a timestamp or an enumeration name written with escapes is not recognised (c56_timestamp, c56_name). Proved on bytes: same result for every two texts of one value in which names and timestamps are not written with escapes."
 ],
 "C57": [
  "partial",
  "False: OptionBelongsTo on IP addresses and OptionUserID on software fail although listed, and 15 options apply to types their comments do not list (c57_belongs_to, c57_user_id). Proved: the exact set of types for each option, which is the documented one up to the two tables of exceptions; lists of documented options are applied whole."
 ],
 "C58": [
  "proved",
  "Every member of the JSON is a property of the type in the standard's tables, with JSON of its data type (binary data as base64), or an extended property; all required properties are there. The tables of the standard are written by hand. nil inside a value is written as null."
 ],
 "C59": [
  "partial",
  "False: identities without a class and marking definitions without a definition cannot be written (c59_identity, c59_marking), extension definitions always are. Proved: for the other types serialisation succeeds exactly if the properties the standard requires, and the library's three extra ones, are set."
 ],
 "C60": [
  "proved",
  "Of documents whose elements are described in the sense of Spec/Says.lean: distinct member names, values of the right kind, no null for scalars, no unknown members inside nested structs. strconv.ParseFloat is a parameter. The inherited extended properties, which C30 is about, are given exactly (Inherits)."
 ],
 "C61": [
  "proved",
  "Of objects that can be sent (Sound): valid id and type, text in UTF-8, times of the years 0 to 9999, required properties set, extended properties with names of their own. Times are stated to the millisecond. strconv is a parameter with the laws of Spec/Float.lean."
 ],
 "C62": [
  "partial",
  "False: members with zero values are dropped (c62_false), members of nested objects that the standard does not have are lost (c62_false_nested). Proved: the members of properties with other values and the extended properties are kept with the same meaning (times to the millisecond), and only booleans that are false are added."
 ],
 "C63": [
  "partial",
  "False: an extended property whose name is that of a property up to case also sets that property when it is read, so the second JSON has one more member (c63_false). Proved of all objects that can be sent (Sound), unless extended properties are dropped on request."
 ],
 "C64": [
  "proved",
  "Objects from all 42 constructors, any library options; values that JSON can carry, no option blanking a required property, the three inputs of C38 supplied, documents at most 10000 levels deep (the limit of encoding/json)."
 ],
 "C65": [
  "proved",
  "c65_succeeds is an iff for all 42 constructors, for options of the library and values of their Go types without NaN or infinite floats."
 ],
 "C66": [
  "partial",
  "False of the code (c66_false): NewTool with OptionCount returns an object and an error, NewRegistryKey with a nil value panics, NewNote with OptionContent panics. c66_something: never neither. c66_object_and_error_partial and c66_panics_iff_partial say exactly when both are returned and when a call panics; c66_named_error_partial: a named error comes without object."
 ],
 "C67": [
  "partial",
  "False of the code: c67_false gives, for each of 23 rules of particular types, and for the confidence range and the order of created and modified in every type that has them, a legal call that succeeds and breaks the rule. c67_enforced_partial proves the 21 rules that are enforced for all calls; c67_file_partial the file rule when no option touches name and hashes. Rules that refer to registries, RFCs, digests or other objects are not expressed."
 ],
 "C68": [
  "proved",
  "c68_text is an equivalence: the canonicaliser writes t for x exactly if x is finite and t is ECMAScript's text of x (Spec/Es6.lean), which includes that there is only one. strconv is modelled (Model/Strconv.lean) from its documentation: ParseFloat rounds correctly, FormatFloat with precision -1 gives the shortest, nearest, even digits. c68_read is for exponents below 100000 or texts of at most 9000 bytes: beyond, ParseFloat may misread the exponent. c68_assumptions: FloatLaws, IntegersParse and WritesNumbers, which other theorems assume of strconv, hold of the model; c29_strconv_partial, c36_strconv_partial, c43_strconv and c64_strconv are those theorems without assumptions. c68_exact is an equivalence too: out is written for a document with Unicode names exactly if out is the text of the same value, names sorted, numbers in ECMAScript's form, inside objects and arrays alike."
 ],
 "C69": [
  "partial",
  "False of the code for every observable (`c69_false_everywhere`; `c69_false` has 198.51.100.3 with both identifiers): the name that is hashed is a JSON array of the values, not the object of the properties. What holds (`c69_identifier_partial`): type, namespace, version, SHA-1 and text form are the prescribed ones, and the name is the canonical JSON array of the contributing values in order, provided that texts need no escaping and hashes have a preferred one (`c69_not_json` shows names that are not JSON otherwise). `c69_swid`: the swid of software does not contribute."
 ],
 "C70": [
  "partial",
  "False of the code (`c70_false`): after the parser, the element is unmarshalled once more into the object it returned, which undoes what the parser changed. Proved for all parsers: only what they return for elements of their type matters (`c70_others`); the collection has the returned object with the element unmarshalled into it, up to extended properties (`c70_returned_partial`), so the returned one if that changes nothing (`c70_kept_partial`); failing parsers make the call fail (`c70_error`)."
 ],
 "C71": [
  "proved",
  ""
 ],
 "C72": [
  "partial",
  "False of the code in four ways: AttackPattern.AddUses makes \"targets\", so nothing makes attack-pattern uses (c72_uses); helpers for malware take a malware-analysis (c72_prefix); AddConsistsOf takes all types (c72_consists); AddDerivedFrom and AddDuplicateOf do not compare types (c72_derived). c72_defined_partial and c72_common_partial cover everything else, c72_complete_partial every other row of the tables."
 ],
 "C73": [
  "proved",
  "An option that fails in NewCampaign, NewLocation or NewMalware may be reported as ErrInvalidProperty instead, and in NewRegistryKey with a nil value the call panics; both are in c73_runs. c73_spoiled shows that the condition on ID and Type is needed. Options are functions from the object to its new fields and a result; keeping a pointer to the object and changing it later is C71."
 ],
 "C74": [
  "partial",
  "False of the code for sightings, language contents and extension definitions: NewSighting, NewLanguageContent and NewExtensionDefinition put one *Timestamp into Created and Modified, so setting Modified.Time of such an object sets Created too (c74_private_false, c74_one_stamp). c74_private_partial covers everything else; c74_constructs, c74_kept and c74_own_memory hold without exception. A block is everything reached through one reference; references inside blocks are not told apart, and assignments to fields by the program are not among the actions."
 ],
 "C75": [
  "proved",
  "JSON text to document is C52 and C53. Whether the array of objects itself is accepted is C34 and C61."
 ],
 "C76": [
  "proved",
  "No user parsers. If one extension of an object is refused and another crashes, Go may do either (map order is random); the model takes the crash. The type that is left over from an earlier object (the defect of C30) is part of the specification (TypeLeft)."
 ],
 "C77": [
  "proved",
  "No user parsers. The extended properties of extension definitions, which the library never keeps, are left out (C28). Values of properties are given for elements that describe an object (Spec/Says); for all others see C78. What is left over between elements (the defect of C30) is part of the specification (LeftOver)."
 ],
 "C78": [
  "proved",
  "No user parsers. Repeated members of slices, maps, structs and pointers to structs are left open: Go merges them into what is there, reusing elements of slices (not modelled). Numbers as floats are what F (strconv) reads."
 ],
 "C79": [
  "proved",
  "The elements of the second document that are objects must state a type (of whatever value); that the values, and not only the objects up to extended properties, agree needs dropped custom properties or nothing left over, and c79_not_exact shows an import where neither holds and they differ (the defect of C30). Order is claimed for collections that keep it."
 ],
 "C80": [
  "proved",
  "Relational versions of the parser and the writer, in which every range over a map of the library may take any order, a new one each time. c80_import compares two runs; c80_model says that the result of the functions used in all other theorems is the only possible one unless it is a crash; c80_either shows that a document can be refused in one run and crash in another, when one extension is refused and another one crashes. For ToBundle and the re-export the objects have maps for extended properties, as all that FromJSON makes without parsers of the user's have."
 ],
 "C81": [
  "proved",
  "Every step touches one field or one map; runs interleave the steps of all goroutines arbitrarily. c81_one_by_one, c81_no_race and c81_goes_on hold for every run in which no Add overlaps another call; c81_readers and c81_locked show that readers alone and calls under a RWMutex are such runs, c81_no_deadlock that the lock never blocks everybody. c81_race and c81_lost are the schedules without a lock. Memory is sequentially consistent, which Go promises programs without races."
 ],
 "C82": [
  "proved",
  "c82_values ties the bundle to the values of the objects, so that what is proved of reading bundles (C29, C36) is true of what is written later."
 ],
 "C83": [
  "partial",
  "False of the code: `c83_false` has six texts with a canonical form that are no JSON. What holds: numbers in an accepted text are the floating-point literals of the Go language with a sign (Spec/GoFloat.lean), and the text is JSON if these are numbers of JSON (`c83_accepted_partial`); exactly the literals in the range of doubles are accepted (`c83_numbers`, `c83_accepts`), for the nearest double (`c83_value`). Exponents of six digits and more are left out of the last three, since ParseFloat may misread them. The package is internal and is only given output of encoding/json."
 ],
 "C84": [
  "partial",
  "False of the code: c84_false has a leap second, which RFC 3339 and STIX allow, and a timestamp spelled with a JSON escape, which UnmarshalJSON compares before it is decoded; both documents are refused whole. c84_accepted_partial is the whole claim for all other timestamps. The standard's tables (Spec/Standard) and data types (Spec/Accept) are written by hand; identifiers, enumerations and hexadecimal data are any texts there, so more is shown to be accepted than the standard allows. Numbers too large for a double and nesting beyond 10000 are left out. No user parsers."
 ],
 "C85": [
  "partial",
  "False of the code: c85_false has an identity without a class, which STIX 2.1 allows and FromJSON accepts; ToBundle of any collection with it fails, so nothing in the collection is exported. c85_export_partial: ToBundle never panics, and succeeds exactly if every object of the library (but extension definitions) has the properties that the standard requires and the library's three extra ones; c85_values: every property of what was read has a value of its type, so C27, C58 and C59 hold of all imports. No user parsers. Numbers: strconv gives finite numbers for JSON numbers (c85_strconv_partial assumes nothing)."
 ],
 "C86": [
  "proved",
  "c86_sound: every object in a collection read from such a document is one that can be sent (Sound of C36), if it can be written at all (C85 says when); c86_relay: the rest. Timestamps with an offset that, in UTC, are before the year 0 or after 9999 are left out (InYears; STIX wants UTC, so there are none), as is a bundle nested deeper than 10000. Extended properties of objects sent before it may be added to an object: that is C36; c86_exact: if identifiers are distinct, there is no extension definition and the first collection is ordered, nothing is added but what the first import has added already. Objects of types outside the standard are left out: their arbitrary member names would come with the leftovers. c86_strconv assumes nothing of strconv."
 ],
 "C87": [
  "proved",
  "For objects of the constructors, end to end; the hypothesis on mutexes excludes the case in which C10 is false. Two programs are compared that have the same hash function and number formats; with the number formats of Go in c87_strconv."
 ],
 "C88": [
  "proved",
  "c88_arrives: mixed collections; c88_read: the custom objects of any accepted text can be sent; c88_relay composes them; c88_custom_strconv: with the number formats of Go. Values that a program stores in a custom object and that JSON has no type for (int, []string) are left out: they come back as float64 and []interface{}. That members of a custom object may turn up as extended properties of library objects after it is C30 and C36."
 ],
 "C89": [
  "proved",
  "c89_passed_on: any number of programs, induction over them; c89_any_order: programs with any options, for objects without extended properties; c89_strconv: collections without extended properties and custom objects, with the number formats of Go. The condition on extended properties is the one of c36_exact_partial: without it the parser leaves properties of one object in the next (C30, C36), so that the bundle does change. Texts nested deeper than 10000 are left out: Go refuses them."
 ],
 "C90": [
  "partial",
  "False of the code: GetAsStringSlice panics on every list of texts that was sent (c90_strings_panic), and GetAsNumber gives a rounded number for integers greater than 2^53 (c90_false). c90_arrives: what each value becomes; c90_accessors_partial: the other accessors, and GetAsNumber for floats and integers of at most 2^53, agree. Values of other Go types that a program may store (int, structs) are not modelled."
 ]
}