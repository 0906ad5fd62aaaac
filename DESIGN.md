# Formal model of github.com/TcM1911/stix2: design

The properties are in `properties.jsonl`, the property → theorem map is
`MANIFEST.json`, the mutation-test log is `seeded/LOG.jsonl`. The Lake project is
`lean/` (Lean 4.33.0); build it with `lake build` there.

## 1. Layout

| directory | contents |
|---|---|
| `lean/Verif/Model/` | the model, function by function; each definition cites file and lines in /repo |
| `lean/Verif/Gen/` | tables read off /repo by `tools/gen.py`: struct fields with Go type and JSON tag, option functions, relationship helpers, enumerations, parser dispatch, typed getters, type constants. Committed; the build does not run the generator |
| `lean/Verif/Spec/` | small specifications the theorems are stated with; they do not call the functions they specify |
| `lean/Verif/Lemmas/` | helper lemmas |
| `lean/Verif/Props/` | the property theorems, each with an `example` that meets its hypotheses |
| `tools/` | `gen.py` makes `Gen/`, `manifest.py` makes `MANIFEST.json` from the theorem names `cNN_…` and `notes.json`, `design.py` fills sections 5 and 8 of this file, `conform.py` runs the model on the documents of /repo |

## 2. Modelling conventions

* A Go string or `[]byte` is `Str = List UInt8`: no assumption of UTF-8.
* `error` results are values; a panic is an explicit outcome (`Res.panic`,
  `Ret.panic`), never hidden behind a default.
* `nil` is explicit: a slice, map or pointer that can be nil is an `Option`.
* A Go map is an association list with distinct keys. Where the code ranges over
  a map, the order is an arbitrary permutation chosen by an adversary.
* Random UUID bytes, the clock and SHA-1 are parameters; the theorems hold for
  all of them. `strconv.ParseFloat/FormatFloat` are a parameter too (`FloatFmt`);
  `Model/Strconv` is a model of them, for which the parameter's laws are proved
  (C68). `Model/Sha1` is SHA-1, proved equal to FIPS 180-4 (`c69_sha1`), for the identifiers of
  C69.
* Reflection (`FieldByName`, `Kind`, `Set`, `IsZero`) is interpreted over the
  generated struct tables, with promotion through embedded structs and the panic
  of `Set` on a differently typed field.
* A document is bytes. The scanner of `encoding/json` (`Model/Text`: white space,
  escapes, surrogates, bytes that are not UTF-8, number grammar, nesting limit)
  turns it into a tree, and `parse_iff` says it accepts exactly the JSON texts of
  `Spec/Text`. Most theorems are stated on trees; `c52_value` carries them over to
  bytes.
* Above the scanner, `encoding/json` works on a syntax tree `Json`: members in document order, may
  repeat; strings have both their raw bytes and the decoded text, because some
  `UnmarshalJSON` methods look at raw bytes. A generic decoder and encoder run
  over the struct tables: exact name match first, then case-insensitive; merging
  into existing values; `null`; soft errors (type mismatch, decoding goes on) and
  hard ones (from an `UnmarshalJSON` method).
* Objects of user types (custom parsers) are a type class `UserType` with
  arbitrary behaviour, including panics; theorems quantify over it.

## 3. What is modelled

All non-test Go files of /repo:

| code | model |
|---|---|
| identifiers, `uuid.Parse/String/NewSHA1`, data-types.go:120-215 | `Model/Ident` |
| `crypto/sha1` (FIPS 180-4) | `Model/Sha1` |
| `Collection` (stix.go:24-180), typed getters (183-949) | `Model/Collection`, `Model/Heap`, `Model/Process`, `Gen/Structs`; step by step for several goroutines `Model/Sched` |
| `FromJSON`, `processObjects` (stix.go:953-1162), bundles (bundle.go) | `Model/Process` |
| timestamps (data-types.go) and the calendar of `time` | `Model/Time` |
| Binary (data-types.go), `encoding/base64` | `Model/Base64` |
| enumerations and their JSON methods | `Model/Enum`, `Gen/Enums` |
| options (option.go) and `applyOptions` | `Model/Option`, `Gen/Options` |
| all 42 constructors, SCO identifier contributions | `Model/Ctor` |
| relationship helpers (AddX) and relationship.go | `Model/Rel`, `Gen/Rels` |
| `MarshalJSON`, `marshalToJSONHelper`, `valueToMap` (object.go, stix.go:1164-1257) | `Model/Marshal` |
| `encoding/json` scanner and string unquoting | `Model/Text` |
| struct decoding and encoding | `Model/Codec`, `Model/Types`, `Gen/Structs` |
| extensions and `CustomObject` (extension.go) | `Model/Custom`, `Model/Codec`, `Gen/ExtGetters` |
| external references, kill chain phases | `Model/DataTypes` |
| TLP markings (meta.go) | `Model/Tlp` |
| `GetCreated`, `GetModified` (object.go, meta.go, extension.go) | `Model/Accessor`, `Model/Custom` |
| internal/jsoncanonicalizer | `Model/Canon` |

Changes to objects after they were added are in `Model/Heap` (C71); memory that
objects share with the program and with each other is in `Model/Share` (C74); that of
bundles and listings is in `Model/Snapshot` (C82).

Not modelled: the wording of error messages (only which sentinel error is
wrapped); references inside the blocks of memory of `Model/Share`; memory exhaustion and stack depth; concurrent use of anything but a
collection's methods (`Model/Sched`), and the Go memory model for programs with data races.

## 4. Trusted base

* The Lean kernel. Axioms: at most `propext`, `Classical.choice`, `Quot.sound`.
  Section 8 lists them per theorem. No `sorry`, own axioms, `native_decide` or
  `bv_decide`.
* That the model reads /repo correctly: each definition cites its source, and
  `tools/gen.py` reads the tables as text. As a check, `tools/conform.py` runs the
  model on the documents of /repo (33 crash files, 9 bundles, and the 69 objects in
  its tests; 384 objects written). It finds no disagreement beyond the exceptions
  that the script lists. Those tables were filled in after looking at the first
  runs: each entry was traced to the code of /repo, but "0 disagreements" is
  agreement up to them, not a blind comparison. It compares with the documents and
  the outcomes in the tests, not with a run of /repo. It is no part of a proof. `Props/StdIdVectors` has the identifiers that
  the tests expect.
* The behaviour of code outside /repo: the Go language, `encoding/json`,
  `reflect`, `strings`, `time`, `encoding/base64`, `github.com/google/uuid`, as
  described in the comments of the model. These are modelled, not assumed as
  axioms.
* Hypotheses that stand for `strconv`, visible in the statements that use them:
  * `FloatLaws F`: formatting a finite number gives a number token that parses
    back to the same number, and formatting is idempotent (C29, C36, C43, C48,
    C50). `toy_laws` exhibits an instance, so the hypothesis is not vacuous.
  * `IntegersParse F`: an integer literal parses as a number (C29, C36, C50).
    `toy_integers` is an instance.
  * `WritesNumbers F`: the formatted numbers are numbers of the JSON grammar
    (C29, C36 on bytes). `toy_writes` is an instance.

  All three are proved of the model of `strconv` (`c68_assumptions`), so they are
  not assumptions about floats but about this model being right:
  `Model/Strconv` is written from the documentation of the package (correct
  rounding, ties to even; shortest digits that parse back, of those the nearest,
  ties to even). Two details follow its source: exponents stop growing at 10000,
  and underscores are allowed only with base prefixes. That it keeps at most 800
  digits of a mantissa is taken not to matter, as its comments say.
* The tables of STIX 2.1 in `Spec/Standard` (C58, C59) are written by hand from the
  standard, not derived from /repo.
* `CollideV5`, in C11, is the event that two different byte strings have the same
  UUIDv5. C11 says identifiers are equal exactly in this event, whatever the hash.

Whole-table facts (42 structs, all options, all relationship helpers, all
enumerations) are decided by the kernel over the *entire* table and lifted to
statements over arbitrary values by lemmas such as `mem_allSIds`. No theorem is a
bounded check over inputs.

## 5. Properties, model and proof

<!-- table -->
| id | status | modelled | proof | gap or remark |
|---|---|---|---|---|
| C01 | proved | `Coll.add`, `Coll.get` as a state machine over arbitrary objects | refinement to the list of accepted additions (`Spec.Collection`), induction over histories | c01_parsed: a collection that FromJSON returned has a history of accepted additions too, so the theorems about histories hold of it and of what is added later. |
| C02 | proved | order list, `AllObjects` | same refinement; insertion-ordered map without duplicates, induction over histories |  |
| C03 | proved | `NoSortOption`, map iteration as an arbitrary permutation | both listings are permutations of the same abstract map | c03_returns: both have a result in every state, so the statements about every possible result are not empty. |
| C04 | proved | `hasValidIdentifier`, `Coll.add` | characterisation of the two-part split; an erroring `Add` returns the same state; for custom objects the three outcomes of `Add` are characterised exactly | c04_custom says exactly what Add does with a CustomObject: it crashes if the id is not a string, or the id has two parts and the type is not a string; otherwise the rule is the one for all objects. |
| C05 | proved | nested maps by type | invariant: every stored object stands in the bucket of its type under its id |  |
| C06 | partial | the 42 getter pairs as a table, parser, collection | invariant over parsing: the Go type in a bucket is the one of the dispatch table; table of getters decided whole | Proved for every parsed document whose objects have no member that differs from type in case only; c06_variant_panics shows the getter panics otherwise. c06_singular_exact and c06_plural_exact say exactly when a getter panics, for every history of additions of whatever objects; c06_named ties the names of the 42 pairs to the types of the standard. |
| C07 | proved | `strings.Split` and `uuid.Parse` on bytes | characterisation of split at the only `--`; the parser accepts exactly the four spellings of `Spec.Ident` |  |
| C08 | proved | `NewIdentifier`, `uuid.String` | hex round trip for all 16 bytes; necessary and sufficient condition on the type; the text byte by byte as RFC 4122 has it; stamping forgets exactly six bits |  |
| C09 | partial | `ForType` as `strings.Index == 0` | exact prefix characterisation; exactness for library types without a common prefix | false of the code (c09_forType_not_exact): ForType is a prefix test; the exact behaviour is proved |
| C10 | partial | observable constructors with contribution strings | the identifier is a function of the contributing fields after all options; option frame lemmas | False for a mutex renamed by an option (c10_mutex_renamed): the identifier is that of the constructor's argument. The partial theorem covers every other case. |
| C11 | partial | the texts given to SHA-1 | a reader (`Lemmas/ObsRead`) recovers the contributing values from the text; v5 stamping equal iff hashes agree outside six bits | Two observables of one kind with a differing contributing value hash different texts, for every hash function, so identifiers are equal exactly on a UUIDv5 collision of two different texts. Single-property kinds and artifacts need no side condition; kinds made from several texts need texts without quotation marks, and kinds whose properties are optional need the same ones given. Without these the claim is false of the code (c11_false_order, c11_false_ports, c11_false_quotes). |
| C12 | proved | the hash contribution | case analysis on the four keys; independent of every other entry | The contribution, and the identifiers of artifacts, files and certificates. |
| C13 | partial | table of helpers, `NewRelationship`, options, collection | generic in the table row, rows compared with the independent table `Spec.Rel` | False of the code for AttackPattern.AddUses, whose relationship type is "targets" (c13_uses_is_targets). c13_edge_partial covers every other helper, for all receivers, targets, options; c13_success and c13_otherwise_error settle when a helper succeeds. |
| C14 | partial | target checks of the helpers | from the characterisation of `ForTypes` | False of the code for identifiers whose type merely starts with an allowed type (c14_prefix_accepted: malware-analysis passes for malware). c14_rejects_partial settles every identifier whose type is not such an extension; c14_library_type every library type without a common prefix; c14_not_identifier every string that is no identifier. |
| C15 | proved | `NewRelationship` | case analysis with the option frame | Both directions, with what an option failure returns. |
| C16 | proved | `setField` by reflection over struct tables | frame lemma generic in the struct, per-option table decided whole against `Spec.Option` |  |
| C17 | proved | `applyOptions` | induction over the option list, commutation from the frame lemma |  |
| C18 | partial | option × struct table | whole table decided, lifted to all values and all lists | False of the code: OptionContent panics on a Note (c18_content_on_note_panics). The partial theorems show this is the only panic, over all options, all object kinds and all option lists. |
| C19 | proved | enumeration tables, marshal and unmarshal, map visited in any order | lemma generic in a table with distinct names; tables compared with `Spec.Enum` |  |
| C20 | proved | same | same; the spelling and the text of the string are related by `Spec.Text.Reads`, what RFC 8259 says a string denotes | Strings of the JSON grammar; for the raw-byte enumerations an escaped spelling of a name also decodes to the zero value. |
| C21 | partial | `UnmarshalJSON` of the enumerations on raw bytes | exact panic condition | false of the code (c21_decode_panics, c21_opinion_panics): one-digit numbers panic for encryption algorithm and opinion; c21_decode_panic_iff_partial says exactly when |
| C22 | proved | nanosecond instants, zones, proleptic Gregorian calendar, `Format` | arithmetic on the calendar; shape of the 24 bytes |  |
| C23 | proved | `Format` and `Parse` of the layouts | calendar bijection, digit round trip |  |
| C24 | proved | same | lexicographic order of fixed-width fields |  |
| C25 | partial | `Timestamp.UnmarshalJSON` on raw bytes | exact panic condition | false of the code (c25_decode_panics): one-digit numbers panic; c25_decode_panic_iff_partial says exactly when |
| C26 | proved | base64 with padding, the decoder, Binary methods | induction in steps of three bytes and of four characters; `Spec.Base64` is stated on bits, for writing (`base64`) and for reading (`Base64Text`) |  |
| C27 | partial | `valueToMap`, `marshalToJSONHelper`, the generic encoder | generic over struct tables, tables decided whole; `Spec.Marshal` says what is set and required | False for ExtensionDefinition, which has no MarshalJSON of its own: it is marshalled even when required properties are unset (c27_false), and an empty optional list, or an optional false boolean, gives no member. The partial theorems give the exact condition and the exact members for the other 41 types, and for ExtensionDefinition. Every float in the object is assumed to be a number (NaN and infinities make encoding/json fail). |
| C28 | partial | `filterOutNonCustom`, `processObjects` on one object | exact capture lemma for every decoded member map | Exact capture for members with a non-empty name and every type but extension-definition; both exceptions are proved to lose members. |
| C29 | partial | marshal then parse of one object | induction on type descriptions: dec ∘ enc = the value `Spec.Value` says JSON carries; `c29_text_partial` on bytes: what is written is a JSON text (`Lemmas/TextEnc`) | False for text that is not UTF-8 (c29_false) and for extended properties whose name is a property name in another case (c29_false_extended). c29_round_trip_partial is for every object of the 42 types whose values JSON can carry (UTF-8 text, years 0 to 9999, finite floats) and whose extended properties have names of their own; times come back to the millisecond, and blank optional parts of nested structs as absent. That floats are formatted and parsed faithfully is a hypothesis (FloatLaws, IntegersParse) in the general theorem, and is discharged for the model of strconv in c29_strconv_partial (by c68_assumptions). |
| C30 | partial | the loop with the shared `peak` | induction over the list of objects; simulation up to extended properties | False: members leak into later objects (c30_leak, c30_leaked_type). Proved: same outcome and same object up to extended properties; exact equality with DropCustomOption or after objects without unknown members. What leaks is given exactly in C77. |
| C31 | proved | `FromJSON` on objects and arrays | both run the loop on the same list | For every bundle whose member names are distinct and whose type and id are texts, and every option. |
| C32 | proved | `DropCustomOption` | invariant of the loop | All documents, all options including user parsers. |
| C33 | partial | panics of the parser | panic-freedom of the generic decoder and the loop under a condition on the document; `c33_text_partial` on bytes | False: c33_panics gives documents that panic. Proved: no panic for any document whose elements have text types and ids and no one-character number where a timestamp, encryption algorithm or opinion belongs, without user parsers. The exact condition for a panic is C76. |
| C34 | proved | `FromJSON` and collection | invariant of the loop relating elements done to collection contents; `Spec.Doc` says what an element is | For documents whose elements have no repeated members and none that differs from type or id in case only; malformed means a property whose JSON value has a kind its Go type does not take. |
| C35 | proved | `NewBundle`, `ToBundle` | induction over the objects | For every history of additions; objects whose GetID panics (custom objects with an id that is not a string) cannot be added in the first place and are excluded. c35_returns: there is a result in every state. c35_new_bundle is about NewBundle of any objects, with nil and nil maps among them. |
| C36 | partial | `ToBundle`, marshal, parse | C29 lifted over the loop, collection refinement; `c36_text_partial` on bytes | False: an object comes back with extended properties of objects before it in the bundle (c36_false). c36_round_trip_partial proves the rest: same ids in the same order, same Go types, same properties up to what JSON keeps, own extended properties kept, and exactly which earlier ones are added; c36_exact_partial: none are added if and only if each extended property of an object is one of the next, too, or named like a property of its type; c36_no_extended gives equality when there are none or they are dropped. |
| C37 | proved | all 42 constructors, all options | invariant on id, type, spec_version and times, preserved by options | All 42 constructors, all arguments and all lists of the library's options. |
| C38 | partial | constructors and marshal | required properties after options, compared with the exact condition of C27 | False of the code: NewIdentity without OptionClass, NewNote with empty content, NewOpinion with the zero value and NewLocation with NaN succeed but do not marshal (c38_false, c38_false_nan). c38_marshals_partial is the exact condition for every other case: given arguments and option values without NaN or infinite floats and no option that blanks a required property, a constructed object marshals iff those required properties were supplied. |
| C39 | proved | `NewCampaign`, `NewSighting` | the check follows the options | NewCampaign and NewSighting, for the times the object ends up with. |
| C40 | proved | `NewSighting` | same | NewSighting. |
| C41 | partial | `NewLocation`, IEEE doubles as bits | comparison on bits equals comparison of rationals (`Spec.Float`) | True for numbers; NaN coordinates are accepted (c41_nan_accepted). The partial theorem excludes NaN. |
| C42 | proved | `Transform` over bytes | refinement: parse to a tree (`Spec.Canon`), sort, print; the converse by injectivity of printing (mutual induction over values, with what may follow) | Also covers the spelling of strings and numbers. c42_tells_apart: two documents get the same bytes exactly if they denote the same value (the double of each number, the characters of each string, the members of each object in any order). strconv is a parameter (FloatFmt) there with the laws FloatLaws; c42_strconv is the same with the model of strconv and no assumption |
| C43 | proved | same | the output parses to the sorted tree; printing is idempotent | strconv.ParseFloat/FormatFloat are a parameter (FloatFmt) with the laws FloatLaws as hypotheses of C43 only; they hold of the model of strconv (C68) |
| C44 | proved | same | exact acceptance | A text is accepted only if it is a document without duplicate names whose numbers are floats; a document with Unicode names is accepted exactly if it has no duplicates. Which tokens are numbers is up to strconv (FloatFmt); C83 says which they are. |
| C45 | proved | `Extensions.UnmarshalJSON` | exact result for every member list | Exact acceptance condition and exact result, for every member list and any previous value. |
| C46 | proved | `CustomObject` | map laws, induction over Set calls | Sequences of Set by induction; each typed accessor is characterised completely (value, zero value, panic). Float to integer conversion outside int64 is implementation-defined in Go and left as a parameter. |
| C47 | proved | `NewExtensionDefinition` | case analysis | NewExtensionDefinition. |
| C48 | partial | `NewExternalReference`, `NewKillChainPhase` | case analysis; round trip from C29's codec theorem | Success conditions, error and carried arguments are proved for all arguments. The round trip holds for Unicode text and hashes that are absent or non-empty; it is false otherwise (c48_not_text, c48_empty_hashes). |
| C49 | proved | dispatch table, parser | table decided whole against the type constants | For documents whose elements have no member that differs from type in case only. |
| C50 | proved | TLP variables, collection, marshal, parse | instances of C04, C27, C29, C36 for arbitrary collections | Unchanged after parsing alone, for every option list without a parser of its own; in a bundle its properties are unchanged, and it gets no extended ones if no object of the collection has any (see C36). strconv is assumed faithful as in C29, though no number occurs. |
| C51 | proved | extension accessors, parser | invariant: the value under a key has the Go type of the key | No panic for any accepted document; for documents that list objects without repeated or case-variant member names, the value is the one of the element with the id of the object. |
| C52 | proved | the scanner of `encoding/json` on bytes (`Model/Text`) | `parse_iff`: the scanner computes exactly the RFC 8259 grammar on syntax trees (`Spec/Text`), by mutual induction both ways | On JSON texts nested at most 10000 deep, the limit of encoding/json. |
| C53 | proved | same | same; cutting and trailing data by determinism of the scanner | The error and that nothing is returned; which error message is not modelled. |
| C54 | partial | the accessors, parser, constructors | invariant of the decoder of time fields; inversion of the loop; C37 and C55 | False: both panic for an extension-definition without the member, and for a custom object whose member is not a string (c54_panics). Proved: exact result in every other case, for documents whose objects have no repeated or case-variant member names, and for every constructor. |
| C55 | proved | `time.Parse` for the one layout | exact characterisation of the accepted texts, field by field; day counts against the calendar of `Spec/Time` | Exact characterisation of accepted strings and of the instant. Leap seconds (:60) and lower-case t and z, which RFC 3339 allows, are refused. |
| C56 | partial | scanner, parser, all decoders | forgetting the spelling commutes with the scanner's value and with every decoder, by mutual induction over the type tables; names and timestamps are plain ASCII and have no quote in them | False: a timestamp or an enumeration name written with escapes is not recognised (c56_timestamp, c56_name). Proved on bytes: same result for every two texts of one value in which names and timestamps are not written with escapes. |
| C57 | partial | all options, their comments (generated `Gen/OptionDocs`) | table of options against table of comments decided whole, lifted to all objects and values by C16; induction over the list of options | False: OptionBelongsTo on IP addresses and OptionUserID on software fail although listed, and 15 options apply to types their comments do not list (c57_belongs_to, c57_user_id). Proved: the exact set of types for each option, which is the documented one up to the two tables of exceptions; lists of documented options are applied whole. |
| C58 | proved | marshalling of all types; the standard's property tables are written by hand in `Spec/Standard` | struct tables compared whole with the standard's tables, lifted to all values by mutual induction over the type tables | Every member of the JSON is a property of the type in the standard's tables, with JSON of its data type (binary data as base64), or an extended property; all required properties are there. The tables of the standard are written by hand. nil inside a value is written as null. |
| C59 | partial | marshalling of all types; tables of the standard as for C58 | from C27 and the comparison of the tables | False: identities without a class and marking definitions without a definition cannot be written (c59_identity, c59_marking), extension definitions always are. Proved: for the other types serialisation succeeds exactly if the properties the standard requires, and the library's three extra ones, are set. |
| C60 | proved | FromJSON on arrays and bundles, decoding of all types; a relation between JSON and values, directed by the types only (Spec/Says.lean) | induction over types that what JSON says is what is decoded; invariant over the elements that the state kept between them holds exactly the inherited extended properties | Of documents whose elements are described in the sense of Spec/Says.lean: distinct member names, values of the right kind, no null for scalars, no unknown members inside nested structs. strconv.ParseFloat is a parameter. The inherited extended properties, which C30 is about, are given exactly (Inherits). |
| C61 | proved | marshalling of all types; the same relation as for C60 | induction over types that what is encoded says the value | Of objects that can be sent (Sound): valid id and type, text in UTF-8, times of the years 0 to 9999, required properties set, extended properties with names of their own. Times are stated to the millisecond. strconv is a parameter with the laws of Spec/Float.lean. |
| C62 | partial | FromJSON and marshalling, composed | C60 and C61; witnesses evaluated by the kernel | False: members with zero values are dropped (c62_false), members of nested objects that the standard does not have are lost (c62_false_nested). Proved: the members of properties with other values and the extended properties are kept with the same meaning (times to the millisecond), and only booleans that are false are added. |
| C63 | partial | FromJSON and marshalling, composed | induction over types that a settled value is written as before and is as blank as before; the members are sorted, so equal sets of members are equal JSON; a witness evaluated by the kernel | False: an extended property whose name is that of a property up to case also sets that property when it is read, so the second JSON has one more member (c63_false). Proved of all objects that can be sent (Sound), unless extended properties are dropped on request. |
| C64 | proved | the constructors with their options, collections, ToBundle, the text of the JSON, FromJSON, composed | every value a constructor or an option writes has the type of its property (tables checked by the kernel, induction over the options); so what is built can be sent, and C36 applies | Objects from all 42 constructors, any library options; values that JSON can carry, no option blanking a required property, the three inputs of C38 supplied, documents at most 10000 levels deep (the limit of encoding/json). |
| C65 | proved | the 42 constructors with applyOptions and the option functions | the argument tests, the success of all options and the final check of each constructor are each equivalent to a clause of the specification; the value after the options is that of the last option for the property (induction over the options) | c65_succeeds is an iff for all 42 constructors, for options of the library and values of their Go types without NaN or infinite floats. |
| C66 | partial | the same | options stop at the first that does not apply; the outcome is that of the options before it, so C65 gives the exact conditions | False of the code (c66_false): NewTool with OptionCount returns an object and an error, NewRegistryKey with a nil value panics, NewNote with OptionContent panics. c66_something: never neither. c66_object_and_error_partial and c66_panics_iff_partial say exactly when both are returned and when a call panics; c66_named_error_partial: a named error comes without object. |
| C67 | partial | the 42 constructors with their options | enforced rules follow from the exact conditions of C65 and from the types of the values; the others have concrete calls, checked by the kernel over the whole table of rules | False of the code: c67_false gives, for each of 23 rules of particular types, and for the confidence range and the order of created and modified in every type that has them, a legal call that succeeds and breaks the rule. c67_enforced_partial proves the 21 rules that are enforced for all calls; c67_file_partial the file rule when no option touches name and hashes. Rules that refer to registries, RFCs, digests or other objects are not expressed. |
| C68 | proved | NumberToJSON, parseSimpleType, floats in encoding/json; strconv.ParseFloat and FormatFloat | order and nearest-neighbour lemmas over rational numbers; correctness of rounding and of the search for the shortest digits; uniqueness by excluding ties (19 does not divide a power of ten); refinement of the text layout | c68_text is an equivalence: the canonicaliser writes t for x exactly if x is finite and t is ECMAScript's text of x (Spec/Es6.lean), which includes that there is only one. strconv is modelled (Model/Strconv.lean) from its documentation: ParseFloat rounds correctly, FormatFloat with precision -1 gives the shortest, nearest, even digits. c68_read is for exponents below 100000 or texts of at most 9000 bytes: beyond, ParseFloat may misread the exponent. c68_assumptions: FloatLaws, IntegersParse and WritesNumbers, which other theorems assume of strconv, hold of the model; c29_strconv_partial, c36_strconv_partial, c43_strconv and c64_strconv are those theorems without assumptions. c68_exact is an equivalence too: out is written for a document with Unicode names exactly if out is the text of the same value, names sorted, numbers in ECMAScript's form, inside objects and arrays alike. |
| C69 | partial | SHA-1 (FIPS 180-4), UUID version 5, the texts given to it | per kind the text is the bracketed list of the parts (`kind_parts`), each part the printed JSON value of the contribution; the texts begin with `[`, prescribed names with `{`; the identifiers the repository's own tests fix are recomputed by the kernel (`Props/StdIdVectors`); the model of SHA-1 equals FIPS 180-4 on 32-bit words (`Spec/Sha1`), by induction over the steps and the blocks (`Lemmas/Sha1`) | False of the code for every observable (`c69_false_everywhere`; `c69_false` has 198.51.100.3 with both identifiers): the name that is hashed is a JSON array of the values, not the object of the properties. What holds (`c69_identifier_partial`): type, namespace, version, SHA-1 and text form are the prescribed ones, and the name is the canonical JSON array of the contributing values in order, provided that texts need no escaping and hashes have a preferred one (`c69_not_json` shows names that are not JSON otherwise). `c69_swid`: the swid of software does not contribute. |
| C70 | partial | `UseCustomParser`, `processObjects` with arbitrary handlers and user types | induction over the elements; the type seen for an element is that of an element of the document | False of the code (`c70_false`): after the parser, the element is unmarshalled once more into the object it returned, which undoes what the parser changed. Proved for all parsers: only what they return for elements of their type matters (`c70_others`); the collection has the returned object with the element unmarshalled into it, up to extended properties (`c70_returned_partial`), so the returned one if that changes nothing (`c70_kept_partial`); failing parsers make the call fail (`c70_error`). |
| C71 | proved | `Collection.Add`, `Get`, `AllObjects` over a heap of shared objects; programs that change objects between calls | simulation: the references a program adds are a history of the collection model (C01-C03), the heap is given by the last writes |  |
| C72 | partial | table of helpers, `NewRelationship`, options | `Spec.StdRel` is the summary table of the standard; each helper is compared with it, and each row of it with the helpers, over the whole tables; lifted to all receivers, targets and options through C13 and C14 | False of the code in four ways: AttackPattern.AddUses makes "targets", so nothing makes attack-pattern uses (c72_uses); helpers for malware take a malware-analysis (c72_prefix); AddConsistsOf takes all types (c72_consists); AddDerivedFrom and AddDuplicateOf do not compare types (c72_derived). c72_defined_partial and c72_common_partial cover everything else, c72_complete_partial every other row of the tables. |
| C73 | proved | all 42 constructors, `applyOptions`; an option of the program is an arbitrary function | the run of the options as a relation `Spec.Left`, by induction over the list; then the part of each constructor after the options | An option that fails in NewCampaign, NewLocation or NewMalware may be reported as ErrInvalidProperty instead, and in NewRegistryKey with a nil value the call panics; both are in c73_runs. c73_spoiled shows that the condition on ID and Type is needed. Options are functions from the object to its new fields and a result; keeping a pointer to the object and changing it later is C71. |
| C74 | partial | `Model/Share`: memory, the references that fields of all 42 constructors and options hold, programs as lists of actions | the run with memory refines the run on values (induction over options); what was not given is allocated by the call; invariant over programs | False of the code for sightings, language contents and extension definitions: NewSighting, NewLanguageContent and NewExtensionDefinition put one *Timestamp into Created and Modified, so setting Modified.Time of such an object sets Created too (c74_private_false, c74_one_stamp). c74_private_partial covers everything else; c74_constructs, c74_kept and c74_own_memory hold without exception. A block is everything reached through one reference; references inside blocks are not told apart, and assignments to fields by the program are not among the actions. |
| C75 | proved | `fromJSON`, `fromJSONText` (Model/Process, Model/Text) and the decoder of the Bundle struct | induction over the members of the object with the state of the decoder; spellings by induction over the bytes of the name (`c75_names`) | JSON text to document is C52 and C53. Whether the array of objects itself is accepted is C34 and C61. |
| C76 | proved | `fromJSONText` and the whole decoder (Model/Decode, Model/Process) | a fate for every Go type and JSON value (Spec/Fate, written without the values that are read), shown by mutual induction over the types to be what the decoder does; the loop by induction over the elements | No user parsers. If one extension of an object is refused and another crashes, Go may do either (map order is random); the model takes the crash. The type that is left over from an earlier object (the defect of C30) is part of the specification (TypeLeft). |
| C77 | proved | `processObjects` and the decoder (Model/Process, Model/Decode) | what is left over after some elements (Spec/Leftover) is what the variable shared between the elements holds: an invariant kept by each step, then induction over the elements | No user parsers. The extended properties of extension definitions, which the library never keeps, are left out (C28). Values of properties are given for elements that describe an object (Spec/Says); for all others see C78. What is left over between elements (the defect of C30) is part of the specification (LeftOver). |
| C78 | proved | the decoder, all UnmarshalJSON methods, `processObjects` (Model/Decode, Model/Enum, Model/Process) | Spec/Means says what a JSON value means for each Go type; induction on types, with the members of a struct as chains of values read into one field; uniqueness by a second induction | No user parsers. Repeated members of slices, maps, structs and pointers to structs are left open: Go merges them into what is there, reusing elements of slices (not modelled). Numbers as floats are what F (strconv) reads. |
| C79 | proved | Model/Collection, `processObjects` (Model/Process) | the latest addition of two histories in a row, and the listing of two histories in a row, are those of the parts (induction); documents by splitting the run of the loop in two, and simulation of the second run from another start | The elements of the second document that are objects must state a type (of whatever value); that the values, and not only the objects up to extended properties, agree needs dropped custom properties or nothing left over, and c79_not_exact shows an import where neither holds and they differ (the defect of C30). Order is claimed for collections that keep it. |
| C80 | proved | Verif/Model/Order.lean: decoding, processObjects, FromJSON, objectToMap, NewBundle and ToBundle as relations, with any permutation of the entries at each range over a map (the extensions, the tables of the enumerations, what is left of the properties, the extended properties, the collection) | every relational step is close to the function of the other model (equal, or a crash there and an error here), by induction over types, lists and documents; inserting a permutation of a sorted map gives the same map; ToBundle by C02 and C03 | Relational versions of the parser and the writer, in which every range over a map of the library may take any order, a new one each time. c80_import compares two runs; c80_model says that the result of the functions used in all other theorems is the only possible one unless it is a crash; c80_either shows that a document can be refused in one run and crash in another, when one extension is refused and another one crashes. For ToBundle and the re-export the objects have maps for extended properties, as all that FromJSON makes without parsers of the user's have. |
| C81 | proved | the methods of Collection step by step, goroutines, schedules, a RWMutex of the program | invariant over all runs: the memory holds the collection of the Adds that have returned, except while an Add is going on, and then is as far as its program counter says; refinement of each method; a counting invariant for the lock | Every step touches one field or one map; runs interleave the steps of all goroutines arbitrarily. c81_one_by_one, c81_no_race and c81_goes_on hold for every run in which no Add overlaps another call; c81_readers and c81_locked show that readers alone and calls under a RWMutex are such runs, c81_no_deadlock that the lock never blocks everybody. c81_race and c81_lost are the schedules without a lock. Memory is sequentially consistent, which Go promises programs without races. |
| C82 | proved | `Model/Snapshot`: a memory of objects, slices, raw messages and bundles; `ToBundle`, `NewBundle`, `AllObjects` and `Add` in it, and a program that also changes everything it has in place. `Spec/Snapshot` says what a bundle shows and which memory is part of it | Invariant of all states that a program reaches: references are to memory of their type, and those of the collection to objects. Bundles and listings are made of new memory only, and a step changes nothing but what the program writes; induction on the steps | c82_values ties the bundle to the values of the objects, so that what is proved of reading bundles (C29, C36) is true of what is written later. |
| C83 | partial | parseSimpleType; strconv.ParseFloat with underscores and hexadecimal numbers | the reader on texts without underscores is the reader on the text (`bodyMag_bare`), its state after digits is their fold (`feed`), and `underscoreOK` is equivalent to "each underscore is between digits" by induction over the text | False of the code: `c83_false` has six texts with a canonical form that are no JSON. What holds: numbers in an accepted text are the floating-point literals of the Go language with a sign (Spec/GoFloat.lean), and the text is JSON if these are numbers of JSON (`c83_accepted_partial`); exactly the literals in the range of doubles are accepted (`c83_numbers`, `c83_accepts`), for the nearest double (`c83_value`). Exponents of six digits and more are left out of the last three, since ParseFloat may misread them. The package is internal and is only given output of encoding/json. |
| C84 | partial | `fromJSONText` and the whole decoder; the standard's tables (Spec/Standard, Spec/Accept) | the struct tables are compared whole with the standard's tables (`standard_takes`), lifted by mutual induction over Go types to: what the standard allows has the fate `taken` of C76; then C76, and C77 for what is found | False of the code: c84_false has a leap second, which RFC 3339 and STIX allow, and a timestamp spelled with a JSON escape, which UnmarshalJSON compares before it is decoded; both documents are refused whole. c84_accepted_partial is the whole claim for all other timestamps. The standard's tables (Spec/Standard) and data types (Spec/Accept) are written by hand; identifiers, enumerations and hexadecimal data are any texts there, so more is shown to be accepted than the standard allows. Numbers too large for a double and nesting beyond 10000 are left out. No user parsers. |
| C85 | partial | `fromJSONText`, `toBundle`, the whole decoder and encoder | a preservation theorem by mutual induction over Go types: what is decoded into a value of a type is a value of that type (`held`), lifted over the loop of `processObjects` with the reused map `peak` as an invariant (`kept_steps`); then C27 and C59 for when it is written | False of the code: c85_false has an identity without a class, which STIX 2.1 allows and FromJSON accepts; ToBundle of any collection with it fails, so nothing in the collection is exported. c85_export_partial: ToBundle never panics, and succeeds exactly if every object of the library (but extension definitions) has the properties that the standard requires and the library's three extra ones; c85_values: every property of what was read has a value of its type, so C27, C58 and C59 hold of all imports. No user parsers. Numbers: strconv gives finite numbers for JSON numbers (c85_strconv_partial assumes nothing). |
| C86 | proved | as C85, and the second `fromJSONText` | `held` again with stricter leaves (`readOk_carriable`: Unicode, int64, finite numbers, declared enumeration values, years 0 to 9999); the leftovers of C77 have names of properties only if the type takes them away; then C85, C27 and C36 | c86_sound: every object in a collection read from such a document is one that can be sent (Sound of C36), if it can be written at all (C85 says when); c86_relay: the rest. Timestamps with an offset that, in UTC, are before the year 0 or after 9999 are left out (InYears; STIX wants UTC, so there are none), as is a bundle nested deeper than 10000. Extended properties of objects sent before it may be added to an object: that is C36; c86_exact: if identifiers are distinct, there is no extension definition and the first collection is ordered, nothing is added but what the first import has added already. Objects of types outside the standard are left out: their arbitrary member names would come with the leftovers. c86_strconv assumes nothing of strconv. |
| C87 | proved | the hashing constructors, collections, ToBundle, the text of the JSON and FromJSON, composed | the text that is hashed is a function of the contributions (`text_determined`, kind by kind); contributions are the same after a value is written and read (`contribution_survives`: times by C24, extensions by their canonical JSON); then C64 | For objects of the constructors, end to end; the hypothesis on mutexes excludes the case in which C10 is false. Two programs are compared that have the same hash function and number formats; with the number formats of Go in c87_strconv. |
| C88 | proved | CustomObject as a map of dynamic values, ToBundle, the text of the JSON, FromJSON | encoding and decoding of dynamic values are inverse (induction over the tree); one step of the parser for each kind of object, whatever is left from the objects before; induction over the bundle. For texts: what is read has such values only (induction over the JSON) | c88_arrives: mixed collections; c88_read: the custom objects of any accepted text can be sent; c88_relay composes them; c88_custom_strconv: with the number formats of Go. Values that a program stores in a custom object and that JSON has no type for (int, []string) are left out: they come back as float64 and []interface{}. That members of a custom object may turn up as extended properties of library objects after it is C30 and C36. |
| C89 | proved | NewBundle, ToBundle, the text of the JSON, FromJSON, for chains of programs (Spec.PassedOn) | one hop: what is read back is marshalled to the same JSON (C63), so the bundle has the same objects; induction over the hops | c89_passed_on: any number of programs, induction over them; c89_any_order: programs with any options, for objects without extended properties; c89_strconv: collections without extended properties and custom objects, with the number formats of Go. The condition on extended properties is the one of c36_exact_partial: without it the parser leaves properties of one object in the next (C30, C36), so that the bundle does change. Texts nested deeper than 10000 are left out: Go refuses them. |
| C90 | partial | CustomObject and its accessors, NewBundle, the text of the JSON, FromJSON, with the number formats of Go | mutual induction over the values: what is written is read as the value JSON has for it (Spec.Comes); integers: the text denotes the integer, ParseFloat gives the nearest double (C68), which is the integer itself up to 2^53; induction over the bundle | False of the code: GetAsStringSlice panics on every list of texts that was sent (c90_strings_panic), and GetAsNumber gives a rounded number for integers greater than 2^53 (c90_false). c90_arrives: what each value becomes; c90_accessors_partial: the other accessors, and GetAsNumber for floats and integers of at most 2^53, agree. Values of other Go types that a program may store (int, structs) are not modelled. |
<!-- /table -->

## 6. Disagreements between property and code

For each, a theorem proves the negation with a concrete witness, and a `_partial`
theorem proves what does hold.

| id | what goes wrong | where | witness |
|---|---|---|---|
| C06 | a member `"Type"` overrides `type` in the object but not in the dispatch; the object lands in another bucket and the typed getter panics | stix.go:985-1124, 183-949 | `c06_variant_panics` |
| C09 | `ForType` is a prefix test: `malware-analysis--…` is `ForType("malware")` | data-types.go | `c09_forType_not_exact` |
| C10 | `NewMutex(n, OptionName(m))` gets the id of `n`, not of `m` | mutex.go | `c10_mutex_renamed` |
| C11 | contributions are joined without escaping and without marking which properties are missing | object.go, network.go, … | `c11_false_order`, `c11_false_ports`, `c11_false_quotes` |
| C13 | `AttackPattern.AddUses` makes a relationship of type `targets` | attack.go | `c13_uses_is_targets` |
| C14 | prefix test again: malware-analysis targets pass where malware is asked for | all helpers | `c14_prefix_accepted` |
| C18 | `OptionContent` on a `Note` panics: the field is a `string`, the option sets an `Identifier`, of the same kind but another type | option.go | `c18_content_on_note_panics` |
| C21, C25 | `b[1:len(b)-1]` panics on a one-byte JSON value | data-types.go, opinion.go, artifact.go | `c21_decode_panics`, `c21_opinion_panics`, `c25_decode_panics` |
| C27 | `ExtensionDefinition` has no `MarshalJSON`; it marshals without required properties | extension.go | `c27_false` |
| C28 | a member with the empty name is lost, as are unknown members of an extension definition | stix.go:1134-1162 | `c28_empty_name_lost`, `c28_extension_definition` |
| C29 | text that is not UTF-8 becomes U+FFFD; an extended property named like a property in another letter case overrides it | encoding/json | `c29_false`, `c29_false_extended` |
| C30, C36 | `peak` is declared outside the loop, so unknown members, and even `type`, leak into later objects of the document | stix.go:985 | `c30_leak`, `c30_leaked_type`, `c36_false` |
| C33 | panics on a non-string `type`, a custom object with a non-string `id`, one-byte timestamps | stix.go, extension.go:335-351 | `c33_panics` |
| C38 | identity without class, note with empty content, opinion zero, location with NaN: constructed, cannot be marshalled | identity.go, note.go, opinion.go, location.go | `c38_false`, `c38_false_nan` |
| C41 | NaN passes every range check | location.go | `c41_nan_accepted` |
| C48 | text that is not UTF-8; an empty non-nil map of hashes comes back nil | data-types.go | `c48_not_text`, `c48_empty_hashes` |
| C54 | `ExtensionDefinition.GetCreated` dereferences a nil pointer, `CustomObject.GetCreated` asserts a string | extension.go:209-217, 367-377 | `c54_panics` |
| C56 | timestamps and most enumeration names are taken from the bytes between the quotes, without undoing escapes: a timestamp with an escape is refused, a name with an escape becomes zero | data-types.go:450-455, opinion.go:112-122, network.go:267-281, … | `c56_timestamp`, `c56_name` |
| C57 | `OptionBelongsTo` is documented for IPv4 and IPv6 addresses and `OptionUserID` for software, where they fail; 15 options also apply to types their comment does not list (`OptionCredential` lists none) | option.go:19-1439, in particular 821-829, 1225-1231 | `c57_belongs_to`, `c57_user_id`, `c57_documented_partial` |
| C59 | identities without `identity_class` and marking definitions without `definition_type` and `definition`, all optional in STIX 2.1, cannot be written; a TLP 2.0 marking definition is read but not written again | identity.go:28, meta.go:263-266 | `c59_identity`, `c59_marking` |
| C62 | members with zero values are not written again; unknown members of nested objects are lost | stix.go:1141-1257, `omitempty` | `c62_false`, `c62_false_nested` |
| C63 | an extended property named like a property up to letter case also sets that property when it is read | stix.go:1141-1257 | `c63_false` |
| C66 | an object together with an error; panics on a nil registry value and on `OptionContent` for notes | tool.go, regkey.go, note.go | `c66_false` |
| C67 | 23 rules of particular types, the confidence range and the order of created and modified are not enforced | constructors | `c67_false` |
| C69 | the name that is hashed is a JSON array of values, not the canonical object of the contributing properties | data-types.go: NewObservableIdentifier | `c69_false_everywhere`, `c69_false`, `c69_not_json`, `c69_swid` |
| C70 | after a custom parser the element is unmarshalled once more into the object it returned | stix.go:1104 | `c70_false` |
| C72 | helpers differ from the tables of the standard in four ways | attack.go, malware.go, infrastructure.go, object.go | `c72_uses`, `c72_prefix`, `c72_consists`, `c72_derived` |
| C74 | sightings, language contents and extension definitions have one timestamp in memory for Created and Modified | sighting.go, meta.go, extension.go | `c74_private_false`, `c74_one_stamp` |
| C83 | number tokens are whatever `strconv.ParseFloat` accepts: `+1`, `01`, `.5`, `5.`, `1_0`, `0x1p4` | internal/jsoncanonicalizer/jsoncanonicalizer.go:229 | `c83_false` |
| C84 | a document with a leap second, or with an escape in a timestamp, is refused | data-types.go:450-455 | `c84_false` |
| C85 | a collection with an identity without a class, as STIX allows it, is read but cannot be bundled | identity.go:28, stix.go: objectToMap | `c85_false` |
| C90 | `GetAsStringSlice` asserts `[]string`, but JSON arrays are read as `[]interface{}`: it panics on every list that was received; `GetAsNumber` rounds integers greater than 2^53 | extension.go:313-335 | `c90_strings_panic`, `c90_false` |

Statements narrowed after the first list, because the first wording was false:

| id | first wording | now | why |
|---|---|---|---|
| C04 | `<type>` equal to the object's own non-empty type | and the type has no `--` and does not end in `-` | with such a type the id does not split into two parts, so `Add` refuses |
| C31 | every list of objects | bundles whose member names are distinct up to letter case | a second `objects` or an `"Objects"` member overrides the first |
| C34 | if an object is malformed, *an error and* no collection are returned; every document | no collection is returned; member names distinct up to case | some malformed objects panic (C33); case variants override `id` (C06) |
| C45 | a value that is not an object is an error | neither an object nor null | `null` gives an empty struct or a nil map |
| C46 | accessors return the zero value | not nil, and panic when something else is stored | unchecked type assertions, extension.go:299-333 |
| C49 | every type string | documents without a case variant of `type` | C06 |

C51 and C54 were added with the accessors, C52, C53 and C56 with the scanner, C55
with the exact description of `time.Parse`, C57 with the comments of the options, C58 and
C59 with tables of the STIX 2.1 properties.

Further observations, not tied to a property: `FromJSON` accepts any JSON object
or `null` as a bundle; `IsValidIdentifier` accepts an empty type; the 38-byte
UUID form does not check its braces; `OptionBelongsTo` always fails on IP
addresses; `OptionLang` on LanguageContent, `OptionModified` on
MarkingDefinition and `OptionExtension` on ExtensionDefinition fail; most
constructors return an object together with an option error, but Artifact,
NetworkTraffic and Sighting return nil; `NewRegistryKey` panics on a nil value
pointer; a nil option counts towards "at least one option" for Process,
RegistryKey, UserAccount and X509Certificate; `GetAsStringSlice` panics on parsed
arrays; `CustomObject.Set` panics on a nil map; the error message of `NewBundle` calls `GetID`
and can panic; `-0.0` is dropped by `omitempty`; times that differ below a millisecond give one
network-traffic id; the relationship constants contain both `exfiltrate-to` and
`exfiltrates-to`; an enumeration name or a timestamp written with JSON escapes is not
recognised, because the decoders look at the bytes between the quotes; leap seconds
are refused.

## 7. Mutation testing

`seeded/LOG.jsonl` has one line per attempt: the definition edited, the edit, the
claim it breaks, the theorems that failed, the theorems tightened as a result. A
mutant is applied to a scratch copy of `lean/`; theorems that fail are noted and
replaced by `sorry`, and the build goes on until it is settled which property
theorems fail or depend on a failed one (`failed`; `first_errors` are the
declarations whose proofs stopped the build). Edits that nothing noticed led to
`c44_only_documents`, `c43_accepted`, `c51_names`, C58, C59 and C83. A proof that fails
shows that the edit was noticed, not that its statement is false of the edited model.

## 8. Axioms

Printed by `#print axioms`; all names are in the namespace `Stix`.

<!-- axioms -->
* propext (16): `c06_returns`, `c06_named`, `c08_allTypes`, `c17_nil_skipped`, `c18_content_on_note_panics`, `c21_decode_panics`, `c21_opinion_panics`, `c23_year_10000_fails`, `c25_decode_panics`, `c26_no_panic`, `c48_reference_carries`, `c48_phase`, `c51_names`, `c57_belongs_to`, `c57_user_id`, `c71_found`
* no axioms (3): `c12_preferred_hash`, `c22_year_10000`, `c46_nil`
* propext, Quot.sound (74): `c03_returns`, `c06_variant_panics`, `c07_unique_parts`, `c08_typePart_iff`, `c08_library_types`, `c08_version4`, `c08_version5`, `c09_forType_not_exact`, `c09_forType_prefix_partial`, `c09_forType_library_partial`, `c09_forTypes`, `c09_forTypes_library_partial`, `c11_false_order`, `c11_false_ports`, `c11_false_quotes`, `c12_only_preferred`, `c14_prefix_accepted`, `c15_missing`, `c19_round_trip`, `c19_undefined_value`, `c19_names_distinct`, `c19_constants`, `c20_unknown_name`, `c20_known_name`, `c21_decode_panic_iff_partial`, `c26_round_trip`, `c26_standard_base64`, `c28_empty_name_lost`, `c28_extension_definition`, `c30_prefix_failure`, `c30_leak`, `c30_leaked_type`, `c31_no_objects`, `c33_panics`, `c33_text_panics`, `c35_returns`, `c38_false`, `c38_false_nan`, `c41_nan_accepted`, `c46_get_after_sets`, `c46_string`, `c46_strings`, `c48_not_text`, `c48_empty_hashes`, `c49_bijective`, `c50_values`, `c54_panics`, `c58_names`, `c59_marking`, `c62_false`, `c62_false_nested`, `c66_something`, `c66_false`, `c69_swid`, `c70_false`, `c71_shared`, `c71_write`, `c72_uses`, `c72_prefix`, `c72_consists`, `c72_derived`, `c73_spoiled`, `c75_names`, `c75_shape`, `c75_unique`, `c75_empty`, `c78_one_custom`, `c80_marshal`, `c81_readers`, `c81_race`, `c81_lost`, `c82_collection`, `c82_returns`, `c90_false`
* propext, Classical.choice, Quot.sound (257): `c01_get_latest`, `c01_get_nil`, `c01_parsed`, `c02_allObjects_order`, `c02_allObjects_deterministic`, `c02_listing_unique`, `c03_nosort_permutation`, `c03_getAll`, `c04_custom`, `c04_accepts`, `c04_no_trace`, `c05_getAll`, `c05_partition`, `c05_one_type`, `c06_singular_partial`, `c06_plural_partial`, `c06_singular_exact`, `c06_plural_exact`, `c06_added`, `c07_valid_identifier`, `c08_new_identifier`, `c08_new_observable_identifier`, `c08_condition_necessary`, `c08_distinct`, `c10_deterministic_partial`, `c10_valid`, `c10_mutex_renamed`, `c11_distinct_partial`, `c12_identifier`, `c13_edge_partial`, `c13_uses_is_targets`, `c13_success`, `c13_otherwise_error`, `c14_rejects_partial`, `c14_not_identifier`, `c14_library_type`, `c15_carries`, `c16_option_frame`, `c17_first_failure`, `c17_untouched`, `c17_last_wins`, `c17_swap`, `c17_extensions`, `c18_options_no_panic_partial`, `c18_option_lists_no_panic_partial`, `c22_timestamp_text`, `c22_length_and_zone`, `c23_round_trip`, `c23_second_round_trip`, `c24_order_preserved`, `c24_order_reflected`, `c25_decode_panic_iff_partial`, `c26_reads_base64`, `c26_rejects`, `c27_required_partial`, `c27_members_partial`, `c27_extensionDefinition_partial`, `c27_false`, `c28_captured_partial`, `c28_dropped`, `c29_strconv_partial`, `c29_round_trip_partial`, `c29_false`, `c29_false_extended`, `c29_text_partial`, `c30_append_partial`, `c30_append_drop_partial`, `c30_append_plain_partial`, `c31_bundle_array`, `c32_drop_custom`, `c33_no_panic_partial`, `c33_text_partial`, `c34_accounts`, `c34_all`, `c34_nothing_else`, `c34_badly_identified`, `c34_malformed`, `c35_succeeds`, `c35_bundle`, `c35_new_bundle`, `c36_round_trip_partial`, `c36_no_extended`, `c36_exact_partial`, `c36_false`, `c36_strconv_partial`, `c36_text_partial`, `c37_wellformed`, `c38_marshals_partial`, `c39_seen_order`, `c39_seen_error`, `c40_count_range`, `c40_count_error`, `c41_location_partial`, `c41_refused`, `Props.Canon.c42_same_value_same_bytes`, `Props.Canon.c42_member_order`, `Props.Canon.c42_white_space`, `Props.Canon.c42_tells_apart`, `c42_strconv`, `Props.Canon.c43_sorted_and_idempotent`, `Props.Canon.c43_accepted`, `c43_strconv`, `Props.Canon.c44_duplicates_rejected`, `Props.Canon.c44_accepts_iff_no_duplicates`, `Props.Canon.c44_only_documents`, `c45_decode`, `c45_accept`, `c45_error`, `c46_number`, `c46_time`, `c47_extension_definition`, `c48_reference_ok_iff`, `c48_reference_error`, `c48_reference_round_trip_partial`, `c48_phase_round_trip_partial`, `c49_go_type`, `c49_present`, `c50_ids`, `c50_collection`, `c50_marshal`, `c50_round_trip`, `c50_bundle`, `c51_accessors`, `c51_document`, `c52_value`, `c52_layout`, `c53_refused`, `c53_truncated`, `c53_trailing`, `c54_document_partial`, `c54_custom_partial`, `c54_constructed`, `c55_read`, `c55_exact`, `c55_only_strings`, `c55_utc`, `c56_spelling_partial`, `c56_timestamp`, `c56_name`, `c57_documented_partial`, `c57_unchanged`, `c57_list_partial`, `c58_shape`, `c59_required_partial`, `c59_identity`, `c60_document`, `c60_plain`, `c60_last`, `c61_says`, `c62_kept_partial`, `c63_stable_partial`, `c63_false`, `c64_sound`, `c64_end_to_end`, `c64_strconv`, `c65_succeeds`, `c66_object_and_error_partial`, `c66_named_error_partial`, `c66_panics_iff_partial`, `c67_enforced_partial`, `c67_file_partial`, `c67_false`, `c68_exact`, `c68_text`, `c68_read`, `c68_nearest_exists`, `c68_canonical`, `c68_marshal`, `c68_assumptions`, `c69_identifier_partial`, `c69_false_everywhere`, `c69_sha1`, `c69_false`, `c69_not_json`, `c70_others`, `c70_unregistered`, `c70_returned_partial`, `c70_kept_partial`, `c70_error`, `c71_get`, `c71_listed`, `c71_renamed`, `c71_twice`, `c72_defined_partial`, `c72_common_partial`, `c72_complete_partial`, `c73_runs`, `c73_well_formed`, `c73_library`, `c74_constructs`, `c74_kept`, `c74_own_memory`, `c74_private_partial`, `c74_one_stamp`, `c74_private_false`, `c75_text`, `c76_accepted`, `c76_crashes`, `c76_refused`, `c76_every`, `c77_entries`, `c78_object`, `c78_document`, `c78_one_meaning`, `c79_merge_get`, `c79_merge_order`, `c79_documents`, `c79_nothing_left`, `c79_not_exact`, `c80_import`, `c80_model`, `c80_export`, `c80_reexport`, `c80_export_nosort`, `c80_either`, `c81_one_by_one`, `c81_no_race`, `c81_goes_on`, `c81_locked`, `c81_no_deadlock`, `c82_bundle`, `c82_newBundle`, `c82_values`, `c82_listing`, `c82_own`, `c82_fails`, `c83_false`, `c83_value`, `c83_only_literals`, `c83_numbers`, `c83_accepts`, `c83_accepted_partial`, `c84_accepted_partial`, `c84_false`, `c85_values`, `c85_export_partial`, `c85_strconv_partial`, `c85_false`, `c86_sound`, `c86_relay`, `c86_strconv`, `c86_exact`, `c87_contributions`, `c87_received`, `c87_rebuilt`, `c87_strconv`, `c88_arrives`, `c88_custom_strconv`, `c88_read`, `c88_relay`, `c89_passed_on`, `c89_strconv`, `c89_any_order`, `c90_arrives`, `c90_accessors_partial`, `c90_strings_panic`, `c90_receiver_partial`
<!-- /axioms -->
