{"id": "C01", "title": "Collection lookup returns the latest accepted object", "statement": "After any history of Add calls on a Collection, Get(id) returns the object of the most recent Add call that returned no error and whose object had that id; it returns nil when there was none.", "quantifier": "every sequence of objects added (any ids, types, repeats, rejected ones in between), every collection option, every id looked up, including ids that are not of the form type--uuid", "why_tests_cant": "Histories are unbounded, and the answer depends on how the id-splitting in Get, the type bucket chosen by Add and the acceptance check agree for all strings.", "anchors": ["stix.go: Collection.Add", "stix.go: Collection.Get", "stix.go: Collection.getObject", "data-types.go: HasValidIdentifier"]}
{"id": "C02", "title": "AllObjects keeps first-insertion order without duplicates", "statement": "On a Collection created without NoSortOption, AllObjects returns exactly one entry per accepted id, ordered by the first accepted Add of that id, each entry being the latest version of the object and never nil; updating an object does not move it.", "quantifier": "every history of Add calls, including re-adding and rejected objects", "why_tests_cant": "The order list and the nested buckets are two data structures that must stay in step over every history.", "anchors": ["stix.go: Collection.Add", "stix.go: Collection.AllObjects"]}
{"id": "C03", "title": "NoSortOption only gives up ordering", "statement": "With NoSortOption, AllObjects returns a permutation of what the same history would have returned without the option, whatever order the runtime iterates its maps in; the same holds for GetAll.", "quantifier": "every history of Add calls and every iteration order of every map", "why_tests_cant": "Map iteration order is chosen by the runtime at random; a test sees only some orders.", "anchors": ["stix.go: NoSortOption", "stix.go: Collection.AllObjects", "stix.go: Collection.GetAll"]}
{"id": "C04", "title": "Add accepts exactly the well-identified objects and rejects without side effects", "statement": "Add returns nil exactly when the object's id is <type>--<uuid> with <type> equal to the object's own non-empty type, which contains no \"--\" and does not end in \"-\", and the rest a parsable UUID; when it returns an error, no later Get, GetAll or AllObjects call can tell that it was called.", "quantifier": "every object and every prior history", "why_tests_cant": "The set of strings is infinite and 'no observable effect' ranges over all later observations.", "anchors": ["stix.go: Collection.Add", "data-types.go: HasValidIdentifier", "extension.go: CustomObject"]}
{"id": "C05", "title": "GetAll partitions the collection by type", "statement": "GetAll(t) returns exactly the stored objects that had type t when added, each once, and nil when there is none; every object in AllObjects appears in GetAll of exactly one type.", "quantifier": "every history, every type string and every map iteration order", "why_tests_cant": "Quantifies over all histories and over type strings outside the known vocabulary.", "anchors": ["stix.go: Collection.GetAll", "stix.go: Collection.AllObjects"]}
{"id": "C06", "title": "Typed getters are safe and agree with the generic lookup", "statement": "For a Collection filled by FromJSON without custom parsers, every typed getter (Malware(id), AllMalware(), ...) returns without panicking; the singular getter returns the object Get(id) would return if that object's type is the getter's type and nil otherwise, and the plural getter returns the same objects as GetAll of that type.", "quantifier": "every JSON input that FromJSON accepts, every one of the 42 getter pairs and every id", "why_tests_cant": "The getters use unchecked type assertions; safety needs an invariant linking each bucket to one Go type over every parse.", "anchors": ["stix.go: typed getters", "stix.go: processObjects"]}
{"id": "C07", "title": "Identifier validity is exactly type--uuid", "statement": "IsValidIdentifier(id) is true exactly when id splits at its only \"--\" separator into two parts of which the second is a UUID in one of the four spellings the UUID parser accepts; the type part is not examined.", "quantifier": "every byte string", "why_tests_cant": "The domain is all strings, including ones with several or overlapping dash runs.", "anchors": ["data-types.go: IsValidIdentifier"]}
{"id": "C08", "title": "Freshly generated identifiers are always valid", "statement": "NewIdentifier(t) yields an identifier that IsValidIdentifier accepts, that ForType(t) accepts, and that lets an object of type t into a Collection, for every random UUID; this holds for all library types and for any custom type that is non-empty, contains no \"--\" and does not end in \"-\" (and fails otherwise). The identifier is the type, two dashes and the random UUID of version 4 (RFC 4122), so two are the same only if the types and the 122 random bits are; NewObservableIdentifier gives a UUID of version 5 in the namespace of the standard.", "quantifier": "every 16 random bytes and every type string satisfying the stated condition", "why_tests_cant": "2^122 random values and all type strings.", "anchors": ["data-types.go: NewIdentifier", "data-types.go: HasValidIdentifier", "data-types.go: AllTypes", "data-types.go: NewObservableIdentifier"]}
{"id": "C09", "title": "ForType recognises exactly identifiers of that type", "statement": "For a valid identifier, id.ForType(t) holds exactly when the type part of the identifier is t, and ForTypes is true exactly when ForType is true for one of the arguments.", "quantifier": "every identifier and every list of types", "why_tests_cant": "False matches come from type names that are prefixes of other type names, including names outside the vocabulary.", "anchors": ["data-types.go: Identifier.ForType", "data-types.go: Identifier.ForTypes"]}
{"id": "C10", "title": "Deterministic observable identifiers", "statement": "Creating an observable twice with the same id-contributing property values gives the same identifier, whatever the other options are and in whatever order the options are given; the identifier is always valid for the object's type.", "quantifier": "every list of options for each observable constructor and every pair of option lists that agree on contributing fields (options of the library; see C73 for others)", "why_tests_cant": "Ranges over all option lists and all values.", "anchors": ["data-types.go: NewObservableIdentifier", "as.go: NewAutonomousSystem", "file.go: NewFile", "software.go: NewSoftware", "network.go: NewNetworkTraffic", "user.go: NewUserAccount", "email.go: NewEmailMessage"]}
{"id": "C11", "title": "Different contributing values give different observable identifiers", "statement": "Two observables of the same type whose id-contributing properties differ are given different identifiers (up to collisions of the UUIDv5 hash), i.e. the text fed to the hash determines the contributing values.", "quantifier": "every pair of contributing-value tuples for each observable type", "why_tests_cant": "Injectivity over all pairs of strings; collisions need adversarial values that no sample is likely to contain.", "anchors": ["as.go", "dns.go", "directory.go", "email.go", "file.go", "ip.go", "mac.go", "mutex.go", "network.go", "regkey.go", "software.go", "url.go", "user.go", "x509.go", "artifact.go"]}
{"id": "C12", "title": "Hash contribution uses the STIX preference order", "statement": "When an observable has hashes, the id contribution uses exactly one of them: MD5 if present, else SHA-1, else SHA-256, else SHA-512, and is independent of every other hash in the map.", "quantifier": "every map of hashes", "why_tests_cant": "All subsets and all values of the hash map.", "anchors": ["data-types.go: Hashes.getIDContribution"]}
{"id": "C13", "title": "Relationship helpers produce the promised edge", "statement": "Each AddX relationship method on an object returns, for an identifier it accepts and options that apply, a relationship whose source is the object's id, whose target is the given id, whose type is the one named by the method, whose id is valid, and which a Collection accepts; otherwise it returns an error.", "quantifier": "every receiver object, every target identifier, every list of options, all methods (options of the library; see C73 for others)", "why_tests_cant": "Options could overwrite the relationship fields; the claim ranges over all option lists and ids.", "anchors": ["relationship.go: NewRelationship", "attack.go", "campaign.go", "course-of-action.go", "dns.go", "email.go", "file.go", "identity.go", "indicator.go", "infrastructure.go", "intrusion-set.go", "ip.go", "malware-analysis.go", "malware.go", "object.go", "threat-actor.go", "tool.go"]}
{"id": "C14", "title": "Relationship helpers reject wrong targets", "statement": "An AddX method with a fixed list of allowed target types returns ErrInvalidParameter and no relationship when the target id is not a valid identifier or its type is not one of the allowed types.", "quantifier": "every target identifier string and every such method", "why_tests_cant": "The identifier space is infinite; prefix-related type names are the corner cases.", "anchors": ["data-types.go: ForTypes", "malware.go", "campaign.go", "threat-actor.go", "infrastructure.go", "indicator.go"]}
{"id": "C15", "title": "NewRelationship requires all three ends", "statement": "NewRelationship fails with ErrPropertyMissing exactly when the relationship type, the source or the target is empty, and otherwise builds a relationship carrying precisely those three values unless an option fails.", "quantifier": "every three strings and every option list (options of the library; see C73 for others)", "why_tests_cant": "All strings and all option lists.", "anchors": ["relationship.go: NewRelationship", "option.go: applyOptions"]}
{"id": "C16", "title": "An option touches only its own property", "statement": "Applying an option to an object either fails and leaves every property as it was, or sets exactly the property it is named after to the given value and leaves all other properties, in particular id and type, unchanged.", "quantifier": "every option, every object of every type, every value (options of the library; see C73 for others)", "why_tests_cant": "A frame condition over all fields of 40-odd structs and all values; options go through reflection with field promotion.", "anchors": ["option.go: setField", "option.go: reflectValue", "option.go: getFieldFromBaseStruct"]}
{"id": "C17", "title": "Option lists: last one wins, distinct ones commute, first failure stops", "statement": "Applying a list of options gives each property the value of the last option for it; swapping two neighbouring options for different properties does not change the result; nil options are skipped; the first failing option is reported and the ones after it are not applied.", "quantifier": "every list of options and every object (options of the library; see C73 for others)", "why_tests_cant": "Unbounded lists and all permutations.", "anchors": ["option.go: applyOptions", "option.go: setField"]}
{"id": "C18", "title": "Options never crash", "statement": "Passing any option to any constructor either succeeds or yields an error; it never panics.", "quantifier": "every pair of an option function and an object type", "why_tests_cant": "Reflection panics depend on exact Go types of option argument and struct field, which the kind check does not compare.", "anchors": ["option.go: setField", "note.go", "option.go: OptionContent"]}
{"id": "C19", "title": "Enumeration values survive JSON", "statement": "For each enumerated type (encryption algorithm, extension type, opinion, socket address family, socket type, Windows integrity level, service start type, service type, service status, registry data type), encoding a defined value and decoding it gives the value back, and distinct values have distinct names.", "quantifier": "every value of every enumeration and every map iteration order", "why_tests_cant": "Decoding looks the name up in a map, in places by ranging over it in random order.", "anchors": ["artifact.go: EncryptionAlgorithm", "extension.go: ExtensionType", "opinion.go: OpinionValue", "network.go: SocketAddressFamily", "network.go: SocketType", "process.go", "regkey.go: RegistryDataType"]}
{"id": "C20", "title": "Unknown enumeration names decode to the invalid value", "statement": "Decoding a JSON string that is not one of an enumeration's names yields that enumeration's zero (invalid) value rather than some other value.", "quantifier": "every string and every enumeration", "why_tests_cant": "All strings outside a finite vocabulary.", "anchors": ["artifact.go", "extension.go", "opinion.go", "network.go", "process.go", "regkey.go"]}
{"id": "C21", "title": "Decoding an enumeration never crashes", "statement": "Decoding any JSON value into an enumerated property returns a value or an error; it does not panic.", "quantifier": "every JSON value", "why_tests_cant": "Short inputs such as a single digit hit slice-bound corner cases.", "anchors": ["artifact.go: EncryptionAlgorithm.UnmarshalJSON", "opinion.go: OpinionValue.UnmarshalJSON", "extension.go: ExtensionType.UnmarshalJSON"]}
{"id": "C22", "title": "Timestamps are written in UTC with exactly three fractional digits", "statement": "The JSON form of a timestamp between years 0 and 9999 is always YYYY-MM-DDThh:mm:ss.mmmZ: 24 characters, UTC, exactly three fractional digits, fields in range.", "quantifier": "every instant and every zone offset", "why_tests_cant": "All instants, all offsets.", "anchors": ["data-types.go: Timestamp.String", "data-types.go: Timestamp.MarshalJSON"]}
{"id": "C23", "title": "Timestamp round trip loses at most the sub-millisecond part", "statement": "Decoding the JSON form of a timestamp gives the same instant truncated down to the millisecond, so a second round trip changes nothing.", "quantifier": "every instant in years 0 to 9999", "why_tests_cant": "Calendar arithmetic over all instants, leap years included.", "anchors": ["data-types.go: Timestamp.String", "data-types.go: Timestamp.UnmarshalJSON"]}
{"id": "C24", "title": "Writing timestamps preserves order", "statement": "If one instant is not after another, then its JSON string is not after the other's in byte order, and so the decoded instants keep their order.", "quantifier": "every pair of instants in years 0 to 9999", "why_tests_cant": "All pairs of instants.", "anchors": ["data-types.go: Timestamp.String"]}
{"id": "C25", "title": "Decoding a timestamp never crashes", "statement": "Decoding any JSON value into a timestamp property returns a timestamp or an error; it does not panic.", "quantifier": "every JSON value", "why_tests_cant": "One-byte JSON values such as a digit are the corner case.", "anchors": ["data-types.go: Timestamp.UnmarshalJSON"]}
{"id": "C26", "title": "Binary data survives JSON", "statement": "A Binary value encoded to JSON is the standard padded base64 of its bytes, and decoding it gives back the same bytes. A JSON string decodes to some bytes exactly when it is base64 text of them (line breaks and unused trailing bits are ignored); any other string is an error.", "quantifier": "every byte sequence of every length", "why_tests_cant": "All lengths modulo 3 and all byte values.", "anchors": ["data-types.go: Binary.MarshalJSON", "data-types.go: Binary.UnmarshalJSON"]}
{"id": "C27", "title": "Serialisation emits exactly the set properties", "statement": "Marshalling a STIX object succeeds exactly when all its required properties are set; the output then has one member for every set property and every boolean one under its STIX name, plus every extended top-level property, and nothing else.", "quantifier": "every object of every STIX type, every combination of set and unset properties, every set of extended properties", "why_tests_cant": "2^n combinations per struct and all extension keys.", "anchors": ["stix.go: objectToMap", "stix.go: valueToMap", "object.go: marshalToJSONHelper"]}
{"id": "C28", "title": "Unknown top-level properties are captured exactly", "statement": "When a single object of a known STIX type is parsed, GetExtendedTopLevelProperties holds exactly the members whose names are not properties of that type, with their values, and is nil if there are none; with DropCustomOption it is nil.", "quantifier": "every JSON object of every known type", "why_tests_cant": "All sets of member names.", "anchors": ["stix.go: processObjects", "stix.go: filterOutNonCustom", "object.go: addCustomProperties"]}
{"id": "C29", "title": "Each object survives marshal and parse", "statement": "Marshalling any standard object whose required properties are set and parsing the result gives an equal object (timestamps to the millisecond, zero-valued optional numbers and absent ones identified).", "quantifier": "every object of every one of the 42 types with arbitrary property values", "why_tests_cant": "All values of about 500 fields.", "anchors": ["stix.go: valueToMap", "stix.go: processObjects", "object.go: marshalToJSONHelper"]}
{"id": "C30", "title": "Objects in one document do not influence each other", "statement": "Parsing a document with several objects gives the same objects as parsing each of them on its own.", "quantifier": "every list of JSON objects", "why_tests_cant": "Interference depends on the combination and order of objects.", "anchors": ["stix.go: processObjects"]}
{"id": "C31", "title": "Bundle and bare array are equivalent inputs", "statement": "FromJSON on a bundle and FromJSON on the bare array of the bundle's objects give the same result (same collection or same error).", "quantifier": "every list of objects, every bundle id and every collection option; bundles whose member names are distinct up to letter case", "why_tests_cant": "All documents.", "anchors": ["stix.go: FromJSON", "stix.go: processBundle"]}
{"id": "C32", "title": "DropCustomOption keeps custom data out", "statement": "A collection parsed with DropCustomOption contains only objects of the known STIX types (or of types with a registered parser) and none of them has extended top-level properties.", "quantifier": "every JSON document and option list containing DropCustomOption", "why_tests_cant": "All documents and object orders.", "anchors": ["stix.go: DropCustomOption", "stix.go: processObjects"]}
{"id": "C33", "title": "Parsing never crashes", "statement": "FromJSON returns a collection or an error for every input; it never panics.", "quantifier": "every JSON document", "why_tests_cant": "Crashes hide behind unchecked type assertions on attacker-controlled values.", "anchors": ["stix.go: FromJSON", "stix.go: processObjects", "extension.go: CustomObject.GetID"]}
{"id": "C34", "title": "Parsing is all or nothing", "statement": "If FromJSON returns no error, every object in the document that has a type (and is not dropped as custom) is in the collection, and nothing else is; if any object is malformed or badly identified, no collection is returned.", "quantifier": "every JSON document whose objects have member names distinct up to letter case", "why_tests_cant": "Failures at any position in documents of any length.", "anchors": ["stix.go: FromJSON", "stix.go: processObjects"]}
{"id": "C35", "title": "Bundles list the objects in collection order", "statement": "ToBundle succeeds exactly when every object marshals, and then the bundle has type bundle, a valid bundle id, and the encodings of the objects of AllObjects in that order.", "quantifier": "every collection", "why_tests_cant": "All collections; a failure may be at any position.", "anchors": ["stix.go: Collection.ToBundle", "bundle.go: NewBundle"]}
{"id": "C36", "title": "Bundle round trip", "statement": "Parsing the JSON of a collection's bundle gives a collection with the same ids in the same order and equal objects.", "quantifier": "every collection of standard objects that can be bundled", "why_tests_cant": "All collections, all object values, with extended properties.", "anchors": ["stix.go: Collection.ToBundle", "stix.go: FromJSON"]}
{"id": "C37", "title": "Constructors produce well-formed objects", "statement": "Every NewX constructor that returns no error returns an object of its own STIX type with a valid id of that type, so that Collection.Add accepts it, with spec_version, created and modified set where the type has them unless an option replaced them, and created not after modified by default.", "quantifier": "every constructor, every argument and every option list (options of the library; see C73 for others)", "why_tests_cant": "All arguments and options of about 40 constructors.", "anchors": ["object.go: newSTIXDomainObject", "object.go: newSTIXRelationshipObject", "object.go: newSTIXCyberObservableObject", "malware.go: NewMalware", "note.go: NewNote"]}
{"id": "C38", "title": "Constructed objects can be bundled", "statement": "An object returned without error by a constructor can be marshalled, provided no option was used to blank a required property.", "quantifier": "every constructor, argument and option list (options of the library; see C73 for others)", "why_tests_cant": "Depends on which fields are required by the encoder but not checked by the constructor.", "anchors": ["identity.go: NewIdentity", "note.go: NewNote", "opinion.go: NewOpinion", "stix.go: valueToMap"]}
{"id": "C39", "title": "First-seen never after last-seen where checked", "statement": "NewCampaign and NewSighting never return, without error, an object whose last_seen is before its first_seen, whatever order the options come in.", "quantifier": "every pair of times and every option list (options of the library; see C73 for others)", "why_tests_cant": "All option lists.", "anchors": ["campaign.go: NewCampaign", "sighting.go: NewSighting"]}
{"id": "C40", "title": "Sighting count range", "statement": "NewSighting without error implies 0 <= count <= 999999999 and a non-empty sighting_of reference; a count outside the range gives ErrInvalidProperty and no object.", "quantifier": "every count and every option list (options of the library; see C73 for others)", "why_tests_cant": "All integers.", "anchors": ["sighting.go: NewSighting"]}
{"id": "C41", "title": "Location coordinates are consistent", "statement": "A location returned without error has latitude in [-90,90], longitude in [-180,180], latitude and longitude both given or both absent, precision only with both, and at least one of region, country or coordinates.", "quantifier": "every latitude, longitude, precision and option list (options of the library; see C73 for others)", "why_tests_cant": "All floating point values including infinities.", "anchors": ["location.go: NewLocation"]}
{"id": "C42", "title": "Canonical JSON depends on the value of a document, and on nothing else", "statement": "Canonicalising two JSON texts that differ only in insignificant whitespace, in the order of object members, in the spelling of strings and in the spelling of numbers gives the same bytes; two texts that denote different values never get the same bytes.", "quantifier": "every two JSON documents, every permutation of members at every level", "why_tests_cant": "All permutations and nestings; that no two different values share their bytes is a statement about all pairs of documents.", "anchors": ["internal/jsoncanonicalizer/jsoncanonicalizer.go: Transform"]}
{"id": "C43", "title": "Canonicalisation is idempotent and sorted", "statement": "The canonical form has the members of every object strictly ascending by UTF-16 code units of their names and no insignificant whitespace, and canonicalising it again returns it unchanged.", "quantifier": "every JSON document the canonicaliser accepts", "why_tests_cant": "All documents.", "anchors": ["internal/jsoncanonicalizer/jsoncanonicalizer.go: Transform"]}
{"id": "C44", "title": "Canonicalisation rejects duplicate members", "statement": "A JSON text in which some object has two members with the same name is rejected with an error; without duplicates a well-formed text is accepted.", "quantifier": "every JSON document, any nesting and any position of the duplicates", "why_tests_cant": "All documents and positions.", "anchors": ["internal/jsoncanonicalizer/jsoncanonicalizer.go: Transform"]}
{"id": "C45", "title": "Extensions keep every key and decode known ones to their types", "statement": "Decoding an extensions member keeps every key; a value under one of the twelve predefined keys becomes the corresponding extension struct and any other value becomes a CustomObject; a value that is neither a JSON object nor null is an error.", "quantifier": "every extensions object", "why_tests_cant": "All key sets and values.", "anchors": ["extension.go: Extensions.UnmarshalJSON"]}
{"id": "C46", "title": "Custom object accessors", "statement": "For a CustomObject that is not nil, Get after Set returns the value set and leaves other keys alone; the typed accessors return the stored value when it has the right type and the zero value when the key is absent, and panic when something else is stored.", "quantifier": "every sequence of Set calls and every key", "why_tests_cant": "All histories and keys.", "anchors": ["extension.go: CustomObject"]}
{"id": "C47", "title": "Extension definitions are complete", "statement": "NewExtensionDefinition returns ErrInvalidParameter and no object exactly when the name, schema, version or extension types are missing.", "quantifier": "every combination of arguments and options (options of the library; see C73 for others)", "why_tests_cant": "All arguments.", "anchors": ["extension.go: NewExtensionDefinition"]}
{"id": "C48", "title": "External references and kill chain phases are complete", "statement": "NewExternalReference succeeds exactly when the name and at least one of description, url and external id are non-empty, NewKillChainPhase exactly when both arguments are non-empty; on success the object carries exactly the arguments and marshals to JSON that parses back to it.", "quantifier": "all strings and hash maps", "why_tests_cant": "All strings.", "anchors": ["data-types.go: NewExternalReference", "data-types.go: NewKillChainPhase"]}
{"id": "C49", "title": "The parser knows every library type", "statement": "Each of the library's STIX object types is parsed into its own Go type whose type property is that type, distinct types go to distinct Go types, and every other type string becomes a CustomObject.", "quantifier": "every type string, in documents without a member whose name is \"type\" in other letter case", "why_tests_cant": "All strings outside the vocabulary.", "anchors": ["stix.go: processObjects", "data-types.go: AllTypes"]}
{"id": "C50", "title": "TLP markings are fixed points", "statement": "The four predefined TLP marking definitions have distinct valid ids, can be added to any collection, marshal, and parse back unchanged.", "quantifier": "every collection they are added to and each of the four markings", "why_tests_cant": "All collections.", "anchors": ["meta.go: TLPWhite, TLPGreen, TLPAmber, TLPRed"]}
{"id": "C51", "title": "Typed extension accessors agree with the document", "statement": "On an object the parser has made of a document, none of the twelve typed extension accessors (File.ArchiveExtension, NetworkTraffic.TCPExtension, ...) panics; each returns nil when the document has no extension under its key, and otherwise the extension the document has there.", "quantifier": "every accepted document, every object in the resulting collection and every accessor; for what is returned, documents whose objects have distinct member names and none that is \"extensions\" in other letter case", "why_tests_cant": "The accessors do unchecked type assertions on what decoding arbitrary extension documents has stored.", "anchors": ["file.go: File.ArchiveExtension", "network.go: NetworkTraffic.TCPExtension", "process.go: Process.WindowsProcessExtension", "user.go: UserAccount.UNIXAccountExtension", "extension.go: Extensions.UnmarshalJSON"]}
{"id": "C52", "title": "White space and the spelling of member names do not matter", "statement": "FromJSON returns the same result for any two JSON texts that differ only in the white space between tokens and in how the characters of member names are written (escapes): the result is determined by the JSON value. A well-formed text is never misread: objects, strings and numbers reach the library as RFC 8259 says they are.", "quantifier": "all pairs of JSON texts with the same value nested at most 10000 deep, all option lists", "why_tests_cant": "There are infinitely many layouts of a document; tests use a handful of fixed texts.", "anchors": ["stix.go:953-978"]}
{"id": "C53", "title": "Bytes that are not one JSON text are refused", "statement": "If the bytes given to FromJSON are not one JSON text (RFC 8259, nested at most 10000 deep), it returns an error and no collection. In particular a document that was cut off anywhere before its last token, and a document followed by anything but white space, are refused; no part of such a document is imported.", "quantifier": "all byte strings, all documents and all places to cut them, all option lists", "why_tests_cant": "Malformed inputs are infinitely many; a fuzzer samples them.", "anchors": ["stix.go:953-978"]}
{"id": "C54", "title": "The time accessors agree with the document", "statement": "On every object that FromJSON or a constructor returns, GetCreated and GetModified return the time of the object, or nil if it has none: for an object from a document the instant that its created or modified member denotes and nil if there is no such member, for a constructed object the time of the call unless an option set it, and nil for kinds without such a property. They do not panic.", "quantifier": "every accepted document, every object in the collection, every constructor and option list (options of the library; see C73 for others)", "why_tests_cant": "All documents; the accessors dereference and assert types of what was decoded.", "anchors": ["object.go: GetCreated, GetModified", "meta.go: GetCreated, GetModified", "extension.go: ExtensionDefinition.GetCreated", "extension.go: CustomObject.GetCreated"]}
{"id": "C55", "title": "Timestamps are read as the instant they denote", "statement": "Decoding a timestamp YYYY-MM-DDThh:mm:ss, with a fraction of any length or none and with Z or a zone offset, of a date that exists, gives the instant it denotes, cut to nanoseconds; writing it again gives that instant in UTC, so that timestamps of the same instant in different zones are written alike. A string that is not a timestamp, up to a few tolerated spellings (one-digit hour, decimal comma, offsets of 24 hours or 60 minutes), and any JSON value that is not a string, is not read as one.", "quantifier": "all dates of the years 0 to 9999, all fractions, all zone offsets; all strings and all JSON values", "why_tests_cant": "Calendar and zone arithmetic over all instants; all malformed strings.", "anchors": ["data-types.go: Timestamp.UnmarshalJSON", "data-types.go: Timestamp.String"]}
{"id": "C56", "title": "Escapes in strings do not matter", "statement": "FromJSON gives the same result for two JSON texts that denote the same JSON value, however the strings in them are spelled (escapes such as \\u0061 or \\/ instead of the characters themselves).", "quantifier": "all pairs of JSON texts with equal values, all option lists without user parsers", "why_tests_cant": "Every string has infinitely many documents around it and many spellings, and each property of each object type has its own decoder.", "anchors": ["stix.go:953-1132", "data-types.go: Timestamp.UnmarshalJSON", "opinion.go: OpinionValue.UnmarshalJSON", "network.go: UnmarshalJSON methods"]}
{"id": "C57", "title": "An option applies exactly to the types its documentation lists", "statement": "Each option function names in its comment the object types it is valid for. Applying the option to an object succeeds if the object is of a listed type, and returns an error (leaving the object as it was) if it is not.", "quantifier": "all option functions, all values, all objects of all types, all lists of options (options of the library; see C73 for others)", "why_tests_cant": "There are 157 options and 40 types, an arbitrary value for each pair, and arbitrary lists of options; a test samples a few pairs, mostly successful ones.", "anchors": ["option.go:19-1439", "option.go:1441-1497"]}
{"id": "C58", "title": "Serialised objects have the shape the STIX 2.1 standard prescribes", "statement": "The JSON of an object of a STIX type has a member for each property that STIX 2.1 requires of the type. Each of its members is either a property that the standard defines for the type, with a JSON value of the data type given there (string, identifier, timestamp, integer, list of a type, nested object with its own properties, and so on), or one of the object's extended properties.", "quantifier": "all STIX types, all objects of those types with texts that are Unicode and times that have four-digit years, all extended properties", "why_tests_cant": "There are over 600 properties in some 60 tables, nested to several levels, with unbounded lists and arbitrary values; a misspelt tag or a wrong data type in a rarely used property is only seen by a test for just that property.", "anchors": ["stix.go:1141-1257", "structs of all object types", "STIX 2.1, sections 3 to 7"]}
{"id": "C59", "title": "An object with all properties that STIX requires can be serialised", "statement": "An object of a STIX type can be written as JSON exactly if all the properties that STIX 2.1 requires of its type are set.", "quantifier": "all STIX types, all objects of those types, all combinations of set and unset properties", "why_tests_cant": "Each type has up to 40 properties, each of which may be set or not; a test samples a few combinations.", "anchors": ["stix.go:1141-1257", "identity.go:13-35", "meta.go", "structs of all object types"]}
{"id": "C60", "title": "Every property of a parsed object has the value its member states", "statement": "If the elements of a document describe objects of the library's types (each member is a correct way to write a value of its property, in any spelling, order, time zone and number of fraction digits), FromJSON accepts the document and returns exactly those objects, in document order: each property has the value its member states, properties without a member have their zero value, and members that are no properties become extended properties, together with those inherited from earlier elements. An accepted document's last element is read so whatever the other elements are.", "quantifier": "all documents (arrays and bundles) of any length, all object types, all values and spellings of all members, all options", "why_tests_cant": "Documents have unboundedly many elements, members, values and spellings; tests compare some fields of some fixtures.", "anchors": ["stix.go:84-230", "object.go", "structs of all object types", "extensions of file.go, process.go, network.go, user.go"]}
{"id": "C61", "title": "The JSON of an object says what the object is", "statement": "The JSON written for an object states, in the notation of the standard (RFC 3339 timestamps, base64 binaries, vocabulary names, decimal integers), the value of each property that is set, has no member for the others, and states the extended properties as further members.", "quantifier": "all objects of all types whose values JSON can carry, including nested structures, extensions and extended properties", "why_tests_cant": "The values and the combinations of set properties are unbounded; tests compare a few objects with fixed texts, or only with what the same library reads back.", "anchors": ["stix.go:1141-1257", "object.go:424-432", "data-types.go", "structs of all object types"]}
{"id": "C62", "title": "Reading a document and writing it again keeps its members", "statement": "If a document with an object is read and the object is written again, the result has the members of the document, with the same meaning, and no others.", "quantifier": "all documents with one object of one of the library's types, all values of its members", "why_tests_cant": "The combinations of members and values are unbounded; fixtures only have a few, mostly without zero values or unknown members.", "anchors": ["stix.go:84-230", "stix.go:1141-1257", "object.go"]}
{"id": "C63", "title": "The JSON of an object does not change when it is read and written again", "statement": "If the JSON of an object is read and the object that is returned is written, the result is the same JSON.", "quantifier": "all objects of all types, all values of their properties, nested structures, extensions and extended properties", "why_tests_cant": "The values are unbounded and normalisation (milliseconds, zones, empty lists, zero values) interacts with omission at every level of nesting.", "anchors": ["stix.go:84-230", "stix.go:1141-1257", "object.go", "data-types.go:438-455"]}
{"id": "C64", "title": "What is built is what is received", "statement": "Objects that are built with the constructors, added to a collection, bundled and written as JSON text are received by a reader that uses FromJSON: the text is accepted, and it holds the same objects, in the same order, with the same ids and the same values of all properties (timestamps to the millisecond), and nothing else.", "quantifier": "all sequences of constructor calls, all arguments that JSON can carry, all lists of options, collections with and without sorting (options of the library; see C73 for others)", "why_tests_cant": "The property composes construction, options, collection, marshalling, text and parsing; the space of calls and values is unbounded, and tests exercise the stages one at a time on fixed objects.", "anchors": ["artifact.go", "as.go", "attack.go", "campaign.go", "course-of-action.go", "directory.go", "dns.go", "email.go", "extension.go", "file.go", "grouping.go", "identity.go", "incident.go", "indicator.go", "infrastructure.go", "intrusion-set.go", "ip.go", "location.go", "mac.go", "malware-analysis.go", "malware.go", "meta.go", "mutex.go", "network.go", "note.go", "observed-data.go", "opinion.go", "process.go", "regkey.go", "relationship.go", "report.go", "sighting.go", "software.go", "threat-actor.go", "tool.go", "url.go", "user.go", "vulnerability.go", "x509.go", "option.go", "object.go", "bundle.go", "stix.go:84-230", "stix.go:1141-1257"]}
{"id": "C65", "title": "Constructors succeed exactly when their documented needs are met", "statement": "A constructor succeeds exactly when every option passed is for a property of the object and its documented needs are met: required arguments are not empty, lists have elements, an artifact has a payload or a URL but not both and a URL comes with hashes, a location has a region, a country or coordinates in range, network traffic has a source or a destination, a malware family has a name, times are in order, counts are in range, and so on for each of the 42 constructors.", "quantifier": "all 42 constructors, all arguments, all lists of options in any order with any repetitions (options of the library; see C73 for others)", "why_tests_cant": "The conditions combine arguments with the last of several options for the same property; lists of options and their values are unbounded, and tests try one failing call per condition at best.", "anchors": ["artifact.go", "as.go", "attack.go", "campaign.go", "course-of-action.go", "directory.go", "dns.go", "email.go", "extension.go", "file.go", "grouping.go", "identity.go", "incident.go", "indicator.go", "infrastructure.go", "intrusion-set.go", "ip.go", "location.go", "mac.go", "malware-analysis.go", "malware.go", "meta.go", "mutex.go", "network.go", "note.go", "observed-data.go", "opinion.go", "process.go", "regkey.go", "relationship.go", "report.go", "sighting.go", "software.go", "threat-actor.go", "tool.go", "url.go", "user.go", "vulnerability.go", "x509.go", "option.go"]}
{"id": "C66", "title": "A constructor returns either an object or an error", "statement": "Every constructor call returns either an object and no error, or an error and no object, and never panics.", "quantifier": "all 42 constructors, all arguments, all lists of options including nil ones (options of the library; see C73 for others)", "why_tests_cant": "What an option does depends on the object and on the options around it; lists of options are unbounded, and tests only check that some error is returned.", "anchors": ["artifact.go", "as.go", "attack.go", "campaign.go", "course-of-action.go", "directory.go", "dns.go", "email.go", "extension.go", "file.go", "grouping.go", "identity.go", "incident.go", "indicator.go", "infrastructure.go", "intrusion-set.go", "ip.go", "location.go", "mac.go", "malware-analysis.go", "malware.go", "meta.go", "mutex.go", "network.go", "note.go", "observed-data.go", "opinion.go", "process.go", "regkey.go", "relationship.go", "report.go", "sighting.go", "software.go", "threat-actor.go", "tool.go", "url.go", "user.go", "vulnerability.go", "x509.go", "option.go"]}
{"id": "C67", "title": "Constructed objects keep the rules that their documentation states", "statement": "An object that a constructor returns keeps the rules that the documentation comments of its type state with MUST: an artifact has a payload or a URL but not both, network traffic has protocols and a source or destination, ports are between 0 and 65535, the confidence is between 0 and 100, a relationship stops after it starts and does not point at relationships or sightings, references have the stated types, a multipart message has no plain body, and so on (every such rule about a single object).", "quantifier": "all 42 constructors, all arguments, all lists of options (options of the library; see C73 for others)", "why_tests_cant": "A rule can be broken by any combination of arguments and options, and no test enumerates the rules: the unit tests check a few rejected calls for a few types.", "anchors": ["artifact.go:12-32", "dns.go:15-18", "email.go:94-98", "extension.go:161-166", "file.go:11-18", "location.go:23-62", "malware.go:29-61", "malware-analysis.go:17-34", "malware-analysis.go:122-135", "meta.go:90-92", "network.go:20-43", "object.go:59-88", "observed-data.go:49-69", "process.go:11-12", "regkey.go:11-13", "relationship.go:27-58", "sighting.go:53-94", "user.go:13-15", "x509.go:12-14", "option.go"]}
{"id": "C68", "title": "Numbers are read and written as ECMAScript does", "statement": "The canonical form of a JSON document (which identifiers are computed from) has every number in the form RFC 8785 requires: the fewest digits that still denote the double, of those the nearest, laid out by ECMAScript's rules (no exponent between 1e-6 and 1e21, `0` for both zeros); a double has exactly one such text, and infinities and NaN have none. The canonical form is exactly the RFC's: the text without white space of the same value, names ascending in UTF-16 order, numbers in that form. A number in a document is taken for the double nearest to it, ties to even, and refused beyond the range. The JSON of objects has the same number texts, except that it keeps the sign of the negative zero.", "quantifier": "every double, every number text of JSON, every document the canonicaliser accepts", "why_tests_cant": "There are 2^64 doubles and infinitely many number texts; shortest representation is a statement about all other digit strings, and the boundaries (1e21, 1e-6, subnormals, ties) are where samples fail.", "anchors": ["internal/jsoncanonicalizer/es6numfmt.go:33-71", "internal/jsoncanonicalizer/jsoncanonicalizer.go:212-242", "location.go: Location"]}
{"id": "C69", "title": "Observables get the identifiers the standard prescribes", "statement": "The identifier of a constructed observable is the one the STIX 2.1 standard prescribes, so that another producer gives the same observable the same identifier: the type, two dashes and the UUID of version 5, in the namespace 00abedb4-aa42-466c-9c01-fed23315a9b7, of the canonical JSON (RFC 8785) object of the contributing properties.", "quantifier": "every constructor of an observable with a deterministic identifier, all arguments, all options (options of the library; see C73 for others)", "why_tests_cant": "The tests compare identifiers with ones the library itself once produced; whether the name that is hashed is the prescribed one is a statement about all property values, including those that need escaping or have no preferred hash.", "anchors": ["data-types.go:157-163", "data-types.go: NewObservableIdentifier", "data-types.go: Hashes.getIDContribution", "software.go: NewSoftware", "ip.go: NewIPv4Address"]}
{"id": "C70", "title": "Objects of registered types are those their parser returns", "statement": "With UseCustomParser(t, h), FromJSON gives the elements of type t, and no others, to the parser that was registered last for t, and the collection has the object the parser returned. If the parser fails, FromJSON fails. Elements of other types are read as without the option.", "quantifier": "every list of collection options with any parsers (arbitrary functions, returning objects of library types, custom objects or the user's own types with arbitrary UnmarshalJSON), every document", "why_tests_cant": "Parsers are arbitrary functions and the user's types have arbitrary methods; a test fixes one parser and one document.", "anchors": ["stix.go: UseCustomParser", "stix.go: processObjects", "stix.go:999-1008", "stix.go:1104"]}
{"id": "C71", "title": "A collection shares its objects with the program", "statement": "Get returns the very pointer that was last accepted for the identifier, so changes made through it or through a pointer the program kept are seen by both, and changing objects never changes which pointers the collection returns. As long as the program keeps the id and type of objects it has added, every object found under an identifier has that identifier and the listing has every object once. An object whose id is changed is still found under its old id only, and adding it again puts it in the collection twice.", "quantifier": "every program: all sequences of calls of Add and changes to objects in memory, with and without NoSortOption", "why_tests_cant": "It is about all interleavings of changes through aliases with calls of the collection; a test fixes one.", "anchors": ["stix.go: Collection.Add", "stix.go: Collection.Get", "stix.go: Collection.AllObjects"]}
{"id": "C72", "title": "Relationship methods make relationships that STIX 2.1 defines, and all of them", "statement": "A relationship returned without error by an AddX method, called on an object of a STIX type with the identifier of an object of a STIX type, is one that the relationship tables of STIX 2.1 define for these two types; and for every source type, relationship type and target type of these tables, some method of the source's Go type makes the relationship.", "quantifier": "every method, every receiver, every target identifier, every list of options; every row of the standard's tables (options of the library; see C73 for others)", "why_tests_cant": "A test picks pairs of types; the claim is about what every method accepts for all targets and about nothing of the standard being missing.", "anchors": ["relationship.go: NewRelationship", "attack.go: AttackPattern.AddUses", "infrastructure.go: Infrastructure.AddConsistsOf", "malware.go: Malware.AddDrops", "object.go: STIXDomainObject.AddDerivedFrom", "object.go: STIXCyberObservableObject.AddDuplicateOf", "data-types.go: Identifier.ForTypes"]}
{"id": "C73", "title": "Options that a program writes itself run once, in order, and have the last word except on an observable's identifier", "statement": "STIXOption is a function type, so a program can pass functions of its own to the constructors. For all such functions: a constructor that returns no error has called every non-nil option once, in the order given, on an object that already had the arguments and defaults, and returns what the last one left; only the identifier of observables with a deterministic identifier is replaced afterwards, by a valid one. The first option that fails ends the call, the ones after it make no difference, and its error is returned. If no option changes ID or Type the object is of the constructor's type, has a valid identifier and is accepted by every collection.", "quantifier": "all 42 constructors, all arguments, all lists of options, each an arbitrary function that may set every field, fail or panic", "why_tests_cant": "A test passes a few functions; the claim is about all functions a program can write, anywhere in the list, and about what the constructor does to the object before and after them.", "anchors": ["option.go: applyOptions", "option.go:13-13", "data-types.go: NewObservableIdentifier", "tool.go: NewTool", "url.go: NewURL", "regkey.go: NewRegistryKey"]}
{"id": "C74", "title": "Objects share memory only where the program gave them the same memory", "statement": "Constructors change no memory of the program. An object keeps the pointers, slices and maps it is given (nothing is copied), so changing one of the program's own timestamps, lists or maps in place changes exactly the properties it was given for. Everything else is the object's own: changing a property of an object in place (obj.Modified.Time = t, obj.Extensions[n] = v) changes no other property of it or of another object, unless the program gave that pointer, slice or map for one of them.", "quantifier": "all programs that make values, change them in place and call constructors with the library's options, any number of times and in any order; all pairs of properties of all their objects", "why_tests_cant": "Sharing shows only when something is changed after the call, and the claim is about all pairs of properties of all objects and all ways to hand references around.", "anchors": ["object.go: newSTIXDomainObject", "object.go: newSTIXRelationshipObject", "sighting.go: NewSighting", "meta.go: NewLanguageContent", "meta.go: NewMarkingDefinition", "extension.go: NewExtensionDefinition", "option.go: setField", "option.go: OptionExtension"]}
{"id": "C75", "title": "Which documents FromJSON takes at all", "statement": "FromJSON takes a JSON array, a JSON object and null. An object is taken if every member for type or id is a string or null and every member for objects is an array or null; its objects are those of the last member for objects, and other members are ignored. A member is for a name if it spells it, where each letter may have either case and s may also be U+017F. Such a document gives the same result as the bare array of its objects; null, {} and [] give an empty collection. Every other document (a number, a string, a boolean, an object with a number for its type or an object for its objects, ...) is refused with an error, so nothing is imported as empty by mistake.", "quantifier": "all JSON documents, all byte strings, all options", "why_tests_cant": "The claim splits all JSON documents into accepted and refused ones; tests try a few of each and miss odd spellings, repeated members and values of another kind.", "anchors": ["stix.go: FromJSON", "stix.go: processBundle", "bundle.go:15-25"]}
{"id": "C76", "title": "Exactly which documents are imported, refused, or crash the parser", "statement": "Without user parsers, FromJSON imports a document if and only if every element of its list of objects is good: null; or an object of a known type whose members each suit the Go type of the property they name (strings for strings, integers within int64 for ints, RFC 3339 times for timestamps, base64 for binary, element by element for lists, maps, nested structs and extensions) and whose id is its type followed by -- and a UUID; or an object of an unknown type with such an id (or any id if custom objects are dropped); or an object without a type, unless an earlier object's type is left over for it. A number that no float64 can hold makes any object bad. If the first bad element has a type that is no string, an id that is no string (for an unknown type), or a one-character number where a timestamp, opinion or encryption algorithm belongs before anything else that stops the decoder, FromJSON panics; otherwise it returns an error.", "quantifier": "every byte string, every list of elements, every member (repeated and oddly spelled ones too) and nesting depth, with and without DropCustomOption", "why_tests_cant": "It is an exact classification of all documents: tests show that some are taken and some are refused, not that there are no others on either side.", "anchors": ["stix.go: FromJSON", "stix.go: processObjects", "data-types.go: Timestamp.UnmarshalJSON", "extension.go: Extensions.UnmarshalJSON", "opinion.go: OpinionValue.UnmarshalJSON"]}
{"id": "C77", "title": "Which objects, and which extended properties, an import leaves in the collection", "statement": "When FromJSON succeeds without parsers for custom types, what each element of the document becomes is determined by it and the elements before it. null, elements without a type and, if custom objects are dropped, elements of unknown types become nothing. Other elements of unknown types become a custom object with exactly the element's members. An element of a type of the library becomes an object of that Go type with the id and type the element states and the properties it describes; its extended properties are exactly the members, of it or of an element before it, that no object since has had as a property and no null has cleared, each with its last value, and there are none if custom properties are dropped. The collection has, for each identifier, the last of these objects.", "quantifier": "all documents and their elements, all members (repeated ones and ones in other letter case too), all options but parsers", "why_tests_cant": "The extended properties of an object depend on every element before it. Tests import documents of a few elements and look at the last one; the objects that pick up members of others are in the combinations.", "anchors": ["stix.go: processObjects", "stix.go: FromJSON", "object.go: STIXDomainObject.GetExtendedTopLevelProperties"]}
{"id": "C78", "title": "What every accepted value means, however it is written", "statement": "Whenever json.Unmarshal takes a text for a new object of the library, or FromJSON (without parsers for custom types) takes a document, each field of each object has the value its member means, also when it is not written as STIX has it: null is the zero value (an empty extension map for extensions), names of members match in any letter case, members of no property are passed over, of several members for a timestamp, enumeration, binary, extension map or pointer to a plain value the last counts, for texts, numbers and truth values the last that is not null; bytes may be base64 or an array of numbers (null for zero), a list of enumeration values may be base64 of their codes; a text that is no name of an enumeration, and a value that is no text, gives the value zero; extensions of known keys are their struct, others a custom object. Fields without a member are zero. Where names are not repeated, this determines the object.", "quantifier": "all texts, all types of objects, all documents, all options but parsers; repeated members of composite types are left open", "why_tests_cant": "There are as many ways to write a value badly as to write it well, in each property of each type; the tests give well-formed objects.", "anchors": ["stix.go: FromJSON", "stix.go: processObjects", "data-types.go: Binary.UnmarshalJSON", "data-types.go: Timestamp.UnmarshalJSON", "extension.go: Extensions.UnmarshalJSON", "extension.go: ExtensionType.UnmarshalJSON", "opinion.go: OpinionValue.UnmarshalJSON"]}
{"id": "C79", "title": "Collections and documents can be merged", "statement": "Adding to a collection everything another collection lists with AllObjects fails for no object, and gives for each identifier the other collection's object, or else the one that was there. If the order is kept, the merged collection lists the objects of the first one in their order, then those of the second the first does not have in theirs, and is the same, for Get and AllObjects, as if the second one's objects had been added as they came. Two documents whose second one's elements all state a type are, as one document, accepted exactly if both are; each identifier then has the object of the second document, or else that of the first, up to extended properties. With dropped custom properties, or if nothing is left over of the first document's members, importing both as one gives the same as merging the two collections; without these conditions it may not.", "quantifier": "all histories of additions, all collections and listings of them, all documents, all options (no parsers for the last condition)", "why_tests_cant": "The claim ranges over pairs of histories and of documents, with any identifiers in common; the tests import one document each.", "anchors": ["stix.go: Collection.Add", "stix.go: Collection.Get", "stix.go: Collection.AllObjects", "stix.go: FromJSON", "stix.go: processObjects"]}
{"id": "C80", "title": "Results do not depend on the order in which Go visits maps", "statement": "Go visits the entries of a map in an order that changes from run to run. Whatever the orders: if FromJSON returns a collection for some bytes and options in one run, it returns the same collection in every run; a document that is refused in one run is never imported in another, it is refused with the same error or crashes. json.Marshal of an object gives the same JSON in every run. ToBundle of a collection that keeps its order gives the same bundle in every run, up to the random bytes of the bundle's ID, so that importing the same document twice and exporting each result gives the same bundle; a collection made with NoSortOption gives the same objects, written the same way, in some order.", "quantifier": "all documents, options, objects and collections; all orders of visiting at every range over a map, chosen anew each time", "why_tests_cant": "The Go runtime picks the order; a test sees a few of them, and a loop that depends on it fails rarely and cannot be reproduced.", "anchors": ["extension.go:13-62", "stix.go:953-978", "stix.go:1109-1124", "stix.go:1221-1255", "artifact.go:94-104", "bundle.go:29-40", "stix.go: Collection.AllObjects"]}
{"id": "C81", "title": "A collection may be read by many goroutines, and guarded by a lock it behaves as if used by one", "statement": "Any number of goroutines may call Get, GetAll, AllObjects, ToBundle's listing and the typed getters of one collection at the same time, without a lock, as long as no Add is going on: there is no data race, no call panics or waits, and every call returns what it returns when it is the only one. If every Add is made under the write side and every other call under the read side of a sync.RWMutex, then in every schedule all calls return what they return when made one after the other in the order in which they return, each goroutine's calls in its own order, without data race or deadlock. Without a lock this is not so: two Adds at the same time race, and an object whose Add returned no error can be missing afterwards.", "quantifier": "every number of goroutines, every list of calls for each, every interleaving of their memory accesses, every order in which a range over a map visits its entries, with and without NoSortOption", "why_tests_cant": "A test sees the schedules that happen to occur; even the race detector only reports races on the run it watches.", "anchors": ["stix.go: Collection.Add", "stix.go: Collection.Get", "stix.go: Collection.AllObjects", "stix.go: Collection.GetAll", "stix.go: Collection.getObject", "stix.go:65-85", "stix.go:104-181"]}
{"id": "C82", "title": "Bundles are snapshots, and bundles and listings are the caller's own", "statement": "A bundle has, for each object of the collection, the JSON text of the object as it was when ToBundle (or NewBundle) was called; what the program later does to its objects, to the collection or to other bundles and listings never shows in the bundle or in the bytes written of it. The slice that AllObjects returns keeps its pointers whatever is added later. Changing a bundle or a listing in place changes no object, no other bundle or listing, and nothing that the collection returns. If an object cannot be written there is no bundle and nothing has changed.", "quantifier": "all programs that make objects, change objects, slices, raw messages and bundles in place, and call Add, AllObjects, NewBundle and ToBundle, in any order and any number of times, with and without NoSortOption and for every order in which maps are visited", "why_tests_cant": "It is about all later changes through all aliases; a test makes one change and looks in one place.", "anchors": ["bundle.go: NewBundle", "stix.go: Collection.ToBundle", "stix.go: Collection.AllObjects", "stix.go: Collection.Add"]}
{"id": "C83", "title": "Only JSON has a canonical form", "statement": "A text for which the canonicaliser returns a canonical form is a JSON text (RFC 8259); in particular its numbers are numbers of JSON, and each is taken for the double nearest to it.", "quantifier": "every byte string", "why_tests_cant": "All texts, and all spellings of numbers; a test tries some that are JSON and some that are not.", "anchors": ["internal/jsoncanonicalizer/jsoncanonicalizer.go: Transform", "internal/jsoncanonicalizer/jsoncanonicalizer.go:212-242"]}
{"id": "C84", "title": "Whatever STIX 2.1 allows is imported", "statement": "FromJSON accepts every JSON text of a bundle or of a list of objects that are as STIX 2.1 has them: each object has the required properties of its type, every property has a value of the data type that the standard gives (timestamps in UTC by RFC 3339, integers in the safe range written in digits, base64 for binary data, element by element for lists, dictionaries, nested objects and extensions), other properties and extensions are arbitrary with names in small letters, digits and underscores, and objects of other types are arbitrary but for type and id. Afterwards each object is found in the collection by its id and has its type, except objects of other types with DropCustomOption.", "quantifier": "every byte string that is such a JSON text, all types of the standard, lists and nesting of any size, every combination of optional, custom and extension properties, with and without the options", "why_tests_cant": "There are over 600 properties; a property that is declared with too narrow a Go type is only noticed by a test that sets it to a value that does not fit.", "anchors": ["stix.go: FromJSON", "stix.go: processObjects", "data-types.go: Timestamp.UnmarshalJSON", "data-types.go: Binary.UnmarshalJSON", "extension.go: Extensions.UnmarshalJSON"]}
{"id": "C85", "title": "Whatever is imported can be exported", "statement": "If FromJSON accepts a JSON text, then ToBundle of the collection it returns succeeds, and the bundle can be written as JSON; nothing that was received is stuck in the collection.", "quantifier": "every JSON text that is accepted, whatever its objects, nested values, extensions and custom properties are; all options but user parsers; every order in which the objects are visited", "why_tests_cant": "It is about the values that any of the accepted documents can leave in any of over 600 properties; a value that the decoder lets through and the encoder refuses is found by a test only if the test has that document.", "anchors": ["stix.go: FromJSON", "stix.go: processObjects", "stix.go: ToBundle", "bundle.go: NewBundle", "object.go: marshalToJSONHelper", "stix.go: objectToMap"]}
{"id": "C86", "title": "What is received and passed on arrives", "statement": "When a bundle or list of objects as STIX 2.1 allows them, of the types of the standard, has been imported with FromJSON, and ToBundle of the collection succeeds, then the JSON of that bundle is accepted by FromJSON; the second collection has objects under exactly the same identifiers, each of the same Go type and with the same values of its properties as in the first (times to the millisecond, unset optional properties left out), together with all of its extended properties unless these are dropped, and in the order in which they were sent.", "quantifier": "every such text and every object in it, with any custom properties and extensions; any options but user parsers on both sides; every order in which an unsorted collection is visited; every random bytes for the id of the bundle", "why_tests_cant": "What is sent is not what a constructor built but what the decoder left in the fields, for any of the documents the standard allows; that none of it is then refused, renamed, merged or lost by the encoder and the second decoder is a statement about all of them.", "anchors": ["stix.go: FromJSON", "stix.go: processObjects", "stix.go: ToBundle", "bundle.go: NewBundle", "object.go: marshalToJSONHelper", "stix.go: objectToMap"]}
{"id": "C87", "title": "An observable can be made again from what was received, under the same identifier", "statement": "Observables that are built, collected, bundled and sent as JSON can be made again by whoever receives them: when the constructor of the same kind returns an object with the contributing values of a received observable, that object has the identifier of the received one. What counts of a value is only what contributes: the millisecond of a time, the text of an enumeration value, the preferred hash, the canonical JSON of extensions; so nothing that sending changes in a value changes the identifier. (A mutex whose name an option replaced is left out: it has the identifier of another name, C10.)", "quantifier": "every list of objects that constructors of the library returned, with any options and values that JSON can carry; every observable of every kind with a computed identifier in what is received; every later call of a constructor that gives the same contributing values; every time, random source and order of the objects", "why_tests_cant": "It relates the text that is hashed before sending with the values that decoding leaves in the fields (times in another precision, nil and empty slices, pointers, re-encoded extensions) for all values of 17 kinds; a test compares a few of them.", "anchors": ["data-types.go: NewObservableIdentifier", "network.go: NewNetworkTraffic", "regkey.go: NewRegistryKey", "file.go: NewFile", "stix.go: FromJSON", "stix.go: ToBundle"]}
{"id": "C88", "title": "Custom objects arrive as they were sent", "statement": "When a collection of library objects and custom objects is bundled and the JSON is read with FromJSON, every custom object comes back as an equal custom object under its identifier, whatever objects are before it in the bundle; with DropCustomOption it is left out, and nothing else is. The library objects beside it survive with their extended properties. Every custom object that FromJSON returned can be sent in this way, so custom objects can be passed on any number of times without change.", "quantifier": "every collection of objects that can be sent and of custom objects of types the library does not have, with any nested values that JSON can carry (nil, booleans, finite floats, UTF-8 text, lists, maps); every order of the objects, all options but user parsers; every accepted text for the last part", "why_tests_cant": "A custom object is an arbitrary tree, and the parser reads it beside a map that holds what earlier objects left there; that none of this gets into it, or out of it, is a statement about all trees and all sequences of objects.", "anchors": ["stix.go: FromJSON", "stix.go: processObjects", "stix.go: ToBundle", "bundle.go: NewBundle", "extension.go: GetID", "extension.go: GetType"]}
{"id": "C89", "title": "However often a bundle is passed on, its objects stay the same", "statement": "Take a bundle of objects with different identifiers, objects of the library and then custom ones, with values that JSON can carry, in which no extended property of an object is foreign to the next object of the library. If its JSON text is read with FromJSON and the collection sent on with ToBundle, by any number of programs one after the other that keep the order (no NoSortOption) and do not drop anything there is to keep, then no step fails, the \"objects\" of the last bundle are the JSON of the first bundle's \"objects\", byte for byte, and what the last program reads are the objects the first one sent: same types, same properties (times to the millisecond), same extended properties, same custom objects, in the same order. Only the bundle's own id changes. If there are no extended properties and no custom objects, programs with NoSortOption or DropCustomOption may be among them; the objects of the last bundle are then those of the first, each byte for byte, in some order.", "quantifier": "for all lists of objects of all types and custom objects, all values of their properties that JSON can carry, all numbers of programs in between, and all options of these and random bytes they use", "why_tests_cant": "The number of programs, the objects and the options of each program are unbounded; a test passes one bundle on once and compares a few fields. That nothing drifts (rounding of times, order of members, number formats, extended properties gained on the way) is a statement about all hops.", "anchors": ["stix.go: FromJSON", "stix.go: processObjects", "stix.go: ToBundle", "bundle.go: NewBundle", "object.go: marshalToJSONHelper", "stix.go: objectToMap"]}
{"id": "C90", "title": "What a program stores in a custom object, the receiver reads with the same accessor", "statement": "If a program puts values in a custom object with Set (text, int64, float64, []string, booleans, lists and maps of such), sends it in a bundle and it is received with FromJSON, then the object is there under its identifier, and GetAsString, GetAsNumber, GetAsStringSlice, GetCreated and GetModified give the receiver for each key what they gave the sender.", "quantifier": "for all custom objects, keys and values of the types the accessors know, all bundles of such objects and all options that do not drop custom objects", "why_tests_cant": "The values are unbounded trees and the integers all of int64; the tests of the accessors use maps that were never sent, or documents of which only texts are read. Which integers survive the way over float64 is a statement about rounding.", "anchors": ["extension.go: GetAsString", "extension.go: GetAsStringSlice", "extension.go: GetAsNumber", "extension.go: GetCreated", "extension.go: GetModified", "extension.go: Set", "stix.go: FromJSON", "bundle.go: NewBundle"]}
