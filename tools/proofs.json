{
 "C01": [
  "`Coll.add`, `Coll.get` as a state machine over arbitrary objects",
  "refinement to the list of accepted additions (`Spec.Collection`), induction over histories"
 ],
 "C02": [
  "order list, `AllObjects`",
  "same refinement; insertion-ordered map without duplicates, induction over histories"
 ],
 "C03": [
  "`NoSortOption`, map iteration as an arbitrary permutation",
  "both listings are permutations of the same abstract map"
 ],
 "C04": [
  "`hasValidIdentifier`, `Coll.add`",
  "characterisation of the two-part split; an erroring `Add` returns the same state; for custom objects the three outcomes of `Add` are characterised exactly"
 ],
 "C05": [
  "nested maps by type",
  "invariant: every stored object stands in the bucket of its type under its id"
 ],
 "C06": [
  "the 42 getter pairs as a table, parser, collection",
  "invariant over parsing: the Go type in a bucket is the one of the dispatch table; table of getters decided whole"
 ],
 "C07": [
  "`strings.Split` and `uuid.Parse` on bytes",
  "characterisation of split at the only `--`; the parser accepts exactly the four spellings of `Spec.Ident`"
 ],
 "C08": [
  "`NewIdentifier`, `uuid.String`",
  "hex round trip for all 16 bytes; necessary and sufficient condition on the type; the text byte by byte as RFC 4122 has it; stamping forgets exactly six bits"
 ],
 "C09": [
  "`ForType` as `strings.Index == 0`",
  "exact prefix characterisation; exactness for library types without a common prefix"
 ],
 "C10": [
  "observable constructors with contribution strings",
  "the identifier is a function of the contributing fields after all options; option frame lemmas"
 ],
 "C11": [
  "the texts given to SHA-1",
  "a reader (`Lemmas/ObsRead`) recovers the contributing values from the text; v5 stamping equal iff hashes agree outside six bits"
 ],
 "C12": [
  "the hash contribution",
  "case analysis on the four keys; independent of every other entry"
 ],
 "C13": [
  "table of helpers, `NewRelationship`, options, collection",
  "generic in the table row, rows compared with the independent table `Spec.Rel`"
 ],
 "C14": [
  "target checks of the helpers",
  "from the characterisation of `ForTypes`"
 ],
 "C15": [
  "`NewRelationship`",
  "case analysis with the option frame"
 ],
 "C16": [
  "`setField` by reflection over struct tables",
  "frame lemma generic in the struct, per-option table decided whole against `Spec.Option`"
 ],
 "C17": [
  "`applyOptions`",
  "induction over the option list, commutation from the frame lemma"
 ],
 "C18": [
  "option × struct table",
  "whole table decided, lifted to all values and all lists"
 ],
 "C19": [
  "enumeration tables, marshal and unmarshal, map visited in any order",
  "lemma generic in a table with distinct names; tables compared with `Spec.Enum`"
 ],
 "C20": [
  "same",
  "same; the spelling and the text of the string are related by `Spec.Text.Reads`, what RFC 8259 says a string denotes"
 ],
 "C21": [
  "`UnmarshalJSON` of the enumerations on raw bytes",
  "exact panic condition"
 ],
 "C22": [
  "nanosecond instants, zones, proleptic Gregorian calendar, `Format`",
  "arithmetic on the calendar; shape of the 24 bytes"
 ],
 "C23": [
  "`Format` and `Parse` of the layouts",
  "calendar bijection, digit round trip"
 ],
 "C24": [
  "same",
  "lexicographic order of fixed-width fields"
 ],
 "C25": [
  "`Timestamp.UnmarshalJSON` on raw bytes",
  "exact panic condition"
 ],
 "C26": [
  "base64 with padding, the decoder, Binary methods",
  "induction in steps of three bytes and of four characters; `Spec.Base64` is stated on bits, for writing (`base64`) and for reading (`Base64Text`)"
 ],
 "C27": [
  "`valueToMap`, `marshalToJSONHelper`, the generic encoder",
  "generic over struct tables, tables decided whole; `Spec.Marshal` says what is set and required"
 ],
 "C28": [
  "`filterOutNonCustom`, `processObjects` on one object",
  "exact capture lemma for every decoded member map"
 ],
 "C29": [
  "marshal then parse of one object",
  "induction on type descriptions: dec ∘ enc = the value `Spec.Value` says JSON carries; `c29_text_partial` on bytes: what is written is a JSON text (`Lemmas/TextEnc`)"
 ],
 "C30": [
  "the loop with the shared `peak`",
  "induction over the list of objects; simulation up to extended properties"
 ],
 "C31": [
  "`FromJSON` on objects and arrays",
  "both run the loop on the same list"
 ],
 "C32": [
  "`DropCustomOption`",
  "invariant of the loop"
 ],
 "C33": [
  "panics of the parser",
  "panic-freedom of the generic decoder and the loop under a condition on the document; `c33_text_partial` on bytes"
 ],
 "C34": [
  "`FromJSON` and collection",
  "invariant of the loop relating elements done to collection contents; `Spec.Doc` says what an element is"
 ],
 "C35": [
  "`NewBundle`, `ToBundle`",
  "induction over the objects"
 ],
 "C36": [
  "`ToBundle`, marshal, parse",
  "C29 lifted over the loop, collection refinement; `c36_text_partial` on bytes"
 ],
 "C37": [
  "all 42 constructors, all options",
  "invariant on id, type, spec_version and times, preserved by options"
 ],
 "C38": [
  "constructors and marshal",
  "required properties after options, compared with the exact condition of C27"
 ],
 "C39": [
  "`NewCampaign`, `NewSighting`",
  "the check follows the options"
 ],
 "C40": [
  "`NewSighting`",
  "same"
 ],
 "C41": [
  "`NewLocation`, IEEE doubles as bits",
  "comparison on bits equals comparison of rationals (`Spec.Float`)"
 ],
 "C42": [
  "`Transform` over bytes",
  "refinement: parse to a tree (`Spec.Canon`), sort, print; the converse by injectivity of printing (mutual induction over values, with what may follow)"
 ],
 "C43": [
  "same",
  "the output parses to the sorted tree; printing is idempotent"
 ],
 "C44": [
  "same",
  "exact acceptance"
 ],
 "C45": [
  "`Extensions.UnmarshalJSON`",
  "exact result for every member list"
 ],
 "C46": [
  "`CustomObject`",
  "map laws, induction over Set calls"
 ],
 "C47": [
  "`NewExtensionDefinition`",
  "case analysis"
 ],
 "C48": [
  "`NewExternalReference`, `NewKillChainPhase`",
  "case analysis; round trip from C29's codec theorem"
 ],
 "C49": [
  "dispatch table, parser",
  "table decided whole against the type constants"
 ],
 "C50": [
  "TLP variables, collection, marshal, parse",
  "instances of C04, C27, C29, C36 for arbitrary collections"
 ],
 "C51": [
  "extension accessors, parser",
  "invariant: the value under a key has the Go type of the key"
 ],
 "C52": [
  "the scanner of `encoding/json` on bytes (`Model/Text`)",
  "`parse_iff`: the scanner computes exactly the RFC 8259 grammar on syntax trees (`Spec/Text`), by mutual induction both ways"
 ],
 "C53": [
  "same",
  "same; cutting and trailing data by determinism of the scanner"
 ],
 "C54": [
  "the accessors, parser, constructors",
  "invariant of the decoder of time fields; inversion of the loop; C37 and C55"
 ],
 "C55": [
  "`time.Parse` for the one layout",
  "exact characterisation of the accepted texts, field by field; day counts against the calendar of `Spec/Time`"
 ],
 "C56": [
  "scanner, parser, all decoders",
  "forgetting the spelling commutes with the scanner's value and with every decoder, by mutual induction over the type tables; names and timestamps are plain ASCII and have no quote in them"
 ],
 "C57": [
  "all options, their comments (generated `Gen/OptionDocs`)",
  "table of options against table of comments decided whole, lifted to all objects and values by C16; induction over the list of options"
 ],
 "C58": [
  "marshalling of all types; the standard's property tables are written by hand in `Spec/Standard`",
  "struct tables compared whole with the standard's tables, lifted to all values by mutual induction over the type tables"
 ],
 "C59": [
  "marshalling of all types; tables of the standard as for C58",
  "from C27 and the comparison of the tables"
 ],
 "C60": [
  "FromJSON on arrays and bundles, decoding of all types; a relation between JSON and values, directed by the types only (Spec/Says.lean)",
  "induction over types that what JSON says is what is decoded; invariant over the elements that the state kept between them holds exactly the inherited extended properties"
 ],
 "C61": [
  "marshalling of all types; the same relation as for C60",
  "induction over types that what is encoded says the value"
 ],
 "C62": [
  "FromJSON and marshalling, composed",
  "C60 and C61; witnesses evaluated by the kernel"
 ],
 "C63": [
  "FromJSON and marshalling, composed",
  "induction over types that a settled value is written as before and is as blank as before; the members are sorted, so equal sets of members are equal JSON; a witness evaluated by the kernel"
 ],
 "C64": [
  "the constructors with their options, collections, ToBundle, the text of the JSON, FromJSON, composed",
  "every value a constructor or an option writes has the type of its property (tables checked by the kernel, induction over the options); so what is built can be sent, and C36 applies"
 ],
 "C65": [
  "the 42 constructors with applyOptions and the option functions",
  "the argument tests, the success of all options and the final check of each constructor are each equivalent to a clause of the specification; the value after the options is that of the last option for the property (induction over the options)"
 ],
 "C66": [
  "the same",
  "options stop at the first that does not apply; the outcome is that of the options before it, so C65 gives the exact conditions"
 ],
 "C67": [
  "the 42 constructors with their options",
  "enforced rules follow from the exact conditions of C65 and from the types of the values; the others have concrete calls, checked by the kernel over the whole table of rules"
 ],
 "C68": [
  "NumberToJSON, parseSimpleType, floats in encoding/json; strconv.ParseFloat and FormatFloat",
  "order and nearest-neighbour lemmas over rational numbers; correctness of rounding and of the search for the shortest digits; uniqueness by excluding ties (19 does not divide a power of ten); refinement of the text layout"
 ],
 "C69": [
  "SHA-1 (FIPS 180-4), UUID version 5, the texts given to it",
  "per kind the text is the bracketed list of the parts (`kind_parts`), each part the printed JSON value of the contribution; the texts begin with `[`, prescribed names with `{`; the identifiers the repository's own tests fix are recomputed by the kernel (`Props/StdIdVectors`); the model of SHA-1 equals FIPS 180-4 on 32-bit words (`Spec/Sha1`), by induction over the steps and the blocks (`Lemmas/Sha1`)"
 ],
 "C70": [
  "`UseCustomParser`, `processObjects` with arbitrary handlers and user types",
  "induction over the elements; the type seen for an element is that of an element of the document"
 ],
 "C71": [
  "`Collection.Add`, `Get`, `AllObjects` over a heap of shared objects; programs that change objects between calls",
  "simulation: the references a program adds are a history of the collection model (C01-C03), the heap is given by the last writes"
 ],
 "C72": [
  "table of helpers, `NewRelationship`, options",
  "`Spec.StdRel` is the summary table of the standard; each helper is compared with it, and each row of it with the helpers, over the whole tables; lifted to all receivers, targets and options through C13 and C14"
 ],
 "C73": [
  "all 42 constructors, `applyOptions`; an option of the program is an arbitrary function",
  "the run of the options as a relation `Spec.Left`, by induction over the list; then the part of each constructor after the options"
 ],
 "C74": [
  "`Model/Share`: memory, the references that fields of all 42 constructors and options hold, programs as lists of actions",
  "the run with memory refines the run on values (induction over options); what was not given is allocated by the call; invariant over programs"
 ],
 "C75": [
  "`fromJSON`, `fromJSONText` (Model/Process, Model/Text) and the decoder of the Bundle struct",
  "induction over the members of the object with the state of the decoder; spellings by induction over the bytes of the name (`c75_names`)"
 ],
 "C76": [
  "`fromJSONText` and the whole decoder (Model/Decode, Model/Process)",
  "a fate for every Go type and JSON value (Spec/Fate, written without the values that are read), shown by mutual induction over the types to be what the decoder does; the loop by induction over the elements"
 ],
 "C77": [
  "`processObjects` and the decoder (Model/Process, Model/Decode)",
  "what is left over after some elements (Spec/Leftover) is what the variable shared between the elements holds: an invariant kept by each step, then induction over the elements"
 ],
 "C78": [
  "the decoder, all UnmarshalJSON methods, `processObjects` (Model/Decode, Model/Enum, Model/Process)",
  "Spec/Means says what a JSON value means for each Go type; induction on types, with the members of a struct as chains of values read into one field; uniqueness by a second induction"
 ],
 "C79": [
  "Model/Collection, `processObjects` (Model/Process)",
  "the latest addition of two histories in a row, and the listing of two histories in a row, are those of the parts (induction); documents by splitting the run of the loop in two, and simulation of the second run from another start"
 ],
 "C80": [
  "Verif/Model/Order.lean: decoding, processObjects, FromJSON, objectToMap, NewBundle and ToBundle as relations, with any permutation of the entries at each range over a map (the extensions, the tables of the enumerations, what is left of the properties, the extended properties, the collection)",
  "every relational step is close to the function of the other model (equal, or a crash there and an error here), by induction over types, lists and documents; inserting a permutation of a sorted map gives the same map; ToBundle by C02 and C03"
 ],
 "C81": [
  "the methods of Collection step by step, goroutines, schedules, a RWMutex of the program",
  "invariant over all runs: the memory holds the collection of the Adds that have returned, except while an Add is going on, and then is as far as its program counter says; refinement of each method; a counting invariant for the lock"
 ],
 "C82": [
  "`Model/Snapshot`: a memory of objects, slices, raw messages and bundles; `ToBundle`, `NewBundle`, `AllObjects` and `Add` in it, and a program that also changes everything it has in place. `Spec/Snapshot` says what a bundle shows and which memory is part of it",
  "Invariant of all states that a program reaches: references are to memory of their type, and those of the collection to objects. Bundles and listings are made of new memory only, and a step changes nothing but what the program writes; induction on the steps"
 ],
 "C83": [
  "parseSimpleType; strconv.ParseFloat with underscores and hexadecimal numbers",
  "the reader on texts without underscores is the reader on the text (`bodyMag_bare`), its state after digits is their fold (`feed`), and `underscoreOK` is equivalent to \"each underscore is between digits\" by induction over the text"
 ],
 "C84": [
  "`fromJSONText` and the whole decoder; the standard's tables (Spec/Standard, Spec/Accept)",
  "the struct tables are compared whole with the standard's tables (`standard_takes`), lifted by mutual induction over Go types to: what the standard allows has the fate `taken` of C76; then C76, and C77 for what is found"
 ],
 "C85": [
  "`fromJSONText`, `toBundle`, the whole decoder and encoder",
  "a preservation theorem by mutual induction over Go types: what is decoded into a value of a type is a value of that type (`held`), lifted over the loop of `processObjects` with the reused map `peak` as an invariant (`kept_steps`); then C27 and C59 for when it is written"
 ],
 "C86": [
  "as C85, and the second `fromJSONText`",
  "`held` again with stricter leaves (`readOk_carriable`: Unicode, int64, finite numbers, declared enumeration values, years 0 to 9999); the leftovers of C77 have names of properties only if the type takes them away; then C85, C27 and C36"
 ],
 "C87": [
  "the hashing constructors, collections, ToBundle, the text of the JSON and FromJSON, composed",
  "the text that is hashed is a function of the contributions (`text_determined`, kind by kind); contributions are the same after a value is written and read (`contribution_survives`: times by C24, extensions by their canonical JSON); then C64"
 ],
 "C88": [
  "CustomObject as a map of dynamic values, ToBundle, the text of the JSON, FromJSON",
  "encoding and decoding of dynamic values are inverse (induction over the tree); one step of the parser for each kind of object, whatever is left from the objects before; induction over the bundle. For texts: what is read has such values only (induction over the JSON)"
 ],
 "C89": [
  "NewBundle, ToBundle, the text of the JSON, FromJSON, for chains of programs (Spec.PassedOn)",
  "one hop: what is read back is marshalled to the same JSON (C63), so the bundle has the same objects; induction over the hops"
 ],
 "C90": [
  "CustomObject and its accessors, NewBundle, the text of the JSON, FromJSON, with the number formats of Go",
  "mutual induction over the values: what is written is read as the value JSON has for it (Spec.Comes); integers: the text denotes the integer, ParseFloat gives the nearest double (C68), which is the integer itself up to 2^53; induction over the bundle"
 ]
}