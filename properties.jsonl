{"id": "C01", "title": "Ordered maps refine an ordered dictionary", "statement": "For every generated map type, starting from New*Map, any sequence of Put, PutIfNotNil, ReplaceOrPut, ReplaceIfExists, Delete, SerializeOrdered, Get, GetOpt, Has, IndexOf, At, Len and ForEach calls returns exactly the results an ordered dictionary (a list of key/value pairs, Put = remove then append) returns, including panicking only where the dictionary is read past its end (At with a bad index).", "quantifier": "every finite sequence of method calls with every key and value, from a fresh map of any presize", "why_tests_cant": "tests run fixed one- or two-call histories; the two internal representations (slice and index) could drift apart after some longer interleaving of Put/Delete/Replace", "anchors": ["v0/pkg/raml/StringMap.go: implStringMap", "v0/pkg/raml/AnyMap.go: implAnyMap", "v0/pkg/raml/UntypedMap.go: implUntypedMap", "v0/pkg/raml/DataTypeMap.go: implDataTypeMap (and the 17 other generated *Map.go)"]}
{"id": "C02", "title": "The out-of-sync panic is unreachable", "statement": "No sequence of calls on a generated map ever panics with 'invalid map state, out of sync': an entry is found by key exactly when it is present in iteration order. This holds for AnyMap even when keys are interface values whose == is not reflexive (NaN).", "quantifier": "every reachable map state and every key, for every key type whose equality is symmetric and transitive", "why_tests_cant": "an unreachability claim over all histories; tests only show some histories do not reach it", "anchors": ["v0/pkg/raml/StringMap.go: implStringMap; IndexOf", "v0/pkg/raml/AnyMap.go: implAnyMap; IndexOf"]}
{"id": "C03", "title": "Keys are unique and Len counts them", "statement": "After any history on a map with comparable keys, no two entries have equal keys, Len equals the number of distinct keys present, and Has(k) holds exactly for those keys.", "quantifier": "every history, every key", "why_tests_cant": "uniqueness is an invariant over all interleavings of Put/Replace/Delete", "anchors": ["v0/pkg/raml/StringMap.go: implStringMap", "v0/pkg/raml/AnyMap.go: implAnyMap", "v0/pkg/raml/UntypedMap.go: implUntypedMap", "v0/pkg/raml/DataTypeMap.go: implDataTypeMap (and the 17 other generated *Map.go)"]}
{"id": "C04", "title": "Put appends and keeps the other entries in order", "statement": "After Put(k, v) the last entry is (k, v), Get(k) returns v, and the entries before it are the previous entries without k, in their previous order; so a re-Put moves the key to the end.", "quantifier": "every reachable map, every key and value", "why_tests_cant": "ordering must hold whatever the position of the old entry and the length of the map", "anchors": ["v0/pkg/raml/StringMap.go: implStringMap.Put", "v0/pkg/raml/StringMap.go: StringMap.Put doc"]}
{"id": "C05", "title": "Replace never changes the ordering", "statement": "ReplaceIfExists(k, v) leaves the sequence of keys unchanged, changes only the value at k, and is a no-op when k is absent; ReplaceOrPut(k, v) does the same when k is present and behaves as Put otherwise.", "quantifier": "every reachable map, every key and value", "why_tests_cant": "must hold at every position and for every map size", "anchors": ["v0/pkg/raml/StringMap.go: implStringMap.ReplaceIfExists", "v0/pkg/raml/StringMap.go: implStringMap.ReplaceOrPut"]}
{"id": "C06", "title": "Delete removes exactly one key", "statement": "Delete(k) removes the entry for k and nothing else, keeps the relative order of the rest, is a no-op when k is absent, and deleting twice equals deleting once.", "quantifier": "every reachable map, every key", "why_tests_cant": "in-place slice shifting must be right at every position, including first and last", "anchors": ["v0/pkg/raml/StringMap.go: implStringMap.Delete"]}
{"id": "C07", "title": "IndexOf and At are inverse views of the order", "statement": "IndexOf(k) = i >= 0 exactly when 0 <= i < Len and At(i).Key = k; IndexOf(k) = -1 exactly when Has(k) is false; and At(IndexOf(k)).Val is the value Get(k) returns.", "quantifier": "every reachable map, every key, every index", "why_tests_cant": "quantifies over all positions in maps of unbounded size", "anchors": ["v0/pkg/raml/StringMap.go: implStringMap.IndexOf", "v0/pkg/raml/StringMap.go: implStringMap.At", "v0/pkg/raml/StringMap.go: implStringMap.Get"]}
{"id": "C08", "title": "Get returns the latest effective write", "statement": "After any history, Get(k) (and GetOpt(k)) is determined by scanning the history backwards to the latest call that wrote or deleted k: Put, non-nil PutIfNotNil and ReplaceOrPut write; ReplaceIfExists writes if k was present; Delete removes; calls on other keys and nil PutIfNotNil are irrelevant.", "quantifier": "every history and key", "why_tests_cant": "a history property; unit tests sample histories of length at most four", "anchors": ["v0/pkg/raml/StringMap.go: implStringMap.Get", "v0/pkg/raml/StringMap.go: implStringMap.GetOpt", "v0/pkg/raml/StringMap.go: implStringMap.PutIfNotNil"]}
{"id": "C09", "title": "PutIfNotNil with nil is invisible", "statement": "Inserting PutIfNotNil(k, nil) calls anywhere in a history changes no observable result of the other calls.", "quantifier": "every history, every insertion point", "why_tests_cant": "an insertion-invariance over all histories", "anchors": ["v0/pkg/raml/StringMap.go: implStringMap.PutIfNotNil"]}
{"id": "C10", "title": "ForEach visits every entry once, in order", "statement": "ForEach(f) calls f exactly once per entry in map order. If f calls back into the map without Delete, the traversal never panics and makes exactly Len-at-entry calls; if f only replaces values or puts keys not in the map it still sees exactly the original keys in order. A callback that deletes can make the traversal panic.", "quantifier": "every reachable map and every callback behaviour (as a function of what it has seen)", "why_tests_cant": "re-entrant callbacks give an unbounded family of interleavings", "anchors": ["v0/pkg/raml/StringMap.go: implStringMap.ForEach"]}
{"id": "C11", "title": "Deleting in place never exposes stale slots", "statement": "With the real slice memory layout (backing array, length, capacity, in-place append and re-allocation of arbitrary growth), the visible entries after any history of Put/Delete/Replace are those of the ordered dictionary; slots past the length are never observed.", "quantifier": "every history, every initial capacity, every re-allocation policy", "why_tests_cant": "growth policy and in-place shifting depend on capacities that tests do not vary", "anchors": ["v0/pkg/raml/StringMap.go: implStringMap.Delete", "v0/pkg/raml/StringMap.go: implStringMap.Put", "v0/pkg/raml/StringMap.go: NewStringMap"]}
{"id": "C12", "title": "YAML form of a map", "statement": "With SerializeOrdered(false) ToYAML yields one mapping node holding the entries in map order; with SerializeOrdered(true) (the default) it yields an !!omap sequence of one-entry mappings in map order. Either way the entries can be read back uniquely from the node, and SerializeOrdered changes nothing else.", "quantifier": "every reachable map", "why_tests_cant": "injectivity of the rendering over all maps", "anchors": ["v0/pkg/raml/StringMap.go: implStringMap.ToYAML", "v0/pkg/raml/StringMap.go: implStringMap.SerializeOrdered", "v0/pkg/raml/StringMap.go: implStringMap.MarshalYAML"]}
{"id": "C13", "title": "JSON form of a map is deterministic", "statement": "Ordered JSON is the array of {key, value} in map order. Unordered JSON of a string-keyed map contains exactly the map's bindings whatever order Go iterates its hash map in; for AnyMap this needs that no two keys print alike (keys 1 and \"1\" collide and the surviving value depends on iteration order).", "quantifier": "every reachable map, every hash-map iteration order", "why_tests_cant": "Go randomises map iteration; no finite set of runs covers all orders", "anchors": ["v0/pkg/raml/StringMap.go: implStringMap.MarshalJSON", "v0/pkg/raml/AnyMap.go: implAnyMap.MarshalJSON"]}
{"id": "C14", "title": "Type expressions are classified totally and exactly", "statement": "A type definition given as a YAML string always parses: the 13 built-in names give their kinds, other names starting with '!include ' give an include, other names containing '|' give a union, everything else a custom type; Type() returns the text unchanged and all other facets are at their defaults.", "quantifier": "every string", "why_tests_cant": "ranges over all strings", "anchors": ["v0/internal/raml/fn-sorting-hat-type.go: TypeSortingHat, typeToKind"]}
{"id": "C15", "title": "The kind of an expanded type definition", "statement": "For a mapping, Kind() is decided by the first 'type' or 'schema' entry if there is one (error if it is a sequence or neither a string nor an include); otherwise 'properties' gives object, otherwise 'items' gives array, otherwise string, and no other entry influences the kind.", "quantifier": "every mapping node, any number and order of entries", "why_tests_cant": "ranges over all key orders and duplicates", "anchors": ["v0/internal/raml/fn-sorting-hat-type.go: siftType"]}
{"id": "C16", "title": "Non-definitions are rejected", "statement": "TypeSortingHat returns an error, never a type, for a sequence at any depth where a type is expected, and for any scalar that is neither a string nor an include. In particular an empty (null) definition is rejected although the error text lists 'empty' as allowed.", "quantifier": "every node", "why_tests_cant": "ranges over all nodes and nesting depths", "anchors": ["v0/internal/raml/fn-sorting-hat-type.go: TypeSortingHat"]}
{"id": "C17", "title": "Kind and Type agree after parsing", "statement": "If a mapping has at most one 'type'/'schema' entry, then after a successful parse Type() is that entry's text (or the kind's own name if absent) and Kind() is the classification of Type(). With two such entries Kind follows the first and Type the last, so they can disagree.", "quantifier": "every mapping node that parses", "why_tests_cant": "over all documents and positions of the entry", "anchors": ["v0/internal/raml/fn-sorting-hat-type.go: siftType", "v0/internal/raml/DataType.go: assign"]}
{"id": "C18", "title": "Unknown facets are kept verbatim", "statement": "Every entry of a type definition whose key is not a facet of that kind ends up in ExtraFacets with its YAML value untouched, one per key text, later duplicates replacing earlier ones and moving to the end; nothing else is in ExtraFacets.", "quantifier": "every mapping node that parses, every kind", "why_tests_cant": "over all key sets and orders", "anchors": ["v0/internal/raml/in-components.go: hasExtra", "v0/internal/raml/DataType.go: assign", "v0/internal/raml/type-datatype-ext.go: assign"]}
{"id": "C19", "title": "Facets are independent of each other", "statement": "The value a successful parse gives to one facet (display name, description, enum, required, properties, examples, each numeric bound, ...) depends only on the entries with that facet's key: removing all entries with other keys (except what decides the kind) gives the same value.", "quantifier": "every mapping node that parses, every facet", "why_tests_cant": "non-interference over all combinations of entries", "anchors": ["v0/internal/raml/x-gen-type-*.go: assign", "v0/internal/raml/type-datatype-ext.go: assign"]}
{"id": "C20", "title": "Parsing stops at the first bad entry", "statement": "Parsing a mapping succeeds iff each entry in turn succeeds on the state left by the earlier ones; otherwise the result is the outcome of the first entry that fails, and later entries have no influence.", "quantifier": "every document and every entry position", "why_tests_cant": "over all documents and failure positions", "anchors": ["v0/internal/raml/APISpec.go: UnmarshalYAML", "v0/internal/raml/Library.go: UnmarshalYAML", "v0/internal/raml/DataType.go: UnmarshalRAML"]}
{"id": "C21", "title": "The parser never panics", "statement": "Parsing an API document, a library or a type definition returns a value or an error and never panics. False of the code: an empty-string key panics, and a property declared nil or as an include panics. What holds: without those two constructs no input panics.", "quantifier": "every YAML node tree", "why_tests_cant": "crash-freedom over all inputs", "anchors": ["v0/internal/raml/in-components.go: hasAnnotations.in", "v0/internal/raml/APISpec.go: assign", "v0/internal/raml/Library.go: assign", "v0/internal/raml/util-dt-map.go: UnmarshalPropertyMapRAML", "v0/internal/raml/x-gen-ex-*.go: assign"]}
{"id": "C22", "title": "Unsigned facets hold the number written", "statement": "After parsing, MinLength, MaxLength, MinItems, MaxItems, MinProperties and MaxProperties equal the integer in the document. False for negative integers, which wrap to 2^64 - |n| instead of being rejected; true for 0 <= n < 2^63.", "quantifier": "every integer literal", "why_tests_cant": "over the whole 64-bit range", "anchors": ["v0/internal/util/assign/uint.go: ToUint, AsUintPtr"]}
{"id": "C23", "title": "Enum keeps all values in document order", "statement": "After parsing, Enum() is the concatenation, in document order, of the sequences under the 'enum' key(s), each element converted to the kind's element type; one inconvertible element makes the parse fail.", "quantifier": "every mapping node, every kind with an enum", "why_tests_cant": "over lists of unbounded length", "anchors": ["v0/internal/raml/x-gen-type-*.go: assign (KeyEnum)"]}
{"id": "C24", "title": "Every kind accepts an example", "statement": "For each data type kind, a type definition with an 'example' entry whose value converts to the kind parses, and Example().Value() is that value. False for kind any, for which every 'example' entry is an error.", "quantifier": "every kind and every example value", "why_tests_cant": "over all values; the any-kind failure is a missing case in a dispatch table", "anchors": ["v0/internal/raml/fn-sorting-hat-example.go: ExampleSortingHat", "v0/internal/raml/x-gen-type-any.go: assign"]}
{"id": "C25", "title": "Default() reports the parsed default", "statement": "After parsing a type definition with a 'default' entry, Default() returns its value. False for every kind: the entry lands in ExtraFacets and Default() stays unset; writing the type still emits the entry unchanged.", "quantifier": "every type definition", "why_tests_cant": "over all documents and kinds", "anchors": ["v0/internal/raml/x-gen-type-*.go: assign, marshal"]}
{"id": "C26", "title": "Writing then reading a type is lossless", "statement": "For a data type without examples, annotations, custom facet definitions, XML settings or a programmatic default, whose Type() matches its Kind(), re-parsing ToYAML() gives back an equal data type, for arbitrarily nested properties and items.", "quantifier": "every such data type, unbounded nesting", "why_tests_cant": "an inductive statement over recursive types", "anchors": ["v0/internal/raml/DataType.go: ToYAML, MarshalRAML, UnmarshalRAML", "v0/internal/raml/x-gen-type-*.go: marshal, assign"]}
{"id": "C27", "title": "Short form exactly for bare types", "statement": "ToYAML() of a data type is a single scalar carrying Type() exactly when the type has nothing but its type set; otherwise it is a mapping containing a 'type' entry.", "quantifier": "every data type", "why_tests_cant": "over all combinations of set facets", "anchors": ["v0/internal/raml/DataType.go: ToYAML, MarshalRAML"]}
{"id": "C28", "title": "Defaults are not written and are restored", "statement": "A facet at its default (required true, additionalProperties true, minLength 0, file maxLength and array maxItems 2147483647, uniqueItems false, strict true, absent optionals) has no entry in the written form; a facet off its default has exactly one entry with its value.", "quantifier": "every data type", "why_tests_cant": "over all facet combinations", "anchors": ["v0/internal/raml/x-gen-type-*.go: marshal", "v0/pkg/raml/rmeta/defaults.go"]}
{"id": "C29", "title": "Examples survive writing and reading", "statement": "Re-parsing the written form of an example gives the example back. False: an example with only a value is written as a mapping with an empty key, which the parser then panics on; an example with annotations is written with them as an ordered sequence, which the parser rejects. True for expanded examples without annotations.", "quantifier": "every example", "why_tests_cant": "over all examples", "anchors": ["v0/internal/raml/x-gen-ex-*.go: ToYAML, MarshalRAML, expand, assign"]}
{"id": "C30", "title": "Custom facet definitions survive writing and reading", "statement": "Re-parsing a written type gives back its facet definitions. False: they are always written as an !!omap sequence, which the parser rejects, so any type with facet definitions cannot be read back.", "quantifier": "every type with at least one facet definition", "why_tests_cant": "over all types", "anchors": ["v0/internal/raml/type-datatype-ext.go: NewExtendedDataType, marshal", "v0/internal/raml/type-facet.go: NewFacet", "v0/internal/raml/util-facet-map.go"]}
{"id": "C31", "title": "XML settings are parsed faithfully", "statement": "Parsing an 'xml' facet sets exactly the five settings present in it (last duplicate wins) and leaves the others unset.", "quantifier": "every mapping node", "why_tests_cant": "over all key combinations", "anchors": ["v0/internal/raml/type-xml.go: UnmarshalRAML, assign"]}
{"id": "C32", "title": "Writing then reading an API document is lossless", "statement": "For an API document without documentation entries and annotations and with round-trippable types, parsing what WriteRAML emits (as a node tree) gives back an equal document: title, version, baseUri, description, protocols, media types, securedBy, uses, security schemes, base URI parameters, traits, annotation types, resource types, types, resources and extra facets, in order.", "quantifier": "every such document", "why_tests_cant": "over all documents of any size", "anchors": ["v0/internal/raml/APISpec.go: MarshalYAML, UnmarshalYAML, assign"]}
{"id": "C33", "title": "Sections of an API document do not interfere", "statement": "The value of each section of a successfully parsed API document depends only on the entries belonging to that section: deleting all other entries, or reordering entries of different sections, leaves it unchanged.", "quantifier": "every document that parses, every section", "why_tests_cant": "non-interference over all documents and permutations", "anchors": ["v0/internal/raml/APISpec.go: assign"]}
{"id": "C34", "title": "Resources are exactly the slash keys", "statement": "After a successful parse Resources() holds exactly the top-level string keys starting with '/', with their YAML values untouched, in document order of last occurrence; nothing starting with '/' goes anywhere else.", "quantifier": "every document that parses", "why_tests_cant": "over all documents", "anchors": ["v0/internal/raml/APISpec.go: assign, Resources"]}
{"id": "C35", "title": "Nothing in a document is silently dropped", "statement": "Every top-level entry of a successfully parsed API document is accounted for: string keys starting with '(' are in Annotations, with '/' in Resources, the known keys in their sections, and every other key in ExtraFacets under its scalar value.", "quantifier": "every document that parses", "why_tests_cant": "over all documents", "anchors": ["v0/internal/raml/APISpec.go: assign"]}
{"id": "C36", "title": "Scalar properties: last one wins; type mismatch is an error", "statement": "For title, version, baseUri and description the parsed value is the text of the last entry with that key; any such entry that is not a YAML string makes the parse fail.", "quantifier": "every document", "why_tests_cant": "over all duplicate patterns", "anchors": ["v0/internal/raml/APISpec.go: assign", "v0/internal/util/assign/string.go"]}
{"id": "C37", "title": "Media types", "statement": "A single string adds one media type, a list replaces the list; after parsing, MediaTypes() is the last list followed by the strings after it. The documented rendering of a single media type as a plain string is false: any non-nil list is written as a sequence.", "quantifier": "every document and every media type list", "why_tests_cant": "over all interleavings of string and list entries", "anchors": ["v0/internal/raml/APISpec.go: assign, MarshalYAML", "v0/pkg/raml/APISpec.go: MediaTypes doc"]}
{"id": "C38", "title": "Documentation survives writing", "statement": "Documentation entries set or parsed are written out with title and content. False: Documentation implements no YAML marshaler and has no exported fields, so each entry is written as an empty mapping; parsing itself keeps title, content and extra facets.", "quantifier": "every document with documentation", "why_tests_cant": "over all documents", "anchors": ["v0/internal/raml/Documentation.go", "v0/internal/raml/APISpec.go: MarshalYAML"]}
{"id": "C39", "title": "Annotations survive writing and reading", "statement": "Annotations on an API document, type or example can be read back after writing. False: parsed annotation values serialize as an !!omap sequence, which the parser rejects; and annotation values that are not mappings are rejected on input.", "quantifier": "every document with an annotation", "why_tests_cant": "over all documents", "anchors": ["v0/internal/raml/APISpec.go: assign", "v0/internal/raml/in-components.go: hasAnnotations.in", "v0/internal/raml/annotation.go: NewAnnotation"]}
{"id": "C40", "title": "Unset followed by re-adding is neutral", "statement": "UnsetTypes/UnsetTraits/UnsetUses/... followed by adding the same entries writes the same document as adding them to a fresh object. False: Unset installs a map that serializes as an !!omap sequence, and the result can no longer be parsed.", "quantifier": "every API document and library, every section with Unset", "why_tests_cant": "over all later contents", "anchors": ["v0/internal/raml/APISpec.go: Unset*", "v0/internal/raml/Library.go: Unset*"]}
{"id": "C41", "title": "What is written for an API document", "statement": "The written document always has a title entry first, has an entry for an optional section exactly when that section is set/non-empty, has no duplicate keys, and all of its entries come from the document.", "quantifier": "every API document without extra-facet/section key clashes", "why_tests_cant": "over all documents", "anchors": ["v0/internal/raml/APISpec.go: MarshalYAML"]}
{"id": "C42", "title": "Setters and getters", "statement": "After any sequence of Set*/Unset* calls on an API document or library, each getter returns the value given by the last call for that property (Unset and Set(nil) give the empty value), unaffected by calls for other properties; Schemas is an alias of Types.", "quantifier": "every history of setter calls", "why_tests_cant": "over all histories", "anchors": ["v0/internal/raml/APISpec.go: Set*, Unset*", "v0/internal/raml/Library.go: Set*, Unset*"]}
{"id": "C43", "title": "Writing then reading a library is lossless", "statement": "For a library without annotations and annotation types, parsing the node tree MarshalYAML produces gives back an equal library.", "quantifier": "every such library", "why_tests_cant": "over all libraries", "anchors": ["v0/internal/raml/Library.go: MarshalYAML, UnmarshalYAML, assign"]}
{"id": "C44", "title": "Library annotation types", "statement": "Parsing 'annotationTypes' of a library fills AnnotationTypes(), as for API documents. False: the entries go to Annotations() instead, AnnotationTypes() stays empty after every parse, and writing emits each of them as a top-level entry.", "quantifier": "every library document", "why_tests_cant": "over all libraries", "anchors": ["v0/internal/raml/Library.go: assign, MarshalYAML"]}
{"id": "C45", "title": "Library sections do not interfere and nothing is dropped", "statement": "As for API documents: each section of a parsed library depends only on its own entries, and every other entry is in Annotations or ExtraFacets.", "quantifier": "every library document that parses", "why_tests_cant": "over all documents", "anchors": ["v0/internal/raml/Library.go: assign"]}
{"id": "C46", "title": "WriteRAML of a library and failing writers", "statement": "WriteRAML on a library writes the library header before any other byte, and if writing the header fails it returns that error and writes nothing more; on success the output starts with '#%RAML 1.0 Library'.", "quantifier": "every writer behaviour and every library", "why_tests_cant": "over all failure points of the writer", "anchors": ["v0/internal/raml/Library.go: WriteRAML", "v0/pkg/raml/rmeta/headers.go"]}
{"id": "C47", "title": "Map loaders keep document order and the last duplicate", "statement": "uses, traits, securitySchemes, resourceTypes, annotationTypes, baseUriParameters, types and properties are loaded with one entry per key, the value of the last occurrence, ordered by last occurrence; one non-string key fails the load.", "quantifier": "every mapping node", "why_tests_cant": "over all sizes and duplicate patterns", "anchors": ["v0/internal/raml/util-*-map.go", "v0/internal/util/assign/any-map.go"]}
{"id": "C48", "title": "Writing normalises: a second round trip is a fixed point", "statement": "If a document parses, and what is written from it parses again, then writing that again gives the same node tree.", "quantifier": "every API document in the round-trippable fragment", "why_tests_cant": "over all documents", "anchors": ["v0/internal/raml/APISpec.go"]}
{"id": "C49", "title": "Every parsed data type is well-formed", "statement": "Every data type the parser returns, and every property, item type and facet type inside it, is well-formed: extra facets have distinct string keys that name no facet of the kind, annotations have distinct keys starting with a parenthesis, properties occur only in object types and are property types, items only in array types, enum elements and example values have the type of the kind and enums are never empty lists, int64 bounds are in range, no default is set.", "quantifier": "every YAML node tree that parses, every nesting depth", "why_tests_cant": "The guarantee is about every result of a recursive parser on an unbounded input space; tests only check particular documents.", "anchors": ["v0/internal/raml/fn-sorting-hat-type.go", "v0/internal/raml/DataType.go", "v0/internal/raml/type-datatype-ext.go", "v0/internal/raml/util-dt-map.go"]}
{"id": "C50", "title": "What is written for a library", "statement": "Writing a library gives a mapping without duplicate keys whose entries are, in a fixed order, exactly the sections that are set or non-empty, each with the value rendered from the section, and the unknown entries; nothing else.", "quantifier": "every library state whose unknown entries and annotations do not clash with section names", "why_tests_cant": "over all combinations of set and unset sections and all contents", "anchors": ["v0/internal/raml/Library.go: MarshalYAML"]}
{"id": "C51", "title": "Plain facets are read from their last entry", "statement": "For each facet holding a string, boolean, number, string list or raw node, every entry given for it converts, and the getter reports the conversion of the last entry; without an entry it reports the kind's default.", "quantifier": "every YAML mapping that parses as a type, every kind, every plain facet", "why_tests_cant": "over all documents, with repeated and reordered entries, and all kinds; tests check one document per kind", "anchors": ["v0/internal/raml/DataType.go", "v0/internal/raml/type-datatype-ext.go", "v0/internal/raml/x-gen-type-*.go: assign"]}
{"id": "C52", "title": "Structured facets are read from all their entries", "statement": "items and example report the last entry's definition or example; examples, facets and annotations report the entries of all mappings given, in order, later values replacing earlier ones of the same name.", "quantifier": "every YAML mapping that parses as a type", "why_tests_cant": "merging over any number of repeated sections; tests use one section", "anchors": ["v0/internal/raml/type-datatype-ext.go", "v0/internal/raml/util-ex-map.go", "v0/internal/raml/util-dt-map.go", "v0/internal/raml/util-ann-map.go"]}
{"id": "C53", "title": "Examples and XML settings are read entry by entry", "statement": "An expanded example reports the last displayName, description, strict and value given, all annotations and all other entries; a plain example reports its value; XML settings report every entry that is not a setting as extra.", "quantifier": "every YAML node that parses as an example or as XML settings, every kind", "why_tests_cant": "over all entry sequences; tests use fixed ones", "anchors": ["v0/internal/raml/x-gen-ex-*.go", "v0/internal/raml/type-xml.go"]}
{"id": "C54", "title": "Exactly which type definitions are accepted", "statement": "A type definition parses if and only if it and every definition nested in it, at any depth, is a string, an include or a mapping of a known kind each of whose entries is acceptable for its facet; likewise for examples and XML settings.", "quantifier": "every YAML node tree", "why_tests_cant": "an if-and-only-if over an unbounded tree space; tests only sample each side", "anchors": ["v0/internal/raml/fn-sorting-hat-type.go", "v0/internal/raml/x-gen-type-*.go", "v0/internal/raml/x-gen-ex-*.go", "v0/internal/raml/type-xml.go"]}
{"id": "C55", "title": "Exactly which API documents are accepted", "statement": "An API document parses if and only if it is a mapping each of whose entries is acceptable for the part it belongs to; acceptance depends only on the set of entries.", "quantifier": "every YAML node tree", "why_tests_cant": "an if-and-only-if over all documents", "anchors": ["v0/internal/raml/APISpec.go", "v0/pkg/raml/rparse/parse-api.go", "v0/internal/raml/Documentation.go"]}
{"id": "C56", "title": "Exactly which libraries are accepted", "statement": "A library input parses if and only if it has no document at all or is a mapping each of whose entries is acceptable for the part it belongs to.", "quantifier": "every YAML node tree and the empty input", "why_tests_cant": "an if-and-only-if over all documents", "anchors": ["v0/internal/raml/Library.go", "v0/pkg/raml/rparse/parse-lib.go"]}
{"id": "C57", "title": "Setters and getters of data types, examples, XML settings and documentation entries", "statement": "After any history of setter and Unset calls on a data type (and of changes made through the live maps its getters return) every getter reports the combined effect of exactly the calls about its facet, in order, so the last call about a facet wins and calls about other facets have no effect; Default() reports the last default set; Kind() never changes; which methods exist depends on the kind only. The same holds for examples, XML settings and documentation entries.", "quantifier": "for every data type of each of the 16 kinds, every finite sequence of calls, every facet", "why_tests_cant": "Sixteen kinds with about sixty methods each give unboundedly many interleavings; the generated files are tested on single calls at most.", "anchors": ["v0/internal/raml/x-gen-type-string.go:47-224", "v0/internal/raml/x-gen-type-object.go:190-268", "v0/internal/raml/x-gen-type-array.go:191-230", "v0/internal/raml/x-gen-type-file.go:190-218", "v0/internal/raml/x-gen-type-number.go:190-240", "v0/internal/raml/x-gen-type-integer.go:190-240", "v0/internal/raml/x-gen-type-datetime.go:185-197", "v0/internal/raml/DataType.go:38-44", "v0/internal/raml/x-gen-ex-string.go:39-105", "v0/internal/raml/type-xml.go:31-95", "v0/internal/raml/Documentation.go:24-39"]}
{"id": "C58", "title": "A data type built with setters is read back as it was built", "statement": "Take a type from its constructor (any kind but union) and apply any sequence of calls whose arguments can be written (numbers in range, names that agree with the kind, examples in expanded form, maps in plain output). Then ToYAML gives a node that TypeSortingHat reads, with the same kind, and each scalar getter of the result reports what the calls asked for, last call winning; names of properties, examples, annotations and facet definitions are kept. Without examples, annotations, facet definitions, XML settings, a default or an empty enum the result equals the built type. A new union type is read back as a custom type.", "quantifier": "for every kind except union, every finite sequence of acceptable calls with arbitrarily nested types", "why_tests_cant": "The claim spans the builder, the writer and the parser for unboundedly many call histories and nesting depths.", "anchors": ["v0/pkg/raml/rbuild/new.go:11-47", "v0/internal/raml/x-gen-type-object.go:190-320", "v0/internal/raml/fn-sorting-hat-type.go:26-107", "v0/internal/raml/type-datatype-ext.go:12-101"]}
{"id": "C59", "title": "After UnsetProperties or UnsetExamples, entries added again make a type unreadable", "statement": "UnsetProperties, SetProperties(nil), UnsetExamples and SetExamples(nil) install a map whose output is a !!omap sequence, unlike the map of the constructor. After such a call, whatever happened before, whatever entries are then added and whatever is done to other facets, what is written cannot be read back as an object type (properties) or as any extended type (examples); if the type name agrees with the kind it is rejected.", "quantifier": "for every data type, every history of calls before and after, every non-empty list of added entries", "why_tests_cant": "It is a relation between histories of calls, the writer and the parser; the tests never write a type after an Unset.", "anchors": ["v0/internal/raml/x-gen-type-object.go:190-207", "v0/internal/raml/x-gen-type-string.go:80-97", "v0/internal/raml/util-dt-map.go:25-39"]}
{"id": "C60", "title": "An API document or library built with setters is read back as it was built", "statement": "Take NewAPISpec() or NewLibrary() and apply any sequence of setter calls and changes through the live maps with acceptable arguments (plain maps, types that can be read back, keys that belong to no other part). Then what MarshalYAML gives is read back by the parser, as canonApi/canonLib say; without annotations and documentation and with types that lose nothing the result equals the built document. Types built as in C58 are acceptable.", "quantifier": "for every finite sequence of acceptable calls, with types of any nesting depth", "why_tests_cant": "It covers all call histories through builder, writer and parser; the tests write no documents built by setters.", "anchors": ["v0/pkg/raml/rbuild/new.go:11-17", "v0/internal/raml/APISpec.go:13-350", "v0/internal/raml/APISpec.go:372-447", "v0/internal/raml/Library.go:13-246"]}
{"id": "C61", "title": "Loading a document into an object that is in use merges it", "statement": "UnmarshalYAML on an APISpec or Library that already holds something ends exactly as parsing the document alone ends (accepted, same error, or panic). If accepted, the object becomes: title replaced if the document has one; optional texts and string lists replaced if given; single media types appended, a media type list replaces all; documentation appended; every dictionary keeps the old names that are not redefined, in order, followed by all of the new document's. Hence parsing a document is parsing its first half and loading the second, wherever it is cut.", "quantifier": "for every object state and every YAML node", "why_tests_cant": "All tests parse into fresh objects, and the claim ranges over every pair of prior state and document.", "anchors": ["v0/internal/raml/APISpec.go:352-447", "v0/internal/raml/Library.go:170-246", "v0/pkg/raml/AnyMap.go:159-164"]}
{"id": "C62", "title": "What a failed load leaves behind", "statement": "When UnmarshalYAML of an APISpec or Library fails (error or panic), the object holds exactly what loading an accepted initial part of the document would have given: all entries before the first bad one, and of the bad one the inner entries before its first bad inner entry if it fills a dictionary (or documentation list) in place, nothing of it otherwise. Whatever follows has no influence, parts that are not mentioned are untouched, and loading is not atomic: every object can be changed by a failing load.", "quantifier": "for every object state and every document on which the load fails", "why_tests_cant": "No test looks at an object after an error; the claim covers every failing document and every position of the failure.", "anchors": ["v0/internal/raml/APISpec.go:352-447", "v0/internal/raml/Library.go:170-246", "v0/internal/raml/util-dt-map.go:9-23", "v0/internal/util/assign/string-list.go:8-26"]}
{"id": "C63", "title": "A written API document starts with the RAML 1.0 header", "statement": "WriteRAML of an API document hands the writer one document with head comment '#%RAML 1.0' and the document's rendering as body, stops at the first failed write and reports success iff every write succeeded. With an encoder that puts the head comment on the first line, the text starts with '#%RAML 1.0' and a line break, so it is never the text of a library.", "quantifier": "for every API document, writer and encoder", "why_tests_cant": "The claim ranges over every writer (including failing ones) and every document.", "anchors": ["v0/internal/raml/APISpec.go:356-370", "v0/internal/raml/Library.go:161-168", "v0/pkg/raml/rmeta/headers.go:6-12"]}
{"id": "C64", "title": "The entries of a written data type come in a fixed order", "statement": "ToRAML of a data type writes its entries in one order that depends only on its kind: default, display name, description, type, extra facets, required, annotations, facets, XML, the kind's own facets, enum, example, examples. For a type read from a string-keyed mapping this is exactly the written list, each key once, whatever order the document had. An example is written as its bare value or expanded, in its own fixed order.", "quantifier": "for every data type (collisions resolved as last write wins) and, for the exact form, every clean type or parsed string-keyed mapping", "why_tests_cant": "Tests compare single documents; the order must hold for every combination of facets present.", "anchors": ["v0/internal/raml/DataType.go:94-98", "v0/internal/raml/type-datatype-ext.go:52-75", "v0/internal/raml/x-gen-type-string.go:226-247", "v0/internal/raml/x-gen-type-object.go:276-310"]}
{"id": "C65", "title": "The contents of a type's XML settings are never written", "statement": "Once a type has XML settings, replacing them by any others changes nothing in what ToRAML gives; what is read back has XML settings that are all unset. Nothing else that has an entry is lost: types of one kind that are written alike agree in every written facet (display name, description, required, pattern, file types, discriminator, format, multipleOf, ...).", "quantifier": "for every data type and all XML settings", "why_tests_cant": "Two-run (relational) claim over all types: no finite set of round trips shows that nothing else is lost.", "anchors": ["v0/internal/raml/type-xml.go:101-104", "v0/internal/raml/type-datatype-ext.go:52-75"]}
{"id": "C66", "title": "Exactly which data types, API documents and libraries can be read back", "statement": "A regular data type (distinct keys, values of the kind's Go type, type naming the kind, extra keys used for nothing else) is accepted by the parser after ToRAML if and only if: its annotations, facet definitions, properties and named examples are plain maps, at every depth; every example has more than a value; no extra key is empty; lengths and counts are below 2^63; properties have a property type; an any type has no example; an include has no extra facets. Then exactly its canonical form is read. The same for API documents and libraries (whose dictionaries must be plain maps).", "quantifier": "for every regular data type, API document and library (without annotation types)", "why_tests_cant": "An exact characterisation: tests can show that some documents come back and some do not, never that there are no others.", "anchors": ["v0/internal/raml/fn-sorting-hat-type.go:12-157", "v0/internal/raml/type-datatype-ext.go:52-75", "v0/internal/raml/x-gen-ex-*.go: MarshalRAML, expand, assign", "v0/internal/raml/APISpec.go:305-447", "v0/internal/raml/Library.go:174-246"]}
{"id": "C67", "title": "A format is any string, read the same way everywhere", "statement": "UnmarshalYAML of DateFormat, IntegerFormat and NumberFormat accepts exactly strings and then holds that text, whatever it held before; on anything else it fails and keeps what it held. The parsers the data types use accept the same nodes with the same result. Reading a written format gives it back. The formats RAML lists are not enforced: unlisted ones are accepted.", "quantifier": "for every YAML node, every previous value and each of the three format types", "why_tests_cant": "The three types have differently written loops over different lists; equality on all strings from any previous value is not enumerable.", "anchors": ["v0/internal/raml/enum-date-format.go:19-43", "v0/internal/raml/enum-integer-format.go:32-56", "v0/internal/raml/enum-number-format.go:36-59", "v0/internal/raml/fn-sorting-hat-*-format.go"]}
{"id": "C68", "title": "The header line tells what a RAML file is", "statement": "ToHeader gives different headers for different module types. Two texts that begin with the header lines of different module types (without line breaks) are different. The rmeta header constants are these header lines followed by a document start, for every declared module type except ResourceType; Overlay has a constant without being declared. WriteRAML of a library and of an API document begins with the header line of Library and root.", "quantifier": "for all module type strings, all file contents, all documents and writers", "why_tests_cant": "Injectivity over all strings, and prefix disjointness over all file contents.", "anchors": ["v0/pkg/raml/rmod/ex-const-types.go:3-25", "v0/pkg/raml/rmeta/headers.go:5-14", "v0/internal/raml/Library.go: WriteRAML", "v0/internal/raml/APISpec.go: WriteRAML"]}
{"id": "C69", "title": "The property parser accepts what the type parser accepts, except nil and include types", "statement": "PropertySortingHat returns a property exactly when TypeSortingHat returns that type and it is neither nil nor include; it panics whenever TypeSortingHat returns a nil or include type; it fails with the same errors.", "quantifier": "for every YAML node", "why_tests_cant": "Relates two parsers on all inputs, including the panic.", "anchors": ["v0/internal/raml/fn-sorting-hat-property.go:8-14", "v0/internal/raml/fn-sorting-hat-type.go:26-58"]}
{"id": "C70", "title": "Data types that contain themselves can never be written, all others can", "statement": "ToYAML of a data type that finishes writes the value the object stands for, with properties, items and facets followed through their pointers, and the result does not depend on the stack. ToYAML overflows every stack exactly when a data type reachable from it through properties, items or facets lies inside itself; otherwise as many nested calls as there are objects are enough. The same for MarshalYAML of API documents and libraries.", "quantifier": "for every heap that a program of constructors, parsers, setters, map edits and loads can build, every object in it and every stack size", "why_tests_cant": "A test of a cyclic object crashes the process; the exactness claim ranges over all object graphs.", "anchors": ["v0/internal/raml/DataType.go:50-61", "v0/internal/raml/type-datatype-ext.go:55-100", "v0/internal/raml/APISpec.go:305-350", "v0/internal/raml/Library.go:174-210", "v0/internal/raml/x-gen-type-object.go:190-207", "v0/internal/raml/x-gen-type-array.go:218-230"]}
{"id": "C71", "title": "A program changes only what it can reach", "statement": "What a data type, an API document or a library is written as, and what can be reached from it, is changed by a program only if the program calls a method on an object reachable from it, or loads into a document with a section, or a data type with a map, reachable from it.", "quantifier": "for every reachable heap, every object and every program of any length", "why_tests_cant": "A frame property over all object graphs and all programs.", "anchors": ["v0/internal/raml/x-gen-type-*.go: setters", "v0/internal/raml/APISpec.go:60-300", "v0/internal/raml/Library.go:42-150", "v0/internal/raml/APISpec.go:352-447", "v0/internal/raml/Library.go:170-246"]}
{"id": "C72", "title": "A map handed from one document to another stays shared until set or unset", "statement": "SetX on one document with a map got from another gives both one section in common. It stays in common, and shows the same in both, through every program that does not set or unset it in one of them: edits through either, loads into either, edits of the data types in it. UnsetX on one document gives it a new empty section and does not change the other document.", "quantifier": "for all reachable heaps, pairs of documents (API or library), sections and programs", "why_tests_cant": "Aliasing shows only after later edits; the claim ranges over all later programs.", "anchors": ["v0/internal/raml/APISpec.go:147-295", "v0/internal/raml/Library.go:42-150", "v0/internal/raml/APISpec.go:352-447"]}
{"id": "C73", "title": "What is created or read is new and stays apart", "statement": "A data type made by a constructor or read by TypeSortingHat, a new API document and a new library share nothing with anything that was there before, and the sections of a new document are different objects. A new map, example or XML settings is empty and nothing points to it. Programs that create, load, unset and remove, but hand over no pointer, never give two objects something in common; so loading one document never shows in another.", "quantifier": "for all reachable heaps, objects, YAML nodes and programs that hand over no pointer", "why_tests_cant": "Absence of sharing over all graphs and programs.", "anchors": ["v0/internal/raml/APISpec.go:13-27", "v0/internal/raml/Library.go:13-24", "v0/internal/raml/x-gen-type-*.go:16-30", "v0/internal/raml/fn-sorting-hat-type.go:26-58", "v0/internal/raml/util-dt-map.go:9-23"]}
{"id": "C74", "title": "A call on a data type object does to its value what the call says", "statement": "A setter on a data type object changes the value it stands for as the same call changes a value, also if it takes an object, unless the receiver is part of that object; then the receiver can never be written again. A change of the map or XML settings that a getter returned is that change of the value, if nothing else inside the data type holds the same object. Whatever a program does inside an item type or a property type, and nowhere else in the outer type, shows as the new item or property.", "quantifier": "for all reachable heaps, data types, setters, arguments, changes of the maps and programs", "why_tests_cant": "It ranges over all object graphs, with and without sharing, and all programs; sharing breaks it in ways single calls do not show.", "anchors": ["v0/internal/raml/x-gen-type-string.go:47-187", "v0/internal/raml/x-gen-type-object.go:190-207", "v0/internal/raml/x-gen-type-array.go:218-230", "v0/internal/raml/type-datatype-ext.go:40-46"]}
{"id": "C75", "title": "Documents that share nothing behave as separate values through every program", "statement": "A new API document or library owns its sections. Loading into a document that owns its sections gives the value, and the error or panic, of loading into the value, and it still owns them. A setter stores the value of the map it is given, and a setter without a map acts as on a value, whatever is shared. For any number of documents that share nothing, a program that works on them by turns (setters, Unsets, loads, changes through section getters, new types put in) leaves each with the value its own steps give, as if it were alone, and written as that value.", "quantifier": "for all reachable heaps, sets of documents, YAML nodes, map changes and interleaved programs", "why_tests_cant": "Interleavings of arbitrary programs over any number of documents.", "anchors": ["v0/internal/raml/APISpec.go:13-27", "v0/internal/raml/APISpec.go:54-295", "v0/internal/raml/APISpec.go:352-447", "v0/internal/raml/Library.go:13-24", "v0/internal/raml/Library.go:42-159", "v0/internal/raml/Library.go:170-246"]}
{"id": "C76", "title": "A data type keeps the very object its setter was given", "statement": "After a setter of a data type that takes a map, example, XML settings or item type, the getter returns that very object; after nil or Unset it returns nil or a new empty map. The call changes neither the old object nor the given one nor the other parts. Through every program the getter returns the same object until that setter is called on that data type again, or a definition with xml, example or items is loaded into it (maps are filled, never replaced), so a part that two data types, or a data type and a document, have in common stays in common and shows the same in both.", "quantifier": "for all heaps, data types, setters, arguments and programs", "why_tests_cant": "It ranges over all programs and sharing patterns; a setter that copied its argument would pass value-based tests.", "anchors": ["v0/internal/raml/x-gen-type-string.go:66-187", "v0/internal/raml/x-gen-type-object.go:190-207", "v0/internal/raml/x-gen-type-array.go:218-230", "v0/internal/raml/type-datatype-ext.go:40-46", "v0/internal/raml/in-components.go:18-20"]}
{"id": "C77", "title": "Loading a definition into a data type, example, XML settings or documentation entry in use", "statement": "UnmarshalRAML on a data type ends with the same success, error or panic as on a new data type of its kind. On success a facet that the definition mentions is what the definition alone gives, except that dictionaries and the enum list keep what was there and add to it; every other facet, the kind and the default stay. A string sets the type name only; a sequence or other scalar is rejected. Loading two definitions in turn is loading them as one. Parsing a type from a mapping is loading it into a new type of the kind it names. The same holds for examples, XML settings and documentation entries.", "quantifier": "for all objects, YAML nodes and scalar conversions", "why_tests_cant": "It relates every pair of prior state and definition, over all kinds and facets.", "anchors": ["v0/internal/raml/DataType.go:77-92", "v0/internal/raml/x-gen-type-*.go assign", "v0/internal/raml/x-gen-ex-*.go:115-198", "v0/internal/raml/type-xml.go:97-132", "v0/internal/raml/Documentation.go:49-65"]}
{"id": "C78", "title": "What a failed load of a definition leaves behind", "statement": "When UnmarshalRAML on a data type fails, the object is what loading the definition up to the first bad place gives: whole entries before it, entries of facets, examples and properties before it, enum values before it. What follows has no influence. Kind, default and facets the definition does not mention stay, also on failure. Loading is not all-or-nothing for any data type. Examples keep the entries before the bad one; a bad value erases the value of an array example and of no other. XML settings and documentation entries keep the entries before the bad one.", "quantifier": "for all objects, YAML nodes and scalar conversions", "why_tests_cant": "It ranges over all places a definition can be bad and all prior states.", "anchors": ["v0/internal/raml/DataType.go:77-92", "v0/internal/raml/x-gen-type-*.go assign", "v0/internal/raml/x-gen-ex-array.go:191-198", "v0/internal/raml/util-dt-map.go:25-39", "v0/internal/raml/util-facet-map.go:9-23", "v0/internal/raml/util-ex-map.go:9-26"]}
{"id": "C79", "title": "Writing a definition into a map of the caller", "statement": "MarshalRAML of a data type, example, XML settings or documentation entry leaves the caller's map with what it would write into a new map, over what was there; other entries stay, first and in order. A data type always writes a type entry, and returns true exactly when the map then holds that entry alone, so never when the caller's map held another; ToYAML is MarshalRAML into a new map. An example returns true exactly when it has nothing but a value. XML settings and documentation entries never return true; what they write reads back, into an object in use, as their settings over what is there, but XML settings never write extra entries, and an extra entry named title or content takes the place of that setting.", "quantifier": "for all objects, maps and lawful scalar conversions", "why_tests_cant": "It ranges over all definitions and all prior contents of the map.", "anchors": ["v0/internal/raml/DataType.go:50-75", "v0/internal/raml/DataType.go:94-98", "v0/internal/raml/x-gen-ex-*.go:107-142", "v0/internal/raml/type-xml.go:101-109", "v0/internal/raml/Documentation.go:42-47", "v0/pkg/raml/marshaling.go:7-13"]}
{"id": "C80", "title": "Loading into a data type object is loading into its value", "statement": "UnmarshalRAML on a data type object whose maps nothing else inside it holds gives it the value, and the error or panic, that loading gives as a value, also when it fails midway; afterwards nothing else inside it holds its maps. So several loads in turn, and what it is written as. A data type made by a constructor or read by TypeSortingHat is a tree: no object in it is pointed to twice, so it and every data type in it own their maps. Loading the XML settings or the example that only the data type has shows as setting the loaded one.", "quantifier": "for all reachable heaps, data types that own their maps, YAML nodes and scalar conversions", "why_tests_cant": "It ranges over all object graphs and all definitions; without owning, an annotation loaded into a type shows in another.", "anchors": ["v0/internal/raml/DataType.go:77-113", "v0/internal/raml/type-datatype-ext.go:75-102", "v0/internal/raml/x-gen-type-*.go assign", "v0/internal/raml/x-gen-type-*.go:16-30", "v0/internal/raml/fn-sorting-hat-type.go:26-58", "v0/internal/raml/util-dt-map.go:25-39", "v0/internal/raml/util-facet-map.go:9-23", "v0/internal/raml/util-ex-map.go:9-26"]}
{"id": "C81", "title": "Programs on objects at any depth are programs on values", "statement": "Take data type objects and documents that are trees (no object inside is pointed to twice) and share nothing. A program works on them by turns: setters and Unset methods, UnmarshalRAML, changes through the getters of sections, new XML settings and examples, data types read and put in as items, properties, facets or types; each on a data type at any depth, found through Properties().Get(k), Items(), FacetDefinitions().Get(k).Get(k') and Types().Get(k). At the end each is still a tree, they still share nothing, and each has the value, and is written as the value, that its own steps in order make of its first value. A new document is a tree.", "quantifier": "for all reachable heaps, any number of trees that share nothing, all programs, ways and YAML nodes, all scalar conversions", "why_tests_cant": "It ranges over all interleavings and depths; one map shared between two types, or one getter that copies, breaks it for some program only.", "anchors": ["v0/internal/raml/type-datatype-ext.go:75-102", "v0/internal/raml/x-gen-type-*.go", "v0/internal/raml/DataType.go:77-113", "v0/internal/raml/APISpec.go", "v0/internal/raml/Library.go", "v0/internal/raml/type-xml.go", "v0/internal/raml/x-gen-ex-*.go", "v0/pkg/raml/AnyMap.go:193-196"]}
{"id": "C82", "title": "Whole programs leave in their variables what they compute on values", "statement": "A program that starts with nothing makes documents and data types with constructors and TypeSortingHat, works on them at any depth, puts a data type it holds into a data type (Properties().Put, SetItems, FacetDefinitions().Get(k).Put) or document (Types().Put) and from then on reaches it only there, and takes such parts out again. At the end every variable holds a tree, no two share an object, and each has the value, and is written as the value, that the program leaves there when run on plain values, where putting in copies and taking out cuts. It makes no difference whether a data type is worked on before it is declared in a document or through the document afterwards. What is declared and taken out again is the same object with the same value.", "quantifier": "for all programs of any length, names, ways and YAML nodes, all scalar conversions", "why_tests_cant": "It ranges over all programs; a map or object shared by a constructor, a reader or a setter shows only after some later change elsewhere.", "anchors": ["v0/internal/raml/x-gen-type-*.go:16-30", "v0/internal/raml/fn-sorting-hat-type.go:26-58", "v0/internal/raml/APISpec.go", "v0/internal/raml/Library.go", "v0/internal/raml/type-datatype-ext.go:75-102", "v0/internal/raml/DataType.go:77-113", "v0/pkg/raml/AnyMap.go:193-196"]}
{"id": "C83", "title": "Slices that objects share with their callers behave as lists for careful callers, and exactly how not for others", "statement": "SetEnum, SetMediaTypes and SetDocumentation store the caller's slice, their getters return it, and loading an enum, documentation or a single media type appends to it. Loading always leaves the old elements followed by the loaded ones in that object (nil stays nil when nothing is loaded), also when loading stops at a bad element, and never changes what a getter returned before. Of every other slice it changes exactly the elements that lie behind the stored one within its capacity. A program that gives away and appends to full slices only, slices within the length and writes no elements sees in every object and variable what it sees when setters and getters copy. Without that care the last load wins: a slice with room that is set in two objects holds in both what was loaded into the second.", "quantifier": "for all programs of slice expressions, appends, writes, setters, getters and loads, all objects, element types and YAML nodes, any growth of the runtime's append", "why_tests_cant": "Whether two objects affect each other depends on the capacity of a slice, which the runtime chooses and no getter shows; it ranges over all programs.", "anchors": ["v0/internal/raml/x-gen-type-string.go:160-163", "v0/internal/raml/x-gen-type-string.go:263-273", "v0/internal/raml/APISpec.go:123-126", "v0/internal/raml/APISpec.go:137-140", "v0/internal/raml/APISpec.go:408-420", "v0/internal/util/assign/string-list.go:8-26"]}
{"id": "C84", "title": "Loading the same definition again changes nothing but enums, documentation entries and media types given as strings", "statement": "If loading a node into an object (UnmarshalYAML of an API document or library, UnmarshalRAML of a data type, example, XML settings or documentation entry) succeeds, loading the same node again succeeds. Libraries, examples, XML settings and documentation entries are then unchanged. In a data type every facet but the enum is unchanged, and the enum values of the definition are there twice. In an API document everything but documentation and media types is unchanged; the documentation entries are there twice, and so are the media types if all are given as plain strings, while a list of media types stays. An API document is unchanged exactly when it has no documentation entry and no media type outside of a list; a data type exactly when its definition has no enum value.", "quantifier": "for all nodes, all objects in any state, all scalar conversions", "why_tests_cant": "It ranges over all definitions and all states of the object; whether a field is overwritten or extended is decided by one assignment in a handler per field.", "anchors": ["v0/internal/raml/APISpec.go:352-447", "v0/internal/raml/Library.go:170-246", "v0/internal/raml/x-gen-type-string.go:263-273", "v0/internal/raml/x-gen-ex-string.go:115-198", "v0/internal/raml/type-xml.go:97-132", "v0/internal/raml/Documentation.go:49-65"]}
{"id": "C85", "title": "Programs that run at the same time on their own objects do not affect each other", "statement": "Several programs (goroutines) use the library in one heap. Each works on objects it made, read, took out of its own objects or was handed by another program, which then no longer uses them; calls are not interrupted but happen in any order. At any time every variable of every program holds a tree, no two variables of the same or different programs share an object, and each is worth, and written as, what the same events leave in it on plain values. If nothing is handed over, every variable is worth and written as what its program leaves there when it runs alone, so the order of calls of different programs makes no difference. It makes no difference whether an object is worked on before it is handed over or by the receiver.", "quantifier": "for any number of programs, all programs and orders of their calls, all YAML nodes, all scalar conversions", "why_tests_cant": "It ranges over all programs and all their interleavings; a hidden global or shared default object would show only in some orders.", "anchors": ["v0/internal/raml/x-gen-type-*.go:16-30", "v0/internal/raml/fn-sorting-hat-type.go:26-58", "v0/internal/raml/APISpec.go", "v0/internal/raml/Library.go", "v0/internal/raml/type-datatype-ext.go:12-40", "v0/internal/raml/DataType.go:12-113"]}
{"id": "C86", "title": "What is written alike is alike", "statement": "If two data types that can be read back are written alike, they have the same kind and type, the same plain facets (display name, description, required, pattern, lengths, bounds, formats, item and property counts, discriminator), the same enum values, XML settings both or neither, the same extra facets where a default counts as one, the same properties and item types (up to the same losses), annotations and example values, and they are read back as the same type. Types without examples, annotations, facets, XML settings and defaults are written alike exactly when they are equal. API documents written alike agree in all texts, lists and dictionaries, in the number of documentation entries and in their types; libraries likewise.", "quantifier": "for all data types, API documents and libraries that can be read back, all scalar conversions", "why_tests_cant": "It compares all pairs of objects; two different objects that collide in the written form need not be among any sampled pairs.", "anchors": ["v0/internal/raml/type-datatype-ext.go", "v0/internal/raml/APISpec.go", "v0/internal/raml/Library.go", "v0/internal/raml/DataType.go:12-113", "v0/internal/raml/type-xml.go"]}
{"id": "C87", "title": "Exactly which inputs make the parser panic", "statement": "Parsing a type definition panics if and only if, reading its entries in order, everything is acceptable up to an empty key (in a definition that is neither nil nor an include, or in an expanded example), or up to a property defined as nil or as an include, at any depth; the kind of panic is the one named. An API document or library panics if and only if its entries are acceptable up to an empty top-level key or up to a type that panics. Everything else that is not acceptable is reported as an error.", "quantifier": "every YAML node tree, all scalar conversions", "why_tests_cant": "An if-and-only-if over an unbounded tree space that depends on which of several problems comes first; tests sample single problems.", "anchors": ["v0/internal/raml/fn-sorting-hat-type.go", "v0/internal/raml/in-components.go: hasAnnotations.in", "v0/internal/raml/APISpec.go: assign", "v0/internal/raml/Library.go: assign", "v0/internal/raml/util-dt-map.go: UnmarshalPropertyMapRAML", "v0/internal/raml/x-gen-ex-*.go: assign"]}
{"id": "C88", "title": "What is read is no larger than the document", "statement": "Count the nodes of a YAML tree, keys included, and for an object one for itself plus one for every entry, list element, part or plain facet it holds that is not the default, together with the nodes and objects in them at any depth. A parsed type, API document or library never counts more than the tree it was read from, and loading a tree into a type, example, XML settings, documentation entry, API document or library already in use never adds more than the tree counts; so loading any number of trees into one API document adds at most their sum.", "quantifier": "every YAML node tree, every object in use, all scalar conversions", "why_tests_cant": "A size bound over an unbounded tree space; tests measure single documents.", "anchors": ["v0/internal/raml/fn-sorting-hat-type.go", "v0/internal/raml/DataType.go: UnmarshalRAML", "v0/internal/raml/APISpec.go: assign", "v0/internal/raml/Library.go: assign", "v0/internal/raml/util-dt-map.go", "v0/internal/raml/util-facet-map.go"]}
{"id": "C89", "title": "The example program", "statement": "The example program ends normally exactly if the request succeeds, its text holds a YAML document that can be read as an API document, and standard output takes all of the written text; if the document cannot be obtained or read, nothing is written at all. What it writes is the RAML 1.0 header and the document. Run on its own output it writes that output again, and for a document that uses only what can be written that second run ends normally.", "quantifier": "every response, YAML reader and encoder, every writer including failing ones, all scalar conversions", "why_tests_cant": "Quantifies over all documents, readers, encoders and failing writers; the program itself fetches one fixed document from the network.", "anchors": ["v0/cmd/example/main.go", "v0/pkg/raml/rparse/parse-api.go", "v0/internal/raml/APISpec.go: WriteRAML"]}
{"id": "C90", "title": "Loading into shared annotations, entries and examples", "statement": "Loading a document, a library, an example or a documentation entry leaves the object as if it shared nothing with any other, also when the load fails half way. Everything else that has the same annotation map shows the new annotations and is otherwise unchanged; what has another annotation map shows no change at all. The entries a load adds to the documentation come after those that were there and are new objects with maps of extra facets of their own, and no object that existed before enters a document through a load.", "quantifier": "every program of constructors, edits, setters and loads, every sharing it brings about, every node tree, all scalar conversions", "why_tests_cant": "Sharing patterns and node trees are unbounded, and a test sees only the objects it happens to compare.", "anchors": ["v0/internal/raml/APISpec.go: UnmarshalYAML", "v0/internal/raml/Library.go: UnmarshalYAML", "v0/internal/raml/Documentation.go: UnmarshalRAML", "v0/internal/raml/x-gen-ex-string.go: UnmarshalRAML"]}
{"id": "C91", "title": "Sharing of annotations and documentation entries", "statement": "SetAnnotations stores the map it is given and copies nothing: what has the same annotation map shows the same annotations until SetAnnotations is called on one of them. A change of an annotation shows in everything whose annotation map has it, under exactly the keys it has there; a change of a documentation entry shows in every document that lists it, but in no written text. Something stays as it is through every program that does not write to an object it consists of. Two things without a common object stay that way unless the program stores a part of one somewhere, and a document read into a new object has nothing in common with anything older.", "quantifier": "every program of constructors, edits, setters and loads, every sharing it brings about, all scalar conversions", "why_tests_cant": "Quantifies over all programs and all ways in which objects can be shared.", "anchors": ["v0/internal/raml/APISpec.go: SetAnnotations, SetDocumentation", "v0/internal/raml/Library.go: SetAnnotations", "v0/internal/raml/Documentation.go: SetTitle, SetContent, ToYAML", "v0/internal/raml/x-gen-ex-string.go: SetAnnotations"]}
{"id": "C92", "title": "The code generators", "statement": "The three generators write 66 different files, and whatever happens in a run no other file changes. A generator ends normally exactly when its templates parse and every file can be created and written (and closed, for documents); then each of its files holds the text of its template for its row. When a run stops, the rows before are complete, those after untouched, and at most the two files of one row are left empty or cut short. Running again changes nothing, and the order of the generators does not matter. Each kind of data type has exactly one row, each kind with examples exactly one row among the examples, and the conversion the template chooses for a row is the one the library uses for that kind.", "quantifier": "every disk, every answer of the file system, every outcome of parsing and executing templates, every time stamp, every node", "why_tests_cant": "The failures of the file system and of templates and the state of the disk are unbounded; tests do not run the generators at all.", "anchors": ["v0/tools/gen/type/main.go: main", "v0/tools/gen/example/main.go: main", "v0/tools/gen/doc/main.go: main", "v0/gen/example-m.tpl: assignVal", "v0/gen/type-m/extended.tpl: assign"]}
{"id": "C93", "title": "Exactly which documents survive being read and written", "statement": "Take a document that is read without error and gives no key twice. What is written for it can be read again if and only if the document has no annotations and every type definition in it, at any depth, has none of the following: annotations, a non-empty facets section, an example that is not a mapping or says nothing besides its value (or that it is strict), a negative length or count, other entries in an include type. It is read as the same document if and only if, in addition, no definition has XML settings and no documentation element has a text or an extra facet. The same holds for single type definitions and for libraries without annotation types.", "quantifier": "every document that is accepted and has no duplicate keys, every lawful YAML conversion", "why_tests_cant": "The condition is exact in both directions and speaks about definitions nested to any depth; a test sees one document.", "anchors": ["v0/pkg/raml/rparse/parse-api.go", "v0/pkg/raml/rparse/parse-lib.go", "v0/internal/raml/APISpec.go:13-447", "v0/internal/raml/Library.go:13-246", "v0/internal/raml/x-gen-type-*.go", "v0/internal/raml/x-gen-ex-*.go", "v0/internal/raml/type-xml.go:31-95"]}
{"id": "C94", "title": "No data races between programs that share no objects", "statement": "Several programs (goroutines) call the library in one process and hand types to each other. At every moment no two of them hold the same object. A line of one program reads and writes only objects that its own variables hold, and objects that it creates: if all other objects were different, its variables would get the same and it would write the same; and every other object stays as it is. A single call depends only on its receiver and on the maps that a load fills, and so does the answer of a load. Two lines of different programs that create nothing can be run in either order with the same result in every object.", "quantifier": "every history of any number of programs with any number of lines, every line, every change of other objects, every YAML conversion", "why_tests_cant": "The race detector sees the accesses of the runs it watches; this speaks about all programs, all interleavings and everything a call could read.", "anchors": ["v0/internal/raml/APISpec.go", "v0/internal/raml/Library.go", "v0/internal/raml/x-gen-type-*.go:16-30", "v0/internal/raml/fn-sorting-hat-type.go:26-58", "v0/internal/raml/type-datatype-ext.go:12-40", "v0/internal/raml/DataType.go:12-113", "v0/internal/raml/enum-number-format.go:21", "v0/internal/raml/enum-integer-format.go:19"]}
{"id": "C95", "title": "Exactly which values the parser can return", "statement": "A data type is returned by the parser for some YAML definition exactly if: its default is nil; enums are non-empty and of the right kind; counts are unsigned 64-bit and integer bounds signed 64-bit; its maps have distinct keys; extra facets are under string keys that are no known facet; examples, XML settings, property types, item type and facet types are of that shape themselves. Everything else is free: any type expression, display name, description, pattern, format. The same for API documents (documentation entries are never an empty list) and libraries (annotation types are always empty). Every value that the short form of a definition (a bare scalar) gives is also given by some mapping.", "quantifier": "every data type, API document and library value, every YAML document, every lawful YAML conversion", "why_tests_cant": "Both directions range over infinitely many documents: that a value is never returned is a statement about all of them, and that a value is returned needs a document for each.", "anchors": ["v0/internal/raml/fn-sorting-hat-type.go:26-58", "v0/internal/raml/type-datatype-ext.go:12-101", "v0/internal/raml/APISpec.go", "v0/internal/raml/Library.go", "v0/internal/raml/x-gen-ex-*.go", "v0/internal/raml/type-xml.go", "v0/internal/raml/x-gen-type-*.go", "v0/internal/raml/Documentation.go"]}
{"id": "C96", "title": "Writing what was read makes a document at most three times as large", "statement": "Count as in C88. The tree written for a type, example, API document or library, however it was made, has at most three times as many nodes as the value counts. So a type definition, API document or library that is read and written again has at most three times as many nodes as before. The bound is reached: an empty API document is written with a title.", "quantifier": "every value, every YAML node tree, every conversion that writes numbers, booleans and keys as single nodes", "why_tests_cant": "A bound over an unbounded space of values; tests measure single documents.", "anchors": ["v0/internal/raml/DataType.go:50-113", "v0/internal/raml/type-datatype-ext.go:52-73", "v0/internal/raml/x-gen-type-*.go", "v0/internal/raml/x-gen-ex-*.go", "v0/internal/raml/APISpec.go:305-350", "v0/internal/raml/Library.go:174-210", "v0/pkg/raml/AnyMap.go:131-157"]}
{"id": "C97", "title": "Writing an object into its own extra map", "statement": "MarshalRAML given the map that the object's own ExtraFacets returns does not panic and changes nothing of the object but that map. A data type's map then holds what the type writes without extra facets and, under all other names, what it held before; what was in the map and the four names written first come out in the order in which every second entry is taken, going round, and the other names follow. From then on the type writes exactly what its extra map holds, the same entries as before unless an extra facet was named default, displayName, description or type; doing it again changes no entry; and no facet can be unset any more: its name goes on being written. Examples in long form and documentation entries behave likewise. An example that has only a value gets an entry with an empty key and can never be read back.", "quantifier": "every data type, example and documentation entry whose extra map has distinct keys, every conversion (lawful ones for the last part)", "why_tests_cant": "The loop changes the list it goes over; what it visits and the order it leaves depend on the number of entries, and the later effects on every later state of the object.", "anchors": ["v0/internal/raml/DataType.go:67-75", "v0/internal/raml/DataType.go:94-98", "v0/internal/raml/in-components.go:54-60", "v0/internal/raml/type-datatype-ext.go:52-73", "v0/internal/raml/x-gen-ex-string.go:124-142", "v0/internal/raml/Documentation.go:38-47", "v0/pkg/raml/AnyMap.go:159-164", "v0/pkg/raml/AnyMap.go:242-248"]}
{"id": "C98", "title": "A change of one facet or part changes one entry of what is written", "statement": "After any sequence of setter calls, and changes through the maps that getters return, about certain facets of a data type, everything that ToRAML writes under other keys is as before, with the same values in the same order; the same for the parts of API documents and libraries. Calls about annotations, extra facets or resources leave everything under names other than those before and after the call. If no names clash, one entry is added, removed or replaced at its place, and what is written before it and after it stays. For data types this supposes that no extra facet or annotation is called type: with such a facet a mapping can be written in place of the whole type.", "quantifier": "every data type, API document and library, every sequence of calls that the Go types have, every lawful conversion", "why_tests_cant": "About eighty calls times fourteen kinds times every state; a test compares chosen entries, the claim is about all others.", "anchors": ["v0/internal/raml/x-gen-type-string.go:47-224", "v0/internal/raml/x-gen-type-object.go:190-268", "v0/internal/raml/type-datatype-ext.go:52-73", "v0/internal/raml/DataType.go:67-98", "v0/internal/raml/APISpec.go:50-350", "v0/internal/raml/Library.go:38-209"]}
{"id": "C99", "title": "A nested data type is written at its place, and a change of it changes nothing else", "statement": "If the getters Types().Get(k), Properties().Get(k), Items() and FacetDefinitions().Get(k).Get(k') lead, one after the other and at any depth, from a document or a data type to another data type, then the written form of the former contains the written form of the latter under the keys that the getters name (types, k, properties, k, items, facets, k, k'), in mappings or ordered mappings, whatever extra facets and annotations of clashing names there are on the way. Whatever is done to the inner type, the written form is the old one with the new written form of that type in that place. For the objects of any program this holds of a step on the object that the getters return; and a call about one facet of the inner type leaves everything in the written form but that facet of that type.", "quantifier": "every data type, API document and library, every way of getters, every change of the type at its end, every program, every lawful conversion", "why_tests_cant": "Quantifies over the depth of nesting, over everything that surrounds the type and over all changes of it.", "anchors": ["v0/internal/raml/DataType.go:50-98", "v0/internal/raml/x-gen-type-object.go:190-296", "v0/internal/raml/x-gen-type-array.go:218-252", "v0/internal/raml/type-datatype-ext.go:40-73", "v0/internal/raml/APISpec.go:305-350", "v0/internal/raml/Library.go:160-209"]}
{"id": "C100", "title": "A nested data type is read from its place, and another definition there changes nothing else", "statement": "If a definition of a data type, an API document or a library has been read and the getters Types().Get(k), Properties().Get(k), Items() and FacetDefinitions().Get(k).Get(k') lead at any depth from it to a data type, and the input has a value under the keys that the getters name (types or schemas, k, properties, k, items, facets, k, k') with no later entry of the same key beside any of them, then that data type is what TypeSortingHat makes of this value. If the value is replaced by another one, then reading gives the same object with the data type made of the new value at that place, and nothing else changes; an error or a crash of TypeSortingHat on the new value is the error or crash of the whole; and the only further failure is the crash of the interface conversion when a property gets a nil or include type. After reading and writing, the two written forms differ at that place only.", "quantifier": "every surrounding input at every level, every way of getters, every old and new value at the place, every lawful conversion", "why_tests_cant": "Quantifies over everything that surrounds the place at any depth and over all pairs of values in it, including those that cannot be read.", "anchors": ["v0/internal/raml/fn-sorting-hat-type.go:26-157", "v0/internal/raml/DataType.go:87-113", "v0/internal/raml/util-dt-map.go:9-39", "v0/internal/raml/util-facet-map.go:9-23", "v0/internal/raml/x-gen-type-object.go:320-349", "v0/internal/raml/x-gen-type-array.go:280-307", "v0/internal/raml/APISpec.go:352-447", "v0/internal/raml/Library.go:170-246"]}
{"id": "C101", "title": "The order of mapping entries in the input does not matter", "statement": "If two inputs differ only in the order of entries of mappings, at any depth, where the entries exchanged have string keys that do not name the same place (not the same key; not type and schema, or the two type sections of an API document; not annotationTypes and an annotation), then TypeSortingHat, the API document reader and the library reader either fail on both or give objects that agree in every getter, where maps are compared by key and values kept as YAML up to the same reordering. The exceptions are necessary: exchanging two entries that name the same place changes what is read.", "quantifier": "every pair of inputs that are reorderings of each other at any depth, every lawful conversion that accepts scalars only", "why_tests_cant": "There are exponentially many orders of the entries of a document at all levels; a test tries a few. A loader could depend on the order through any state it keeps between entries.", "anchors": ["v0/internal/raml/fn-sorting-hat-type.go:26-157", "v0/internal/raml/DataType.go:87-113", "v0/internal/raml/APISpec.go:352-447", "v0/internal/raml/Library.go:170-246", "v0/internal/raml/type-xml.go:97-132", "v0/internal/raml/Documentation.go:49-65", "v0/internal/raml/x-gen-ex-string.go:115-198"]}
{"id": "C102", "title": "Nothing is invented: every text held or written comes from the input or is a fixed word", "statement": "After TypeSortingHat, UnmarshalRAML of a type, example, XML settings or documentation entry, or the API document and library readers, every name, text, key, number and YAML value the object holds, at any depth, was in the object before or is what the conversions find in the input; the only exceptions are the names of the implied types (string, object, array, include) and the defaults of the numeric limits. Every text in what a type, example, API document or library is written as is one of a fixed list of key words, or a text, key or number the object holds, or a boolean. So every text written for a document that was read is in the input or on the list.", "quantifier": "every input, every object in use, every lawful conversion, any depth of nesting", "why_tests_cant": "A leaked text (from another object, a default, an error message, a neighbouring field) shows up only for the inputs that trigger it; a test compares a few outputs with expected ones.", "anchors": ["v0/internal/raml/fn-sorting-hat-type.go:26-157", "v0/internal/raml/DataType.go:50-113", "v0/internal/raml/type-datatype-ext.go:52-101", "v0/internal/raml/x-gen-type-string.go:226-285", "v0/internal/raml/x-gen-ex-string.go:107-198", "v0/internal/raml/APISpec.go:305-447", "v0/internal/raml/Library.go:170-246", "v0/internal/raml/type-xml.go:97-132", "v0/internal/raml/Documentation.go:42-65"]}
{"id": "C103", "title": "Names are not interpreted: renaming the texts of an input renames the result and changes nothing else", "statement": "Let a renaming replace every text of an input, keys included, such that different texts stay different, the words the library looks for stay as they are, and a text keeps its opening parenthesis, slash or '!include ' at the front and its bar. Then TypeSortingHat, UnmarshalRAML of a type, example, XML settings or documentation entry, and the API document and library readers give the renamed object, the same error or the same panic, also when they load into objects in use. What a renamed type, example, API document or library is written as is what the object is written as, renamed. Exchanging any two ordinary names is such a renaming.", "quantifier": "every renaming, every input, every object in use, all conversions that do not look at the spelling of texts", "why_tests_cant": "A test uses a few names; code that treats some other name, length, prefix or collision specially is missed.", "anchors": ["v0/internal/raml/fn-sorting-hat-type.go:26-157", "v0/internal/raml/DataType.go:50-113", "v0/internal/raml/type-datatype-ext.go:52-101", "v0/internal/raml/x-gen-type-string.go:226-285", "v0/internal/raml/x-gen-ex-string.go:107-198", "v0/internal/raml/in-components.go:22-64", "v0/internal/raml/APISpec.go:305-447", "v0/internal/raml/Library.go:170-246", "v0/internal/raml/type-xml.go:97-132", "v0/internal/raml/Documentation.go:42-65"]}
{"id": "C104", "title": "The order of the input changes only the order of the output", "statement": "Exchange entries of mappings of an accepted type definition, API document or library, at any depth. The input is accepted too, and writing what is read gives a document that differs from the other one only in the order of the entries of mappings and ordered maps: the same scalars, the same items of lists in the same order, the same keys with values that again differ in order only. More generally, two types, examples, API documents or libraries whose maps have no key twice and which agree in every getter up to the order of maps are written alike up to that order.", "quantifier": "every input and every rearrangement of it; every pair of objects that agree up to order", "why_tests_cant": "A test compares a few orders of a few documents; a value that is written differently when another entry comes before it is missed.", "anchors": ["v0/internal/raml/DataType.go:50-113", "v0/internal/raml/type-datatype-ext.go:52-101", "v0/internal/raml/x-gen-type-string.go:226-285", "v0/internal/raml/x-gen-ex-string.go:107-198", "v0/internal/raml/APISpec.go:305-447", "v0/internal/raml/Library.go:170-246", "v0/pkg/raml/AnyMap.go:131-157"]}
{"id": "C105", "title": "Of a history of calls only the calls about each part matter, from the last setter on", "statement": "Take any history of setter and unsetter calls and of changes of live maps on a data type, example, XML settings, documentation entry, API document or library. Another history with the same calls about each facet or part leaves the same object, so calls about different parts can be made in any order. A call before a setter or unsetter of the same part can be left out without changing the result, and of setters only the last about each part counts. No call changes which methods a data type has.", "quantifier": "every object, every two histories of calls of any length", "why_tests_cant": "A test makes a few calls in one order; a setter that also touches, needs or resets another part only shows in the order nobody tried.", "anchors": ["v0/internal/raml/x-gen-type-string.go:47-224", "v0/internal/raml/x-gen-type-object.go:190-268", "v0/internal/raml/x-gen-type-array.go:191-230", "v0/internal/raml/x-gen-type-number.go:190-240", "v0/internal/raml/x-gen-ex-string.go:39-105", "v0/internal/raml/type-xml.go:31-95", "v0/internal/raml/Documentation.go:24-39", "v0/internal/raml/APISpec.go:50-303", "v0/internal/raml/Library.go:38-159"]}
{"id": "C106", "title": "Exactly which input is reported as which error", "statement": "For every type definition, example, XML settings, API document and library, a description of the input alone says which error parsing reports, if any: the first problem in reading order, with each nested definition read where it stands. Only a type entry that is no string is noticed before the entries in front of it. Each kind of problem has its own error: a non-string, non-mapping, non-sequence, non-boolean, non-integer, non-float, non-text enum value, key that is no scalar, several types, a type entry or definition of the wrong shape, an example where there can be none, a datetime format that is no string. Together with the acceptable inputs and the inputs that make the parser panic this covers every input, and no input is in two of the three classes or has two errors. What follows the first erroneous top-level entry of an API document does not matter.", "quantifier": "every node, every kind, every behaviour of the YAML conversions", "why_tests_cant": "A test checks that one broken document fails; which of several problems is reported, and that none is reported as another, depends on all combinations of entries at every depth.", "anchors": ["v0/internal/raml/fn-sorting-hat-type.go:13-157", "v0/internal/raml/DataType.go:81-113", "v0/internal/raml/type-datatype-ext.go:76-101", "v0/internal/raml/x-gen-type-string.go:245-285", "v0/internal/raml/x-gen-ex-string.go:117-181", "v0/internal/raml/type-xml.go:111-132", "v0/internal/raml/APISpec.go:367-447", "v0/internal/raml/Library.go:170-246", "v0/internal/raml/Documentation.go:49-65", "v0/internal/util/assign/string.go:8-27"]}
{"id": "C107", "title": "Parsing succeeds or fails entry by entry", "statement": "An API document or library ends the way its first top-level entry does that is not accepted as a document of its own: with the same error or the same panic, and with success if there is none. So a document in two parts ends as the first faulty part does, and leaving out the entries that are not accepted on their own always gives a document that is. The same holds for the entries of an expanded example, of XML settings, of a type definition that begins with its type, and of one without a type that implies no other kind than string; for the types of a document, which end it as the first faulty definition ends on its own; for the properties of an object, the items of an array and the items of the documentation.", "quantifier": "every list of entries, every kind, every behaviour of the YAML conversions", "why_tests_cant": "Tests look at single documents; that no combination of entries is accepted or refused other than through one of its entries is a statement about all lists of entries.", "anchors": ["v0/internal/raml/APISpec.go:367-447", "v0/internal/raml/Library.go:170-246", "v0/internal/raml/DataType.go:81-113", "v0/internal/raml/fn-sorting-hat-type.go:13-157", "v0/internal/raml/util-dt-map.go:9-39", "v0/internal/raml/x-gen-ex-string.go:117-181", "v0/internal/raml/type-xml.go:111-132"]}
{"id": "C108", "title": "Different spellings of the same definition are read alike", "statement": "A type definition gives the same result, be it a type, an error or a panic, whether it is the name of a type alone or a mapping with that one type entry; whether the type is left out or the one implied by the other entries is given first (object if there are properties, otherwise array if there are items, otherwise string); whether the type is under `type` or `schema`; whatever tag a non-empty key has that is no annotation; whether the value of an example that is no mapping stands alone or in an expanded example, also among several examples; and with any of these differences in the items of an array, in a property of an object or in a facet declaration, at any depth and in any number. API documents and libraries are read alike if their types differ only in this way, if `schemas` stands for `types`, if the types are in one mapping or in two adjacent ones, and an API document if the first media type stands alone or as the one item of a list.", "quantifier": "every pair of nodes related by any number of these changes at any depth, every behaviour of the YAML conversions", "why_tests_cant": "Tests compare a few spellings by example; that no combination of spellings at any depth changes the result is a statement about all documents.", "anchors": ["v0/internal/raml/fn-sorting-hat-type.go:13-157", "v0/internal/raml/DataType.go:81-113", "v0/internal/raml/type-datatype-ext.go:76-101", "v0/internal/raml/x-gen-ex-string.go:117-181", "v0/internal/raml/util-dt-map.go:9-39", "v0/internal/raml/APISpec.go:367-447", "v0/internal/raml/Library.go:170-246"]}
{"id": "C109", "title": "An entry that a later one replaces can be left out", "statement": "If a type definition, an API document or a library is accepted, it gives the same object when an entry is left out whose key is given again later: an entry of a type definition other than enum, examples, facets and properties, where the first entry that gives the type stays; an example, a property or a facet declaration whose name is given again; an entry of an API document other than the dictionaries and the documentation, where a media type can only be left out before a list; an entry of a library other than the dictionaries; an entry of one of the dictionaries whose name is given again; and any of these inside types, array items, properties and facet declarations, at any depth and in any number. The values and the order of all dictionaries are the same.", "quantifier": "every pair of nodes related by any number of these omissions at any depth, every behaviour of the YAML conversions", "why_tests_cant": "Tests give a key twice in a few places; that no combination of replaced entries at any depth leaves a trace in the object is a statement about all documents.", "anchors": ["v0/internal/raml/type-datatype-ext.go:76-101", "v0/internal/raml/fn-sorting-hat-type.go:13-157", "v0/internal/raml/util-dt-map.go:9-39", "v0/internal/raml/util-facet-map.go:9-23", "v0/internal/raml/APISpec.go:367-447", "v0/internal/raml/Library.go:170-246"]}
{"id": "C110", "title": "What is read nests no deeper than the document, what is written at most twice as deep", "statement": "Count the levels of a YAML tree, a scalar having one, and the levels of an object: one more than the deepest tree, example, type or dictionary it holds. A parsed type, API document or library has no more levels than the tree it was read from, and an example, type, API document or library in use that a tree is loaded into has no more levels afterwards than the deeper of the two. The tree written for an example, type, API document or library, however it was made, has at most twice as many levels as the value, so reading and writing again at most doubles the levels of a document. The bound is reached: an empty API document is written with a title.", "quantifier": "every YAML node tree, every object in use, every value; for writing, every conversion that writes numbers, booleans and keys as scalars", "why_tests_cant": "A bound on the depth of unboundedly nested documents; tests measure single documents of small depth.", "anchors": ["v0/internal/raml/fn-sorting-hat-type.go:13-157", "v0/internal/raml/DataType.go:50-113", "v0/internal/raml/type-datatype-ext.go:52-101", "v0/internal/raml/util-dt-map.go:9-39", "v0/internal/raml/util-facet-map.go:9-23", "v0/internal/raml/APISpec.go:305-447", "v0/internal/raml/Library.go:170-246", "v0/pkg/raml/AnyMap.go:131-157"]}
{"id": "C111", "title": "Names in dictionaries are free", "statement": "Give the entries of the dictionaries of a document new names, different ones where the old ones differed, each dictionary in its own way: the imports, security schemes, base URI parameters, traits, annotation types, resource types and types of an API document; the imports, types, resource types, traits and security schemes of a library; the properties, examples and facet declarations of a type. The new names may be any text, also words that mean something elsewhere in RAML, such as a property called type or a library called (x). What is read is what was read before with the new names, in the same order and with everything else the same, and loading into an API document, library or type in use gives the same result or the same error. Had two names been made one, an entry would be lost.", "quantifier": "every YAML node tree, every object in use, every one-to-one renaming of each dictionary", "why_tests_cant": "Tests use a few ordinary names; the claim is for every assignment of names, reserved words included.", "anchors": ["v0/internal/raml/fn-sorting-hat-type.go:113-157", "v0/internal/raml/util-dt-map.go:9-39", "v0/internal/raml/util-facet-map.go:9-23", "v0/internal/raml/APISpec.go:305-447", "v0/internal/raml/Library.go:170-246", "v0/internal/raml/util-untyped-map.go:10-20", "v0/internal/raml/util-str-map.go:9-23"]}
{"id": "C112", "title": "Names in dictionaries are written as they are", "statement": "Give the entries of the dictionaries of an API document, library or type any new names, each dictionary in its own way, also names that mean something elsewhere in RAML and also the same name for several entries. What is written is what was written before with the new names as keys, in the same order, with the same values, whether a dictionary is written as a mapping or as an ordered mapping, and with everything else the same. This needs that no annotation, resource or unknown entry is itself written under the key of a dictionary, nor, in a type, under type. An API document or type that was read always satisfies this; a library does unless one of its annotation types, which are read as annotations, has the name of a dictionary. So a document with new names, different where the old ones differed, is read and written as it was before with the new names. If an unknown entry is kept under the key types this fails.", "quantifier": "every API document, library and type whose free entries keep off the dictionary keys, every renaming of each dictionary, every lawful set of scalar conversions", "why_tests_cant": "Tests use a few ordinary names; the claim is for every assignment of names, reserved words and repeated names included.", "anchors": ["v0/internal/raml/APISpec.go:305-350", "v0/internal/raml/Library.go:174-210", "v0/internal/raml/DataType.go:50-113", "v0/internal/raml/x-gen-type-object.go", "v0/internal/raml/type-datatype-ext.go"]}
{"id": "C113", "title": "What the library does not look into is carried unopened", "statement": "Traits, resource types, security schemes, base URI parameters, annotation types, resources, the values of annotations, discriminator values and everything unknown are kept as YAML. Change those values in any way at all, each part of the document in its own way: to null, to sequences, to words that are keys elsewhere, to anything. The document is accepted exactly if it was accepted before, also when read into an object that already holds something, and what is read is what was read before with the same changes made to the values kept. What is written is what was written before with the same changes made, so reading and writing carries the change from one text to the other. For writing this needs that annotations and resources look like what they are and that no unknown entry looks like something known; every API document that was read is like that. The same holds for the types an API document or library declares. Examples and documentation entries are read in the same way, and examples in their long form written so. So of two API documents that differ only in these values both are accepted or neither is.", "quantifier": "every API document, library and type, every object read into, every function changing the values of each part, every lawful set of scalar conversions", "why_tests_cant": "Tests put a few values under a few keys; the claim is for every function on the values, so it also says that no decision of the library depends on them.", "anchors": ["v0/internal/raml/APISpec.go:305-447", "v0/internal/raml/Library.go:160-246", "v0/internal/raml/DataType.go:50-113", "v0/internal/raml/x-gen-type-object.go", "v0/internal/raml/type-datatype-ext.go", "v0/internal/raml/x-gen-ex-string.go:115-181", "v0/internal/raml/Documentation.go:49-65"]}
