# Formal model of lib-go-raml: design

Source: `/repo` (Foxcapades/lib-go-raml, pinned commit), read as text only.
Model and proofs: Lean 4.33.0, Lake project in `/verif/lean`.
Property list: `properties.jsonl`. Claim status: `MANIFEST.json`.
Wrong-program experiments: `seeded/LOG.jsonl`.

## 1. What is modelled

Three layers.

**Layer 1, the generated ordered maps** (`v0/pkg/raml/*Map.go`, 21 generated
types, identical up to key/value types).  `Verif/OMap/Model.lean` follows one
generated file method by method: a slice `ordered`, a Go map `index`, a flag
`outOrder`.  Every method is a function to `Res` (ok, error, panic).  The Go map
is an association list with a `==` that need only be symmetric and transitive,
so that interface keys holding NaN are covered.  The refinement theorems relate
this implementation to the specification type `OM`, a list of pairs, which is
what layer 2 uses.  `Verif/OMap/Slice.lean` refines the slice further down to a
backing array with length and capacity.

**Layer 2, documents.**  YAML is modelled as a tree (`Node`: scalar with tag and
text, sequence with tag, mapping as a list of key/value nodes).  The parser
(`TypeSortingHat`, `siftType`, all `assign` methods, the map loaders, the
example types, XML, `APISpec`, `Library`, `Documentation`) and the writer (all
`marshal`/`ToYAML`/`MarshalYAML` methods) are modelled as total functions by
structural recursion on the tree or on the data type.  The setters of data
types, examples, XML settings and documentation entries, and the ways of
creating them, are modelled as one inductive type of calls.  Loading a document
into an object in use is modelled a second time, in place, so that what a failed
load leaves behind is visible; a refinement theorem ties the two models.  So is
loading a definition into a data type, example, XML settings or documentation
entry in use, and `MarshalRAML` into a map of the caller, which may be the
receiver's own extra map.

**Layer 3, objects and pointers.**  Layer 2 treats documents and data types as
values.  `Verif/Doc/Heap.lean` models them once more as objects on a heap, as
callers hold them: setters store the pointer they get, getters return the stored
one, `UnsetX` installs a new map, loads (of documents, data types, examples, XML
settings) fill the maps that are there, parsers and constructors allocate.  A program is a list of such calls.  `Heap.val` gives the
layer 2 value an object stands for, following pointers to a bounded depth;
`Heap.write` is `ToYAML` on objects with a stack of bounded depth.  Simplified:
the inner maps of examples, annotations, documentation entries, slices and YAML
nodes stay values (the first three are objects on a second heap,
`Verif/Doc/Leaves.lean`, with documents and libraries but without data types;
the two heaps are not combined); `DataTypeMap` and `PropertyMap` share one address space; nil
map entries (`Put(k, nil)`) are left out; a parsed object is allocated in an
order of our own, which cannot be observed.  The heap is all there is: the only
package variables, `validNumForms` and `validIntFormats`, are never written, and
there is no `init` function and no goroutine.

| file | what it holds |
|------|---------------|
| `Verif/Yaml.lean` | the YAML tree, keys, outcomes (`Res`) |
| `Verif/OMap/Model.lean`, `Keys`, `Render`, `Slice` | the generated maps: methods, interface keys, YAML/JSON forms, slice memory |
| `Verif/OMap/Spec.lean`, `Refine.lean` | lists of pairs, and the refinement |
| `Verif/Doc/Base.lean` | third-party conversions as parameters, loops, `assign.*` helpers |
| `Verif/Doc/Example.lean`, `DataType.lean`, `Api.lean` | the parser and the writer |
| `Verif/Doc/Build.lean` | constructors and setters of data types and their parts |
| `Verif/Doc/Live.lean`, `LiveType.lean` | loading in place; writing into a given map |
| `Verif/Doc/OwnMap.lean`, `OwnMapSpec` | writing an object into its own extra map |
| `Verif/Doc/Formats.lean` | format types, headers, the property parser |
| `Verif/Doc/Command.lean` | the example program |
| `Verif/Doc/Generate.lean` | the code generators |
| `Verif/Doc/Heap.lean` | objects, pointers, programs |
| `Verif/Doc/HeapSpec.lean` | reachability, sharing, frame vocabulary |
| `Verif/Doc/HeapExactSpec.lean` | calls on objects as calls on values, owning, steps on documents |
| `Verif/Doc/HeapTreeSpec.lean`, `HeapSessionSpec`, `HeapThreadsSpec` | steps at any depth, whole programs, programs at the same time |
| other `Verif/Doc/Heap*.lean` | lemmas on the heap |
| `Verif/Doc/Leaves.lean`, `LeavesSpec` | annotations, documentation entries and the maps of examples as objects |
| `Verif/Doc/Slices.lean` | slices of enums, media types and documentation, shared with callers |
| `Verif/Doc/Laws.lean` | the assumptions `Lawful`, and `Xyml.std` meeting them |
| `Verif/Doc/Spec.lean`, `WriteSpec`, `ApiSpec`, `ApiWriteSpec`, `ReadableSpec`, `SizesSpec`, `EditSpec`, `OrderSpec`, `OriginSpec`, `RenameSpec`, `ShuffleSpec`, `CallSpec` | vocabulary of the properties, separate from the model |
| other `Verif/Doc/*.lean` | lemmas |
| `Verif/Props/*.lean` | the property theorems (`Cnn_...`) with concrete cases beside them |
| `Verif/Audit.lean` | prints the axioms of every property theorem |

Every Lean definition cites the Go file and lines it models, and says where it
simplifies.

## 2. Trusted base

* Lean's kernel, and the standard axioms `propext`, `Classical.choice`,
  `Quot.sound`.  No theorem uses any other axiom; there is no `sorry`, `admit`,
  `native_decide` or `bv_decide`.  `Verif/Audit.lean` prints the axioms of every
  property theorem at build time.
* The hand translation from Go to Lean, checked by reading, twice.  The generated
  siblings were also compared mechanically: after renaming, the 17 map files with
  an interface value are the same text, as are the 14 loaders of example maps, the
  five string-like example types, the data types any, custom and union, the data
  types date-only, datetime-only and time-only, and the example types any, custom,
  union, file and object.  The boolean data type and the boolean, integer, number
  and array example types differ from these in the type and reading of the value
  only.  `tools/templates.py` instantiates the templates in `v0/gen` with the tables
  of the generators and finds the generated files of data types, examples and
  documents in the repository to be that text up to layout and the time stamp, and
  compares the map files (87 files, all the same); it reads text only.
* The assumptions on third-party code, which is not in the sandbox:
  * `xyml.IsString` holds for scalars tagged `!!str`; `RequireString` fails
    exactly otherwise; `IsMap`, `IsSequence` look at the node kind.
  * `tmp.LongTag() == xyml.TagString` (fn-sorting-hat-type.go:137) holds exactly
    when `xyml.IsString(tmp)` does.
  * `xyml.MapForEach` / `SequenceForEach` fail on a node of another kind, visit
    entries in order and stop at the first error.
  * `xyml.NewOrderedMapNode` makes a sequence tagged `!!omap`;
    `MapAppend`/`ToYamlNode` render a string as a `!!str` scalar, a YAML node (held by
    value or by pointer) as itself, an `xyml.Marshaler` through `ToYAML`, a slice as a sequence, and
    other structs by exported fields.
  * `gomp.IsNil` is true for nil pointers, slices, maps and interfaces;
    `gomp.Deref` follows one pointer.
  * scalar conversions (`ToInt`, `ToUint`, `ToFloat`, `ToBoolean`, `ToString`,
    `ToScalarValue`) and their inverses are parameters of the model (structure
    `Xyml`).  Most theorems hold for all of them.  Theorems about reading what
    was written take the hypothesis `Lawful X` (`Verif/Doc/Laws.lean`): integers
    read are 64 bit; a written 64-bit integer, float, boolean, string or key reads
    back as itself; an integer of 2^63 or more does not read as an integer; a key
    that is no string is not written as a string, nor with the text of a library
    section name.  C101 also takes `ReadsScalars X` (`Verif/Doc/OrderSpec.lean`):
    numbers, booleans and texts are read from scalars only.  `Xyml.std` meets
    these laws (`Xyml.std_lawful`, `C101_std`), so the hypotheses are not vacuous.
  * the YAML text emitter/parser preserves the node tree (tags and scalar text).
* Not modelled: YAML text, anchors/aliases, styles, comments, line numbers,
  error message texts, logging, memory exhaustion, the Go memory
  model itself (calls are atomic in C85; C94 shows that calls of different
  programs never read or write a common object, which is what makes them so; the
  allocator is taken to be thread safe and to give zeroed memory, and the only
  package-level variables, `validNumForms` and `validIntFormats`, are never
  written), mapping nodes with an odd number of children, nil receivers, the text
  of templates (C92 covers the choices between conversions only), interfaces without an implementation (`Method`, `Response`,
  `Overlay`), aliasing of the values listed under layer 3 (of slices: only C11
  and C83).
  `DataType.ToRAML` (always panics) is not part of any claim.

## 3. Properties: model and method

| id | model | method |
|----|-------|--------|
| C01 | OMap implementation, operation histories | simulation relation to a list of pairs, induction on the history, equality of all observations |
| C02 | same, key equality only symmetric+transitive | invariant "index and ordered agree", induction; witness with a non-reflexive key |
| C03 | same | invariant Nodup keys |
| C04–C07 | same, from any reachable state | from the refinement, list lemmas |
| C08 | same | induction on the history against a separate backwards scan |
| C09 | same | induction, insertion at any position |
| C10 | ForEach with a state-carrying callback that may call the map | induction on the remaining range; witness for deleting callbacks |
| C11 | slice = (array, len, cap), append with arbitrary growth | simulation down from the OMap model |
| C12 | ToYAML to Node | injectivity by decoding functions |
| C13 | unordered JSON as fold over an arbitrary permutation of the index | permutation invariance; counterexample for printed-key collision |
| C14–C17 | TypeSortingHat on Node | case analysis, induction on entries; witnesses for the negative parts |
| C18–C20, C23 | assign loop over entries | fold decomposition lemmas, induction on entries |
| C21 | whole parser with `panic` as an outcome | structural induction on the tree against a separate syntactic predicate; witnesses for the two panics |
| C22 | ToUint with 64-bit wrap | arithmetic; witness |
| C24, C25 | example dispatch, default | per-kind theorem, refutation theorem for the false part |
| C26–C28 | marshal and assign of all kinds | structural induction on nested data types |
| C29 | Example marshal and parse | round trip on the expanded fragment, refutation for short form |
| C30, C38–C40, C44 | as above | refutation of the full statement for every offending object plus `_partial` for what holds |
| C31 | XML parse | induction on entries |
| C32, C43, C48 | APISpec, Library | composition of section round trips |
| C33–C37, C45, C47 | APISpec/Library assign loop | projection lemmas, induction on entries |
| C41, C42 | MarshalYAML, setter histories | key-list computation; induction on the history |
| C46, C63 | WriteRAML against a writer that may fail at any call | case analysis over all writer behaviours |
| C48 | parse, write, parse, write | what the parser guarantees (`Parsed`) plus re-readability gives writability |
| C49 | parser | invariant by structural induction on the tree |
| C50 | Library MarshalYAML | key-list computation |
| C51–C53 | every facet of every kind | "one entry touches one facet" lemma, then folding over the entries of that facet |
| C54–C56 | parser, yes or no | equivalence with a separate recursive predicate on trees, structural induction |
| C57 | setters | case analysis over all calls |
| C58, C60 | histories of calls, write, read | invariant over the history implying writability |
| C59 | Unset then add | refutation for every such history |
| C61 | UnmarshalYAML on any state | fold decomposition, merge operation on states |
| C62 | in-place loader | refinement to the value model, longest accepted prefix |
| C64 | marshal order | list of slots per kind, equality of entry lists |
| C65 | marshal of XML | two-run statements from C28 |
| C66 | write, then read, necessary conditions | induction on the type; each written entry must have been accepted |
| C67 | format types with a pointer receiver | case analysis over all nodes and previous values |
| C68 | headers as strings | cancellation on character lists, first-line lemma |
| C69 | PropertySortingHat | case analysis over the outcomes of TypeSortingHat |
| C70 | heap, ToYAML with a bounded stack | paths in the object graph; pigeonhole on the number of objects |
| C71 | heap programs | each step changes only what it touches; induction on the program |
| C72 | heap programs | a section pointer changes only by its setter; induction |
| C73 | heap programs | fresh addresses; growth of reachability, induction |
| C74 | heap and values | a call changes one object; the rest of the value is unchanged by the frame lemma |
| C75 | heap programs and values | simulation of loads and steps, invariant: each document owns its sections |
| C76 | heap programs | a part pointer of a data type changes only by its setter or a load of its key; induction |
| C77 | UnmarshalRAML on any state | per-facet steps from C51–C53, merge operation on facets |
| C78 | in-place loader of definitions | refinement to the value model, cut at the first bad place |
| C79 | MarshalRAML into any map | marshal is a list of puts that does not look at the map |
| C80 | heap and in-place loader | simulation of every `assign` case; new types are trees by address ranges |
| C81 | heap programs and values, any depth | simulation of every step; invariant: trees that share nothing; a change below a pointer is a change of one entry of the value |
| C82 | whole programs from the empty heap | invariant over the program: every variable holds a tree, no two share; one more pointer joins two trees, one pointer less splits one |
| C83 | slices = (array, offset, length, capacity) in fields and variables | exact effect of append on every other slice; simulation by lists, invariant: room behind a field is seen by no other slice |
| C84 | UnmarshalYAML/UnmarshalRAML on any state, twice | from the merges of C61 and C77: a merge is idempotent but for lists that grow |
| C85 | several programs in one heap, any order of calls | the line of one program seen as a line of a program that also holds the variables of two others (C82), split again |
| C86 | pairs of objects with equal written forms | C26/C32/C43 read-back, then what `canon` keeps |
| C87 | every node tree, every panic | entries in order: what an entry before the panic must satisfy (C54–C56), what panics at one entry, then induction on the size of the tree |
| C88 | every node tree, every object in use | a measure on trees and one on objects; each entry adds at most its key and value to the facet or part it touches (C19, C33, C45), then induction on the size of the tree |
| C89 | the program as a function of response, reader, encoder and writer | case analysis; C63 for what is written, C48 and C32 for the second run |
| C90 | loads on a heap of annotations, entries and examples, any sharing | the load on objects follows the load on values step by step, and writes only to the object, its maps and new objects |
| C91 | programs on that heap | what each step writes to and stores; the objects something consists of, closed under pointers |
| C92 | the generators on a disk, with the system and the templates as parameters | induction over the table; the paths are distinct by computation |
| C93 | reading what was written, against conditions on the entries of the document | induction on the size of a definition: what is read is tidy, and writable iff kept; C26, C48 |
| C94 | two heaps that agree on the objects of a program but nowhere else; owned objects against changed objects | every operation of the heap preserves agreement on a set of objects that contains what it touches (`Alike`); C72, C82, C85 |
| C95 | a condition on values alone (`ReadableSpec.lean`), against the set of values the parser returns | every conversion is onto its target for lawful conversions; facets are read one after another, each adding its entry (`Leads`), so a document is put together from one segment per facet |
| C96 | the nodes written, against what the value holds | each `Put` adds a key and a value; a part of the value pays three nodes for itself; mutual induction over types and their dictionaries; C88 |
| C97 | `ForEach` over a map that its callback puts into; `marshal` with source and target the same map | the loop rotates the part not yet passed (induction on what is left), so a permutation known in advance; before and after the loop only puts (C79) |
| C98 | a table from calls to keys, stated apart from the setters; the written entries without those keys | the puts under other keys are the same list before and after each call; keeping the last put of each key commutes with leaving keys out; C64 and C41 for the place |
| C99 | trees with a marked place, given by the entries around it at each level; the ways of C82 | `properties`, `items`, `facets` and `types` are put after every entry with a name of free choice, so what remains around them does not depend on their values; induction on the way; C82 for the objects |
| C100 | the places of C99, in the input; `fits` for what can be a property | loops over entries split at the place; what later entries do commutes with a change there; `siftType` looks at the values of `type` and `schema` only; induction on the way |
| C101 | `Swap`, `Reordered`, objects looked at without the order of their dictionaries (`OrderSpec`) | steps of a loader for two places commute up to the view; the kind is found by `type` and `schema` alone; induction on the input; hypothesis `ReadsScalars` |
| C102 | `sourceOf`, `typeFrom`, `ApiFrom`, `LibFrom`, `texts`, `Written` (`OriginSpec`) | each loader step puts in only what the conversions give; each write step puts a fixed key and something the object holds; induction on the input and on the type |
| C103 | `Renaming`, `Blind`, `renNode`, `renType`, `renApi`, `renLib` (`RenameSpec`) | every step of reading and writing commutes with renaming; injectivity keeps map keys apart; induction on the input and on the type |
| C104 | `Shuffled`, `Matching`, `TypeOnce`, `ApiOnce`, `LibOnce` (`ShuffleSpec`) | C101 for reading; maps that agree up to order are written as permutations of the same entries; induction on the type |
| C105 | `about`, `effective`, `typePart`, `apiPart`, `libPart` (`CallSpec`) | calls about different parts commute and a setter forgets what was there; a call moves in front of calls about other parts; induction on the history |
| C106 | `Rejects`, `FacetErr`, `ExampleErr`, `ApiRejects`, `LibRejects` (in the file of the theorem, over the vocabulary of C54–C56 and C87) | loops stop at the first entry that is not accepted, so the error is that entry's; strong induction on the definition |
| C107 | `verdict`, `firstFault`, `propVerdict`, `Plain` (in the file of the theorem) | how a step ends does not depend on the object it changes (from C54–C56, C87, C106), so a loop ends as its first faulty step |
| C108 | `Respelled`, `ApiRespelled`, `LibRespelled`, `impliedName` (`Doc/SpellSpec.lean`, over nodes only) | induction on the respelling; the two entries that differ do the same to every object of the kind the definition has |
| C109 | `Trimmed`, `ApiTrimmed`, `LibTrimmed` (`Doc/OverSpec.lean`, over nodes only) | a put under a key that is put again is invisible; part by part for the entries, then induction on the omissions |
| C110 | the levels of trees and of values (`Doc/DepthSpec.lean`) | as C88 and C96, with the largest part in place of the sum |
| C111 | new keys in the values of dictionary entries, new names in the dictionaries read (`Doc/NamesSpec.lean`) | one entry commutes with renaming; the kind of a type is chosen without looking into dictionaries |
| C112 | new names in the dictionaries written, new keys in the written values (`Doc/NamesSpec.lean`) | the entries put into the output commute with renaming, and so does keeping the last of each key |
| C113 | any change of the values kept as YAML, in the text and in the document (`Doc/ContentsSpec.lean`) | each entry read commutes with the change, and so does each entry written; contents of types inside types (properties, items, facets) and of examples inside types stay as they are, and declared types are treated for reading only |

Where a property as a user would state it is false of the code, the file holds a
theorem refuting it (`..._false` or `not_...`), usually for a whole class of
inputs, and the strongest true part under the suffix `_partial`.
