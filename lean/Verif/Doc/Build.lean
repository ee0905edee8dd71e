import Verif.Doc.Api

/-!
# Building data types, examples, XML settings and documentation entries

Models the setters of `/repo/v0/internal/raml/x-gen-type-*.go` (line numbers are those of
`x-gen-type-string.go` unless another file is named; the common setters have the same text in all
14 files), `x-gen-ex-*.go`, `type-xml.go` and `Documentation.go`, and changes that a caller makes
to the live maps that getters return.
-/

namespace Verif.Doc

/-! ### Data types -/

/-- The calls that change a data type.  A nil argument is `none`.  `edit…` stands for whatever the
caller does to the map that the getter of that name returns, which is the live one.
Simplification: maps are values here; a map given to two objects is shared in Go. -/
inductive TypeOp where
  | overrideType (s : String)
  | setType (s : String)
  | setDefault (n : Node) | unsetDefault
  | setExample (e : Option Example) | unsetExample
  | setExamples (m : Option (OM String Example)) | unsetExamples
  | setDisplayName (s : String) | unsetDisplayName
  | setDescription (s : String) | unsetDescription
  | setAnnotations (m : Option (OM String Ann)) | unsetAnnotations
  | setFacetDefinitions (m : Option (OM String (OM String DT))) | unsetFacetDefinitions
  | setXML (x : Option XML) | unsetXML
  | setEnum (l : Option (List Val)) | unsetEnum
  | setExtraFacets (m : Option (OM Scalar Node)) | unsetExtraFacets
  | setRequired (b : Bool)
  | setPattern (s : String) | unsetPattern
  | setMinLength (n : Nat) | setMaxLength (n : Nat) | unsetMaxLength
  | setFileTypes (l : Option (List String)) | unsetFileTypes
  | setUniqueItems (b : Bool) | setMinItems (n : Nat) | setMaxItems (n : Nat)
  | setItems (t : Option DT) | unsetItems
  | setProperties (m : Option (OM String DT)) | unsetProperties
  | setMinProperties (n : Nat) | unsetMinProperties
  | setMaxProperties (n : Nat) | unsetMaxProperties
  | setAdditionalProperties (b : Bool)
  | setDiscriminator (s : String) | unsetDiscriminator
  | setDiscriminatorValue (n : Node) | unsetDiscriminatorValue
  | setNumMinimum (f : Flt) | setIntMinimum (i : Int) | unsetMinimum
  | setNumMaximum (f : Flt) | setIntMaximum (i : Int) | unsetMaximum
  | setFormat (s : Option String) | unsetFormat
  | setMultipleOf (f : Flt) | unsetMultipleOf
  | editExamples (f : OM String Example → OM String Example)
  | editAnnotations (f : OM String Ann → OM String Ann)
  | editFacets (f : OM String (OM String DT) → OM String (OM String DT))
  | editExtra (f : OM Scalar Node → OM Scalar Node)
  | editProperties (f : OM String DT → OM String DT)

/-- The setters that every extended type has (x-gen-type-string.go:47-187), on the fields kept in
the header; `none` for other calls. -/
def Hdr.apply (h : Hdr) : TypeOp → Option Hdr
  | .overrideType s => some { h with schema := s }
  | .setType s => some { h with schema := s }
  | .setDefault n => some { h with dflt := some n }
  | .unsetDefault => some { h with dflt := none }
  | .setExample e => some { h with «example» := e }
  | .unsetExample => some { h with «example» := none }
  | .setExamples m => some { h with examples := orFresh m }
  | .unsetExamples => some { h with examples := OM.empty true }
  | .setDisplayName s => some { h with displayName := some s }
  | .unsetDisplayName => some { h with displayName := none }
  | .setDescription s => some { h with description := some s }
  | .unsetDescription => some { h with description := none }
  | .setAnnotations m => some { h with annotations := orFresh m }
  | .unsetAnnotations => some { h with annotations := OM.empty true }
  | .setXML x => some { h with xml := x }
  | .unsetXML => some { h with xml := none }
  | .setEnum l => some { h with enum := l }
  | .unsetEnum => some { h with enum := none }
  | .setExtraFacets m => some { h with extra := orFresh m }
  | .unsetExtraFacets => some { h with extra := OM.empty true }
  | .setRequired b => some { h with required := b }
  | .editExamples f => some { h with examples := f h.examples }
  | .editAnnotations f => some { h with annotations := f h.annotations }
  | .editExtra f => some { h with extra := f h.extra }
  | _ => none

/-- The kind-specific setters except those for `properties` and `items`:
x-gen-type-string.go:189-224, x-gen-type-file.go:190-218, x-gen-type-array.go:191-218,
x-gen-type-object.go:209-268, x-gen-type-number.go:190-240, x-gen-type-integer.go:190-240,
x-gen-type-datetime.go:185-197.  `none` where the type has no such method. -/
def Body.apply : Body → TypeOp → Option Body
  | .string f, .setPattern s => some (.string { f with pattern := some s })
  | .string f, .unsetPattern => some (.string { f with pattern := none })
  | .string f, .setMinLength n => some (.string { f with minLength := n })
  | .string f, .setMaxLength n => some (.string { f with maxLength := some n })
  | .string f, .unsetMaxLength => some (.string { f with maxLength := none })
  | .file f, .setFileTypes l => some (.file { f with fileTypes := l })
  | .file f, .unsetFileTypes => some (.file { f with fileTypes := none })
  | .file f, .setMinLength n => some (.file { f with minLength := n })
  | .file f, .setMaxLength n => some (.file { f with maxLength := n })
  | .array f, .setUniqueItems b => some (.array { f with uniqueItems := b })
  | .array f, .setMinItems n => some (.array { f with minItems := n })
  | .array f, .setMaxItems n => some (.array { f with maxItems := n })
  | .object f, .setMinProperties n => some (.object { f with minProps := some n })
  | .object f, .unsetMinProperties => some (.object { f with minProps := none })
  | .object f, .setMaxProperties n => some (.object { f with maxProps := some n })
  | .object f, .unsetMaxProperties => some (.object { f with maxProps := none })
  | .object f, .setAdditionalProperties b => some (.object { f with addtlProps := b })
  | .object f, .setDiscriminator s => some (.object { f with discrim := some s })
  | .object f, .unsetDiscriminator => some (.object { f with discrim := none })
  | .object f, .setDiscriminatorValue n => some (.object { f with discrimVal := some n })
  | .object f, .unsetDiscriminatorValue => some (.object { f with discrimVal := none })
  | .number f, .setNumMinimum x => some (.number { f with minimum := some x })
  | .number f, .unsetMinimum => some (.number { f with minimum := none })
  | .number f, .setNumMaximum x => some (.number { f with maximum := some x })
  | .number f, .unsetMaximum => some (.number { f with maximum := none })
  | .number f, .setFormat s => some (.number { f with format := s })
  | .number f, .unsetFormat => some (.number { f with format := none })
  | .number f, .setMultipleOf x => some (.number { f with multipleOf := some x })
  | .number f, .unsetMultipleOf => some (.number { f with multipleOf := none })
  | .integer f, .setIntMinimum x => some (.integer { f with minimum := some x })
  | .integer f, .unsetMinimum => some (.integer { f with minimum := none })
  | .integer f, .setIntMaximum x => some (.integer { f with maximum := some x })
  | .integer f, .unsetMaximum => some (.integer { f with maximum := none })
  | .integer f, .setFormat s => some (.integer { f with format := s })
  | .integer f, .unsetFormat => some (.integer { f with format := none })
  | .integer f, .setMultipleOf x => some (.integer { f with multipleOf := some x })
  | .integer f, .unsetMultipleOf => some (.integer { f with multipleOf := none })
  | .datetime _, .setFormat s => some (.datetime s)
  | .datetime _, .unsetFormat => some (.datetime none)
  | _, _ => none

/-- One call on a data type; `none` where the Go type has no such method.  Nil and include types
have `OverrideType` and the live map of extra facets only (DataType.go:38-40,
in-components.go:54-56). -/
def DT.apply : DT → TypeOp → Option DT
  | .basic i _ x, .overrideType s => some (.basic i s x)
  | .basic i s x, .editExtra f => some (.basic i s (f x))
  | .basic _ _ _, _ => none
  -- x-gen-type-string.go:130-142
  | .ext h b _ ps it, .setFacetDefinitions m => some (.ext h b (orFresh m) ps it)
  | .ext h b _ ps it, .unsetFacetDefinitions => some (.ext h b (OM.empty true) ps it)
  | .ext h b fs ps it, .editFacets f => some (.ext h b (f fs) ps it)
  -- x-gen-type-object.go:190-207
  | .ext h (.object o) fs _ it, .setProperties m => some (.ext h (.object o) fs (orFresh m) it)
  | .ext h (.object o) fs _ it, .unsetProperties => some (.ext h (.object o) fs (OM.empty true) it)
  | .ext h (.object o) fs ps it, .editProperties f => some (.ext h (.object o) fs (f ps) it)
  -- x-gen-type-array.go:218-230
  | .ext h (.array a) fs ps _, .setItems t => some (.ext h (.array a) fs ps t)
  | .ext h (.array a) fs ps _, .unsetItems => some (.ext h (.array a) fs ps none)
  | .ext h b fs ps it, op =>
    match h.apply op with
    | some h' => some (.ext h' b fs ps it)
    | none => (b.apply op).map fun b' => .ext h b' fs ps it

/-- A history of calls; `none` if one of them does not exist. -/
def DT.applyAll : DT → List TypeOp → Option DT
  | t, [] => some t
  | t, op :: ops => (t.apply op).bind fun u => u.applyAll ops

/-- The constructors that `rbuild` exports for data types (rbuild/new.go:19-47). -/
def rbuildKinds : List Kind := [.any, .array, .boolean, .integer, .number, .string]

/-! ### Examples -/

/-- The calls that change an example (x-gen-ex-string.go:39-99). -/
inductive ExampleOp where
  | setDisplayName (s : String) | unsetDisplayName
  | setDescription (s : String) | unsetDescription
  | setAnnotations (m : Option (OM String Ann)) | unsetAnnotations
  | setValue (v : Val) | unsetValue
  | setStrict (b : Bool)
  | editAnnotations (f : OM String Ann → OM String Ann)
  | editExtra (f : OM Scalar Node → OM Scalar Node)

/-- One call (x-gen-ex-string.go:39-105). -/
def Example.apply (e : Example) : ExampleOp → Example
  | .setDisplayName s => { e with displayName := some s }
  | .unsetDisplayName => { e with displayName := none }
  | .setDescription s => { e with description := some s }
  | .unsetDescription => { e with description := none }
  | .setAnnotations m => { e with annotations := orFresh m }
  | .unsetAnnotations => { e with annotations := OM.empty true }
  | .setValue v => { e with value := some v }
  | .unsetValue => { e with value := none }
  | .setStrict b => { e with strict := b }
  | .editAnnotations f => { e with annotations := f e.annotations }
  | .editExtra f => { e with extra := f e.extra }

/-! ### XML settings and documentation entries -/

/-- The calls that change XML settings (type-xml.go:31-95). -/
inductive XMLOp where
  | setIsAttribute (b : Bool) | unsetIsAttribute
  | setIsWrapped (b : Bool) | unsetIsWrapped
  | setName (s : String) | unsetName
  | setNamespace (s : String) | unsetNamespace
  | setPrefix (s : String) | unsetPrefix

/-- One call (type-xml.go:31-95). -/
def XML.apply (x : XML) : XMLOp → XML
  | .setIsAttribute b => { x with isAttr := some b }
  | .unsetIsAttribute => { x with isAttr := none }
  | .setIsWrapped b => { x with isWrap := some b }
  | .unsetIsWrapped => { x with isWrap := none }
  | .setName s => { x with name := some s }
  | .unsetName => { x with name := none }
  | .setNamespace s => { x with ns := some s }
  | .unsetNamespace => { x with ns := none }
  | .setPrefix s => { x with pref := some s }
  | .unsetPrefix => { x with pref := none }

/-- The calls that change a documentation entry (Documentation.go:24-39). -/
inductive DocOp where
  | setTitle (s : String)
  | setContent (s : String)
  | editExtra (f : OM Scalar Node → OM Scalar Node)

/-- One call (Documentation.go:24-39). -/
def Documentation.apply (d : Documentation) : DocOp → Documentation
  | .setTitle s => { d with title := s }
  | .setContent s => { d with content := s }
  | .editExtra f => { d with extra := f d.extra }

/-! ### API documents and libraries -/

/-- What a caller of an API document does: call a setter, or change the live map that a getter
returns (APISpec.go:101-303). -/
inductive ApiCall where
  | set (op : ApiOp)
  | types (f : OM String DT → OM String DT)
  | traits (f : OM String Node → OM String Node)
  | resourceTypes (f : OM String Node → OM String Node)
  | annotationTypes (f : OM String Node → OM String Node)
  | securitySchemes (f : OM String Node → OM String Node)
  | baseURIParameters (f : OM String Node → OM String Node)
  | resources (f : OM String Node → OM String Node)
  | annotations (f : OM String Ann → OM String Ann)
  | uses (f : OM String String → OM String String)
  | extra (f : OM Scalar Node → OM Scalar Node)

/-- One call (APISpec.go:50-303). -/
def APISpec.call (a : APISpec) : ApiCall → APISpec
  | .set op => a.apply op
  | .types f => { a with types := f a.types }
  | .traits f => { a with traits := f a.traits }
  | .resourceTypes f => { a with resourceTypes := f a.resourceTypes }
  | .annotationTypes f => { a with annotationTypes := f a.annotationTypes }
  | .securitySchemes f => { a with securitySchemes := f a.securitySchemes }
  | .baseURIParameters f => { a with baseURIParameters := f a.baseURIParameters }
  | .resources f => { a with resources := f a.resources }
  | .annotations f => { a with annotations := f a.annotations }
  | .uses f => { a with uses := f a.uses }
  | .extra f => { a with extra := f a.extra }

/-- The same for a library (Library.go:38-159). -/
inductive LibCall where
  | set (op : LibOp)
  | types (f : OM String DT → OM String DT)
  | traits (f : OM String Node → OM String Node)
  | resourceTypes (f : OM String Node → OM String Node)
  | annotationTypes (f : OM String Node → OM String Node)
  | securitySchemes (f : OM String Node → OM String Node)
  | annotations (f : OM String Ann → OM String Ann)
  | uses (f : OM String String → OM String String)
  | extra (f : OM Scalar Node → OM Scalar Node)

/-- One call (Library.go:38-159). -/
def Library.call (l : Library) : LibCall → Library
  | .set op => l.apply op
  | .types f => { l with types := f l.types }
  | .traits f => { l with traits := f l.traits }
  | .resourceTypes f => { l with resourceTypes := f l.resourceTypes }
  | .annotationTypes f => { l with annotationTypes := f l.annotationTypes }
  | .securitySchemes f => { l with securitySchemes := f l.securitySchemes }
  | .annotations f => { l with annotations := f l.annotations }
  | .uses f => { l with uses := f l.uses }
  | .extra f => { l with extra := f l.extra }

end Verif.Doc
