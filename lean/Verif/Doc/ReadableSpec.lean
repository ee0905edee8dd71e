import Verif.Doc.ApiParsed

/-!
# Which values the parser can return

`Readable`, `ReadableApi` and `ReadableLib` describe, without mentioning the parser, the data
types, API documents and libraries that some YAML document is read as.
-/

namespace Verif.Doc.Spec
open Verif Verif.Doc

/-- Unsigned 64-bit integers. -/
def IsUint64 (n : Nat) : Prop := n < 18446744073709551616

/-- Some key of an expanded example denotes this extra facet: a key that is no string, or a string
that is not empty, does not start with a parenthesis and is none of the known keys. -/
def ExampleKey (X : Xyml) (s : Scalar) : Prop :=
  ∃ k, X.toScalar k = some s ∧ (k.isStr = true → PlainKey k.value ∧ k.value ∉ exampleKeys)

/-- The keys of XML settings. -/
def xmlKeys : List String := ["attribute", "wrapped", "name", "namespace", "prefix"]

/-- Some key of XML settings denotes this extra facet. -/
def XMLKey (X : Xyml) (s : Scalar) : Prop := ∃ k, X.toScalar k = some s ∧ k.value ∉ xmlKeys

/-- Examples that can be read. -/
structure ReadableExample (X : Xyml) (kd : Kind) (e : Example) : Prop where
  parsed : ParsedExample kd e
  extraKeys : ∀ p ∈ e.extra.ents, ExampleKey X p.1

/-- XML settings that can be read. -/
structure ReadableXML (X : Xyml) (x : XML) : Prop where
  extraFlag : x.extra.omap = false
  extra : Distinct x.extra.ents
  extraKeys : ∀ p ∈ x.extra.ents, XMLKey X p.1

/-- Common facets that can be read.  The type expression, display name, description and
`required` are free. -/
structure ReadableHdr (X : Xyml) (kd : Kind) (h : Hdr) : Prop where
  extra : ParsedExtra kd h.extra
  annotations : ParsedAnns true h.annotations
  dflt : h.dflt = none
  enum : ∀ l, h.enum = some l → l ≠ [] ∧ ∀ v ∈ l, FitsEnum kd v
  «example» : ∀ e, h.example = some e → kd ≠ .any ∧ ReadableExample X kd e
  examplesFlag : h.examples.omap = false
  examplesDistinct : Distinct h.examples.ents
  examples : ∀ e ∈ h.examples.ents, ReadableExample X kd e.2
  xml : ∀ x, h.xml = some x → ReadableXML X x

/-- Facets of one kind of type that can be read: counts are unsigned 64-bit, bounds of integer
types signed 64-bit; the rest is free. -/
def ReadableBody : Body → Prop
  | .string f => IsUint64 f.minLength ∧ ∀ n, f.maxLength = some n → IsUint64 n
  | .file f => IsUint64 f.minLength ∧ IsUint64 f.maxLength
  | .array f => IsUint64 f.minItems ∧ IsUint64 f.maxItems
  | .object f => (∀ n, f.minProps = some n → IsUint64 n) ∧ ∀ n, f.maxProps = some n → IsUint64 n
  | .integer f => (∀ n, f.minimum = some n → IsInt64 n) ∧ ∀ n, f.maximum = some n → IsInt64 n
  | _ => True

/-- Data types that can be read, at any depth. -/
inductive Readable (X : Xyml) : DT → Prop where
  | basic {i : Bool} {s : String} {x : OM Scalar Node} :
      ParsedExtra (if i then .include else .nil) x → Readable X (.basic i s x)
  | ext {h : Hdr} {b : Body} {fs : OM String (OM String DT)} {ps : OM String DT}
      {it : Option DT} :
      ReadableHdr X b.kind h → ReadableBody b →
      fs.omap = true → Distinct fs.ents →
      (∀ f ∈ fs.ents, f.2.omap = true ∧ Distinct f.2.ents) →
      (∀ f ∈ fs.ents, ∀ e ∈ f.2.ents, Readable X e.2) →
      ps.omap = false → Distinct ps.ents → (ps.ents ≠ [] → b.kind = .object) →
      (∀ e ∈ ps.ents, e.2.isProperty = true) → (∀ e ∈ ps.ents, Readable X e.2) →
      (it ≠ none → b.kind = .array) → (∀ t, it = some t → Readable X t) →
      Readable X (.ext h b fs ps it)

/-- Some key of a documentation entry denotes this extra facet. -/
def DocKey (X : Xyml) (s : Scalar) : Prop :=
  ∃ k, X.toScalar k = some s ∧ k.value ≠ "title" ∧ k.value ≠ "content"

/-- Documentation entries that can be read. -/
structure ReadableDoc (X : Xyml) (d : Documentation) : Prop where
  extraFlag : d.extra.omap = false
  extra : Distinct d.extra.ents
  extraKeys : ∀ p ∈ d.extra.ents, DocKey X p.1

/-- Some top-level key of an API document denotes this extra facet. -/
def ApiKey (X : Xyml) (s : Scalar) : Prop :=
  ∃ k, X.toScalar k = some s ∧ (k.isStr = true → PlainKey k.value ∧
    k.value.toList.head? ≠ some '/' ∧ k.value ∉ apiKeys.map Prod.fst)

/-- API documents that can be read. -/
structure ReadableApi (X : Xyml) (a : APISpec) : Prop where
  parsed : ParsedApi a
  types : ∀ e ∈ a.types.ents, Readable X e.2
  documentation : ∀ l, a.documentation = some l → ∀ d ∈ l, ReadableDoc X d
  extraKeys : ∀ p ∈ a.extra.ents, ApiKey X p.1

/-- Some top-level key of a library denotes this extra facet. -/
def LibKey (X : Xyml) (s : Scalar) : Prop :=
  ∃ k, X.toScalar k = some s ∧ k.value ∉ libKeys.map Prod.fst ∧
    (k.isStr = true → PlainKey k.value)

/-- Libraries that can be read. -/
structure ReadableLib (X : Xyml) (l : Library) : Prop where
  parsed : ParsedLib l
  types : ∀ e ∈ l.types.ents, Readable X e.2
  extraKeys : ∀ p ∈ l.extra.ents, LibKey X p.1

end Verif.Doc.Spec
