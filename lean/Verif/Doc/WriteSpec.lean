import Verif.Doc.Spec

/-!
# What can be written and read back

`Writable` describes the data types whose written form can be read back, `canon` what is read.
Neither uses the parser or the writer.
-/

namespace Verif.Doc.Spec
open Verif Verif.Doc

/-- An ordered dictionary without duplicate keys. -/
def Distinct {K V : Type} (es : List (K × V)) : Prop := (es.map Prod.fst).Nodup

/-- 64-bit signed integers. -/
def IsInt64 (i : Int) : Prop := -9223372036854775808 ≤ i ∧ i < 9223372036854775808

/-- Natural numbers that are 64-bit signed integers. -/
def IsSmall (n : Nat) : Prop := n < 9223372036854775808

/-- An enum element of the right type for the kind. -/
def FitsEnum (kd : Kind) (v : Val) : Prop :=
  match kd with
  | .string | .dateOnly | .datetime | .datetimeOnly | .timeOnly => ∃ s, v = .str s
  | .boolean => ∃ b, v = .bool b
  | .integer => ∃ i, v = .int i ∧ IsInt64 i
  | .number => ∃ f, v = .flt f
  | _ => ∃ n, v = .node n

/-- An example value of the right type for the kind. -/
def FitsExample (kd : Kind) (v : Val) : Prop :=
  match kd with
  | .string | .dateOnly | .datetime | .datetimeOnly | .timeOnly => ∃ s, v = .str s
  | .boolean => ∃ b, v = .bool b
  | .integer => ∃ i, v = .int i ∧ IsInt64 i
  | .number => ∃ f, v = .flt f
  | .array => ∃ ns, v = .list ns
  | _ => ∃ n, v = .node n

/-- The text does not start with a parenthesis and is not empty. -/
def PlainKey (s : String) : Prop := s ≠ "" ∧ s.toList.head? ≠ some '('

/-- Annotations that are written as plain mappings. -/
def WritableAnns (m : OM String Ann) : Prop :=
  Distinct m.ents ∧
    ∀ e ∈ m.ents, e.1.toList.head? = some '(' ∧ e.2.omap = false ∧ Distinct e.2.ents

/-- The keys of the expanded form of an example. -/
def exampleKeys : List String := ["displayName", "description", "strict", "value"]

/-- Examples that are written in expanded form. -/
structure WritableExample (kd : Kind) (e : Example) : Prop where
  kind : e.kind = kd
  expanded : e.displayName ≠ none ∨ e.description ≠ none ∨ e.annotations.ents ≠ [] ∨
    e.extra.ents ≠ [] ∨ e.strict = false
  value : ∀ v, e.value = some v → FitsExample kd v
  annotations : WritableAnns e.annotations
  extra : Distinct e.extra.ents
  extraKeys : ∀ p ∈ e.extra.ents, ∀ s, p.1 = .str s → PlainKey s ∧ s ∉ exampleKeys

/-- Extra facets whose keys belong to no facet of the kind. -/
def WritableExtra (kd : Kind) (es : List (Scalar × Node)) : Prop :=
  Distinct es ∧ ∀ p ∈ es, ∃ s, p.1 = .str s ∧ s ∉ facetNames kd ∧ (isBasic kd = true ∨ PlainKey s)

/-- The `default` entry and the extra facets. -/
def extraWithDefault (h : Hdr) : List (Scalar × Node) :=
  match h.dflt with
  | some d => (.str "default", d) :: h.extra.ents
  | none => h.extra.ents

/-- No two things are written under the same key: extra facets do not use the name of a facet
and do not look like annotations, annotations do. -/
structure CleanHdr (kd : Kind) (h : Hdr) : Prop where
  extra : Distinct (extraWithDefault h)
  extraKeys : ∀ p ∈ extraWithDefault h, ∀ s, p.1 = .str s →
    s ∉ facetNames kd ∧ s.toList.head? ≠ some '('
  annotations : Distinct h.annotations.ents
  annotationKeys : ∀ e ∈ h.annotations.ents, e.1.toList.head? = some '('

/-- Facets common to the extended types that can be read back. -/
structure WritableHdr (kd : Kind) (h : Hdr) : Prop where
  schema : classify h.schema = kd
  extra : WritableExtra kd (extraWithDefault h)
  annotations : WritableAnns h.annotations
  enum : ∀ l, h.enum = some l → ∀ v ∈ l, FitsEnum kd v
  «example» : ∀ e, h.example = some e → kd ≠ .any ∧ WritableExample kd e
  examples : h.examples.ents ≠ [] → h.examples.omap = false
  examplesDistinct : Distinct h.examples.ents
  examplesEach : ∀ e ∈ h.examples.ents, WritableExample kd e.2

/-- Numbers that are in range. -/
def WritableBody : Body → Prop
  | .string f => IsSmall f.minLength ∧ ∀ n, f.maxLength = some n → IsSmall n
  | .file f => IsSmall f.minLength ∧ IsSmall f.maxLength
  | .array f => IsSmall f.minItems ∧ IsSmall f.maxItems
  | .object f => (∀ n, f.minProps = some n → IsSmall n) ∧ ∀ n, f.maxProps = some n → IsSmall n
  | .integer f => (∀ n, f.minimum = some n → IsInt64 n) ∧ ∀ n, f.maximum = some n → IsInt64 n
  | _ => True

/-- Data types whose written form can be read back. -/
inductive Writable : DT → Prop where
  | nil {x : OM Scalar Node} : WritableExtra .nil x.ents → Writable (.basic false "nil" x)
  | incl {s : String} {b : Bool} : Writable (.basic true s ⟨[], b⟩)
  | ext {h : Hdr} {b : Body} {fs : OM String (OM String DT)} {ps : OM String DT}
      {it : Option DT} :
      WritableHdr b.kind h → WritableBody b →
      (fs.ents ≠ [] → fs.omap = false) → Distinct fs.ents →
      (∀ f ∈ fs.ents, f.2.omap = false ∧ Distinct f.2.ents) →
      (∀ f ∈ fs.ents, ∀ e ∈ f.2.ents, Writable e.2) →
      (ps.ents ≠ [] → b.kind = .object ∧ ps.omap = false) → Distinct ps.ents →
      (∀ e ∈ ps.ents, e.2.isProperty = true) →
      (∀ e ∈ ps.ents, Writable e.2) →
      (it ≠ none → b.kind = .array) →
      (∀ t, it = some t → Writable t) →
      Writable (.ext h b fs ps it)

/-! ### Types that come back unchanged -/

/-- Common facets without a default, examples, annotations, XML settings or an empty enum, in
the containers that the constructors make. -/
structure PlainHdr (kd : Kind) (h : Hdr) : Prop where
  schema : classify h.schema = kd
  extra : WritableExtra kd h.extra.ents
  extraFlag : h.extra.omap = true
  annotations : h.annotations = ⟨[], true⟩
  xml : h.xml = none
  dflt : h.dflt = none
  enum : ∀ l, h.enum = some l → l ≠ [] ∧ ∀ v ∈ l, FitsEnum kd v
  «example» : h.example = none
  examples : h.examples = ⟨[], false⟩

/-- Data types without examples, annotations, facet definitions, XML settings or a default, at
any depth. -/
inductive Plain : DT → Prop where
  | nil {es : List (Scalar × Node)} : WritableExtra .nil es → Plain (.basic false "nil" ⟨es, true⟩)
  | incl {s : String} : Plain (.basic true s ⟨[], true⟩)
  | ext {h : Hdr} {b : Body} {ps : List (String × DT)} {it : Option DT} :
      PlainHdr b.kind h → WritableBody b →
      (ps ≠ [] → b.kind = .object) → Distinct ps →
      (∀ e ∈ ps, e.2.isProperty = true) → (∀ e ∈ ps, Plain e.2) →
      (it ≠ none → b.kind = .array) → (∀ t, it = some t → Plain t) →
      Plain (.ext h b ⟨[], true⟩ ⟨ps, false⟩ it)

/-! ### What is read back -/

/-- Annotations as read: the values are ordered-output maps. -/
def canonAnns (flag : Bool) (m : OM String Ann) : OM String Ann :=
  ⟨m.ents.map fun e => (e.1, ⟨e.2.ents, true⟩), flag⟩

/-- Examples as read. -/
def canonExample (e : Example) : Example :=
  { e with annotations := canonAnns false e.annotations, extra := ⟨e.extra.ents, false⟩ }

/-- The common facets as read: the default is an extra facet, XML settings are lost, an empty
enum is unset. -/
def Hdr.canon (h : Hdr) : Hdr :=
  { schema := h.schema
    extra := ⟨extraWithDefault h, true⟩
    displayName := h.displayName
    description := h.description
    annotations := canonAnns true h.annotations
    xml := h.xml.map fun _ => XML.new
    required := h.required
    dflt := none
    enum := match h.enum with
      | some [] => none
      | o => o
    «example» := h.example.map canonExample
    examples := ⟨h.examples.ents.map fun e => (e.1, canonExample e.2), false⟩ }

mutual

/-- A data type as read back. -/
def canon : DT → DT
  | .basic i s x => .basic i s ⟨x.ents, true⟩
  | .ext h b fs ps it =>
    .ext (Hdr.canon h) b (canonFacets fs) (canonTypes false ps) (canonItems it)

/-- The item type as read back. -/
def canonItems : Option DT → Option DT
  | none => none
  | some t => some (canon t)

/-- A dictionary of types as read back, with the given output flag. -/
def canonTypes (flag : Bool) : OM String DT → OM String DT
  | ⟨es, _⟩ => ⟨canonEnts es, flag⟩

/-- Its entries. -/
def canonEnts : List (String × DT) → List (String × DT)
  | [] => []
  | e :: es => canonEnt e :: canonEnts es

/-- One entry. -/
def canonEnt : String × DT → String × DT
  | (k, t) => (k, canon t)

/-- Facet definitions as read back. -/
def canonFacets : OM String (OM String DT) → OM String (OM String DT)
  | ⟨es, _⟩ => ⟨canonFacetEnts es, true⟩

/-- Their entries. -/
def canonFacetEnts : List (String × OM String DT) → List (String × OM String DT)
  | [] => []
  | e :: es => canonFacetEnt e :: canonFacetEnts es

/-- One entry. -/
def canonFacetEnt : String × OM String DT → String × OM String DT
  | (k, m) => (k, canonTypes true m)

end

end Verif.Doc.Spec
