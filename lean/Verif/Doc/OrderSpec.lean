import Verif.Doc.Api
import Mathlib.Logic.Relation

/-!
# Documents up to the order of mapping entries

Two trees are the same up to order when one becomes the other by exchanging neighbouring entries
of mappings, at any depth.  Objects are the same up to order when every getter reports the same,
where a dictionary is looked at by its keys and its output flag only.
-/

namespace Verif.Doc.Spec
open Verif Verif.Doc

/-- Two keys whose entries may end up in the same place: equal texts, the two names of the type
entry, the two names of the type section, and the two ways a library takes annotations. -/
def sameTarget (a b : String) : Bool :=
  a == b || (["type", "schema"].contains a && ["type", "schema"].contains b) ||
    (["types", "schemas"].contains a && ["types", "schemas"].contains b) ||
    (a == "annotationTypes" && b.toList.head? == some '(') ||
    (b == "annotationTypes" && a.toList.head? == some '(')

/-- One exchange of two neighbouring entries of a mapping, somewhere in the tree.  The two keys
are strings that do not name the same place. -/
inductive Swap : Node → Node → Prop
  | here (pre : List (Node × Node)) (p q : Node × Node) (post : List (Node × Node))
      (hp : p.1.isStr = true) (hq : q.1.isStr = true)
      (h : sameTarget p.1.value q.1.value = false) :
      Swap (.map (pre ++ p :: q :: post)) (.map (pre ++ q :: p :: post))
  | value (pre : List (Node × Node)) (k : Node) (post : List (Node × Node)) {v v' : Node}
      (h : Swap v v') : Swap (.map (pre ++ (k, v) :: post)) (.map (pre ++ (k, v') :: post))
  | item (tag : String) (pre post : List Node) {v v' : Node}
      (h : Swap v v') : Swap (.seq tag (pre ++ v :: post)) (.seq tag (pre ++ v' :: post))

/-- Two trees that differ in the order of mapping entries only. -/
def Reordered : Node → Node → Prop := Relation.EqvGen Swap

/-- A tree without the order of its mapping entries. -/
abbrev Unordered : Type := Quot Swap

/-- Forget the order. -/
def unordered (n : Node) : Unordered := Quot.mk Swap n

/-- A dictionary without the order of its entries: the output flag and what `Get` answers. -/
structure MapV (K V : Type) where
  omap : Bool
  get : K → Option V

/-- Forget the order of a dictionary's entries, and look at the values through `f`. -/
def mapView {K V W : Type} [DecidableEq K] (f : V → W) (m : OM K V) : MapV K W :=
  ⟨m.omap, fun k => (m.get k).map f⟩

/-- Annotations without order. -/
def annView (m : OM String Ann) : MapV String (MapV String Unordered) :=
  mapView (mapView unordered) m

/-- An example or enum value without order. -/
inductive ValV where
  | node (n : Unordered)
  | list (ns : List Unordered)
  | plain (v : Val)

/-- Forget the order in a value. -/
def valView : Val → ValV
  | .node n => .node (unordered n)
  | .list ns => .list (ns.map unordered)
  | v => .plain v

/-- An example without order. -/
structure ExampleV where
  kind : Kind
  displayName : Option String
  description : Option String
  annotations : MapV String (MapV String Unordered)
  value : Option ValV
  strict : Bool
  extra : MapV Scalar Unordered

/-- Forget the order in an example. -/
def exampleView (e : Example) : ExampleV :=
  ⟨e.kind, e.displayName, e.description, annView e.annotations, e.value.map valView, e.strict,
    mapView unordered e.extra⟩

/-- XML settings without order. -/
structure XMLV where
  isAttr : Option Bool
  isWrap : Option Bool
  name : Option String
  ns : Option String
  pref : Option String
  extra : MapV Scalar Unordered

/-- Forget the order in XML settings. -/
def xmlView (x : XML) : XMLV :=
  ⟨x.isAttr, x.isWrap, x.name, x.ns, x.pref, mapView unordered x.extra⟩

/-- The shared fields of a type without order. -/
structure HdrV where
  schema : String
  extra : MapV Scalar Unordered
  displayName : Option String
  description : Option String
  annotations : MapV String (MapV String Unordered)
  xml : Option XMLV
  required : Bool
  dflt : Option Unordered
  enum : Option (List ValV)
  «example» : Option ExampleV
  examples : MapV String ExampleV

/-- Forget the order in the shared fields. -/
def hdrView (h : Hdr) : HdrV :=
  ⟨h.schema, mapView unordered h.extra, h.displayName, h.description, annView h.annotations,
    h.xml.map xmlView, h.required, h.dflt.map unordered, h.enum.map (·.map valView),
    h.example.map exampleView, mapView exampleView h.examples⟩

/-- The fields of one kind without order; only a discriminator value can hold a mapping. -/
inductive BodyV where
  | plain (b : Body)
  | object (minProps maxProps : Option Nat) (addtlProps : Bool) (discrim : Option String)
      (discrimVal : Option Unordered)

/-- Forget the order in the fields of one kind. -/
def bodyView : Body → BodyV
  | .object f => .object f.minProps f.maxProps f.addtlProps f.discrim (f.discrimVal.map unordered)
  | b => .plain b

/-- A data type without order. -/
inductive DTV where
  | basic (incl : Bool) (schema : String) (extra : MapV Scalar Unordered)
  | ext (h : HdrV) (b : BodyV) (facets : MapV String (MapV String DTV))
      (props : MapV String DTV) (items : Option DTV)

mutual

/-- Forget the order in a data type. -/
def typeView : DT → DTV
  | .basic i s x => .basic i s (mapView unordered x)
  | .ext h b ⟨fs, fo⟩ ⟨ps, po⟩ it =>
    .ext (hdrView h) (bodyView b) ⟨fo, facetsLook fs⟩ ⟨po, typesLook ps⟩ (itemsView it)

/-- Forget the order in an item type. -/
def itemsView : Option DT → Option DTV
  | none => none
  | some t => some (typeView t)

/-- The type under a name, in a list of entries (the first with that name). -/
def typesLook : List (String × DT) → String → Option DTV
  | [], _ => none
  | (s, t) :: es, k => if s == k then some (typeView t) else typesLook es k

/-- The facet definition under a name, in a list of entries. -/
def facetsLook : List (String × OM String DT) → String → Option (MapV String DTV)
  | [], _ => none
  | (s, ⟨ts, o⟩) :: es, k => if s == k then some ⟨o, typesLook ts⟩ else facetsLook es k

end

/-- A documentation entry without order. -/
structure DocumentationV where
  title : String
  content : String
  extra : MapV Scalar Unordered

/-- Forget the order in a documentation entry. -/
def docView (d : Documentation) : DocumentationV :=
  ⟨d.title, d.content, mapView unordered d.extra⟩

/-- An API document without order. -/
structure APISpecV where
  title : String
  description : Option String
  version : Option String
  baseURI : Option String
  baseURIParameters : MapV String Unordered
  protocols : Option (List String)
  mediaType : Option (List String)
  documentation : Option (List DocumentationV)
  types : MapV String DTV
  traits : MapV String Unordered
  resourceTypes : MapV String Unordered
  annotationTypes : MapV String Unordered
  annotations : MapV String (MapV String Unordered)
  securitySchemes : MapV String Unordered
  securedBy : Option (List String)
  uses : MapV String String
  resources : MapV String Unordered
  extra : MapV Scalar Unordered

/-- Forget the order in an API document. -/
def apiView (a : APISpec) : APISpecV where
  title := a.title
  description := a.description
  version := a.version
  baseURI := a.baseURI
  baseURIParameters := mapView unordered a.baseURIParameters
  protocols := a.protocols
  mediaType := a.mediaType
  documentation := a.documentation.map (·.map docView)
  types := mapView typeView a.types
  traits := mapView unordered a.traits
  resourceTypes := mapView unordered a.resourceTypes
  annotationTypes := mapView unordered a.annotationTypes
  annotations := annView a.annotations
  securitySchemes := mapView unordered a.securitySchemes
  securedBy := a.securedBy
  uses := mapView id a.uses
  resources := mapView unordered a.resources
  extra := mapView unordered a.extra

/-- A library without order. -/
structure LibraryV where
  annotations : MapV String (MapV String Unordered)
  annotationTypes : MapV String Unordered
  extra : MapV Scalar Unordered
  uses : MapV String String
  resourceTypes : MapV String Unordered
  securitySchemes : MapV String Unordered
  traits : MapV String Unordered
  types : MapV String DTV
  usage : Option String

/-- Forget the order in a library. -/
def libView (l : Library) : LibraryV where
  annotations := annView l.annotations
  annotationTypes := mapView unordered l.annotationTypes
  extra := mapView unordered l.extra
  uses := mapView id l.uses
  resourceTypes := mapView unordered l.resourceTypes
  securitySchemes := mapView unordered l.securitySchemes
  traits := mapView unordered l.traits
  types := mapView typeView l.types
  usage := l.usage

/-- What a parse shows: nothing when it failed, otherwise the result looked at through `f`. -/
def seen {α β : Type} (f : α → β) : Res α → Option β
  | .ok a => some (f a)
  | _ => none

/-- The number, boolean and text conversions accept scalars only. -/
def ReadsScalars (X : Xyml) : Prop :=
  ∀ n : Node, (∀ t s, n ≠ .scalar t s) →
    X.toInt n = none ∧ X.toFlt n = none ∧ X.toBool n = none ∧ X.toStr n = none

end Verif.Doc.Spec
