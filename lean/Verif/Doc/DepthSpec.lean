import Verif.Doc.ApiSpec

/-!
# How deep trees and values nest

Vocabulary of C110: the levels of a YAML tree, and the levels a value has.
-/

namespace Verif.Doc.Spec
open Verif Verif.Doc

mutual

/-- The number of levels of a tree; a scalar has one. -/
def nodeDepth : Node → Nat
  | .scalar _ _ => 1
  | .seq _ ns => 1 + nodesDepth ns
  | .map ps => 1 + pairsDepth ps

/-- The deepest of a list of trees. -/
def nodesDepth : List Node → Nat
  | [] => 0
  | n :: ns => max (nodeDepth n) (nodesDepth ns)

/-- The deepest of a list of entries. -/
def pairsDepth : List (Node × Node) → Nat
  | [] => 0
  | p :: ps => max (pairDepth p) (pairsDepth ps)

/-- The deeper of a key and its value. -/
def pairDepth : Node × Node → Nat
  | (k, v) => max (nodeDepth k) (nodeDepth v)

end

/-- The largest number that comes up in a list. -/
def top {α : Type} (f : α → Nat) (l : List α) : Nat := (l.map f).foldr max 0

/-- The deepest value of a dictionary. -/
def mapDepth {K V : Type} (w : V → Nat) (m : OM K V) : Nat := top (fun e => w e.2) m.ents

/-- A dictionary under a key of its own. -/
def partDepth {K V : Type} (w : V → Nat) (m : OM K V) : Nat := mapDepth (fun x => 1 + w x) m

/-- A list that may be nil, under a key of its own. -/
def listDepth {V : Type} (w : V → Nat) (l : Option (List V)) : Nat :=
  top (fun x => 1 + w x) (l.getD [])

/-- Something that may be absent. -/
def optDepth {V : Type} (w : V → Nat) : Option V → Nat
  | none => 0
  | some x => w x

/-- A value of an enum or an example. -/
def valDepth : Val → Nat
  | .node n => nodeDepth n
  | .list ns => 1 + nodesDepth ns
  | _ => 1

/-- Annotations: each is a dictionary of trees. -/
def annsDepth (m : OM String Ann) : Nat := mapDepth (fun a => 1 + mapDepth nodeDepth a) m

/-- An example; its value needs no level of its own. -/
def exampleDepth (e : Example) : Nat :=
  max (max 1 (optDepth valDepth e.value)) (1 + max (annsDepth e.annotations) (mapDepth nodeDepth e.extra))

/-- What a type holds apart from other types and from the facets of its kind. -/
def hdrDepth (h : Hdr) : Nat :=
  max (mapDepth nodeDepth h.extra) (max (annsDepth h.annotations)
    (max (optDepth (fun x => 1 + mapDepth nodeDepth x.extra) h.xml) (max (optDepth nodeDepth h.dflt)
      (max (listDepth valDepth h.enum) (max (optDepth exampleDepth h.example)
        (partDepth exampleDepth h.examples))))))

/-- The facets of single kinds that have levels. -/
def bodyDepth : Body → Nat
  | .file f => listDepth (fun _ => 1) f.fileTypes
  | .object f => optDepth nodeDepth f.discrimVal
  | _ => 0

mutual

/-- A data type: one more than the deepest thing it holds. -/
def typeDepth : DT → Nat
  | .basic _ _ x => 1 + mapDepth nodeDepth x
  | .ext h b fs ps it =>
    1 + max (hdrDepth h) (max (bodyDepth b) (max (facetsDepth fs) (max (typesDepth ps) (itemsDepth it))))

/-- The item type. -/
def itemsDepth : Option DT → Nat
  | none => 0
  | some t => typeDepth t

/-- A dictionary of types under a key of its own. -/
def typesDepth : OM String DT → Nat
  | ⟨es, _⟩ => typeEntsDepth es

/-- Its entries. -/
def typeEntsDepth : List (String × DT) → Nat
  | [] => 0
  | e :: es => max (typeEntDepth e) (typeEntsDepth es)

/-- One entry. -/
def typeEntDepth : String × DT → Nat
  | (_, t) => 1 + typeDepth t

/-- Facet declarations. -/
def facetsDepth : OM String (OM String DT) → Nat
  | ⟨es, _⟩ => facetEntsDepth es

/-- Their entries. -/
def facetEntsDepth : List (String × OM String DT) → Nat
  | [] => 0
  | e :: es => max (facetEntDepth e) (facetEntsDepth es)

/-- One entry: one level for the dictionary of facets, and one for an empty declaration. -/
def facetEntDepth : String × OM String DT → Nat
  | (_, m) => 1 + max 1 (typesDepth m)

end

/-- A documentation entry. -/
def docDepth (d : Documentation) : Nat := 1 + mapDepth nodeDepth d.extra

/-- An API document: one more than the deepest thing it holds. -/
def apiDepth (a : APISpec) : Nat :=
  1 + max (max (max (top (fun _ => 1) (a.protocols.getD [])) (top (fun _ => 1) (a.mediaType.getD [])))
      (max (listDepth docDepth a.documentation) (top (fun _ => 1) (a.securedBy.getD []))))
    (max (max (max (partDepth (fun _ => 1) a.uses) (partDepth nodeDepth a.securitySchemes))
        (max (partDepth nodeDepth a.baseURIParameters) (partDepth nodeDepth a.traits)))
      (max (max (partDepth nodeDepth a.annotationTypes) (partDepth nodeDepth a.resourceTypes))
        (max (max (mapDepth nodeDepth a.resources) (partDepth typeDepth a.types))
          (max (annsDepth a.annotations)
            (mapDepth nodeDepth a.extra)))))

/-- A library: one more than the deepest thing it holds. -/
def libDepth (l : Library) : Nat :=
  1 + max (max (max (partDepth (fun _ => 1) l.uses) (partDepth nodeDepth l.securitySchemes))
      (max (partDepth nodeDepth l.traits) (partDepth nodeDepth l.annotationTypes)))
    (max (max (partDepth nodeDepth l.resourceTypes) (partDepth typeDepth l.types))
      (max (annsDepth l.annotations) (mapDepth nodeDepth l.extra)))

/-- Numbers, booleans and keys are written without nesting. -/
structure Flat (X : Xyml) : Prop where
  int : ∀ i, nodeDepth (X.ofInt i) = 1
  flt : ∀ f, nodeDepth (X.ofFlt f) = 1
  bool : ∀ b, nodeDepth (X.ofBool b) = 1
  key : ∀ k, nodeDepth (X.ofKey k) = 1

end Verif.Doc.Spec
