import Verif.Doc.ApiSpec

/-!
# How much trees and values hold

Vocabulary of C88 and C96: the nodes of a YAML tree, and what is counted for a value.
-/

namespace Verif.Doc.Spec
open Verif Verif.Doc

mutual

/-- The number of nodes in a tree, keys included. -/
def nodeWeight : Node → Nat
  | .scalar _ _ => 1
  | .seq _ ns => 1 + nodesWeight ns
  | .map ps => 1 + pairsWeight ps

/-- The nodes of a list of trees. -/
def nodesWeight : List Node → Nat
  | [] => 0
  | n :: ns => nodeWeight n + nodesWeight ns

/-- The nodes of a list of entries. -/
def pairsWeight : List (Node × Node) → Nat
  | [] => 0
  | p :: ps => pairWeight p + pairsWeight ps

/-- The nodes of an entry. -/
def pairWeight : Node × Node → Nat
  | (k, v) => nodeWeight k + nodeWeight v

end

/-- The weight of a dictionary: one for each entry, and the weight of its value. -/
def mapWeight {K V : Type} (w : V → Nat) (m : OM K V) : Nat := (m.ents.map fun e => 1 + w e.2).sum

/-- One for something that is set. -/
def flag (b : Bool) : Nat := if b then 1 else 0

/-- The weight of a dictionary under a key of its own: one unless it is empty, and its entries. -/
def partWeight {K V : Type} (w : V → Nat) (m : OM K V) : Nat :=
  flag (!m.ents.isEmpty) + mapWeight w m

/-- The weight of a list that may be nil: one for being there, and its elements. -/
def listWeight {V : Type} (w : V → Nat) (l : Option (List V)) : Nat :=
  flag l.isSome + ((l.getD []).map w).sum

/-- The weight of something that may be absent: one for being there, and its own weight. -/
def optWeight {V : Type} (w : V → Nat) : Option V → Nat
  | none => 0
  | some x => 1 + w x

/-- A value of an enum or an example: one, or the nodes it holds. -/
def valWeight : Val → Nat
  | .node n => nodeWeight n
  | .list ns => 1 + nodesWeight ns
  | _ => 1

/-- An example: its value, or one, and what else it holds. -/
def exampleWeight (e : Example) : Nat :=
  (e.value.map valWeight).getD 1 + flag e.displayName.isSome + flag e.description.isSome +
    flag (!e.strict) + mapWeight (mapWeight nodeWeight) e.annotations + mapWeight nodeWeight e.extra

/-- What XML settings hold. -/
def xmlWeight (x : XML) : Nat :=
  flag x.isAttr.isSome + flag x.isWrap.isSome + flag x.name.isSome + flag x.ns.isSome +
    flag x.pref.isSome + mapWeight nodeWeight x.extra

/-- What a type holds apart from other types and from the facets of its kind. -/
def hdrWeight (h : Hdr) : Nat :=
  flag h.displayName.isSome + flag h.description.isSome + flag (!h.required) +
    mapWeight nodeWeight h.extra + mapWeight (mapWeight nodeWeight) h.annotations +
    optWeight xmlWeight h.xml + optWeight nodeWeight h.dflt + listWeight valWeight h.enum +
    optWeight exampleWeight h.example + partWeight exampleWeight h.examples

/-- The facets of single kinds that differ from the default. -/
def bodyWeight : Body → Nat
  | .string f => flag f.pattern.isSome + flag (f.minLength != 0) + flag f.maxLength.isSome
  | .file f => listWeight (fun _ => 1) f.fileTypes + flag (f.minLength != 0) +
      flag (f.maxLength != 2147483647)
  | .array f => flag f.uniqueItems + flag (f.minItems != 0) + flag (f.maxItems != 2147483647)
  | .object f => flag f.minProps.isSome + flag f.maxProps.isSome + flag (!f.addtlProps) +
      flag f.discrim.isSome + optWeight nodeWeight f.discrimVal
  | .datetime f => flag f.isSome
  | .number f => flag f.format.isSome + flag f.minimum.isSome + flag f.maximum.isSome +
      flag f.multipleOf.isSome
  | .integer f => flag f.format.isSome + flag f.minimum.isSome + flag f.maximum.isSome +
      flag f.multipleOf.isSome
  | _ => 0

mutual

/-- A data type: one for the type itself, and everything it holds, at any depth. -/
def typeWeight : DT → Nat
  | .basic _ _ x => 1 + mapWeight nodeWeight x
  | .ext h b fs ps it =>
    1 + hdrWeight h + bodyWeight b + flag (!fs.ents.isEmpty) + facetsWeight fs +
      flag (!ps.ents.isEmpty) + typesWeight ps + itemsWeight it

/-- The item type. -/
def itemsWeight : Option DT → Nat
  | none => 0
  | some t => 1 + typeWeight t

/-- A dictionary of types. -/
def typesWeight : OM String DT → Nat
  | ⟨es, _⟩ => typeEntsWeight es

/-- Its entries. -/
def typeEntsWeight : List (String × DT) → Nat
  | [] => 0
  | e :: es => typeEntWeight e + typeEntsWeight es

/-- One entry. -/
def typeEntWeight : String × DT → Nat
  | (_, t) => 1 + typeWeight t

/-- Facet declarations. -/
def facetsWeight : OM String (OM String DT) → Nat
  | ⟨es, _⟩ => facetEntsWeight es

/-- Their entries. -/
def facetEntsWeight : List (String × OM String DT) → Nat
  | [] => 0
  | e :: es => facetEntWeight e + facetEntsWeight es

/-- One entry. -/
def facetEntWeight : String × OM String DT → Nat
  | (_, m) => 1 + typesWeight m

end

/-- A documentation entry. -/
def docWeight (d : Documentation) : Nat :=
  1 + flag (d.title != "") + flag (d.content != "") + mapWeight nodeWeight d.extra

/-- An API document with everything it holds. -/
def apiWeight (a : APISpec) : Nat :=
  1 + flag (a.title != "") + flag a.description.isSome + flag a.version.isSome +
    flag a.baseURI.isSome + listWeight (fun _ => 1) a.protocols +
    listWeight (fun _ => 1) a.mediaType + listWeight docWeight a.documentation + listWeight (fun _ => 1) a.securedBy +
    partWeight (fun _ => 0) a.uses + partWeight nodeWeight a.securitySchemes +
    partWeight nodeWeight a.baseURIParameters + partWeight nodeWeight a.traits +
    partWeight nodeWeight a.annotationTypes + partWeight nodeWeight a.resourceTypes +
    mapWeight nodeWeight a.resources + partWeight typeWeight a.types +
    mapWeight (mapWeight nodeWeight) a.annotations + mapWeight nodeWeight a.extra

/-- A library with everything it holds. -/
def libWeight (l : Library) : Nat :=
  1 + flag l.usage.isSome + partWeight (fun _ => 0) l.uses + partWeight nodeWeight l.securitySchemes +
    partWeight nodeWeight l.traits + partWeight nodeWeight l.annotationTypes +
    partWeight nodeWeight l.resourceTypes + partWeight typeWeight l.types +
    mapWeight (mapWeight nodeWeight) l.annotations + mapWeight nodeWeight l.extra

/-- Numbers, booleans and keys are written as single nodes. -/
structure Single (X : Xyml) : Prop where
  int : ∀ i, nodeWeight (X.ofInt i) = 1
  flt : ∀ f, nodeWeight (X.ofFlt f) = 1
  bool : ∀ b, nodeWeight (X.ofBool b) = 1
  key : ∀ k, nodeWeight (X.ofKey k) = 1

end Verif.Doc.Spec
