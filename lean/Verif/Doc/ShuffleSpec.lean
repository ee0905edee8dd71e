import Verif.Doc.OrderSpec
import Verif.Doc.WriteSpec
import Mathlib.Data.List.Forall2

/-!
# Written documents up to the order of entries

Vocabulary of C104.  A map of the library is written as a mapping or, when its output flag is set,
as an ordered map: a sequence of mappings with one entry each.
-/

namespace Verif.Doc.Spec
open Verif Verif.Doc

/-- One exchange of two neighbouring entries with different keys, of a mapping or of an ordered
map, somewhere in the tree. -/
inductive Shuffle : Node → Node → Prop
  | here (pre : List (Node × Node)) (p q : Node × Node) (post : List (Node × Node))
      (h : p.1 ≠ q.1) : Shuffle (.map (pre ++ p :: q :: post)) (.map (pre ++ q :: p :: post))
  | entry (pre : List Node) (p q : Node × Node) (post : List Node) (h : p.1 ≠ q.1) :
      Shuffle (.seq omapTag (pre ++ .map [p] :: .map [q] :: post))
        (.seq omapTag (pre ++ .map [q] :: .map [p] :: post))
  | value (pre : List (Node × Node)) (k : Node) (post : List (Node × Node)) {v v' : Node}
      (h : Shuffle v v') :
      Shuffle (.map (pre ++ (k, v) :: post)) (.map (pre ++ (k, v') :: post))
  | item (tag : String) (pre post : List Node) {v v' : Node} (h : Shuffle v v') :
      Shuffle (.seq tag (pre ++ v :: post)) (.seq tag (pre ++ v' :: post))

/-- Two trees that differ in the order of the entries of mappings and ordered maps only. -/
def Shuffled : Node → Node → Prop := Relation.EqvGen Shuffle

open Classical in
/-- The values under a key of a mapping, in order. -/
noncomputable def under (k : Node) (ps : List (Node × Node)) : List Node :=
  (ps.filter fun p => p.1 = k).map Prod.snd

/-- The entries of an ordered map. -/
def entriesOf (ns : List Node) : List (Node × Node) :=
  ns.flatMap fun
    | .map [p] => [p]
    | _ => []

/-- What two trees that differ in order only have in common: scalars are the same, sequences have
the same tag and, item by item, items that differ in order only; mappings have the same keys, and
under each key values that differ in order only, and so have ordered maps. -/
def Matching : Node → Node → Prop
  | .scalar t s, .scalar t' s' => t = t' ∧ s = s'
  | .seq t ns, .seq t' ms => t = t' ∧ ns.length = ms.length ∧
      (t ≠ omapTag → List.Forall₂ Shuffled ns ms) ∧
      ∀ k, List.Forall₂ Shuffled (under k (entriesOf ns)) (under k (entriesOf ms))
  | .map ps, .map qs => ps.length = qs.length ∧
      ∀ k, List.Forall₂ Shuffled (under k ps) (under k qs)
  | _, _ => False

/-! ### Objects whose maps have no key twice -/

/-- Annotations. -/
def AnnsOnce (m : OM String Ann) : Prop := Distinct m.ents ∧ ∀ e ∈ m.ents, Distinct e.2.ents

/-- An example. -/
def ExampleOnce (e : Example) : Prop := AnnsOnce e.annotations ∧ Distinct e.extra.ents

/-- The shared fields of a type. -/
structure HdrOnce (h : Hdr) : Prop where
  extra : Distinct h.extra.ents
  annotations : AnnsOnce h.annotations
  «example» : ∀ e, h.example = some e → ExampleOnce e
  examples : Distinct h.examples.ents
  examplesEach : ∀ e ∈ h.examples.ents, ExampleOnce e.2

/-- A data type, at any depth. -/
inductive TypeOnce : DT → Prop where
  | basic {i : Bool} {s : String} {x : OM Scalar Node} : Distinct x.ents → TypeOnce (.basic i s x)
  | ext {h : Hdr} {b : Body} {fs : OM String (OM String DT)} {ps : OM String DT}
      {it : Option DT} : HdrOnce h → Distinct fs.ents → (∀ f ∈ fs.ents, Distinct f.2.ents) →
      (∀ f ∈ fs.ents, ∀ e ∈ f.2.ents, TypeOnce e.2) → Distinct ps.ents →
      (∀ e ∈ ps.ents, TypeOnce e.2) → (∀ t, it = some t → TypeOnce t) →
      TypeOnce (.ext h b fs ps it)

/-- An API document. -/
structure ApiOnce (a : APISpec) : Prop where
  baseURIParameters : Distinct a.baseURIParameters.ents
  types : Distinct a.types.ents
  typesEach : ∀ e ∈ a.types.ents, TypeOnce e.2
  traits : Distinct a.traits.ents
  resourceTypes : Distinct a.resourceTypes.ents
  annotationTypes : Distinct a.annotationTypes.ents
  annotations : AnnsOnce a.annotations
  securitySchemes : Distinct a.securitySchemes.ents
  uses : Distinct a.uses.ents
  resources : Distinct a.resources.ents
  extra : Distinct a.extra.ents

/-- A library. -/
structure LibOnce (l : Library) : Prop where
  annotations : AnnsOnce l.annotations
  annotationTypes : Distinct l.annotationTypes.ents
  extra : Distinct l.extra.ents
  uses : Distinct l.uses.ents
  resourceTypes : Distinct l.resourceTypes.ents
  securitySchemes : Distinct l.securitySchemes.ents
  traits : Distinct l.traits.ents
  types : Distinct l.types.ents
  typesEach : ∀ e ∈ l.types.ents, TypeOnce e.2

end Verif.Doc.Spec
