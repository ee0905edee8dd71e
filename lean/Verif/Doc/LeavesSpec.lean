import Verif.Doc.Leaves

/-!
# Vocabulary for statements about annotations, documentation entries and examples as objects
-/

namespace Verif.Doc

namespace Leaves

/-- An object of the heap. -/
inductive Leaf where
  | ann (a : Addr)
  | anns (m : Addr)
  | extra (x : Addr)
  | ex (e : Addr)
  | doc (d : Addr)
  | api (d : Addr)
  | lib (d : Addr)
deriving DecidableEq, Repr

/-- Its address. -/
def Leaf.addr : Leaf → Addr
  | .ann a | .anns a | .extra a | .ex a | .doc a | .api a | .lib a => a

/-- The objects an annotation map consists of. -/
def annsParts (L : Leaves) (m : Addr) : List Leaf :=
  .anns m :: (L.am m).ents.map fun e => .ann e.2

/-- The objects a documentation entry consists of. -/
def docParts (L : Leaves) (d : Addr) : List Leaf := [.doc d, .extra (L.doc d).extra]

/-- The objects something consists of: itself and everything that can be got from it by getters. -/
def parts (L : Leaves) : Leaf → List Leaf
  | .ann a => [.ann a]
  | .anns m => L.annsParts m
  | .extra x => [.extra x]
  | .ex e => .ex e :: .extra (L.ex e).extra :: L.annsParts (L.ex e).annotations
  | .doc d => L.docParts d
  | .api d => .api d :: (L.annsParts (L.api d).annotations ++
      ((L.api d).docs.getD []).flatMap L.docParts)
  | .lib d => .lib d :: L.annsParts (L.lib d).annotations

/-- What the getters show of an object. -/
inductive Shown where
  | ann (m : Ann)
  | anns (m : OM String Ann)
  | extra (m : OM Scalar Node)
  | ex (e : Example)
  | doc (d : Documentation)
  | api (a : APISpec)
  | lib (l : Library)

/-- What the getters show of an object. -/
def shown (L : Leaves) : Leaf → Shown
  | .ann a => .ann (L.um a)
  | .anns m => .anns (L.annsVal m)
  | .extra x => .extra (L.xm x)
  | .ex e => .ex (L.exVal e)
  | .doc d => .doc (L.docVal d)
  | .api d => .api (L.apiVal d)
  | .lib d => .lib (L.libVal d)

/-- What `Annotations()` of an example, a document or a library returns: the pointer. -/
def annsOf (L : Leaves) : Leaf → Option Addr
  | .ex e => some (L.ex e).annotations
  | .api d => some (L.api d).annotations
  | .lib d => some (L.lib d).annotations
  | _ => none

/-- The annotations that something shows; none for what has no annotations. -/
def annotations (L : Leaves) (x : Leaf) : Option (OM String Ann) := (L.annsOf x).map L.annsVal

/-- The same with other annotations. -/
def Shown.withAnns : Shown → Option (OM String Ann) → Shown
  | .ex e, some m => .ex { e with annotations := m }
  | .api a, some m => .api { a with annotations := m }
  | .lib l, some m => .lib { l with annotations := m }
  | s, _ => s

/-- The call `SetAnnotations` on something; `none` is nil, or the call `UnsetAnnotations`. -/
def setAnns : Leaf → Option Addr → Option Step
  | .ex e, m => some (.setExAnns e m)
  | .api d, m => some (.setApiAnns d m)
  | .lib d, m => some (.setLibAnns d m)
  | _, _ => none

/-- Two things that have no object in common. -/
def Apart (L : Leaves) (x y : Leaf) : Prop := ∀ o ∈ L.parts x, o ∉ L.parts y

/-- The objects that a step may write to, other than new ones. -/
def touches (L : Leaves) : Step → List Leaf
  | .editAnn a _ => [.ann a]
  | .editAnns m _ => [.anns m]
  | .editExtra x _ => [.extra x]
  | .onEx e _ | .setExAnns e _ => [.ex e]
  | .setTitle d _ | .setContent d _ => [.doc d]
  | .onApi d _ | .setApiAnns d _ | .setDocs d _ => [.api d]
  | .onLib d _ | .setLibAnns d _ => [.lib d]
  | .loadEx e _ => [.ex e, .extra (L.ex e).extra, .anns (L.ex e).annotations]
  | .loadDoc d _ => [.doc d, .extra (L.doc d).extra]
  | .loadApi d _ => [.api d, .anns (L.api d).annotations]
  | .loadLib d _ => [.lib d, .anns (L.lib d).annotations]
  | _ => []

/-- The program only uses pointers it can have: those of objects that exist. -/
def Legal (L : Leaves) : Step → Prop
  | .editAnn a _ => a < L.next
  | .editAnns m f => m < L.next ∧ ∀ e ∈ (f (L.am m)).ents, e.2 < L.next
  | .editExtra x _ => x < L.next
  | .onEx e _ => e < L.next
  | .setExAnns e m => e < L.next ∧ ∀ x ∈ m, x < L.next
  | .setTitle d _ | .setContent d _ | .onApi d _ | .onLib d _ => d < L.next
  | .setApiAnns d m | .setLibAnns d m => d < L.next ∧ ∀ x ∈ m, x < L.next
  | .setDocs d l => d < L.next ∧ ∀ x ∈ l.getD [], x < L.next
  | .loadEx a _ | .loadDoc a _ | .loadApi a _ | .loadLib a _ => a < L.next
  | _ => True

/-- Every step of a program is legal. -/
def LegalAll (X : Xyml) : Leaves → List Step → Prop
  | _, [] => True
  | L, s :: ss => L.Legal s ∧ LegalAll X (L.act X s) ss

/-- The objects that a program may write to, other than those new at the time. -/
def touchesAll (X : Xyml) : Leaves → List Step → List Leaf
  | _, [] => []
  | L, s :: ss => L.touches s ++ touchesAll X (L.act X s) ss

/-- A state that a program can bring about. -/
inductive Made (X : Xyml) : Leaves → Prop where
  | start : Made X start
  | act {L : Leaves} (s : Step) : Made X L → L.Legal s → Made X (L.act X s)

/-- The objects that a step stores in others: the arguments of setters, and what is in an annotation
map after an edit. -/
def gives (L : Leaves) : Step → List Leaf
  | .editAnns m f => (f (L.am m)).ents.map fun e => .ann e.2
  | .setExAnns _ m | .setApiAnns _ m | .setLibAnns _ m => (m.toList).map .anns
  | .setDocs _ l => (l.getD []).map .doc
  | _ => []

/-- A program that neither writes to anything `y` consists of nor stores it anywhere. -/
def Beside (X : Xyml) (y : Leaf) : Leaves → List Step → Prop
  | _, [] => True
  | L, s :: ss => (∀ o ∈ L.touches s, o ∉ L.parts y) ∧ (∀ g ∈ L.gives s, L.Apart g y) ∧
      Beside X y (L.act X s) ss

end Leaves

end Verif.Doc
