import Verif.Doc.Heap
import Mathlib.Logic.Relation

/-!
# Vocabulary for objects and pointers

Which object points to which, what can be reached, and when two heaps agree.  Separate from the
functions that follow pointers in `Heap.lean`.
-/

namespace Verif.Doc

/-- An object: its sort and its address. -/
inductive Obj where
  | ty (a : Addr) | tm (a : Addr) | fm (a : Addr) | am (a : Addr) | em (a : Addr) | ex (a : Addr)
  | xo (a : Addr) | xm (a : Addr) | sm (a : Addr) | um (a : Addr) | api (a : Addr) | lib (a : Addr)
deriving DecidableEq

/-- Its address. -/
def Obj.addr : Obj → Addr
  | .ty a | .tm a | .fm a | .am a | .em a | .ex a | .xo a | .xm a | .sm a | .um a | .api a
  | .lib a => a

/-- The objects that an object points to. -/
def Heap.refs (H : Heap) : Obj → List Obj
  | .ty a =>
    match H.ty a with
    | .basic _ _ x => [.xm x]
    | .ext _ p _ f ps it =>
      [.xm p.extra, .am p.annotations, .em p.examples, .fm f] ++ p.xml.toList.map .xo ++
        p.example.toList.map .ex ++ ps.toList.map .tm ++ it.toList.map .ty
  | .tm m => (H.tm m).ents.map fun e => .ty e.2
  | .fm m => (H.fm m).ents.map fun e => .tm e.2
  | .em m => (H.em m).ents.map fun e => .ex e.2
  | .api d =>
    let o := H.api d
    [.tm o.types, .um o.traits, .um o.resourceTypes, .um o.annotationTypes, .am o.annotations,
      .um o.securitySchemes, .um o.baseURIParameters, .sm o.uses, .um o.resources, .xm o.extra]
  | .lib d =>
    let o := H.lib d
    [.tm o.types, .um o.traits, .um o.resourceTypes, .um o.annotationTypes, .am o.annotations,
      .um o.securitySchemes, .sm o.uses, .xm o.extra]
  | .am _ | .ex _ | .xo _ | .xm _ | .sm _ | .um _ => []

/-- One pointer from `o` to `o'`. -/
def Heap.Points (H : Heap) (o o' : Obj) : Prop := o' ∈ H.refs o

/-- `o'` is `o` or can be reached from it by following pointers. -/
def Heap.Reaches (H : Heap) : Obj → Obj → Prop := Relation.ReflTransGen H.Points

/-- `o'` can be reached from `o` by following at least one pointer. -/
def Heap.Inside (H : Heap) : Obj → Obj → Prop := Relation.TransGen H.Points

/-- Both heaps have the same object there. -/
def Same (H H' : Heap) : Obj → Prop
  | .ty a => H.ty a = H'.ty a
  | .tm a => H.tm a = H'.tm a
  | .fm a => H.fm a = H'.fm a
  | .am a => H.am a = H'.am a
  | .em a => H.em a = H'.em a
  | .ex a => H.ex a = H'.ex a
  | .xo a => H.xo a = H'.xo a
  | .xm a => H.xm a = H'.xm a
  | .sm a => H.sm a = H'.sm a
  | .um a => H.um a = H'.um a
  | .api a => H.api a = H'.api a
  | .lib a => H.lib a = H'.lib a

/-- All pointers lead to addresses in use. -/
def Heap.Closed (H : Heap) : Prop := ∀ o o', H.Points o o' → o'.addr < H.next

/-- The new heap has everything that was there, unchanged. -/
structure Extends (H H' : Heap) : Prop where
  next : H.next ≤ H'.next
  same : ∀ o, o.addr < H.next → Same H H' o

/-- Everything that can be reached from `o` is at an address from `lo` on, and in use. -/
def Heap.Above (H : Heap) (lo : Addr) (o : Obj) : Prop :=
  ∀ o', H.Reaches o o' → lo ≤ o'.addr ∧ o'.addr < H.next

/-- The maps of the data type at `a`. -/
def Heap.maps (H : Heap) (a : Addr) : List Obj :=
  match H.ty a with
  | .basic _ _ x => [.xm x]
  | .ext _ p _ f ps _ =>
    [.xm p.extra, .am p.annotations, .em p.examples, .fm f] ++ ps.toList.map .tm

/-- The pointers handed over in a step are in use. -/
def Heap.Legal (H : Heap) : Act → Prop
  | .onType a c => a < H.next ∧ match c with
    | .plain _ => True
    | .ptr (.setExample m) | .ptr (.setExamples m) | .ptr (.setAnnotations m)
    | .ptr (.setFacetDefinitions m) | .ptr (.setXML m) | .ptr (.setExtraFacets m)
    | .ptr (.setProperties m) | .ptr (.setItems m) => ∀ x, m = some x → x < H.next
  | .edit e => match e with
    | .tm m f => m < H.next ∧ ∀ x ∈ (f (H.tm m)).ents, x.2 < H.next
    | .fm m f => m < H.next ∧ ∀ x ∈ (f (H.fm m)).ents, x.2 < H.next
    | .em m f => m < H.next ∧ ∀ x ∈ (f (H.em m)).ents, x.2 < H.next
    | .am m _ | .ex m _ | .xo m _ | .xm m _ | .sm m _ | .um m _ => m < H.next
  | .onApi d _ | .loadApi d _ | .onLib d _ | .loadLib d _ | .loadType d _ | .loadEx d _
  | .loadXML d _ => d < H.next
  | .setApi d op => d < H.next ∧ match op with
    | .types m | .traits m | .resourceTypes m | .annotationTypes m | .annotations m
    | .securitySchemes m | .uses m => ∀ x, m = some x → x < H.next
  | .setLib d op => d < H.next ∧ match op with
    | .types m | .traits m | .resourceTypes m | .annotations m | .uses m =>
      ∀ x, m = some x → x < H.next
  | _ => True

/-- The objects that a step may change: the receiver of a call, and for a load also the sections of
the document, or the maps of the data type. -/
def Heap.touches (H : Heap) : Act → List Obj
  | .onType a _ => [.ty a]
  | .edit e => match e with
    | .tm m _ => [.tm m]
    | .fm m _ => [.fm m]
    | .am m _ => [.am m]
    | .em m _ => [.em m]
    | .ex m _ => [.ex m]
    | .xo m _ => [.xo m]
    | .xm m _ => [.xm m]
    | .sm m _ => [.sm m]
    | .um m _ => [.um m]
  | .onApi d _ | .setApi d _ => [.api d]
  | .loadApi d _ => .api d :: H.refs (.api d)
  | .onLib d _ | .setLib d _ => [.lib d]
  | .loadLib d _ => .lib d :: H.refs (.lib d)
  | .loadType a _ => .ty a :: H.maps a
  | .loadEx m _ => [.ex m]
  | .loadXML m _ => [.xo m]
  | _ => []

/-- The step hands over no pointer: it creates, loads, unsets, or removes entries. -/
def Heap.Keeps (H : Heap) : Act → Prop
  | .onType _ c => match c with
    | .plain _ => True
    | .ptr (.setExample m) | .ptr (.setExamples m) | .ptr (.setAnnotations m)
    | .ptr (.setFacetDefinitions m) | .ptr (.setXML m) | .ptr (.setExtraFacets m)
    | .ptr (.setProperties m) | .ptr (.setItems m) => m = none
  | .edit e => match e with
    | .tm m f => ∀ x ∈ (f (H.tm m)).ents, ∃ k, (k, x.2) ∈ (H.tm m).ents
    | .fm m f => ∀ x ∈ (f (H.fm m)).ents, ∃ k, (k, x.2) ∈ (H.fm m).ents
    | .em m f => ∀ x ∈ (f (H.em m)).ents, ∃ k, (k, x.2) ∈ (H.em m).ents
    | _ => True
  | .setApi _ op => match op with
    | .types m | .traits m | .resourceTypes m | .annotationTypes m | .annotations m
    | .securitySchemes m | .uses m => m = none
  | .setLib _ op => match op with
    | .types m | .traits m | .resourceTypes m | .annotations m | .uses m => m = none
  | _ => True

/-- No step of the program hands over a pointer. -/
def Heap.KeepsAll (X : Xyml) : Heap → List Act → Prop
  | _, [] => True
  | H, s :: ss => H.Keeps s ∧ (H.act X s).KeepsAll X ss

/-- Nothing can be reached from both. -/
def Heap.Apart (H : Heap) (o o' : Obj) : Prop := ∀ x, H.Reaches o x → ¬ H.Reaches o' x

/-- A program that runs from `H`. -/
def Heap.run (X : Xyml) (H : Heap) (ss : List Act) : Heap := ss.foldl (Heap.act X) H

/-- Every step of the program is legal when it is taken. -/
def Heap.LegalAll (X : Xyml) : Heap → List Act → Prop
  | _, [] => True
  | H, s :: ss => H.Legal s ∧ (H.act X s).LegalAll X ss

/-- The objects that the steps of a program may change. -/
def Heap.touchesAll (X : Xyml) : Heap → List Act → List Obj
  | _, [] => []
  | H, s :: ss => H.touches s ++ (H.act X s).touchesAll X ss

/-- The heaps that programs can make. -/
inductive Reachable (X : Xyml) : Heap → Prop where
  | start : Reachable X Heap.start
  | act {H : Heap} (s : Act) : Reachable X H → H.Legal s → Reachable X (H.act X s)

/-! ### Sections of documents -/

/-- The maps of a document. -/
inductive Sec where
  | types | traits | resourceTypes | annotationTypes | annotations | securitySchemes
  | baseURIParameters | uses | resources | extra
deriving DecidableEq

/-- A document. -/
inductive Holder where
  | api (d : Addr)
  | lib (d : Addr)
deriving DecidableEq

/-- Its object. -/
def Holder.obj : Holder → Obj
  | .api d => .api d
  | .lib d => .lib d

/-- The object that is a section of a document; a library has only eight. -/
def Heap.sec (H : Heap) : Holder → Sec → Option Obj
  | .api d, s => match s with
    | .types => some (.tm (H.api d).types)
    | .traits => some (.um (H.api d).traits)
    | .resourceTypes => some (.um (H.api d).resourceTypes)
    | .annotationTypes => some (.um (H.api d).annotationTypes)
    | .annotations => some (.am (H.api d).annotations)
    | .securitySchemes => some (.um (H.api d).securitySchemes)
    | .baseURIParameters => some (.um (H.api d).baseURIParameters)
    | .uses => some (.sm (H.api d).uses)
    | .resources => some (.um (H.api d).resources)
    | .extra => some (.xm (H.api d).extra)
  | .lib d, s => match s with
    | .types => some (.tm (H.lib d).types)
    | .traits => some (.um (H.lib d).traits)
    | .resourceTypes => some (.um (H.lib d).resourceTypes)
    | .annotationTypes => some (.um (H.lib d).annotationTypes)
    | .annotations => some (.am (H.lib d).annotations)
    | .securitySchemes => some (.um (H.lib d).securitySchemes)
    | .uses => some (.sm (H.lib d).uses)
    | .extra => some (.xm (H.lib d).extra)
    | .baseURIParameters | .resources => none

/-- What a section shows. -/
inductive SecVal where
  | types (m : OM String DT)
  | nodes (m : OM String Node)
  | anns (m : OM String Ann)
  | strings (m : OM String String)
  | any (m : OM Scalar Node)

/-- What a section of an API document shows. -/
def APISpec.sec (a : APISpec) : Sec → SecVal
  | .types => .types a.types
  | .traits => .nodes a.traits
  | .resourceTypes => .nodes a.resourceTypes
  | .annotationTypes => .nodes a.annotationTypes
  | .annotations => .anns a.annotations
  | .securitySchemes => .nodes a.securitySchemes
  | .baseURIParameters => .nodes a.baseURIParameters
  | .uses => .strings a.uses
  | .resources => .nodes a.resources
  | .extra => .any a.extra

/-- What a section of a library shows. -/
def Library.sec (l : Library) : Sec → Option SecVal
  | .types => some (.types l.types)
  | .traits => some (.nodes l.traits)
  | .resourceTypes => some (.nodes l.resourceTypes)
  | .annotationTypes => some (.nodes l.annotationTypes)
  | .annotations => some (.anns l.annotations)
  | .securitySchemes => some (.nodes l.securitySchemes)
  | .uses => some (.strings l.uses)
  | .extra => some (.any l.extra)
  | .baseURIParameters | .resources => none

/-- What a section of a document shows; `none` also if the document stands for no value. -/
def Heap.secVal (H : Heap) (n : Nat) : Holder → Sec → Option SecVal
  | .api d, s => (H.apiVal n d).map fun a => a.sec s
  | .lib d, s => (H.libVal n d).bind fun l => l.sec s

/-- The setter of a section. -/
def setSec : Holder → Sec → Option Addr → Option Act
  | .api d, .types, m => some (.setApi d (.types m))
  | .api d, .traits, m => some (.setApi d (.traits m))
  | .api d, .resourceTypes, m => some (.setApi d (.resourceTypes m))
  | .api d, .annotationTypes, m => some (.setApi d (.annotationTypes m))
  | .api d, .annotations, m => some (.setApi d (.annotations m))
  | .api d, .securitySchemes, m => some (.setApi d (.securitySchemes m))
  | .api d, .uses, m => some (.setApi d (.uses m))
  | .lib d, .types, m => some (.setLib d (.types m))
  | .lib d, .traits, m => some (.setLib d (.traits m))
  | .lib d, .resourceTypes, m => some (.setLib d (.resourceTypes m))
  | .lib d, .annotations, m => some (.setLib d (.annotations m))
  | .lib d, .uses, m => some (.setLib d (.uses m))
  | _, _, _ => none

/-- The sort of map a section is. -/
def Sec.sort : Sec → Addr → Obj
  | .types => .tm
  | .annotations => .am
  | .uses => .sm
  | .extra => .xm
  | _ => .um

end Verif.Doc
