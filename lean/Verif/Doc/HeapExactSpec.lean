import Verif.Doc.HeapSpec
import Verif.OMap.Keys

/-!
# Vocabulary: a call on an object as a call on its value
-/

namespace Verif.Doc

/-- The object handed over. -/
def PtrOp.arg : PtrOp → Option Obj
  | .setExample m => m.map .ex
  | .setExamples m => m.map .em
  | .setAnnotations m => m.map .am
  | .setFacetDefinitions m => m.map .fm
  | .setXML m => m.map .xo
  | .setExtraFacets m => m.map .xm
  | .setProperties m => m.map .tm
  | .setItems m => m.map .ty

/-- What a map of examples shows. -/
def Heap.exMap (H : Heap) (m : Addr) : OM String Example :=
  ⟨(H.em m).ents.map fun e => (e.1, H.ex e.2), (H.em m).omap⟩

/-- What a map of data types shows. -/
def Heap.typeMap (H : Heap) (n : Nat) (m : Addr) : Option (OM String DT) :=
  followMap (H.val n) (H.tm m)

/-- What a map of facets shows. -/
def Heap.facetMap (H : Heap) (n : Nat) (m : Addr) : Option (OM String (OM String DT)) :=
  followMap (H.typeMap n) (H.fm m)

/-- The call with a value in place of the pointer. -/
def PtrOp.deref (H : Heap) (n : Nat) : PtrOp → Option TypeOp
  | .setExample m => some (.setExample (m.map H.ex))
  | .setExamples m => some (.setExamples (m.map H.exMap))
  | .setAnnotations m => some (.setAnnotations (m.map H.am))
  | .setFacetDefinitions m => (followOpt (H.facetMap n) m).map .setFacetDefinitions
  | .setXML m => some (.setXML (m.map H.xo))
  | .setExtraFacets m => some (.setExtraFacets (m.map H.xm))
  | .setProperties m => (followOpt (H.typeMap n) m).map .setProperties
  | .setItems m => (followOpt (H.val n) m).map .setItems

/-- A call on a map with string keys: the entries as the ordered dictionary has them, and the output
flag (AnyMap.go:250-253). -/
def OM.call {V : Type} (m : OM String V) (op : OMap.Op String V) : OM String V :=
  ⟨(OMap.Spec.step op m.ents).2, match op with | .serializeOrdered b => b | _ => m.omap⟩

/-- A call on a map with a value in place of the pointer. -/
def followOp {α β : Type} (r : α → Option β) : OMap.Op String α → Option (OMap.Op String β)
  | .put k x => (r x).map (.put k)
  | .putIfNotNil k x => (followOpt r x).map (.putIfNotNil k)
  | .replaceOrPut k x => (r x).map (.replaceOrPut k)
  | .replaceIfExists k x => (r x).map (.replaceIfExists k)
  | .delete k => some (.delete k)
  | .serializeOrdered b => some (.serializeOrdered b)
  | .get k => some (.get k)
  | .has k => some (.has k)
  | .indexOf k => some (.indexOf k)
  | .at' j => some (.at' j)
  | .len => some .len
  | .entries => some .entries

/-- The pointer in a call on a map. -/
def opArg {α : Type} : OMap.Op String α → Option α
  | .put _ x | .replaceOrPut _ x | .replaceIfExists _ x => some x
  | .putIfNotNil _ x => x
  | _ => none

/-- The parts of a data type that a getter returns a pointer to. -/
inductive TypeSec where
  | extra | annotations | examples | facets | properties | xml | «example» | items

/-- What the getter returns (x-gen-type-string.go:66-96, type-datatype-ext.go:40-46,
x-gen-type-object.go:193-195, x-gen-type-array.go:218-220, in-components.go:18-20, :54-56); `none` is
nil, or no such method. -/
def Heap.get (H : Heap) (a : Addr) (s : TypeSec) : Option Obj :=
  match H.ty a, s with
  | .basic _ _ x, .extra => some (.xm x)
  | .basic _ _ _, _ => none
  | .ext _ p _ _ _ _, .extra => some (.xm p.extra)
  | .ext _ p _ _ _ _, .annotations => some (.am p.annotations)
  | .ext _ p _ _ _ _, .examples => some (.em p.examples)
  | .ext _ _ _ f _ _, .facets => some (.fm f)
  | .ext _ _ (.object _) _ ps _, .properties => ps.map .tm
  | .ext _ _ _ _ _ _, .properties => none
  | .ext _ p _ _ _ _, .xml => p.xml.map .xo
  | .ext _ p _ _ _ _, .example => p.example.map .ex
  | .ext _ _ (.array _) _ _ it, .items => it.map .ty
  | .ext _ _ _ _ _ _, .items => none

/-- `o` is the only object in `o` with a pointer to `s`. -/
def Heap.OwnedBy (H : Heap) (o s : Obj) : Prop := ∀ o', H.Reaches o o' → H.Points o' s → o' = o

/-- The data type alone has its maps: nothing in it points to them. -/
def Heap.OwnMaps (H : Heap) (a : Addr) : Prop := ∀ s ∈ H.maps a, H.OwnedBy (.ty a) s

/-- `o` with everything in it is a tree: nothing in it points to `o`, every other object in it has one
pointer to it, and no object lists another twice. -/
structure Heap.Tree (H : Heap) (o : Obj) : Prop where
  root : ∀ x, H.Reaches o x → ¬ H.Points x o
  uniq : ∀ x x' y, H.Reaches o x → H.Reaches o x' → H.Points x y → H.Points x' y → x = x'
  nodup : ∀ x, H.Reaches o x → (H.refs x).Nodup

/-- A document with ten (eight) different sections that nothing else in the document points to. -/
def Heap.Own (H : Heap) (x : Holder) : Prop :=
  (H.refs x.obj).Nodup ∧ ∀ s ∈ H.refs x.obj, H.OwnedBy x.obj s

/-- The section handed over. -/
def ApiPtrOp.arg : ApiPtrOp → Option Obj
  | .types m => m.map .tm
  | .traits m | .resourceTypes m | .annotationTypes m | .securitySchemes m => m.map .um
  | .annotations m => m.map .am
  | .uses m => m.map .sm

/-- The call with a value in place of the pointer. -/
def ApiPtrOp.deref (H : Heap) (n : Nat) : ApiPtrOp → Option ApiOp
  | .types m => (followOpt (H.typeMap n) m).map .setTypes
  | .traits m => some (.setTraits (m.map H.um))
  | .resourceTypes m => some (.setResourceTypes (m.map H.um))
  | .annotationTypes m => some (.setAnnotationTypes (m.map H.um))
  | .annotations m => some (.setAnnotations (m.map H.am))
  | .securitySchemes m => some (.setSecuritySchemes (m.map H.um))
  | .uses m => some (.setUses (m.map H.sm))

/-- The section handed over. -/
def LibPtrOp.arg : LibPtrOp → Option Obj
  | .types m => m.map .tm
  | .traits m | .resourceTypes m => m.map .um
  | .annotations m => m.map .am
  | .uses m => m.map .sm

/-- The call with a value in place of the pointer. -/
def LibPtrOp.deref (H : Heap) (n : Nat) : LibPtrOp → Option LibOp
  | .types m => (followOpt (H.typeMap n) m).map .setTypes
  | .traits m => some (.setTraits (m.map H.um))
  | .resourceTypes m => some (.setResourceTypes (m.map H.um))
  | .annotations m => some (.setAnnotations (m.map H.am))
  | .uses m => some (.setUses (m.map H.sm))

/-! ### Parts of data types -/

/-- The part that a setter replaces. -/
def PtrOp.part : PtrOp → TypeSec
  | .setExample _ => .example
  | .setExamples _ => .examples
  | .setAnnotations _ => .annotations
  | .setFacetDefinitions _ => .facets
  | .setXML _ => .xml
  | .setExtraFacets _ => .extra
  | .setProperties _ => .properties
  | .setItems _ => .items

/-- The key of a document under which a load replaces the part (type-datatype-ext.go:83-88,
x-gen-type-string.go:250-258, x-gen-type-array.go:296-302); the maps are filled, not replaced. -/
def TypeSec.key : TypeSec → Option String
  | .xml => some "xml"
  | .example => some "example"
  | .items => some "items"
  | _ => none

/-- A step replaces the part `s` of the data type at `a`: its setter, or a load of a document with the
key of that part. -/
def Act.replaces (a : Addr) (s : TypeSec) : Act → Prop
  | .onType b (.ptr op) => b = a ∧ op.part = s
  | .loadType b (.map ps) => b = a ∧ ∃ p ∈ ps, s.key = some p.1.value
  | _ => False

/-- What a part of a data type shows. -/
inductive PartVal where
  | extra (m : OM Scalar Node)
  | annotations (m : OM String Ann)
  | examples (m : OM String Example)
  | facets (m : OM String (OM String DT))
  | properties (m : OM String DT)
  | xml (x : XML)
  | «example» (e : Example)
  | items (t : DT)

/-- The parts of a value; `none` is nil, or no such method. -/
def DT.part : DT → TypeSec → Option PartVal
  | .basic _ _ x, .extra => some (.extra x)
  | .basic _ _ _, _ => none
  | .ext h _ _ _ _, .extra => some (.extra h.extra)
  | .ext h _ _ _ _, .annotations => some (.annotations h.annotations)
  | .ext h _ _ _ _, .examples => some (.examples h.examples)
  | .ext _ _ f _ _, .facets => some (.facets f)
  | .ext _ (.object _) _ ps _, .properties => some (.properties ps)
  | .ext _ _ _ _ _, .properties => none
  | .ext h _ _ _ _, .xml => h.xml.map .xml
  | .ext h _ _ _ _, .example => h.example.map .example
  | .ext _ (.array _) _ _ it, .items => it.map .items
  | .ext _ _ _ _ _, .items => none

/-- What the object at a pointer shows, following pointers to data types `n` deep. -/
def Heap.partVal (H : Heap) (n : Nat) : Obj → Option PartVal
  | .xm m => some (.extra (H.xm m))
  | .am m => some (.annotations (H.am m))
  | .em m => some (.examples (H.exMap m))
  | .fm m => (H.facetMap n m).map .facets
  | .tm m => (H.typeMap n m).map .properties
  | .xo m => some (.xml (H.xo m))
  | .ex m => some (.example (H.ex m))
  | .ty m => (H.val n m).map .items
  | _ => none

/-- What a part shows after its `Unset` method. -/
def TypeSec.unset : TypeSec → Option PartVal
  | .extra => some (.extra (OM.empty true))
  | .annotations => some (.annotations (OM.empty true))
  | .examples => some (.examples (OM.empty true))
  | .facets => some (.facets (OM.empty true))
  | .properties => some (.properties (OM.empty true))
  | .xml | .example | .items => none

/-- The section of a document as a part of a data type, where both can be the same object. -/
def SecVal.part : SecVal → Option PartVal
  | .anns m => some (.annotations m)
  | .any m => some (.extra m)
  | .types m => some (.properties m)
  | .nodes _ | .strings _ => none

/-! ### Programs that hand over only new objects -/

/-- What a document is worth. -/
inductive DocVal where
  | api (a : APISpec)
  | lib (l : Library)

/-- The value of a document object. -/
def Heap.docVal (H : Heap) (n : Nat) : Holder → Option DocVal
  | .api d => (H.apiVal n d).map .api
  | .lib d => (H.libVal n d).map .lib

/-- What it is written as. -/
def Heap.docWrite (H : Heap) (X : Xyml) (n : Nat) : Holder → Option Node
  | .api d => H.apiWrite X n d
  | .lib d => H.libWrite X n d

/-- What the value is written as. -/
def DocVal.toYAML (X : Xyml) : DocVal → Node
  | .api a => a.toYAML X
  | .lib l => l.toYAML X

/-- A new document. -/
def DocVal.new : Holder → DocVal
  | .api _ => .api APISpec.new
  | .lib _ => .lib Library.new

/-- One thing to do to a document: a setter without a map, an `Unset` of a section, a load, a change
through a getter of a section; types that are put in are new. -/
inductive DocStep where
  | onApi (op : ApiOp)
  | onLib (op : LibOp)
  | unset (s : Sec)
  | load (v : Node)
  | nodes (s : Sec) (f : OM String Node → OM String Node)
  | anns (f : OM String Ann → OM String Ann)
  | strings (f : OM String String → OM String String)
  | extra (f : OM Scalar Node → OM Scalar Node)
  | putType (k : String) (v : Node)
  | dropType (k : String)
  | orderTypes (b : Bool)

/-- The calls on the objects. -/
def DocStep.acts (X : Xyml) (H : Heap) (x : Holder) : DocStep → List Act
  | .onApi op => match x with
    | .api d => [.onApi d op]
    | .lib _ => []
  | .onLib op => match x with
    | .api _ => []
    | .lib d => [.onLib d op]
  | .unset s => (setSec x s none).toList
  | .load v => match x with
    | .api d => [.loadApi d v]
    | .lib d => [.loadLib d v]
  | .nodes s f => match H.sec x s with
    | some (.um m) => [.edit (.um m f)]
    | _ => []
  | .anns f => match H.sec x .annotations with
    | some (.am m) => [.edit (.am m f)]
    | _ => []
  | .strings f => match H.sec x .uses with
    | some (.sm m) => [.edit (.sm m f)]
    | _ => []
  | .extra f => match H.sec x .extra with
    | some (.xm m) => [.edit (.xm m f)]
    | _ => []
  | .putType k v => match H.sec x .types, hat X v with
    | some (.tm m), .ok t => [.parseType v, .edit (.tm m fun y => y.put k (H.storeT t).1)]
    | _, _ => [.parseType v]
  | .dropType k => match H.sec x .types with
    | some (.tm m) => [.edit (.tm m fun y => y.call (.delete k))]
    | _ => []
  | .orderTypes b => match H.sec x .types with
    | some (.tm m) => [.edit (.tm m fun y => y.call (.serializeOrdered b))]
    | _ => []

/-- The change of an API document as a value. -/
def APISpec.step (X : Xyml) (a : APISpec) : DocStep → APISpec
  | .onApi op => if op.plain then a.apply op else a
  | .onLib _ => a
  | .unset s => match s with
    | .types => a.apply .unsetTypes
    | .traits => a.apply .unsetTraits
    | .resourceTypes => a.apply .unsetResourceTypes
    | .annotationTypes => a.apply .unsetAnnotationTypes
    | .annotations => a.apply .unsetAnnotations
    | .securitySchemes => a.apply .unsetSecuritySchemes
    | .uses => a.apply .unsetUses
    | .baseURIParameters | .resources | .extra => a
  | .load v => (a.load X v).1
  | .nodes s f => match s with
    | .traits => { a with traits := f a.traits }
    | .resourceTypes => { a with resourceTypes := f a.resourceTypes }
    | .annotationTypes => { a with annotationTypes := f a.annotationTypes }
    | .securitySchemes => { a with securitySchemes := f a.securitySchemes }
    | .baseURIParameters => { a with baseURIParameters := f a.baseURIParameters }
    | .resources => { a with resources := f a.resources }
    | .types | .annotations | .uses | .extra => a
  | .anns f => { a with annotations := f a.annotations }
  | .strings f => { a with uses := f a.uses }
  | .extra f => { a with extra := f a.extra }
  | .putType k v => match hat X v with
    | .ok t => { a with types := a.types.put k t }
    | _ => a
  | .dropType k => { a with types := a.types.call (.delete k) }
  | .orderTypes b => { a with types := a.types.call (.serializeOrdered b) }

/-- The change of a library as a value. -/
def Library.step (X : Xyml) (l : Library) : DocStep → Library
  | .onApi _ => l
  | .onLib op => if op.plain then l.apply op else l
  | .unset s => match s with
    | .types => l.apply .unsetTypes
    | .traits => l.apply .unsetTraits
    | .resourceTypes => l.apply .unsetResourceTypes
    | .annotations => l.apply .unsetAnnotations
    | .uses => l.apply .unsetUses
    | .annotationTypes | .securitySchemes | .baseURIParameters | .resources | .extra => l
  | .load v => (l.load X v).1
  | .nodes s f => match s with
    | .traits => { l with traits := f l.traits }
    | .resourceTypes => { l with resourceTypes := f l.resourceTypes }
    | .annotationTypes => { l with annotationTypes := f l.annotationTypes }
    | .securitySchemes => { l with securitySchemes := f l.securitySchemes }
    | .types | .annotations | .uses | .extra | .baseURIParameters | .resources => l
  | .anns f => { l with annotations := f l.annotations }
  | .strings f => { l with uses := f l.uses }
  | .extra f => { l with extra := f l.extra }
  | .putType k v => match hat X v with
    | .ok t => { l with types := l.types.put k t }
    | _ => l
  | .dropType k => { l with types := l.types.call (.delete k) }
  | .orderTypes b => { l with types := l.types.call (.serializeOrdered b) }

/-- The change of a document as a value. -/
def DocVal.step (X : Xyml) : DocVal → DocStep → DocVal
  | .api a, s => .api (a.step X s)
  | .lib l, s => .lib (l.step X s)

/-- A program that works on several documents by turns. -/
def Heap.runDocs (X : Xyml) (H : Heap) : List (Holder × DocStep) → Heap
  | [] => H
  | p :: ps => (H.run X (p.2.acts X H p.1)).runDocs X ps

/-- The steps that are about one document. -/
def stepsOf (x : Holder) (ps : List (Holder × DocStep)) : List DocStep :=
  (ps.filter fun p => p.1 = x).map Prod.snd

end Verif.Doc
