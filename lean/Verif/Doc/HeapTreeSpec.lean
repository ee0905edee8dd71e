import Verif.Doc.HeapExactSpec

/-!
# Vocabulary: programs that change data types at any depth, as changes of values
-/

namespace Verif.Doc

/-- Changes the value of the first entry with the key. -/
def changeFirst {V : Type} (k : String) (g : V → V) : List (String × V) → List (String × V)
  | [] => []
  | e :: es => if e.1 = k then (e.1, g e.2) :: es else e :: changeFirst k g es

/-- What a call on the result of `Get` (AnyMap.go:193-196) does to the map. -/
def OM.change {V : Type} (m : OM String V) (k : String) (g : V → V) : OM String V :=
  ⟨changeFirst k g m.ents, m.omap⟩

/-! ### Ways into a data type -/

/-- From a data type to one in it: `Properties().Get(k)`, `Items()`,
`FacetDefinitions().Get(k).Get(k')`. -/
inductive Hop where
  | property (k : String)
  | items
  | facet (k k' : String)

/-- The data type that the getters lead to. -/
def Heap.hop (H : Heap) (a : Addr) : Hop → Option Addr
  | .property k => match H.get a .properties with
    | some (.tm m) => (H.tm m).get k
    | _ => none
  | .items => match H.get a .items with
    | some (.ty b) => some b
    | _ => none
  | .facet k k' => match H.get a .facets with
    | some (.fm m) => match (H.fm m).get k with
      | some u => (H.tm u).get k'
      | none => none
    | _ => none

/-- One after the other. -/
def Heap.walk (H : Heap) : List Hop → Addr → Option Addr
  | [], a => some a
  | h :: hs, a => match H.hop a h with
    | some b => H.walk hs b
    | none => none

/-- The change `g` of the value in a value. -/
def DT.through (g : DT → DT) : Hop → DT → DT
  | .property k, .ext h (.object o) fs ps it => .ext h (.object o) fs (ps.change k g) it
  | .items, .ext h (.array o) fs ps it => .ext h (.array o) fs ps (it.map g)
  | .facet k k', .ext h b fs ps it => .ext h b (fs.change k fun m => m.change k' g) ps it
  | _, t => t

/-- The change `g` of the value at the end of a way. -/
def DT.within (g : DT → DT) : List Hop → DT → DT
  | [], t => g t
  | h :: hs, t => t.through (DT.within g hs) h

/-! ### Steps on a data type -/

/-- One thing to do to a data type: a setter without an object, an `Unset`, a load, a change through a
getter, a setter or a `Put` that gets a new object; new data types are made from documents. -/
inductive TypeStep where
  | call (op : TypeOp)
  | unset (s : TypeSec)
  | load (v : Node)
  | extra (f : OM Scalar Node → OM Scalar Node)
  | anns (f : OM String Ann → OM String Ann)
  | newXML
  | editXML (op : XMLOp)
  | loadXML (v : Node)
  | newExample
  | editExample (op : ExampleOp)
  | loadExample (v : Node)
  | putExample (k : String)
  | editExampleAt (k : String) (op : ExampleOp)
  | loadExampleAt (k : String) (v : Node)
  | dropExample (k : String)
  | orderExamples (b : Bool)
  | newItems (v : Node)
  | putProperty (k : String) (v : Node)
  | dropProperty (k : String)
  | orderProperties (b : Bool)
  | putFacet (k : String)
  | dropFacet (k : String)
  | orderFacets (b : Bool)
  | putFacetType (k k' : String) (v : Node)
  | dropFacetType (k k' : String)
  | orderFacetTypes (k : String) (b : Bool)

/-- The setter call of an `Unset` method (x-gen-type-string.go:75-182, x-gen-type-object.go:206-209,
x-gen-type-array.go:227-230). -/
def TypeSec.clear : TypeSec → PtrOp
  | .extra => .setExtraFacets none
  | .annotations => .setAnnotations none
  | .examples => .setExamples none
  | .facets => .setFacetDefinitions none
  | .properties => .setProperties none
  | .xml => .setXML none
  | .example => .setExample none
  | .items => .setItems none

/-- The kind of a data type object. -/
def TypeObj.kind : TypeObj → Kind
  | .basic i _ _ => if i then .include else .nil
  | .ext _ _ b _ _ _ => b.kind

/-- The address of the map that a getter returns. -/
def Heap.getMap (H : Heap) (a : Addr) (s : TypeSec) : Option Addr := (H.get a s).map Obj.addr

/-- The address of the example under the key. -/
def Heap.exampleAt (H : Heap) (a : Addr) (k : String) : Option Addr :=
  (H.getMap a .examples).bind fun m => (H.em m).get k

/-- The address of the map of data types under the key in the map of facets. -/
def Heap.facetAt (H : Heap) (a : Addr) (k : String) : Option Addr :=
  (H.getMap a .facets).bind fun m => (H.fm m).get k

/-- The calls on the objects. -/
def TypeStep.acts (X : Xyml) (H : Heap) (a : Addr) : TypeStep → List Act
  | .call op => [.onType a (.plain op)]
  | .unset s => [.onType a (.ptr s.clear)]
  | .load v => [.loadType a v]
  | .extra f => match H.getMap a .extra with
    | some m => [.edit (.xm m f)]
    | none => []
  | .anns f => match H.getMap a .annotations with
    | some m => [.edit (.am m f)]
    | none => []
  | .newXML => [.newXML, .onType a (.ptr (.setXML (some H.next)))]
  | .editXML op => match H.getMap a .xml with
    | some x => [.edit (.xo x op)]
    | none => []
  | .loadXML v => match H.getMap a .xml with
    | some x => [.loadXML x v]
    | none => []
  | .newExample => [.newExample (H.ty a).kind, .onType a (.ptr (.setExample (some H.next)))]
  | .editExample op => match H.getMap a .example with
    | some x => [.edit (.ex x op)]
    | none => []
  | .loadExample v => match H.getMap a .example with
    | some x => [.loadEx x v]
    | none => []
  | .putExample k => match H.getMap a .examples with
    | some m => [.newExample (H.ty a).kind, .edit (.em m fun y => y.put k H.next)]
    | none => []
  | .editExampleAt k op => match H.exampleAt a k with
    | some x => [.edit (.ex x op)]
    | none => []
  | .loadExampleAt k v => match H.exampleAt a k with
    | some x => [.loadEx x v]
    | none => []
  | .dropExample k => match H.getMap a .examples with
    | some m => [.edit (.em m fun y => y.call (.delete k))]
    | none => []
  | .orderExamples b => match H.getMap a .examples with
    | some m => [.edit (.em m fun y => y.call (.serializeOrdered b))]
    | none => []
  | .newItems v => match hat X v with
    | .ok t => [.parseType v, .onType a (.ptr (.setItems (some (H.storeT t).1)))]
    | _ => [.parseType v]
  | .putProperty k v => match H.getMap a .properties, hat X v with
    | some m, .ok t => if t.isProperty then
        [.parseType v, .edit (.tm m fun y => y.put k (H.storeT t).1)] else [.parseType v]
    | _, _ => [.parseType v]
  | .dropProperty k => match H.getMap a .properties with
    | some m => [.edit (.tm m fun y => y.call (.delete k))]
    | none => []
  | .orderProperties b => match H.getMap a .properties with
    | some m => [.edit (.tm m fun y => y.call (.serializeOrdered b))]
    | none => []
  | .putFacet k => match H.getMap a .facets with
    | some m => [.newMap, .edit (.fm m fun y => y.put k H.next)]
    | none => []
  | .dropFacet k => match H.getMap a .facets with
    | some m => [.edit (.fm m fun y => y.call (.delete k))]
    | none => []
  | .orderFacets b => match H.getMap a .facets with
    | some m => [.edit (.fm m fun y => y.call (.serializeOrdered b))]
    | none => []
  | .putFacetType k k' v => match H.facetAt a k, hat X v with
    | some m, .ok t => [.parseType v, .edit (.tm m fun y => y.put k' (H.storeT t).1)]
    | _, _ => [.parseType v]
  | .dropFacetType k k' => match H.facetAt a k with
    | some m => [.edit (.tm m fun y => y.call (.delete k'))]
    | none => []
  | .orderFacetTypes k b => match H.facetAt a k with
    | some m => [.edit (.tm m fun y => y.call (.serializeOrdered b))]
    | none => []

/-- A change of the fields that every extended data type has. -/
def DT.editHdr (g : Hdr → Hdr) : DT → DT
  | .ext h b fs ps it => .ext (g h) b fs ps it
  | t => t

/-- A change of the properties. -/
def DT.onProperties (g : OM String DT → OM String DT) : DT → DT
  | .ext h (.object o) fs ps it => .ext h (.object o) fs (g ps) it
  | t => t

/-- A change of the facets. -/
def DT.onFacets (g : OM String (OM String DT) → OM String (OM String DT)) : DT → DT
  | .ext h b fs ps it => .ext h b (g fs) ps it
  | t => t

/-- The value without the part. -/
def DT.cleared : TypeSec → DT → DT
  | .extra, t => t.editHdr fun h => { h with extra := OM.empty true }
  | .annotations, t => t.editHdr fun h => { h with annotations := OM.empty true }
  | .examples, t => t.editHdr fun h => { h with examples := OM.empty true }
  | .facets, t => t.onFacets fun _ => OM.empty true
  | .properties, t => t.onProperties fun _ => OM.empty true
  | .xml, t => t.editHdr fun h => { h with xml := none }
  | .example, t => t.editHdr fun h => { h with «example» := none }
  | .items, .ext h (.array o) fs ps _ => .ext h (.array o) fs ps none
  | .items, t => t

/-- The change of a data type as a value. -/
def DT.alter (X : Xyml) (t : DT) : TypeStep → DT
  | .call op => if op.plain then (t.apply op).getD t else t
  | .unset s => t.cleared s
  | .load v => (t.load X v).1
  | .extra f => match t with
    | .basic i s x => .basic i s (f x)
    | .ext h b fs ps it => .ext { h with extra := f h.extra } b fs ps it
  | .anns f => t.editHdr fun h => { h with annotations := f h.annotations }
  | .newXML => t.editHdr fun h => { h with xml := some XML.new }
  | .editXML op => t.editHdr fun h => { h with xml := h.xml.map fun x => x.apply op }
  | .loadXML v => t.editHdr fun h => { h with xml := h.xml.map fun x => (x.load X v).1 }
  | .newExample => t.editHdr fun h => { h with «example» := some (Example.new t.kind) }
  | .editExample op => t.editHdr fun h => { h with «example» := h.example.map fun e => e.apply op }
  | .loadExample v =>
    t.editHdr fun h => { h with «example» := h.example.map fun e => (e.load X v).1 }
  | .putExample k =>
    t.editHdr fun h => { h with examples := h.examples.put k (Example.new t.kind) }
  | .editExampleAt k op =>
    t.editHdr fun h => { h with examples := h.examples.change k fun e => e.apply op }
  | .loadExampleAt k v =>
    t.editHdr fun h => { h with examples := h.examples.change k fun e => (e.load X v).1 }
  | .dropExample k => t.editHdr fun h => { h with examples := h.examples.call (.delete k) }
  | .orderExamples b =>
    t.editHdr fun h => { h with examples := h.examples.call (.serializeOrdered b) }
  | .newItems v => match t, hat X v with
    | .ext h (.array o) fs ps _, .ok u => .ext h (.array o) fs ps (some u)
    | t, _ => t
  | .putProperty k v => match hat X v with
    | .ok u => if u.isProperty then t.onProperties fun m => m.put k u else t
    | _ => t
  | .dropProperty k => t.onProperties fun m => m.call (.delete k)
  | .orderProperties b => t.onProperties fun m => m.call (.serializeOrdered b)
  | .putFacet k => t.onFacets fun m => m.put k (OM.empty true)
  | .dropFacet k => t.onFacets fun m => m.call (.delete k)
  | .orderFacets b => t.onFacets fun m => m.call (.serializeOrdered b)
  | .putFacetType k k' v => match hat X v with
    | .ok u => t.onFacets fun m => m.change k fun y => y.put k' u
    | _ => t
  | .dropFacetType k k' => t.onFacets fun m => m.change k fun y => y.call (.delete k')
  | .orderFacetTypes k b => t.onFacets fun m => m.change k fun y => y.call (.serializeOrdered b)

/-! ### Programs on data types and documents -/

/-- What a program holds: a data type, or a document. -/
inductive Root where
  | type (a : Addr)
  | doc (x : Holder)
deriving DecidableEq

/-- Its object. -/
def Root.obj : Root → Obj
  | .type a => .ty a
  | .doc x => x.obj

/-- What it is worth. -/
inductive RootVal where
  | type (t : DT)
  | doc (v : DocVal)

/-- The value of a data type object or a document object. -/
def Heap.rootVal (H : Heap) (n : Nat) : Root → Option RootVal
  | .type a => (H.val n a).map .type
  | .doc x => (H.docVal n x).map .doc

/-- What it is written as. -/
def Heap.rootWrite (H : Heap) (X : Xyml) (n : Nat) : Root → Option Node
  | .type a => H.write X n a
  | .doc x => H.docWrite X n x

/-- What the value is written as. -/
def RootVal.toYAML (X : Xyml) : RootVal → Node
  | .type t => t.toYAML X
  | .doc v => v.toYAML X

/-- One thing to do: a step on a data type in a data type, a step on a document, a step on a data type
in the types of a document. -/
inductive RootStep where
  | inside (hs : List Hop) (s : TypeStep)
  | doc (s : DocStep)
  | declared (k : String) (hs : List Hop) (s : TypeStep)

/-- The calls on the objects. -/
def RootStep.acts (X : Xyml) (H : Heap) (r : Root) : RootStep → List Act
  | .inside hs s => match r with
    | .type a => match H.walk hs a with
      | some c => s.acts X H c
      | none => []
    | .doc _ => []
  | .doc s => match r with
    | .type _ => []
    | .doc x => s.acts X H x
  | .declared k hs s => match r with
    | .type _ => []
    | .doc x => match H.sec x .types with
      | some (.tm m) => match (H.tm m).get k with
        | some a => match H.walk hs a with
          | some c => s.acts X H c
          | none => []
        | none => []
      | _ => []

/-- A change of the types of a document. -/
def DocVal.onTypes (g : OM String DT → OM String DT) : DocVal → DocVal
  | .api a => .api { a with types := g a.types }
  | .lib l => .lib { l with types := g l.types }

/-- The change as a change of the value. -/
def RootVal.step (X : Xyml) : RootVal → RootStep → RootVal
  | .type t, .inside hs s => .type (t.within (fun u => u.alter X s) hs)
  | .doc v, .doc s => .doc (v.step X s)
  | .doc v, .declared k hs s =>
    .doc (v.onTypes fun m => m.change k (DT.within (fun u => u.alter X s) hs))
  | v, _ => v

/-- A program that works on several data types and documents by turns. -/
def Heap.runRoots (X : Xyml) (H : Heap) : List (Root × RootStep) → Heap
  | [] => H
  | p :: ps => (H.run X (p.2.acts X H p.1)).runRoots X ps

/-- The steps that are about one of them. -/
def rootSteps (r : Root) (ps : List (Root × RootStep)) : List RootStep :=
  (ps.filter fun p => p.1 = r).map Prod.snd

end Verif.Doc
