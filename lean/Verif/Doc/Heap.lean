import Verif.Doc.Build
import Verif.Doc.LiveType

/-!
# Objects and pointers

The other files model maps, data types and documents as values.  In Go they are pointers: a setter
stores the map it is given, a getter returns the map that is stored, and one map or data type can
be in use in several places, or even inside itself.  This file models the objects that callers can
hold pointers to, the calls on them, and reading and writing them, on a heap.

Simplifications: the annotations and the extra facets of an example, annotations, documentation
entries, slices and YAML nodes stay values (`Leaves.lean` and `Slices.lean` treat some of them as
objects).  `DataTypeMap` and `PropertyMap` objects live in one
space of addresses, although Go keeps them apart by type.
-/

namespace Verif.Doc

/-- A pointer. -/
abbrev Addr := Nat

/-- The pointer fields of an extended data type (DataType.go:21-28, type-datatype-ext.go:21-30,
x-gen-type-string.go:35-40) except those that lead to data types. -/
structure TypePtrs where
  extra : Addr
  annotations : Addr
  xml : Option Addr
  «example» : Option Addr
  examples : Addr

/-- A data type object.  The fields of `h` that `TypePtrs` has are not used.  `props` is there for
object types only (x-gen-type-object.go:33-47), `items` may be non-nil for array types only. -/
inductive TypeObj where
  | basic (incl : Bool) (schema : String) (extra : Addr)
  | ext (h : Hdr) (p : TypePtrs) (b : Body) (facets : Addr) (props items : Option Addr)

/-- An `APISpec` object (APISpec.go:29-48).  The map fields of `v` are not used. -/
structure ApiObj where
  v : APISpec
  types : Addr
  traits : Addr
  resourceTypes : Addr
  annotationTypes : Addr
  annotations : Addr
  securitySchemes : Addr
  baseURIParameters : Addr
  uses : Addr
  resources : Addr
  extra : Addr

/-- A `Library` object (Library.go:26-36).  The map fields of `v` are not used. -/
structure LibObj where
  v : Library
  types : Addr
  traits : Addr
  resourceTypes : Addr
  annotationTypes : Addr
  annotations : Addr
  securitySchemes : Addr
  uses : Addr
  extra : Addr

/-- The objects, by sort and address: data types, maps of data types (`DataTypeMap`,
`PropertyMap`, a facet), `FacetMap`, `AnnotationMap`, `ExampleMap`, examples, XML settings,
`AnyMap`, `StringMap`, `UntypedMap` and the like, API documents, libraries.  Addresses from `next`
on are free. -/
structure Heap where
  next : Addr
  ty : Addr → TypeObj
  tm : Addr → OM String Addr
  fm : Addr → OM String Addr
  am : Addr → OM String Ann
  em : Addr → OM String Addr
  ex : Addr → Example
  xo : Addr → XML
  xm : Addr → OM Scalar Node
  sm : Addr → OM String String
  um : Addr → OM String Node
  api : Addr → ApiObj
  lib : Addr → LibObj

/-- Writing one address. -/
def upd {α : Type} (f : Addr → α) (a : Addr) (x : α) : Addr → α := fun b => if b = a then x else f b

/-- Following the pointers in a map, where that can be done. -/
def followMap {α β : Type} (r : α → Option β) (m : OM String α) : Option (OM String β) :=
  (m.ents.mapM fun e => (r e.2).map fun y => (e.1, y)).map fun es => ⟨es, m.omap⟩

/-- Following an optional pointer. -/
def followOpt {α β : Type} (r : α → Option β) : Option α → Option (Option β)
  | none => some none
  | some a => (r a).map some

/-! ### The value an object stands for -/

/-- The header of a data type with its pointers followed. -/
def Heap.hdr (H : Heap) (h : Hdr) (p : TypePtrs) : Hdr :=
  { h with
    extra := H.xm p.extra, annotations := H.am p.annotations, xml := p.xml.map H.xo,
    «example» := p.example.map H.ex,
    examples := ⟨(H.em p.examples).ents.map fun e => (e.1, H.ex e.2), (H.em p.examples).omap⟩ }

/-- The properties: none for other types than object types. -/
def Heap.propsView (H : Heap) (r : Addr → Option DT) : Option Addr → Option (OM String DT)
  | none => some (OM.empty false)
  | some m => followMap r (H.tm m)

/-- A data type with its pointers followed, those to data types by `r`. -/
def Heap.view (H : Heap) (r : Addr → Option DT) (a : Addr) : Option DT :=
  match H.ty a with
  | .basic i s x => some (.basic i s (H.xm x))
  | .ext h p b f ps it =>
    (followMap (fun m => followMap r (H.tm m)) (H.fm f)).bind fun fs =>
    (H.propsView r ps).bind fun ps' =>
    (followOpt r it).map fun it' => .ext (H.hdr h p) b fs ps' it'

/-- The value of a data type object, following pointers to data types `n` deep; `none` when that is
not enough. -/
def Heap.val (H : Heap) : Nat → Addr → Option DT
  | 0, _ => none
  | n + 1, a => H.view (H.val n) a

/-! ### Writing -/

/-- `DataTypeMap.ToYAML`, with `r` for `ToYAML` of the data types in it. -/
def Heap.typesNode (H : Heap) (r : Addr → Option Node) (m : Addr) : Option Node :=
  ((H.tm m).ents.mapM fun e => (r e.2).map fun y => (Node.str e.1, y)).map
    (renderPairs (H.tm m).omap)

/-- The `facets` value, absent when the map is empty (type-datatype-ext.go:66-68). -/
def Heap.facetsNode (H : Heap) (r : Addr → Option Node) (f : Addr) : Option (Option Node) :=
  if (H.fm f).ents.length > 0 then
    ((H.fm f).ents.mapM fun e => (H.typesNode r e.2).map fun y => (Node.str e.1, y)).map
      fun l => some (renderPairs (H.fm f).omap l)
  else some none

/-- The `properties` value, absent when the map is empty (x-gen-type-object.go:292-294). -/
def Heap.propsNode (H : Heap) (r : Addr → Option Node) : Option Addr → Option (Option Node)
  | none => some none
  | some m => if (H.tm m).ents.length > 0 then (H.typesNode r m).map some else some none

/-- `DataType.ToYAML` (DataType.go:50-61) of an object, with `r` for the calls on the data types in
it. -/
def Heap.writeStep (H : Heap) (X : Xyml) (r : Addr → Option Node) (a : Addr) : Option Node :=
  match H.ty a with
  | .basic i s x =>
    some (finish X (marshalBase (if i then .scalar "!include" s else .str s) (H.xm x)
      (OM.empty false)))
  | .ext h p b f ps it =>
    (H.facetsNode r f).bind fun fs => (H.propsNode r ps).bind fun ps' =>
    (followOpt r it).map fun it' => finish X (marshalDT X (H.hdr h p) b fs ps' it')

/-- `DataType.ToYAML` of an object with a stack for `n` nested calls; `none` when it overflows. -/
def Heap.write (H : Heap) (X : Xyml) : Nat → Addr → Option Node
  | 0, _ => none
  | n + 1, a => H.writeStep X (H.write X n) a

/-! ### Calls on data types and maps -/

/-- The setters of a data type that take a pointer.  `none` is a nil argument or the `Unset` method
of the same name: they have the same effect (x-gen-type-string.go:72-187,
x-gen-type-object.go:190-207, x-gen-type-array.go:218-230). -/
inductive PtrOp where
  | setExample (e : Option Addr)
  | setExamples (m : Option Addr)
  | setAnnotations (m : Option Addr)
  | setFacetDefinitions (m : Option Addr)
  | setXML (x : Option Addr)
  | setExtraFacets (m : Option Addr)
  | setProperties (m : Option Addr)
  | setItems (t : Option Addr)

/-- The other setters: those that neither take nor install an object. -/
def TypeOp.plain : TypeOp → Bool
  | .setExample _ | .unsetExample | .setExamples _ | .unsetExamples | .setAnnotations _
  | .unsetAnnotations | .setFacetDefinitions _ | .unsetFacetDefinitions | .setXML _ | .unsetXML
  | .setExtraFacets _ | .unsetExtraFacets | .setItems _ | .unsetItems | .setProperties _
  | .unsetProperties | .editExamples _ | .editAnnotations _ | .editFacets _ | .editExtra _
  | .editProperties _ => false
  | _ => true

/-- A setter that neither takes nor installs an object, on a data type object. -/
def TypeObj.apply : TypeObj → TypeOp → Option TypeObj
  | .basic i _ x, .overrideType s => some (.basic i s x)
  | .basic _ _ _, _ => none
  | .ext h p b f ps it, op =>
    match h.apply op with
    | some h' => some (.ext h' p b f ps it)
    | none => (b.apply op).map fun b' => .ext h p b' f ps it

/-- The map to store: the one given, or a new one at the free address. -/
def Heap.pick (H : Heap) (m : Option Addr) : Addr := m.getD H.next

/-- A new empty map where none is given: `UnsetX` installs `New*Map(0)`. -/
def freshIn {K V : Type} (H : Heap) (m : Option Addr) (f : Addr → OM K V) : Addr → OM K V :=
  if m.isNone then upd f H.next (OM.empty true) else f

/-- The free address after a call with a pointer argument. -/
def Heap.after (H : Heap) (m : Option Addr) : Addr := if m.isNone then H.next + 1 else H.next

/-- A setter that takes a pointer; `none` where the data type has no such method. -/
def Heap.setPtr (H : Heap) (a : Addr) : PtrOp → Option Heap
  | .setExample e =>
    match H.ty a with
    | .ext h p b f ps it =>
      some { H with ty := upd H.ty a (.ext h { p with «example» := e } b f ps it) }
    | _ => none
  | .setXML x =>
    match H.ty a with
    | .ext h p b f ps it => some { H with ty := upd H.ty a (.ext h { p with xml := x } b f ps it) }
    | _ => none
  | .setItems t =>
    match H.ty a with
    | .ext h p (.array b) f ps _ => some { H with ty := upd H.ty a (.ext h p (.array b) f ps t) }
    | _ => none
  | .setExamples m =>
    match H.ty a with
    | .ext h p b f ps it =>
      some { H with
        ty := upd H.ty a (.ext h { p with examples := H.pick m } b f ps it)
        em := freshIn H m H.em
        next := H.after m }
    | _ => none
  | .setAnnotations m =>
    match H.ty a with
    | .ext h p b f ps it =>
      some { H with
        ty := upd H.ty a (.ext h { p with annotations := H.pick m } b f ps it)
        am := freshIn H m H.am
        next := H.after m }
    | _ => none
  | .setExtraFacets m =>
    match H.ty a with
    | .ext h p b f ps it =>
      some { H with
        ty := upd H.ty a (.ext h { p with extra := H.pick m } b f ps it)
        xm := freshIn H m H.xm
        next := H.after m }
    | _ => none
  | .setFacetDefinitions m =>
    match H.ty a with
    | .ext h p b _ ps it =>
      some { H with
        ty := upd H.ty a (.ext h p b (H.pick m) ps it)
        fm := freshIn H m H.fm
        next := H.after m }
    | _ => none
  | .setProperties m =>
    match H.ty a with
    | .ext h p (.object b) f _ it =>
      some { H with
        ty := upd H.ty a (.ext h p (.object b) f (some (H.pick m)) it)
        tm := freshIn H m H.tm
        next := H.after m }
    | _ => none

/-- A call on a data type object. -/
inductive TypeCall where
  | plain (op : TypeOp)
  | ptr (op : PtrOp)

/-- One call on the data type at `a`; `none` where there is no such method. -/
def Heap.typeCall (H : Heap) (a : Addr) : TypeCall → Option Heap
  | .plain op =>
    if op.plain then ((H.ty a).apply op).map fun o => { H with ty := upd H.ty a o } else none
  | .ptr op => H.setPtr a op

/-- What a caller does to a map, an example or XML settings that it holds a pointer to. -/
inductive MapEdit where
  | tm (m : Addr) (f : OM String Addr → OM String Addr)
  | fm (m : Addr) (f : OM String Addr → OM String Addr)
  | am (m : Addr) (f : OM String Ann → OM String Ann)
  | em (m : Addr) (f : OM String Addr → OM String Addr)
  | ex (m : Addr) (op : ExampleOp)
  | xo (m : Addr) (op : XMLOp)
  | xm (m : Addr) (f : OM Scalar Node → OM Scalar Node)
  | sm (m : Addr) (f : OM String String → OM String String)
  | um (m : Addr) (f : OM String Node → OM String Node)

/-- Its effect. -/
def Heap.edit (H : Heap) : MapEdit → Heap
  | .tm m f => { H with tm := upd H.tm m (f (H.tm m)) }
  | .fm m f => { H with fm := upd H.fm m (f (H.fm m)) }
  | .am m f => { H with am := upd H.am m (f (H.am m)) }
  | .em m f => { H with em := upd H.em m (f (H.em m)) }
  | .ex m op => { H with ex := upd H.ex m ((H.ex m).apply op) }
  | .xo m op => { H with xo := upd H.xo m ((H.xo m).apply op) }
  | .xm m f => { H with xm := upd H.xm m (f (H.xm m)) }
  | .sm m f => { H with sm := upd H.sm m (f (H.sm m)) }
  | .um m f => { H with um := upd H.um m (f (H.um m)) }

/-! ### New objects -/

/-- New example objects. -/
def Heap.storeExs : List (String × Example) → Heap → List (String × Addr) × Heap
  | [], H => ([], H)
  | e :: es, H =>
    let r := Heap.storeExs es { H with ex := upd H.ex H.next e.2, next := H.next + 1 }
    ((e.1, H.next) :: r.1, r.2)

/-- A new extended data type with new maps, XML settings and examples, given the data types in it.
All parts are put at one address, each in its own space; `props` is there for object types (and
for values that no Go data type has). -/
def Heap.storeExt (h : Hdr) (b : Body) (fs ps : OM String Addr) (it : Option Addr) (H : Heap) :
    Addr × Heap :=
  let r := H.storeExs h.examples.ents
  let H := r.2
  let n := H.next
  let hasProps := b.isObject || !ps.ents.isEmpty || ps.omap
  (n, { H with
    next := n + 1
    ty := upd H.ty n (.ext h ⟨n, n, h.xml.map fun _ => n, h.example.map fun _ => n, n⟩ b n
      (if hasProps then some n else none) it)
    xm := upd H.xm n h.extra
    am := upd H.am n h.annotations
    em := upd H.em n ⟨r.1, h.examples.omap⟩
    fm := upd H.fm n fs
    tm := if hasProps then upd H.tm n ps else H.tm
    xo := (h.xml.map fun x => upd H.xo n x).getD H.xo
    ex := (h.example.map fun x => upd H.ex n x).getD H.ex })

mutual

/-- A new data type object with the given value and everything in it new: what the constructors
(x-gen-type-*.go:16-30) and `TypeSortingHat` (fn-sorting-hat-type.go:26-58) return.  The order of
allocation is not observable and not that of Go. -/
def Heap.storeT : DT → Heap → Addr × Heap
  | .basic i s x, H =>
    (H.next, { H with
      next := H.next + 1
      ty := upd H.ty H.next (.basic i s H.next)
      xm := upd H.xm H.next x })
  | .ext h b fs ps it, H =>
    let rf := Heap.storeF fs H
    let rp := Heap.storeM ps rf.2
    let ri := Heap.storeI it rp.2
    ri.2.storeExt h b rf.1 rp.1 ri.1

/-- The item type. -/
def Heap.storeI : Option DT → Heap → Option Addr × Heap
  | none, H => (none, H)
  | some t, H => let r := Heap.storeT t H; (some r.1, r.2)

/-- The data types of a map. -/
def Heap.storeM : OM String DT → Heap → OM String Addr × Heap
  | ⟨es, o⟩, H => let r := Heap.storeL es H; (⟨r.1, o⟩, r.2)

/-- The data types of a list of entries. -/
def Heap.storeL : List (String × DT) → Heap → List (String × Addr) × Heap
  | [], H => ([], H)
  | e :: es, H =>
    let r := Heap.storeE e H
    let q := Heap.storeL es r.2
    (r.1 :: q.1, q.2)

/-- The data type of an entry. -/
def Heap.storeE : String × DT → Heap → (String × Addr) × Heap
  | (k, t), H => let r := Heap.storeT t H; ((k, r.1), r.2)

/-- The facets of a facet map. -/
def Heap.storeF : OM String (OM String DT) → Heap → OM String Addr × Heap
  | ⟨es, o⟩, H => let r := Heap.storeFL es H; (⟨r.1, o⟩, r.2)

/-- The facets of a list of entries. -/
def Heap.storeFL : List (String × OM String DT) → Heap → List (String × Addr) × Heap
  | [], H => ([], H)
  | e :: es, H =>
    let r := Heap.storeFE e H
    let q := Heap.storeFL es r.2
    (r.1 :: q.1, q.2)

/-- The facet of an entry. -/
def Heap.storeFE : String × OM String DT → Heap → (String × Addr) × Heap
  | (k, m), H =>
    let r := Heap.storeM m H
    ((k, r.2.next), { r.2 with tm := upd r.2.tm r.2.next r.1, next := r.2.next + 1 })

end

/-! ### Documents -/

/-- The value of an API document object, given its types. -/
def Heap.apiWith (H : Heap) (d : Addr) (ts : OM String DT) : APISpec :=
  let o := H.api d
  { o.v with
    types := ts, traits := H.um o.traits, resourceTypes := H.um o.resourceTypes,
    annotationTypes := H.um o.annotationTypes, annotations := H.am o.annotations,
    securitySchemes := H.um o.securitySchemes, baseURIParameters := H.um o.baseURIParameters,
    uses := H.sm o.uses, resources := H.um o.resources, extra := H.xm o.extra }

/-- The value of an API document object. -/
def Heap.apiVal (H : Heap) (n : Nat) (d : Addr) : Option APISpec :=
  (followMap (H.val n) (H.tm (H.api d).types)).map (H.apiWith d)

/-- `APISpec.MarshalYAML` (APISpec.go:305-350) of an object: types come last (:345-347). -/
def Heap.apiWrite (H : Heap) (X : Xyml) (n : Nat) (d : Addr) : Option Node :=
  let m := (H.api d).types
  (if (H.tm m).ents.length > 0 then (H.typesNode (H.write X n) m).map some else some none).map
    fun ts => renderAny X (((H.apiWith d (OM.empty false)).marshal X).putOpt (.str "types") ts)

/-- The value of a library object, given its types. -/
def Heap.libWith (H : Heap) (d : Addr) (ts : OM String DT) : Library :=
  let o := H.lib d
  { o.v with
    types := ts, traits := H.um o.traits, resourceTypes := H.um o.resourceTypes,
    annotationTypes := H.um o.annotationTypes, annotations := H.am o.annotations,
    securitySchemes := H.um o.securitySchemes, uses := H.sm o.uses, extra := H.xm o.extra }

/-- The value of a library object. -/
def Heap.libVal (H : Heap) (n : Nat) (d : Addr) : Option Library :=
  (followMap (H.val n) (H.tm (H.lib d).types)).map (H.libWith d)

/-- `Library.MarshalYAML` (Library.go:174-210) of an object. -/
def Heap.libWrite (H : Heap) (X : Xyml) (n : Nat) (d : Addr) : Option Node :=
  let m := (H.lib d).types
  (if (H.tm m).ents.length > 0 then (H.typesNode (H.write X n) m).map some else some none).map
    fun ts => renderAny X (((H.libWith d (OM.empty false)).marshal X).putOpt (.str "types") ts)

/-- `NewApiSpec` (APISpec.go:13-27): ten new maps. -/
def Heap.newApi (H : Heap) : Addr × Heap :=
  let n := H.next
  (n, { H with
    next := n + 6
    api := upd H.api n ⟨APISpec.new, n, n, n + 1, n + 2, n, n + 3, n + 4, n, n + 5, n⟩
    tm := upd H.tm n (OM.empty false)
    um := upd (upd (upd (upd (upd (upd H.um n (OM.empty false)) (n + 1) (OM.empty false)) (n + 2)
      (OM.empty false)) (n + 3) (OM.empty false)) (n + 4) (OM.empty false)) (n + 5) (OM.empty false)
    am := upd H.am n (OM.empty false)
    sm := upd H.sm n (OM.empty false)
    xm := upd H.xm n (OM.empty false) })

/-- `NewLibrary` (Library.go:13-24): eight new maps. -/
def Heap.newLib (H : Heap) : Addr × Heap :=
  let n := H.next
  (n, { H with
    next := n + 4
    lib := upd H.lib n ⟨Library.new, n, n, n + 1, n + 2, n, n + 3, n, n⟩
    tm := upd H.tm n (OM.empty false)
    um := upd (upd (upd (upd H.um n (OM.empty false)) (n + 1) (OM.empty false)) (n + 2)
      (OM.empty false)) (n + 3) (OM.empty false)
    am := upd H.am n (OM.empty false)
    sm := upd H.sm n (OM.empty false)
    xm := upd H.xm n (OM.empty false) })

/-- The setters of an API document that take a map; `none` is a nil argument or the `Unset` method
(APISpec.go:147-295; `SetSchemas` is `SetTypes`, :168-177). -/
inductive ApiPtrOp where
  | types (m : Option Addr)
  | traits (m : Option Addr)
  | resourceTypes (m : Option Addr)
  | annotationTypes (m : Option Addr)
  | annotations (m : Option Addr)
  | securitySchemes (m : Option Addr)
  | uses (m : Option Addr)

/-- The other setters. -/
def ApiOp.plain : ApiOp → Bool
  | .setTypes _ | .unsetTypes | .setSchemas _ | .unsetSchemas | .setTraits _ | .unsetTraits
  | .setResourceTypes _ | .unsetResourceTypes | .setAnnotationTypes _ | .unsetAnnotationTypes
  | .setAnnotations _ | .unsetAnnotations | .setSecuritySchemes _ | .unsetSecuritySchemes
  | .setUses _ | .unsetUses => false
  | _ => true

/-- A setter that takes a map, on an API document object. -/
def Heap.setApi (H : Heap) (d : Addr) : ApiPtrOp → Heap
  | .types m => { H with
      api := upd H.api d { H.api d with types := H.pick m }
      tm := freshIn H m H.tm, next := H.after m }
  | .traits m => { H with
      api := upd H.api d { H.api d with traits := H.pick m }
      um := freshIn H m H.um, next := H.after m }
  | .resourceTypes m => { H with
      api := upd H.api d { H.api d with resourceTypes := H.pick m }
      um := freshIn H m H.um, next := H.after m }
  | .annotationTypes m => { H with
      api := upd H.api d { H.api d with annotationTypes := H.pick m }
      um := freshIn H m H.um, next := H.after m }
  | .annotations m => { H with
      api := upd H.api d { H.api d with annotations := H.pick m }
      am := freshIn H m H.am, next := H.after m }
  | .securitySchemes m => { H with
      api := upd H.api d { H.api d with securitySchemes := H.pick m }
      um := freshIn H m H.um, next := H.after m }
  | .uses m => { H with
      api := upd H.api d { H.api d with uses := H.pick m }
      sm := freshIn H m H.sm, next := H.after m }

/-- The setters of a library that take a map (Library.go:42-150). -/
inductive LibPtrOp where
  | types (m : Option Addr)
  | traits (m : Option Addr)
  | resourceTypes (m : Option Addr)
  | annotations (m : Option Addr)
  | uses (m : Option Addr)

/-- A setter that takes a map, on a library object. -/
def Heap.setLib (H : Heap) (d : Addr) : LibPtrOp → Heap
  | .types m => { H with
      lib := upd H.lib d { H.lib d with types := H.pick m }
      tm := freshIn H m H.tm, next := H.after m }
  | .traits m => { H with
      lib := upd H.lib d { H.lib d with traits := H.pick m }
      um := freshIn H m H.um, next := H.after m }
  | .resourceTypes m => { H with
      lib := upd H.lib d { H.lib d with resourceTypes := H.pick m }
      um := freshIn H m H.um, next := H.after m }
  | .annotations m => { H with
      lib := upd H.lib d { H.lib d with annotations := H.pick m }
      am := freshIn H m H.am, next := H.after m }
  | .uses m => { H with
      lib := upd H.lib d { H.lib d with uses := H.pick m }
      sm := freshIn H m H.sm, next := H.after m }

/-- The setters of a library that take no map. -/
def LibOp.plain : LibOp → Bool
  | .setUsage _ | .unsetUsage => true
  | _ => false

/-! ### Loading -/

/-- Changing the fields of an API document that are no maps. -/
def Heap.setApiV (H : Heap) (d : Addr) (f : APISpec → APISpec) : Heap :=
  { H with api := upd H.api d { H.api d with v := f (H.api d).v } }

/-- Changing the usage of a library. -/
def Heap.setLibV (H : Heap) (d : Addr) (f : Library → Library) : Heap :=
  { H with lib := upd H.lib d { H.lib d with v := f (H.lib d).v } }

/-- `UnmarshalUntypedMapRAML` into the map at `m`. -/
def Heap.loadUm (m : Addr) (v : Node) (H : Heap) : Live Heap :=
  (liveUntyped v (H.um m)).within fun x => { H with um := upd H.um m x }

/-- `UnmarshalStringMapRAML` into the map at `m`. -/
def Heap.loadSm (m : Addr) (v : Node) (H : Heap) : Live Heap :=
  (liveStrings v (H.sm m)).within fun x => { H with sm := upd H.sm m x }

/-- `UnmarshalAnnotationMapRAML` into the map at `m`. -/
def Heap.loadAm (m : Addr) (v : Node) (H : Heap) : Live Heap :=
  (liveAnns v (H.am m)).within fun x => { H with am := upd H.am m x }

/-- Putting a new data type into the map at `m`. -/
def Heap.putType (H : Heap) (m : Addr) (k : String) (t : DT) : Heap :=
  let r := H.storeT t
  { r.2 with tm := upd r.2.tm m ((r.2.tm m).put k r.1) }

/-- `UnmarshalDataTypeMapRAML` (util-dt-map.go:9-23) into the map at `m`. -/
def Heap.loadTm (X : Xyml) (m : Addr) (v : Node) (H : Heap) : Live Heap :=
  liveMap (fun k v H => store ((asString k).bind fun s => (hat X v).map fun t => (s, t))
    (fun H e => H.putType m e.1 e.2) H) v H

/-- `a.extra.Put(…)` and its like on the map at `m`. -/
def Heap.putXm (H : Heap) (m : Addr) (k : Scalar) (v : Node) : Heap :=
  { H with xm := upd H.xm m ((H.xm m).put k v) }

/-- `annotations.Put(…)` on the map at `m`. -/
def Heap.putAm (H : Heap) (m : Addr) (k : String) (v : Ann) : Heap :=
  { H with am := upd H.am m ((H.am m).put k v) }

/-- The switch of `APISpec.assign` (APISpec.go:396-444), on an object. -/
def Heap.apiKey (X : Xyml) (d : Addr) (k v : Node) (H : Heap) : Live Heap :=
  let o := H.api d
  if k.value = "title" then
    store (asString v) (fun H s => H.setApiV d fun a => { a with title := s }) H
  else if k.value = "version" then
    store (asString v) (fun H s => H.setApiV d fun a => { a with version := some s }) H
  else if k.value = "baseUri" then
    store (asString v) (fun H s => H.setApiV d fun a => { a with baseURI := some s }) H
  else if k.value = "description" then
    store (asString v) (fun H s => H.setApiV d fun a => { a with description := some s }) H
  else if k.value = "protocols" then
    store (asStringList v) (fun H l => H.setApiV d fun a => { a with protocols := some l }) H
  else if k.value = "mediaType" then
    if v.isStr then
      (H.setApiV d fun a => { a with mediaType := some (a.mediaType.getD [] ++ [v.value]) }, .ok ())
    else store (asStringList v) (fun H l => H.setApiV d fun a => { a with mediaType := some l }) H
  else if k.value = "documentation" then
    (liveDocs X v o.v.documentation).within fun l =>
      H.setApiV d fun a => { a with documentation := l }
  else if k.value = "securedBy" then
    store (asStringList v) (fun H l => H.setApiV d fun a => { a with securedBy := some l }) H
  else if k.value = "uses" then H.loadSm o.uses v
  else if k.value = "securitySchemes" then H.loadUm o.securitySchemes v
  else if k.value = "baseUriParameters" then H.loadUm o.baseURIParameters v
  else if k.value = "traits" then H.loadUm o.traits v
  else if k.value = "annotationTypes" then H.loadUm o.annotationTypes v
  else if k.value = "resourceTypes" then H.loadUm o.resourceTypes v
  else if k.value = "types" ∨ k.value = "schemas" then H.loadTm X o.types v
  else store (asScalar X k) (fun H s => H.putXm o.extra s v) H

/-- `APISpec.assign` (APISpec.go:372-447), on an object. -/
def Heap.apiAssign (X : Xyml) (d : Addr) (k v : Node) (H : Heap) : Live Heap :=
  let o := H.api d
  if !k.isStr then store (asScalar X k) (fun H s => H.putXm o.extra s v) H
  else match firstChar k.value with
  | none => (H, .panic .emptyKey)
  | some c =>
    if c = '(' then store (loadAnn v) (fun H x => H.putAm o.annotations k.value x) H
    else if c = '/' then
      ({ H with um := upd H.um o.resources ((H.um o.resources).put k.value v) }, .ok ())
    else H.apiKey X d k v

/-- `APISpec.UnmarshalYAML` (APISpec.go:352-354), on an object. -/
def Heap.apiLoad (X : Xyml) (d : Addr) (v : Node) (H : Heap) : Live Heap :=
  liveMap (Heap.apiAssign X d) v H

/-- `Library.assign` (Library.go:212-246), on an object. -/
def Heap.libAssign (X : Xyml) (d : Addr) (k v : Node) (H : Heap) : Live Heap :=
  let o := H.lib d
  if k.value = "annotationTypes" then H.loadAm o.annotations v
  else if k.value = "resourceTypes" then H.loadUm o.resourceTypes v
  else if k.value = "types" ∨ k.value = "schemas" then H.loadTm X o.types v
  else if k.value = "traits" then H.loadUm o.traits v
  else if k.value = "uses" then H.loadSm o.uses v
  else if k.value = "usage" then
    store (asString v) (fun H s => H.setLibV d fun l => { l with usage := some s }) H
  else if k.value = "securitySchemes" then H.loadUm o.securitySchemes v
  else if k.isStr then match firstChar k.value with
    | none => (H, .panic .emptyKey)
    | some c =>
      if c = '(' then store (loadAnn v) (fun H x => H.putAm o.annotations k.value x) H
      else store (asScalar X k) (fun H s => H.putXm o.extra s v) H
  else store (asScalar X k) (fun H s => H.putXm o.extra s v) H

/-- `Library.UnmarshalYAML` (Library.go:170-172), on an object. -/
def Heap.libLoad (X : Xyml) (d : Addr) (v : Node) (H : Heap) : Live Heap :=
  liveMap (Heap.libAssign X d) v H

/-! ### Loading into a data type -/

/-- Changing the data type object at `a`. -/
def Heap.setTy (H : Heap) (a : Addr) (o : TypeObj) : Heap := { H with ty := upd H.ty a o }

/-- A new example object. -/
def Heap.storeEx (H : Heap) (e : Example) : Heap :=
  { H with ex := upd H.ex H.next e, next := H.next + 1 }

/-- A new object with XML settings. -/
def Heap.storeXo (H : Heap) (x : XML) : Heap :=
  { H with xo := upd H.xo H.next x, next := H.next + 1 }

/-- Putting a new example into the map at `m`. -/
def Heap.putEx (H : Heap) (m : Addr) (k : String) (e : Example) : Heap :=
  { H.storeEx e with em := upd H.em m ((H.em m).put k H.next) }

/-- Putting a new map of data types into the facet map at `m`. -/
def Heap.putFacet (H : Heap) (m : Addr) (e : String × OM String DT) : Heap :=
  let r := Heap.storeFE e H
  { r.2 with fm := upd r.2.fm m ((r.2.fm m).put e.1 r.1.2) }

/-- `Unmarshal*ExampleMapRAML` (util-ex-map.go:9-26 and its 13 copies) into the map at `m`. -/
def Heap.loadEm (X : Xyml) (kd : Kind) (m : Addr) (v : Node) (H : Heap) : Live Heap :=
  liveMap (fun k v H => store
    ((asString k).bind fun s => ((Example.new kd).unmarshal X v).map fun e => (s, e))
    (fun H e => H.putEx m e.1 e.2) H) v H

/-- `UnmarshalPropertyMapRAML` (util-dt-map.go:25-39) into the map at `m`. -/
def Heap.loadPm (X : Xyml) (m : Addr) (v : Node) (H : Heap) : Live Heap :=
  liveMap (fun k v H => store
    ((asString k).bind fun s => (hat X v).bind fun t =>
      if t.isProperty then .ok (s, t) else .panic .notProperty)
    (fun H e => H.putType m e.1 e.2) H) v H

/-- `UnmarshalFacetMapRAML` (util-facet-map.go:9-23) into the map at `m`. -/
def Heap.loadFm (X : Xyml) (m : Addr) (v : Node) (H : Heap) : Live Heap :=
  liveMap (fun k v H => store
    ((asString k).bind fun s => (loadTypes X v (OM.empty true)).map fun f => (s, f))
    (fun H e => H.putFacet m e) H) v H

/-- `DataType.assign` (DataType.go:100-113) on the object at `a`; `set` puts the schema into it and
`x` is its map of extra facets. -/
def Heap.baseAssign (a : Addr) (set : String → TypeObj) (x : Addr) (k v : Node) (H : Heap) :
    Live Heap :=
  if k.value = "type" ∨ k.value = "schema" then
    store (asString v) (fun H s => H.setTy a (set s)) H
  else (H.putXm x (.str k.value) v, .ok ())

/-- `ExtendedDataType.assign` (type-datatype-ext.go:75-101) without the `facets` case, on the object
at `a`.  The XML settings are a new object (type-datatype-ext.go:83-88). -/
def Heap.extAssign (X : Xyml) (a : Addr) (h : Hdr) (p : TypePtrs) (b : Body) (f : Addr)
    (ps it : Option Addr) (k v : Node) (H : Heap) : Live Heap :=
  if k.value = "displayName" then
    store (asString v)
      (fun H s => H.setTy a (.ext { h with displayName := some s } p b f ps it)) H
  else if k.value = "description" then
    store (asString v)
      (fun H s => H.setTy a (.ext { h with description := some s } p b f ps it)) H
  else if k.value = "xml" then
    store (loadXML X v) (fun H x =>
      (H.storeXo x).setTy a (.ext h { p with xml := some H.next } b f ps it)) H
  else if k.isStr then match firstChar k.value with
    | none => (H, .panic .emptyKey)
    | some c =>
      if c = '(' then store (loadAnn v) (fun H x => H.putAm p.annotations k.value x) H
      else H.baseAssign a (fun s => .ext { h with schema := s } p b f ps it) p.extra k v
  else H.baseAssign a (fun s => .ext { h with schema := s } p b f ps it) p.extra k v

/-- The generated `assign` (x-gen-type-*.go) on the object at `a`.  `facets`, `properties` and
`examples` go into the maps that are there; the item type (x-gen-type-array.go:296-302) and the
example (x-gen-type-string.go:250-258) are new objects.  An object type always has its map of
properties, so the `none` case of `properties` cannot arise. -/
def Heap.typeAssign (X : Xyml) (a : Addr) (k v : Node) (H : Heap) : Live Heap :=
  match H.ty a with
  | .basic i _ x => H.baseAssign a (fun s => .basic i s x) x k v
  | .ext h p b f ps it =>
    if k.value = "facets" then H.loadFm X f v
    else if k.value = "properties" ∧ b.isObject then match ps with
      | some m => H.loadPm X m v
      | none => (H, .ok ())
    else if k.value = "items" ∧ b.isArray then
      store (hat X v) (fun H t =>
        (H.storeT t).2.setTy a (.ext h p b f ps (some (H.storeT t).1))) H
    else if k.value = "example" then
      store (loadExample X b.kind v) (fun H e =>
        (H.storeEx e).setTy a (.ext h { p with «example» := some H.next } b f ps it)) H
    else if k.value = "examples" then H.loadEm X b.kind p.examples v
    else if k.value = "enum" then
      (liveEnum X b.kind v h.enum).within fun l =>
        H.setTy a (.ext { h with enum := l } p b f ps it)
    else if k.value = "required" then
      store (asBool X v) (fun H r => H.setTy a (.ext { h with required := r } p b f ps it)) H
    else match b.assign X k.value v with
      | some r => store r (fun H b' => H.setTy a (.ext h p b' f ps it)) H
      | none => H.extAssign X a h p b f ps it k v

/-- `DataType.UnmarshalRAML` (DataType.go:77-92) on the object at `a`. -/
def Heap.typeLoad (X : Xyml) (a : Addr) (v : Node) (H : Heap) : Live Heap :=
  if v.isStr then
    (H.setTy a (match H.ty a with
      | .basic i _ x => .basic i v.value x
      | .ext h p b f ps it => .ext { h with schema := v.value } p b f ps it), .ok ())
  else match v with
    | .seq _ _ => (H, .err .multiType)
    | .map ps => livePairs (Heap.typeAssign X a) ps H
    | .scalar _ _ => (H, .err .badTypeDef)

/-! ### Programs -/

/-- Before anything was created; nothing of this can be reached. -/
def Heap.start : Heap where
  next := 1
  ty _ := .basic false "" 0
  tm _ := OM.empty true
  fm _ := OM.empty true
  am _ := OM.empty true
  em _ := OM.empty true
  ex _ := Example.new .any
  xo _ := XML.new
  xm _ := OM.empty true
  sm _ := OM.empty true
  um _ := OM.empty true
  api _ := ⟨APISpec.new, 0, 0, 0, 0, 0, 0, 0, 0, 0, 0⟩
  lib _ := ⟨Library.new, 0, 0, 0, 0, 0, 0, 0, 0⟩

/-- What a program can do. -/
inductive Act where
  | newType (k : Kind)
  /-- `TypeSortingHat` -/
  | parseType (v : Node)
  /-- `New…Map(0)`; the model makes one of each. -/
  | newMap
  | newExample (k : Kind)
  | newXML
  | newApi
  | newLib
  | onType (a : Addr) (c : TypeCall)
  | edit (e : MapEdit)
  | onApi (d : Addr) (op : ApiOp)
  | setApi (d : Addr) (op : ApiPtrOp)
  | loadApi (d : Addr) (v : Node)
  | onLib (d : Addr) (op : LibOp)
  | setLib (d : Addr) (op : LibPtrOp)
  | loadLib (d : Addr) (v : Node)
  /-- `UnmarshalRAML` of a data type -/
  | loadType (a : Addr) (v : Node)
  /-- `UnmarshalRAML` of an example -/
  | loadEx (m : Addr) (v : Node)
  /-- `UnmarshalRAML` of XML settings -/
  | loadXML (m : Addr) (v : Node)

/-- New empty maps, one of each kind. -/
def Heap.newMap (H : Heap) : Heap :=
  { H with
    next := H.next + 1
    tm := upd H.tm H.next (OM.empty true)
    fm := upd H.fm H.next (OM.empty true)
    am := upd H.am H.next (OM.empty true)
    em := upd H.em H.next (OM.empty true)
    xm := upd H.xm H.next (OM.empty true)
    sm := upd H.sm H.next (OM.empty true)
    um := upd H.um H.next (OM.empty true) }

/-- One step of a program; a call that does not exist, and a setter of the wrong group, do
nothing. -/
def Heap.act (X : Xyml) (H : Heap) : Act → Heap
  | .newType k => (H.storeT (DT.new k)).2
  | .parseType v =>
    match hat X v with
    | .ok t => (H.storeT t).2
    | _ => H
  | .newMap => H.newMap
  | .newExample k => { H with ex := upd H.ex H.next (Example.new k), next := H.next + 1 }
  | .newXML => { H with xo := upd H.xo H.next XML.new, next := H.next + 1 }
  | .newApi => H.newApi.2
  | .newLib => H.newLib.2
  | .onType a c => (H.typeCall a c).getD H
  | .edit e => H.edit e
  | .onApi d op => if op.plain then H.setApiV d fun a => a.apply op else H
  | .setApi d op => H.setApi d op
  | .loadApi d v => (H.apiLoad X d v).1
  | .onLib d op => if op.plain then H.setLibV d fun l => l.apply op else H
  | .setLib d op => H.setLib d op
  | .loadLib d v => (H.libLoad X d v).1
  | .loadType a v => (H.typeLoad X a v).1
  | .loadEx m v => { H with ex := upd H.ex m ((H.ex m).load X v).1 }
  | .loadXML m v => { H with xo := upd H.xo m ((H.xo m).load X v).1 }

end Verif.Doc
