import Verif.Doc.Heap

/-!
# Annotations, documentation entries and examples as objects

`Verif/Doc/Heap.lean` keeps annotations, documentation entries and the maps inside an example as
values.  In Go they are pointers too: an annotation map stores the annotations it is given,
`SetDocumentation` stores a slice of entries that other documents may list as well, and the
annotation map of an example can be the one of a document.  This file models just these objects, on
a heap of their own.

Simplifications: the other fields of a document, a library or an example are values here (they are
treated in `Heap.lean`); data types are left out; a nil entry in an annotation map or in a
documentation slice is left out; slices are lists (`Slices.lean` treats their memory).
-/

namespace Verif.Doc

/-- An example object (x-gen-ex-string.go:26-33).  The map fields of `v` are not used. -/
structure ExObj where
  v : Example
  annotations : Addr
  extra : Addr

/-- A documentation entry (Documentation.go:14-18). -/
structure EntryObj where
  title : String
  content : String
  extra : Addr

/-- An `APISpec` object (APISpec.go:29-48): the pointer to its annotations and the entries of its
documentation.  The `annotations` and `documentation` of `v` are not used. -/
structure SpecObj where
  v : APISpec
  annotations : Addr
  docs : Option (List Addr)

/-- A `Library` object (Library.go:26-36).  The `annotations` of `v` are not used. -/
structure ShelfObj where
  v : Library
  annotations : Addr

/-- The objects: annotations (`UntypedMap`), `AnnotationMap`, `AnyMap`, examples, documentation
entries, API documents, libraries.  Addresses from `next` on are free. -/
structure Leaves where
  next : Addr
  um : Addr → OM String Node
  am : Addr → OM String Addr
  xm : Addr → OM Scalar Node
  ex : Addr → ExObj
  doc : Addr → EntryObj
  api : Addr → SpecObj
  lib : Addr → ShelfObj

namespace Leaves

/-- No objects. -/
def start : Leaves :=
  { next := 1, um := fun _ => OM.empty true, am := fun _ => OM.empty true,
    xm := fun _ => OM.empty true, ex := fun _ => ⟨Example.new .string, 0, 0⟩,
    doc := fun _ => ⟨"", "", 0⟩, api := fun _ => ⟨APISpec.new, 0, none⟩,
    lib := fun _ => ⟨Library.new, 0⟩ }

/-! ### The value an object stands for -/

/-- An annotation map with its pointers followed (AnnotationMap.go:187-190). -/
def annsVal (L : Leaves) (m : Addr) : OM String Ann :=
  ⟨(L.am m).ents.map fun e => (e.1, L.um e.2), (L.am m).omap⟩

/-- An example (x-gen-ex-string.go:35-105). -/
def exVal (L : Leaves) (e : Addr) : Example :=
  { (L.ex e).v with annotations := L.annsVal (L.ex e).annotations, extra := L.xm (L.ex e).extra }

/-- A documentation entry (Documentation.go:20-40). -/
def docVal (L : Leaves) (d : Addr) : Documentation :=
  ⟨(L.doc d).title, (L.doc d).content, L.xm (L.doc d).extra⟩

/-- An API document (APISpec.go:50-303). -/
def apiVal (L : Leaves) (d : Addr) : APISpec :=
  { (L.api d).v with
    annotations := L.annsVal (L.api d).annotations
    documentation := (L.api d).docs.map fun l => l.map L.docVal }

/-- A library (Library.go:38-168). -/
def libVal (L : Leaves) (d : Addr) : Library :=
  { (L.lib d).v with annotations := L.annsVal (L.lib d).annotations }

/-! ### Loading -/

/-- Putting a new annotation into the map at `m` (APISpec.go:383-388, x-gen-ex-string.go:155-160,
in-components.go:31-37, util-ann-map.go:17-23). -/
def putAnn (L : Leaves) (m : Addr) (k : String) (x : Ann) : Leaves :=
  { L with
    um := upd L.um L.next x
    am := upd L.am m ((L.am m).put k L.next)
    next := L.next + 1 }

/-- Changing the value part of the example at `e`. -/
def setEx (L : Leaves) (e : Addr) (v : Example) : Leaves :=
  { L with ex := upd L.ex e { L.ex e with v := v } }

/-- Putting into the map of extra facets at `x`. -/
def putExtra (L : Leaves) (x : Addr) (k : Scalar) (v : Node) : Leaves :=
  { L with xm := upd L.xm x ((L.xm x).put k v) }

/-- `assign` of an example (144-181 in the example files) on the object at `e`. -/
def exAssign (X : Xyml) (e : Addr) (k v : Node) (L : Leaves) : Live Leaves :=
  if !k.isStr then store (asScalar X k) (fun L s => L.putExtra (L.ex e).extra s v) L
  else match firstChar k.value with
  | none => (L, .panic .emptyKey)
  | some c =>
    if c = '(' then store (loadAnn v) (fun L x => L.putAnn (L.ex e).annotations k.value x) L
    else if k.value = "displayName" then
      store (asString v) (fun L s => L.setEx e { (L.ex e).v with displayName := some s }) L
    else if k.value = "description" then
      store (asString v) (fun L s => L.setEx e { (L.ex e).v with description := some s }) L
    else if k.value = "strict" then
      store (asBool X v) (fun L b => L.setEx e { (L.ex e).v with strict := b }) L
    else if k.value = "value" then ((L.ex e).v.liveVal X v).within fun x => L.setEx e x
    else store (asScalar X k) (fun L s => L.putExtra (L.ex e).extra s v) L

/-- `UnmarshalRAML` of an example (115-122 in the example files) on the object at `e`. -/
def exLoad (X : Xyml) (e : Addr) (v : Node) (L : Leaves) : Live Leaves :=
  match v with
  | .map ps => livePairs (exAssign X e) ps L
  | _ => ((L.ex e).v.liveVal X v).within fun x => L.setEx e x

/-- The callback of `Documentation.UnmarshalRAML` (Documentation.go:50-64) on the object at `d`. -/
def docAssign (X : Xyml) (d : Addr) (k v : Node) (L : Leaves) : Live Leaves :=
  if k.value = "title" then
    ({ L with doc := upd L.doc d { L.doc d with title := v.value } }, .ok ())
  else if k.value = "content" then
    ({ L with doc := upd L.doc d { L.doc d with content := v.value } }, .ok ())
  else store (asScalar X k) (fun L s => L.putExtra (L.doc d).extra s v) L

/-- `Documentation.UnmarshalRAML` (Documentation.go:49-65) on the object at `d`. -/
def docLoad (X : Xyml) (d : Addr) (v : Node) (L : Leaves) : Live Leaves :=
  liveMap (docAssign X d) v L

/-- A new documentation entry with its map of extra facets (Documentation.go:10-12). -/
def newEntry (L : Leaves) (x : Documentation) : Leaves :=
  { L with
    doc := upd L.doc L.next ⟨x.title, x.content, L.next⟩
    xm := upd L.xm L.next x.extra
    next := L.next + 1 }

/-- One element of `documentation` (APISpec.go:414-421): the entry is read into a new object, which
is appended when that worked. -/
def addEntry (X : Xyml) (d : Addr) (n : Node) (L : Leaves) : Live Leaves :=
  store (loadDocumentation X n) (fun L x =>
    { L.newEntry x with
      api := upd L.api d { L.api d with docs := some ((L.api d).docs.getD [] ++ [L.next]) } }) L

/-- `APISpec.assign` (APISpec.go:372-447) on the object at `d`; what concerns neither annotations
nor documentation is done on the value part. -/
def apiAssign (X : Xyml) (d : Addr) (k v : Node) (L : Leaves) : Live Leaves :=
  if k.isStr ∧ firstChar k.value = some '(' then
    store (loadAnn v) (fun L x => L.putAnn (L.api d).annotations k.value x) L
  else if k.isStr ∧ k.value = "documentation" then liveSeq (addEntry X d) v L
  else ((L.api d).v.liveAssign X k v).within fun a =>
    { L with api := upd L.api d { L.api d with v := a } }

/-- `APISpec.UnmarshalYAML` (APISpec.go:352-354) on the object at `d`. -/
def apiLoad (X : Xyml) (d : Addr) (v : Node) (L : Leaves) : Live Leaves :=
  liveMap (apiAssign X d) v L

/-- `UnmarshalAnnotationMapRAML` (util-ann-map.go:11-27) into the map at `m`. -/
def loadAnns (m : Addr) (v : Node) (L : Leaves) : Live Leaves :=
  liveMap (fun k v L => store ((asString k).bind fun s => (loadAnn v).map fun t => (s, t))
    (fun L e => L.putAnn m e.1 e.2) L) v L

/-- `Library.assign` (Library.go:212-246) on the object at `d`. -/
def libAssign (X : Xyml) (d : Addr) (k v : Node) (L : Leaves) : Live Leaves :=
  if k.value = "annotationTypes" then L.loadAnns (L.lib d).annotations v
  else if k.isStr ∧ firstChar k.value = some '(' then
    store (loadAnn v) (fun L x => L.putAnn (L.lib d).annotations k.value x) L
  else ((L.lib d).v.liveAssign X k v).within fun a =>
    { L with lib := upd L.lib d { L.lib d with v := a } }

/-- `Library.UnmarshalYAML` (Library.go:170-172) on the object at `d`. -/
def libLoad (X : Xyml) (d : Addr) (v : Node) (L : Leaves) : Live Leaves :=
  liveMap (libAssign X d) v L

/-! ### What a program can do -/

/-- The setters of a document that concern neither its annotations nor its documentation. -/
def plainApi : ApiOp → Bool
  | .setDocumentation _ | .unsetDocumentation | .setAnnotations _ | .unsetAnnotations => false
  | _ => true

/-- The setters of a library that do not concern its annotations. -/
def plainLib : LibOp → Bool
  | .setAnnotations _ | .unsetAnnotations => false
  | _ => true

/-- One step of a program: a constructor, a change of a map or entry the program has a pointer to,
a setter, a load.  `none` is nil, also for `Unset*`.  The calls that concern maps and documentation
have steps of their own; given to `onEx`, `onApi` or `onLib` they do nothing. -/
inductive Step where
  | newAnn
  | newAnns
  | newExtra
  | newExample (k : Kind)
  | newDoc
  | newApi
  | newLib
  | editAnn (a : Addr) (f : OM String Node → OM String Node)
  | editAnns (m : Addr) (f : OM String Addr → OM String Addr)
  | editExtra (x : Addr) (f : OM Scalar Node → OM Scalar Node)
  | onEx (e : Addr) (op : ExampleOp)
  | setExAnns (e : Addr) (m : Option Addr)
  | setTitle (d : Addr) (s : String)
  | setContent (d : Addr) (s : String)
  | onApi (d : Addr) (op : ApiOp)
  | setApiAnns (d : Addr) (m : Option Addr)
  | setDocs (d : Addr) (l : Option (List Addr))
  | onLib (d : Addr) (op : LibOp)
  | setLibAnns (d : Addr) (m : Option Addr)
  | loadEx (e : Addr) (v : Node)
  | loadDoc (d : Addr) (v : Node)
  | loadApi (d : Addr) (v : Node)
  | loadLib (d : Addr) (v : Node)

/-- An `AnnotationMap` setter given nil stores a new map that is written in order
(x-gen-ex-string.go:67-78, APISpec.go:236-247, Library.go:42-53). -/
def withAnns (L : Leaves) (m : Option Addr) (f : Addr → Leaves → Leaves) : Leaves :=
  match m with
  | some m => f m L
  | none => f L.next { L with am := upd L.am L.next (OM.empty true), next := L.next + 1 }

/-- One step: the constructors (x-gen-ex-string.go:16-22, Documentation.go:10-12,
APISpec.go:13-27, Library.go:13-24), edits of live objects, setters (x-gen-ex-string.go:39-101,
Documentation.go:24-36, APISpec.go:137-145, :236-247, Library.go:42-53) and loads. -/
def act (X : Xyml) (L : Leaves) : Step → Leaves
  | .newAnn => { L with um := upd L.um L.next (OM.empty true), next := L.next + 1 }
  | .newAnns => { L with am := upd L.am L.next (OM.empty true), next := L.next + 1 }
  | .newExtra => { L with xm := upd L.xm L.next (OM.empty true), next := L.next + 1 }
  | .newExample k =>
    { L with
      ex := upd L.ex L.next ⟨Example.new k, L.next, L.next⟩
      am := upd L.am L.next (OM.empty false)
      xm := upd L.xm L.next (OM.empty false)
      next := L.next + 1 }
  | .newDoc => L.newEntry Documentation.new
  | .newApi =>
    { L with
      api := upd L.api L.next ⟨APISpec.new, L.next, none⟩
      am := upd L.am L.next (OM.empty false)
      next := L.next + 1 }
  | .newLib =>
    { L with
      lib := upd L.lib L.next ⟨Library.new, L.next⟩
      am := upd L.am L.next (OM.empty false)
      next := L.next + 1 }
  | .editAnn a f => { L with um := upd L.um a (f (L.um a)) }
  | .editAnns m f => { L with am := upd L.am m (f (L.am m)) }
  | .editExtra x f => { L with xm := upd L.xm x (f (L.xm x)) }
  | .onEx e op => L.setEx e ((L.ex e).v.apply op)
  | .setExAnns e m => L.withAnns m fun m L => { L with ex := upd L.ex e { L.ex e with annotations := m } }
  | .setTitle d s => { L with doc := upd L.doc d { L.doc d with title := s } }
  | .setContent d s => { L with doc := upd L.doc d { L.doc d with content := s } }
  | .onApi d op =>
    if plainApi op then { L with api := upd L.api d { L.api d with v := (L.api d).v.apply op } }
    else L
  | .setApiAnns d m =>
    L.withAnns m fun m L => { L with api := upd L.api d { L.api d with annotations := m } }
  | .setDocs d l => { L with api := upd L.api d { L.api d with docs := l } }
  | .onLib d op =>
    if plainLib op then { L with lib := upd L.lib d { L.lib d with v := (L.lib d).v.apply op } }
    else L
  | .setLibAnns d m =>
    L.withAnns m fun m L => { L with lib := upd L.lib d { L.lib d with annotations := m } }
  | .loadEx e v => (L.exLoad X e v).1
  | .loadDoc d v => (L.docLoad X d v).1
  | .loadApi d v => (L.apiLoad X d v).1
  | .loadLib d v => (L.libLoad X d v).1

/-- A program. -/
def run (X : Xyml) (L : Leaves) (ss : List Step) : Leaves := ss.foldl (act X) L

end Leaves

end Verif.Doc
