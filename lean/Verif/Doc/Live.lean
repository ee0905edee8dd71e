import Verif.Doc.Api

/-!
# Loading as the object sees it

`Verif/Doc/Api.lean` models loading as a function that gives nothing when it fails.  In Go the
object is changed in place, so a failed load leaves something behind.  This file models
`UnmarshalYAML` of `APISpec` and `Library` with the object's state also after an error or panic.
What happens inside a data type, an annotation or a documentation entry that fails is not
observable: these are new objects that are dropped (fn-sorting-hat-type.go, APISpec.go:382-388,
:413-417).
-/

namespace Verif.Doc

/-- The state of the object after a run, and how the run ended. -/
abbrev Live (σ : Type) := σ × Res Unit

/-- The loop inside `xyml.MapForEach`, on an object changed in place. -/
def livePairs {σ : Type} (f : Node → Node → σ → Live σ) : List (Node × Node) → σ → Live σ
  | [], s => (s, .ok ())
  | p :: ps, s =>
    match f p.1 p.2 s with
    | (s', .ok _) => livePairs f ps s'
    | (s', r) => (s', r)

/-- `xyml.MapForEach`. -/
def liveMap {σ : Type} (f : Node → Node → σ → Live σ) : Node → σ → Live σ
  | .map ps, s => livePairs f ps s
  | _, s => (s, .err .notMap)

/-- The loop inside `xyml.SequenceForEach`. -/
def liveItems {σ : Type} (f : Node → σ → Live σ) : List Node → σ → Live σ
  | [], s => (s, .ok ())
  | n :: ns, s =>
    match f n s with
    | (s', .ok _) => liveItems f ns s'
    | (s', r) => (s', r)

/-- `xyml.SequenceForEach`. -/
def liveSeq {σ : Type} (f : Node → σ → Live σ) : Node → σ → Live σ
  | .seq _ ns, s => liveItems f ns s
  | _, s => (s, .err .notSeq)

/-- `if val, err := …; err != nil { return err } else { *ptr = val }`: compute first, store only
on success (e.g. string.go:8-16, string-list.go:8-26, APISpec.go:383-388). -/
def store {σ α : Type} (r : Res α) (set : σ → α → σ) (s : σ) : Live σ :=
  match r with
  | .ok a => (set s a, .ok ())
  | .err e => (s, .err e)
  | .panic c => (s, .panic c)

/-- A run on a part of the object, which is changed in place. -/
def Live.within {σ τ : Type} (r : Live τ) (set : τ → σ) : Live σ := (set r.1, r.2)

/-- `UnmarshalUntypedMapRAML` (util-untyped-map.go:10-20), `assign.ToUntypedMap`
(any-map.go:26-36): entries are put one by one. -/
def liveUntyped (v : Node) (m : OM String Node) : Live (OM String Node) :=
  liveMap (fun k v m => store (asString k) (fun m s => m.put s v) m) v m

/-- `UnmarshalStringMapRAML` (util-str-map.go:9-23). -/
def liveStrings (v : Node) (m : OM String String) : Live (OM String String) :=
  liveMap (fun k v m => store ((asString k).bind fun s => (asString v).map fun t => (s, t))
    (fun m e => m.put e.1 e.2) m) v m

/-- `UnmarshalAnnotationMapRAML` (util-ann-map.go:11-27). -/
def liveAnns (v : Node) (m : OM String Ann) : Live (OM String Ann) :=
  liveMap (fun k v m => store ((asString k).bind fun s => (loadAnn v).map fun t => (s, t))
    (fun m e => m.put e.1 e.2) m) v m

/-- `UnmarshalDataTypeMapRAML` (util-dt-map.go:9-23). -/
def liveTypes (X : Xyml) (v : Node) (m : OM String DT) : Live (OM String DT) :=
  liveMap (fun k v m => store ((asString k).bind fun s => (hat X v).map fun t => (s, t))
    (fun m e => m.put e.1 e.2) m) v m

/-- The `documentation` case (APISpec.go:411-419): entries are appended one by one. -/
def liveDocs (X : Xyml) (v : Node) (l : Option (List Documentation)) :
    Live (Option (List Documentation)) :=
  liveSeq (fun n l => store (loadDocumentation X n) (fun l d => some (l.getD [] ++ [d])) l) v l

/-- The switch of `APISpec.assign` (APISpec.go:396-444), on the object. -/
def APISpec.liveKey (X : Xyml) (k v : Node) (a : APISpec) : Live APISpec :=
  if k.value = "title" then store (asString v) (fun a s => { a with title := s }) a
  else if k.value = "version" then store (asString v) (fun a s => { a with version := some s }) a
  else if k.value = "baseUri" then store (asString v) (fun a s => { a with baseURI := some s }) a
  else if k.value = "description" then
    store (asString v) (fun a s => { a with description := some s }) a
  else if k.value = "protocols" then
    store (asStringList v) (fun a l => { a with protocols := some l }) a
  else if k.value = "mediaType" then
    if v.isStr then ({ a with mediaType := some (a.mediaType.getD [] ++ [v.value]) }, .ok ())
    else store (asStringList v) (fun a l => { a with mediaType := some l }) a
  else if k.value = "documentation" then
    (liveDocs X v a.documentation).within fun l => { a with documentation := l }
  else if k.value = "securedBy" then
    store (asStringList v) (fun a l => { a with securedBy := some l }) a
  else if k.value = "uses" then (liveStrings v a.uses).within fun m => { a with uses := m }
  else if k.value = "securitySchemes" then
    (liveUntyped v a.securitySchemes).within fun m => { a with securitySchemes := m }
  else if k.value = "baseUriParameters" then
    (liveUntyped v a.baseURIParameters).within fun m => { a with baseURIParameters := m }
  else if k.value = "traits" then
    (liveUntyped v a.traits).within fun m => { a with traits := m }
  else if k.value = "annotationTypes" then
    (liveUntyped v a.annotationTypes).within fun m => { a with annotationTypes := m }
  else if k.value = "resourceTypes" then
    (liveUntyped v a.resourceTypes).within fun m => { a with resourceTypes := m }
  else if k.value = "types" ∨ k.value = "schemas" then
    (liveTypes X v a.types).within fun m => { a with types := m }
  else store (asScalar X k) (fun a s => { a with extra := a.extra.put s v }) a

/-- `APISpec.assign` (APISpec.go:372-447), on the object. -/
def APISpec.liveAssign (X : Xyml) (k v : Node) (a : APISpec) : Live APISpec :=
  if !k.isStr then store (asScalar X k) (fun a s => { a with extra := a.extra.put s v }) a
  else match firstChar k.value with
  | none => (a, .panic .emptyKey)
  | some c =>
    if c = '(' then
      store (loadAnn v) (fun a x => { a with annotations := a.annotations.put k.value x }) a
    else if c = '/' then ({ a with resources := a.resources.put k.value v }, .ok ())
    else a.liveKey X k v

/-- `APISpec.UnmarshalYAML` (APISpec.go:352-354), on the object. -/
def APISpec.load (X : Xyml) (v : Node) (a : APISpec) : Live APISpec :=
  liveMap (APISpec.liveAssign X) v a

/-- `Library.assign` (Library.go:212-246), on the object. -/
def Library.liveAssign (X : Xyml) (k v : Node) (l : Library) : Live Library :=
  if k.value = "annotationTypes" then
    (liveAnns v l.annotations).within fun m => { l with annotations := m }
  else if k.value = "resourceTypes" then
    (liveUntyped v l.resourceTypes).within fun m => { l with resourceTypes := m }
  else if k.value = "types" ∨ k.value = "schemas" then
    (liveTypes X v l.types).within fun m => { l with types := m }
  else if k.value = "traits" then
    (liveUntyped v l.traits).within fun m => { l with traits := m }
  else if k.value = "uses" then (liveStrings v l.uses).within fun m => { l with uses := m }
  else if k.value = "usage" then store (asString v) (fun l s => { l with usage := some s }) l
  else if k.value = "securitySchemes" then
    (liveUntyped v l.securitySchemes).within fun m => { l with securitySchemes := m }
  else if k.isStr then match firstChar k.value with
    | none => (l, .panic .emptyKey)
    | some c =>
      if c = '(' then
        store (loadAnn v) (fun l x => { l with annotations := l.annotations.put k.value x }) l
      else store (asScalar X k) (fun l s => { l with extra := l.extra.put s v }) l
  else store (asScalar X k) (fun l s => { l with extra := l.extra.put s v }) l

/-- `Library.UnmarshalYAML` (Library.go:170-172), on the object. -/
def Library.load (X : Xyml) (v : Node) (l : Library) : Live Library :=
  liveMap (Library.liveAssign X) v l

end Verif.Doc
