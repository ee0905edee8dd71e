import Verif.Doc.Live

/-!
# Data types, examples, XML settings and documentation entries, used directly

Data types, examples, XML settings and documentation entries implement `raml.Unmarshaler` and
`raml.Marshaler` (v0/pkg/raml/marshaling.go:7-13), so a program that holds one may load a
definition into it or let it write itself into a map of its own.  This file models
`UnmarshalRAML` on an object in use, also when it fails, and `MarshalRAML` into a given map.
-/

namespace Verif.Doc

/-! ### Loading, as a value -/

/-- `DataType.UnmarshalRAML` (DataType.go:77-92). -/
def DT.unmarshal (X : Xyml) (v : Node) (t : DT) : Res DT :=
  if v.isStr then .ok (t.setSchema v.value)
  else match v with
    | .seq _ _ => .err .multiType
    | .map ps => assignAll X ps t
    | .scalar _ _ => .err .badTypeDef

/-- `XML.UnmarshalRAML` (type-xml.go:97-99). -/
def XML.unmarshal (X : Xyml) (v : Node) (x : XML) : Res XML := mapForEach (XML.assign X) v x

/-- `Documentation.UnmarshalRAML` (Documentation.go:49-65). -/
def Documentation.unmarshal (X : Xyml) (v : Node) (d : Documentation) : Res Documentation :=
  mapForEach (Documentation.assign X) v d

/-! ### Loading, on the object -/

/-- `Unmarshal*ExampleMapRAML` (util-ex-map.go:9-26 and its 13 copies): each example is a new
object that is put when it has been read. -/
def liveExamples (X : Xyml) (kd : Kind) (v : Node) (m : OM String Example) :
    Live (OM String Example) :=
  liveMap (fun k v m => store
    ((asString k).bind fun s => ((Example.new kd).unmarshal X v).map fun e => (s, e))
    (fun m e => m.put e.1 e.2) m) v m

/-- `UnmarshalPropertyMapRAML` (util-dt-map.go:25-39). -/
def liveProps (X : Xyml) (v : Node) (m : OM String DT) : Live (OM String DT) :=
  liveMap (fun k v m => store
    ((asString k).bind fun s => (hat X v).bind fun t =>
      if t.isProperty then .ok (s, t) else .panic .notProperty)
    (fun m e => m.put e.1 e.2) m) v m

/-- `UnmarshalFacetMapRAML` (util-facet-map.go:9-23): each facet is a new map that is put when it
has been read. -/
def liveFacets (X : Xyml) (v : Node) (m : OM String (OM String DT)) :
    Live (OM String (OM String DT)) :=
  liveMap (fun k v m => store
    ((asString k).bind fun s => (loadTypes X v (OM.empty true)).map fun f => (s, f))
    (fun m e => m.put e.1 e.2) m) v m

/-- The `enum` case (x-gen-type-string.go:262-272): elements are appended one by one. -/
def liveEnum (X : Xyml) (kd : Kind) (v : Node) (l : Option (List Val)) :
    Live (Option (List Val)) :=
  liveSeq (fun n l => store (enumVal X kd n) (fun l x => pushEnum x l) l) v l

/-- The generated `assign` (x-gen-type-*.go), on the object.  Everything but `facets`,
`properties`, `examples` and `enum` is computed first and stored on success: `assign.As*`
(string.go:8-27, bool.go:9-28, uint.go:9-29, int64.go:8-16, float64.go:8-16, string-list.go:8-26),
`items` (x-gen-type-array.go:296-302), `example` (x-gen-type-string.go:250-258), `xml`
(type-datatype-ext.go:83-88), annotations (in-components.go:31-38). -/
def DT.liveAssign (X : Xyml) (k v : Node) : DT → Live DT
  | .basic i s x => store (assignBase k v s x) (fun _ r => .basic i r.1 r.2) (.basic i s x)
  | .ext h b fs ps it =>
    if k.value = "facets" then (liveFacets X v fs).within fun fs' => .ext h b fs' ps it
    else if k.value = "properties" ∧ b.isObject then
      (liveProps X v ps).within fun ps' => .ext h b fs ps' it
    else if k.value = "items" ∧ b.isArray then
      store (hat X v) (fun _ t => .ext h b fs ps (some t)) (.ext h b fs ps it)
    else if k.value = "examples" then
      (liveExamples X b.kind v h.examples).within fun m => .ext { h with examples := m } b fs ps it
    else if k.value = "enum" then
      (liveEnum X b.kind v h.enum).within fun l => .ext { h with enum := l } b fs ps it
    else store (assignFlat X k v h b) (fun _ r => .ext r.1 r.2 fs ps it) (.ext h b fs ps it)

/-- `DataType.UnmarshalRAML` (DataType.go:77-92), on the object. -/
def DT.load (X : Xyml) (v : Node) (t : DT) : Live DT :=
  if v.isStr then (t.setSchema v.value, .ok ())
  else match v with
    | .seq _ _ => (t, .err .multiType)
    | .map ps => livePairs (DT.liveAssign X) ps t
    | .scalar _ _ => (t, .err .badTypeDef)

/-- `assignVal` (191-198 in the example files), on the object.  The array example replaces its
value by an empty slice before it looks at the node (x-gen-ex-array.go:191-198). -/
def Example.liveVal (X : Xyml) (v : Node) (e : Example) : Live Example :=
  match e.kind with
  | .array =>
    store (exampleVal X .array v) (fun e x => { e with value := some x })
      { e with value := some (.list []) }
  | kd => store (exampleVal X kd v) (fun e x => { e with value := some x }) e

/-- `assign` of an example (144-181 in the example files), on the object. -/
def Example.liveAssign (X : Xyml) (k v : Node) (e : Example) : Live Example :=
  if k.isStr && k.value == "value" then e.liveVal X v
  else store (e.assign X k v) (fun _ e' => e') e

/-- `UnmarshalRAML` of an example (115-122 in the example files), on the object. -/
def Example.load (X : Xyml) (v : Node) (e : Example) : Live Example :=
  match v with
  | .map ps => livePairs (Example.liveAssign X) ps e
  | _ => e.liveVal X v

/-- `XML.UnmarshalRAML` (type-xml.go:97-99), on the object: every case of `assign`
(type-xml.go:111-132) stores on success only. -/
def XML.load (X : Xyml) (v : Node) (x : XML) : Live XML :=
  liveMap (fun k v x => store (x.assign X k v) (fun _ x' => x') x) v x

/-- `Documentation.UnmarshalRAML` (Documentation.go:49-65), on the object. -/
def Documentation.load (X : Xyml) (v : Node) (d : Documentation) : Live Documentation :=
  liveMap (fun k v d => store (d.assign X k v) (fun _ d' => d') d) v d

/-! ### Writing into a given map -/

/-- The generated `marshal` of an extended type (e.g. x-gen-type-string.go:226-246) into `out`. -/
def marshalInto (X : Xyml) (h : Hdr) (b : Body) (facets props items : Option Node)
    (out : OM Scalar Node) : OM Scalar Node :=
  let out := out.putOpt (.str "default") h.dflt
  let out := h.marshalExt X facets out
  let out := b.marshal X props items out
  let out := (out.putOpt (.str "enum") (h.enum.map (renderList (Val.render X)))).putOpt
    (.str "example") (h.example.map (Example.toYAML X))
  out.putOpt (.str "examples")
    (if h.examples.len > 0 then some (renderStrMap (Example.toYAML X) h.examples) else none)

/-- `DataType.MarshalRAML` (DataType.go:67-75): the map afterwards and the returned flag.
Simplification: values are put as Go values; here they are the nodes they render to, so the map
is seen as it renders. -/
def DT.marshalRAML (X : Xyml) (out : OM Scalar Node) (t : DT) : OM Scalar Node × Bool :=
  let out := match t with
    | .basic incl s x => marshalBase (if incl then .scalar "!include" s else .str s) x out
    | .ext h b fs ps it =>
      marshalInto X h b (facetsNode X fs) (propsNode X ps) (itemsNode X it) out
  (out, decide (out.len = 1) && out.has (.str "type"))

/-- `MarshalRAML` of an example (124-142 in the example files). -/
def Example.marshalRAML (X : Xyml) (out : OM Scalar Node) (e : Example) : OM Scalar Node × Bool :=
  if e.expand then
    let out := ((out.putOpt (.str "displayName") (e.displayName.map .str)).putOpt
      (.str "description") (e.description.map .str)).putOpt (.str "value") (e.value.map (Val.render X))
    let out := if e.strict then out else out.put (.str "strict") (X.ofBool e.strict)
    ((out.putAll (annEnts e.annotations)).putAll e.extra.ents, false)
  else
    (out.put (.str "") ((e.value.map (Val.render X)).getD nullNode), true)

/-- `XML.MarshalRAML` (type-xml.go:101-109): the extra entries are not written. -/
def XML.marshalRAML (X : Xyml) (out : OM Scalar Node) (x : XML) : OM Scalar Node × Bool :=
  (((((out.putOpt (.str "attribute") (x.isAttr.map X.ofBool)).putOpt
    (.str "wrapped") (x.isWrap.map X.ofBool)).putOpt
    (.str "name") (x.name.map .str)).putOpt
    (.str "namespace") (x.ns.map .str)).putOpt
    (.str "prefix") (x.pref.map .str), false)

/-- `Documentation.MarshalRAML` (Documentation.go:42-47). -/
def Documentation.marshalRAML (out : OM Scalar Node) (d : Documentation) :
    OM Scalar Node × Bool :=
  (((out.put (.str "title") (.str d.title)).put (.str "content")
    (.str d.content)).putAll d.extra.ents, false)

end Verif.Doc
