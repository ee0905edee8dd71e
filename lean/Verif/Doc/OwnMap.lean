import Verif.Doc.LiveType

/-!
# Writing an object into its own extra map

`t.MarshalRAML(t.ExtraFacets())`: the map that is written to is the one that is read
(`DataType.go:67-75, :94-98`, `in-components.go:54-60`, `Documentation.go:42-47`, lines 124-142 of
the example files).  The loop over the extra facets then changes the list it goes over.
-/

namespace Verif.Doc

/-- `m.ForEach(func(k, v) { m.Put(k, v) })`, the loop of `ForEach` (AnyMap.go:242-248): `n`
iterations remain, the next index is `j`, and each iteration reads `i.ordered[j]` anew; `none` is
the run-time panic when that is out of range. -/
def ownLoop : Nat → Nat → OM Scalar Node → Option (OM Scalar Node)
  | 0, _, m => some m
  | n + 1, j, m =>
    match m.ents[j]? with
    | some e => ownLoop n (j + 1) (m.put e.1 e.2)
    | none => none

/-- `h.mp.ForEach(func(k, v) { out.Put(k, v) })` where `out` is `h.mp` (in-components.go:58-60;
AnyMap.go:242-248: the number of iterations is fixed on entry). -/
def putOwn (m : OM Scalar Node) : Option (OM Scalar Node) := ownLoop m.len 0 m

/-- `DataType.marshal` (DataType.go:94-98) on the extra map itself. -/
def marshalBaseOwn (schema : Node) (own : OM Scalar Node) : Option (OM Scalar Node) :=
  putOwn (own.put (.str "type") schema)

/-- The generated `marshal` of an extended type (e.g. x-gen-type-string.go:226-246, with
type-datatype-ext.go:52-73) on the extra map itself. -/
def marshalOwnExt (X : Xyml) (h : Hdr) (b : Body) (facets props items : Option Node) :
    Option (OM Scalar Node) :=
  let out := h.extra.putOpt (.str "default") h.dflt
  let out := (out.putOpt (.str "displayName") (h.displayName.map .str)).putOpt
    (.str "description") (h.description.map .str)
  (marshalBaseOwn (.str h.schema) out).map fun out =>
    let out := if h.required then out else out.put (.str "required") (X.ofBool h.required)
    let out := out.putAll (annEnts h.annotations)
    let out := (out.putOpt (.str "facets") facets).putOpt (.str "xml") (h.xml.map XML.toYAML)
    let out := b.marshal X props items out
    let out := (out.putOpt (.str "enum") (h.enum.map (renderList (Val.render X)))).putOpt
      (.str "example") (h.example.map (Example.toYAML X))
    out.putOpt (.str "examples")
      (if h.examples.len > 0 then some (renderStrMap (Example.toYAML X) h.examples) else none)

/-- The extra map replaced (glue: the map is one object, here a part of the value). -/
def DT.withExtra (m : OM Scalar Node) : DT → DT
  | .basic i s _ => .basic i s m
  | .ext h b f p it => .ext { h with extra := m } b f p it

/-- `t.MarshalRAML(t.ExtraFacets())` (DataType.go:67-75): the data type afterwards and the
returned flag, `none` for a panic.  Simplification, as in `DT.marshalRAML`: the map is seen as it
renders. -/
def DT.marshalOwn (X : Xyml) (t : DT) : Option (DT × Bool) :=
  let out := match t with
    | .basic incl s x => marshalBaseOwn (if incl then .scalar "!include" s else .str s) x
    | .ext h b fs ps it =>
      marshalOwnExt X h b (facetsNode X fs) (propsNode X ps) (itemsNode X it)
  out.map fun m => (t.withExtra m, decide (m.len = 1) && m.has (.str "type"))

/-- `e.MarshalRAML(e.ExtraFacets())` of an example (124-142 in the example files). -/
def Example.marshalOwn (X : Xyml) (e : Example) : Option (Example × Bool) :=
  if e.expand then
    let out := ((e.extra.putOpt (.str "displayName") (e.displayName.map .str)).putOpt
      (.str "description") (e.description.map .str)).putOpt (.str "value") (e.value.map (Val.render X))
    let out := if e.strict then out else out.put (.str "strict") (X.ofBool e.strict)
    (putOwn (out.putAll (annEnts e.annotations))).map fun m => ({ e with extra := m }, false)
  else
    some ({ e with
      extra := e.extra.put (.str "") ((e.value.map (Val.render X)).getD nullNode) }, true)

/-- `d.MarshalRAML(d.ExtraFacets())` (Documentation.go:42-47). -/
def Documentation.marshalOwn (d : Documentation) : Option (Documentation × Bool) :=
  (putOwn ((d.extra.put (.str "title") (.str d.title)).put (.str "content")
    (.str d.content))).map fun m => ({ d with extra := m }, false)

end Verif.Doc
