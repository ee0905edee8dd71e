import Verif.Doc.Rename

/-! # Writing commutes with renaming -/

namespace Verif.Doc
open Verif Verif.Doc.Spec

variable {X : Xyml} {r : String → String}

/-! ### Trees -/

theorem ren_renderPairs (b : Bool) (ps : List (Node × Node)) : renNode r (renderPairs b ps) =
    renderPairs b (ps.map fun p => (renNode r p.1, renNode r p.2)) := by
  unfold renderPairs
  split
  · rw [ren_seq]
    simp only [List.map_map]
    congr 1
    refine List.map_congr_left (fun p _ => ?_)
    simp [ren_map]
  · exact ren_map ps

theorem ren_any (hX : Blind X r) (m : OM Scalar Node) :
    renNode r (renderAny X m) = renderAny X (renExtra r m) := by
  unfold renderAny
  rw [ren_renderPairs]
  simp only [List.map_map, renMap]
  congr 1
  refine List.map_congr_left (fun e _ => ?_)
  simp only [Function.comp_apply, hX.ofKey]

theorem ren_strMap {V : Type} {vn : V → Node} {g : V → V} (hg : ∀ x, renNode r (vn x) = vn (g x))
    (m : OM String V) : renNode r (renderStrMap vn m) = renderStrMap vn (renMap r g m) := by
  unfold renderStrMap
  rw [ren_renderPairs]
  simp only [List.map_map, renMap]
  congr 1
  refine List.map_congr_left (fun e _ => ?_)
  simp only [Function.comp_apply, ren_str, hg]

theorem ren_list {V : Type} {vn : V → Node} {g : V → V} (hg : ∀ x, renNode r (vn x) = vn (g x))
    (l : List V) : renNode r (renderList vn l) = renderList vn (l.map g) := by
  unfold renderList
  rw [ren_seq]
  simp only [List.map_map]
  congr 1
  exact List.map_congr_left (fun x _ => hg x)

theorem ren_untypedNode (m : OM String Node) :
    renNode r (renderStrMap id m) = renderStrMap id (renUntyped r m) :=
  ren_strMap (vn := id) (g := renNode r) (fun _ => rfl) m

theorem ren_annEnts (m : OM String Ann) :
    (annEnts m).map (fun e => (renKey r e.1, renNode r e.2)) = annEnts (renAnns r m) := by
  unfold annEnts
  simp only [List.map_map, renMap]
  refine List.map_congr_left (fun e _ => ?_)
  have := ren_untypedNode (r := r) e.2
  simp only [renMap] at this
  simp only [Function.comp_apply, renKey, this]

theorem ren_strEnts (m : OM String Node) :
    (strEnts m).map (fun e => (renKey r e.1, renNode r e.2)) = strEnts (renUntyped r m) := by
  unfold strEnts
  simp only [List.map_map, renMap]
  rfl

/-! ### Maps on the way to being written -/

theorem out_ren_put (h : Renaming r) {w : String} (hw : w ∈ reservedWords) (m : OM Scalar Node)
    (n : Node) : renExtra r (m.put (.str w) n) = (renExtra r m).put (.str w) (renNode r n) := by
  rw [renExtra, ren_put (f := renKey r) (renKey_inj h)]
  simp only [renKey, h.word w hw]

theorem out_ren_opt (h : Renaming r) {w : String} (hw : w ∈ reservedWords) (m : OM Scalar Node)
    (o : Option Node) :
    renExtra r (m.putOpt (.str w) o) = (renExtra r m).putOpt (.str w) (o.map (renNode r)) := by
  cases o with
  | none => rfl
  | some n => exact out_ren_put h hw m n

theorem out_ren_all (h : Renaming r) (m : OM Scalar Node) (es : List (Scalar × Node)) :
    renExtra r (m.putAll es) =
      (renExtra r m).putAll (es.map fun e => (renKey r e.1, renNode r e.2)) :=
  ren_putAll (f := renKey r) (renKey_inj h) m es

theorem ren_get (h : Renaming r) {w : String} (hw : w ∈ reservedWords) (m : OM Scalar Node) :
    (renExtra r m).get (.str w) = (m.get (.str w)).map (renNode r) := by
  obtain ⟨es, b⟩ := m
  simp only [OM.get, renMap]
  induction es with
  | nil => rfl
  | cons e es ih =>
    have hk : (renKey r e.1 == .str w) = (e.1 == .str w) := by
      have : renKey r (.str w) = .str w := by simp only [renKey, h.word w hw]
      rw [Bool.eq_iff_iff, beq_iff_eq, beq_iff_eq]
      constructor
      · intro x; rw [← this] at x; exact renKey_inj h x
      · intro x; rw [x, this]
    simp only [List.map_cons, List.find?_cons, hk]
    cases e.1 == .str w with
    | true => rfl
    | false => exact ih

theorem has_iff_get (m : OM Scalar Node) (k : Scalar) : m.has k = (m.get k).isSome := by
  obtain ⟨es, b⟩ := m
  simp only [OM.get, OM.has]
  induction es with
  | nil => rfl
  | cons e es ih =>
    simp only [List.any_cons, List.find?_cons]
    cases e.1 == k with
    | true => rfl
    | false => simpa using ih

theorem ren_finish (h : Renaming r) (hX : Blind X r) (m : OM Scalar Node) :
    renNode r (finish X m) = finish X (renExtra r m) := by
  have hn : renNode r nullNode = nullNode := by
    rw [nullNode, ren_scalar, h.word _ (by decide)]
  unfold finish
  simp only [ren_len, has_iff_get, ren_get h (w := "type") (by decide), Option.isSome_map]
  split
  · cases m.get (.str "type") with
    | none => exact hn
    | some n => rfl
  · exact ren_any hX m

/-! ### Examples -/

theorem ren_render (hX : Blind X r) (x : Val) : renNode r (x.render X) = (renVal r x).render X := by
  cases x <;> simp only [Val.render, renVal, ren_seq, ren_str, hX.ofBool, hX.ofInt, hX.ofFlt]

theorem ren_expand (e : Example) : (renExample r e).expand = e.expand := by
  simp only [Example.expand, renExample, Option.isSome_map, ren_len]

theorem ren_example_marshal (h : Renaming r) (hX : Blind X r) (e : Example) :
    (renExample r e).marshal X = renExtra r (e.marshal X) := by
  have hn : renNode r nullNode = nullNode := by
    rw [nullNode, ren_scalar, h.word _ (by decide)]
  have hv : (renExample r e).value.map (Val.render X) = (e.value.map (Val.render X)).map (renNode r) := by
    simp only [renExample, Option.map_map]
    congr 1
    funext x
    exact (ren_render hX x).symm
  have hs : ∀ o : Option String, (o.map r).map Node.str = (o.map Node.str).map (renNode r) := by
    intro o
    cases o <;> simp [ren_str]
  unfold Example.marshal
  rw [ren_expand, hv]
  split
  · simp only [out_ren_all h, ren_annEnts]
    show OM.putAll (OM.putAll (if e.strict = true then _ else _) (annEnts (renAnns r e.annotations)))
      (renExtra r e.extra).ents = _
    congr 2
    simp only [apply_ite (renExtra r), out_ren_put h (w := "strict") (by decide),
      out_ren_opt h (w := "value") (by decide), out_ren_opt h (w := "description") (by decide),
      out_ren_opt h (w := "displayName") (by decide), hX.ofBool, ← hs]
    rfl
  · simp only [out_ren_put h (w := "") (by decide)]
    congr 1
    cases e.value with
    | none => exact hn.symm
    | some x => rfl

theorem ren_example_write (h : Renaming r) (hX : Blind X r) (e : Example) :
    (renExample r e).toYAML X = renNode r (e.toYAML X) := by
  unfold Example.toYAML
  rw [ren_any hX, ren_example_marshal h hX]

/-! ### Types -/

theorem ren_body_marshal (h : Renaming r) (hX : Blind X r) (props items : Option Node) (b : Body)
    (out : OM Scalar Node) : (renBody r b).marshal X (props.map (renNode r)) (items.map (renNode r))
      (renExtra r out) = renExtra r (b.marshal X props items out) := by
  have hs : ∀ o : Option String, (o.map r).map Node.str = (o.map Node.str).map (renNode r) := by
    intro o
    cases o <;> simp [ren_str]
  have hl : ∀ o : Option (List String), (o.map fun l => l.map r).map (renderList Node.str) =
      (o.map (renderList Node.str)).map (renNode r) := by
    intro o
    cases o with
    | none => rfl
    | some l => simp only [Option.map_some, ren_list (vn := Node.str) (g := r) ren_str]
  have hi : ∀ o : Option Int, (o.map X.ofInt).map (renNode r) = o.map X.ofInt := by
    intro o
    cases o <;> simp [hX.ofInt]
  have hf : ∀ o : Option Flt, (o.map X.ofFlt).map (renNode r) = o.map X.ofFlt := by
    intro o
    cases o <;> simp [hX.ofFlt]
  have hn : ∀ o : Option Nat, (o.map fun n : Nat => X.ofInt n).map (renNode r) =
      o.map fun n : Nat => X.ofInt n := by
    intro o
    cases o <;> simp [hX.ofInt]
  have w : ∀ w ∈ reservedWords, ∀ m o, renExtra r (m.putOpt (.str w) o) =
      (renExtra r m).putOpt (.str w) (o.map (renNode r)) := fun w hw m o => out_ren_opt h hw m o
  have w1 := w "pattern" (by decide)
  have w2 := w "minLength" (by decide)
  have w3 := w "maxLength" (by decide)
  have w4 := w "fileTypes" (by decide)
  have w5 := w "uniqueItems" (by decide)
  have w6 := w "minItems" (by decide)
  have w7 := w "maxItems" (by decide)
  have w8 := w "items" (by decide)
  have w9 := w "additionalProperties" (by decide)
  have w10 := w "minProperties" (by decide)
  have w11 := w "maxProperties" (by decide)
  have w12 := w "discriminator" (by decide)
  have w13 := w "discriminatorValue" (by decide)
  have w14 := w "properties" (by decide)
  have w15 := w "format" (by decide)
  have w16 := w "minimum" (by decide)
  have w17 := w "maximum" (by decide)
  have w18 := w "multipleOf" (by decide)
  cases b <;> simp only [renBody, Body.marshal, w1, w2, w3, w4, w5, w6, w7, w8, w9, w10, w11, w12,
    w13, w14, w15, w16, w17, w18, hs, hl, hi, hf, hn, apply_ite (Option.map (renNode r)),
    Option.map_some, Option.map_none, hX.ofInt, hX.ofBool]

theorem ren_marshalBase (h : Renaming r) (n : Node) (x out : OM Scalar Node) :
    marshalBase (renNode r n) (renExtra r x) (renExtra r out) =
      renExtra r (marshalBase n x out) := by
  unfold marshalBase
  rw [out_ren_all h, out_ren_put h (by decide)]
  rfl

theorem ren_marshalExt (h : Renaming r) (hX : Blind X r) (fs : Option Node) (x : Hdr)
    (out : OM Scalar Node) : (renHdr r x).marshalExt X (fs.map (renNode r)) (renExtra r out) =
      renExtra r (x.marshalExt X fs out) := by
  have hs : ∀ o : Option String, (o.map r).map Node.str = (o.map Node.str).map (renNode r) := by
    intro o
    cases o <;> simp [ren_str]
  have hx : (x.xml.map (renXML r)).map XML.toYAML = (x.xml.map XML.toYAML).map (renNode r) := by
    cases x.xml <;> simp [XML.toYAML, ren_map]
  unfold Hdr.marshalExt
  simp only [out_ren_opt h (w := "xml") (by decide), out_ren_opt h (w := "facets") (by decide),
    out_ren_all h, ren_annEnts, apply_ite (renExtra r), out_ren_put h (w := "required") (by decide),
    ← ren_marshalBase h, out_ren_opt h (w := "description") (by decide),
    out_ren_opt h (w := "displayName") (by decide), hX.ofBool, ← hs, ← hx, ren_str]
  rfl

theorem ren_marshalDT (h : Renaming r) (hX : Blind X r) (x : Hdr) (b : Body)
    (fs ps it : Option Node) : marshalDT X (renHdr r x) (renBody r b) (fs.map (renNode r))
      (ps.map (renNode r)) (it.map (renNode r)) = renExtra r (marshalDT X x b fs ps it) := by
  have h1 : (x.enum.map fun l => l.map (renVal r)).map (renderList (Val.render X)) =
      (x.enum.map (renderList (Val.render X))).map (renNode r) := by
    cases x.enum with
    | none => rfl
    | some l => simp only [Option.map_some, ren_list (g := renVal r) (ren_render hX)]
  have h2 : (x.example.map (renExample r)).map (Example.toYAML X) =
      (x.example.map (Example.toYAML X)).map (renNode r) := by
    cases x.example with
    | none => rfl
    | some e => simp only [Option.map_some, ren_example_write h hX]
  have h3 : renNode r (renderStrMap (Example.toYAML X) x.examples) =
      renderStrMap (Example.toYAML X) (renMap r (renExample r) x.examples) :=
    ren_strMap (fun e => (ren_example_write h hX e).symm) x.examples
  unfold marshalDT
  simp only [out_ren_opt h (w := "examples") (by decide), out_ren_opt h (w := "example") (by decide),
    out_ren_opt h (w := "enum") (by decide), ← ren_body_marshal h hX, ← ren_marshalExt h hX,
    out_ren_opt h (w := "default") (by decide), apply_ite (Option.map (renNode r)), Option.map_some,
    Option.map_none, h3, ← h1, ← h2]
  simp only [renHdr, ren_len]
  rfl

mutual

theorem ren_type_write (h : Renaming r) (hX : Blind X r) : ∀ t : DT,
    (renType r t).toYAML X = renNode r (t.toYAML X)
  | .basic i s x => by
    have e : (if i = true then Node.scalar "!include" (r s) else Node.str (r s)) =
        renNode r (if i = true then Node.scalar "!include" s else Node.str s) := by
      split <;> simp only [ren_scalar, ren_str]
    simp only [renType, DT.toYAML, ren_finish h hX, ← ren_marshalBase h, e]
    rfl
  | .ext x b ⟨fs, o⟩ ⟨ps, q⟩ it => by
    have h1 : facetsNode X ⟨renFacetList r fs, o⟩ = (facetsNode X ⟨fs, o⟩).map (renNode r) := by
      have l : (renFacetList r fs).length = fs.length := by rw [renFacetList_eq, List.length_map]
      simp only [facetsNode, ren_facetEnts h hX fs, ren_renderPairs, l,
        apply_ite (Option.map (renNode r)), Option.map_some, Option.map_none]
    have h2 : propsNode X ⟨renTypeList r ps, q⟩ = (propsNode X ⟨ps, q⟩).map (renNode r) := by
      have l : (renTypeList r ps).length = ps.length := by rw [renTypeList_eq, List.length_map]
      simp only [propsNode, ren_typeEnts h hX ps, ren_renderPairs, l,
        apply_ite (Option.map (renNode r)), Option.map_some, Option.map_none]
    simp only [renType, DT.toYAML, ren_finish h hX, h1, h2, ren_itemsNode h hX it,
      ren_marshalDT h hX]

theorem ren_itemsNode (h : Renaming r) (hX : Blind X r) : ∀ o : Option DT,
    itemsNode X (renItems r o) = (itemsNode X o).map (renNode r)
  | none => by simp [renItems, itemsNode]
  | some t => by simp [renItems, itemsNode, ren_type_write h hX t]

theorem ren_typeEnts (h : Renaming r) (hX : Blind X r) : ∀ es : List (String × DT),
    typeEnts X (renTypeList r es) = (typeEnts X es).map fun p => (renNode r p.1, renNode r p.2)
  | [] => by simp [renTypeList, typeEnts]
  | (k, t) :: es => by
    simp [renTypeList, typeEnts, typeEnt, ren_str, ren_type_write h hX t, ren_typeEnts h hX es]

theorem ren_facetEnts (h : Renaming r) (hX : Blind X r) : ∀ es : List (String × OM String DT),
    facetEnts X (renFacetList r es) = (facetEnts X es).map fun p => (renNode r p.1, renNode r p.2)
  | [] => by simp [renFacetList, facetEnts]
  | (k, ⟨ts, b⟩) :: es => by
    simp [renFacetList, facetEnts, facetEnt, ren_str, typeMapNode, ren_renderPairs,
      ren_typeEnts h hX ts, ren_facetEnts h hX es]

end

/-! ### Documents -/

theorem ren_typeMap (h : Renaming r) (hX : Blind X r) (m : OM String DT) :
    renNode r (typeMapNode X m) = typeMapNode X (renMap r (renType r) m) := by
  obtain ⟨es, b⟩ := m
  have := ren_typeEnts h hX es
  rw [renTypeList_eq] at this
  simp only [typeMapNode, renMap, this, ren_renderPairs]

theorem ren_part {V : Type} {m m' : OM String V} (hm : m'.len = m.len) (n : Node) :
    (ifNonEmpty m n).map (renNode r) = ifNonEmpty m' (renNode r n) := by
  simp only [ifNonEmpty, apply_ite (Option.map (renNode r)), Option.map_some, Option.map_none, hm]

theorem ren_api_marshal (h : Renaming r) (hX : Blind X r) (a : APISpec) :
    (renApi r a).marshal X = renExtra r (a.marshal X) := by
  have hs : ∀ o : Option String, (o.map Node.str).map (renNode r) = (o.map r).map Node.str := by
    intro o
    cases o <;> simp [ren_str]
  have hl : ∀ o : Option (List String), (o.map (renderList Node.str)).map (renNode r) =
      (o.map fun l => l.map r).map (renderList Node.str) := by
    intro o
    cases o with
    | none => rfl
    | some l => simp only [Option.map_some, ren_list (vn := Node.str) (g := r) ren_str]
  have hd : (a.documentation.map (renderList Documentation.toYAML)).map (renNode r) =
      (a.documentation.map fun l => l.map (renDoc r)).map (renderList Documentation.toYAML) := by
    cases a.documentation with
    | none => rfl
    | some l =>
      have := ren_list (r := r) (vn := Documentation.toYAML) (g := renDoc r)
        (fun d => by simp [Documentation.toYAML, ren_map]) l
      simp only [Option.map_some, this]
  have hu : ∀ m : OM String Node, (ifNonEmpty m (renderStrMap id m)).map (renNode r) =
      ifNonEmpty (renUntyped r m) (renderStrMap id (renUntyped r m)) := by
    intro m
    rw [ren_part (ren_len (f := r) (g := renNode r) m), ren_untypedNode]
  have h1 : (ifNonEmpty a.uses (renderStrMap .str a.uses)).map (renNode r) =
      ifNonEmpty (renMap r r a.uses) (renderStrMap .str (renMap r r a.uses)) := by
    rw [ren_part (ren_len (f := r) (g := r) a.uses), ren_strMap (g := r) ren_str]
  have h2 : (ifNonEmpty a.types (typeMapNode X a.types)).map (renNode r) =
      ifNonEmpty (renMap r (renType r) a.types) (typeMapNode X (renMap r (renType r) a.types)) := by
    rw [ren_part (ren_len (f := r) (g := renType r) a.types), ren_typeMap h hX]
  have w : ∀ w ∈ reservedWords, ∀ m o, renExtra r (m.putOpt (.str w) o) =
      (renExtra r m).putOpt (.str w) (o.map (renNode r)) := fun w hw m o => out_ren_opt h hw m o
  have w1 := w "version" (by decide)
  have w2 := w "baseUri" (by decide)
  have w3 := w "description" (by decide)
  have w4 := w "protocols" (by decide)
  have w5 := w "mediaType" (by decide)
  have w6 := w "documentation" (by decide)
  have w7 := w "securedBy" (by decide)
  have w8 := w "uses" (by decide)
  have w9 := w "securitySchemes" (by decide)
  have w10 := w "baseUriParameters" (by decide)
  have w11 := w "traits" (by decide)
  have w12 := w "annotationTypes" (by decide)
  have w13 := w "resourceTypes" (by decide)
  have w14 := w "types" (by decide)
  unfold APISpec.marshal
  simp only [w1, w2, w3, w4, w5, w6, w7, w8, w9, w10, w11, w12, w13, w14, out_ren_all h,
    ren_annEnts, ren_strEnts, out_ren_put h (w := "title") (by decide), hs, hl, hd, hu, h1, h2,
    ren_str]
  rfl

theorem ren_api_write (h : Renaming r) (hX : Blind X r) (a : APISpec) :
    (renApi r a).toYAML X = renNode r (a.toYAML X) := by
  unfold APISpec.toYAML
  rw [ren_any hX, ren_api_marshal h hX]

theorem ren_lib_marshal (h : Renaming r) (hX : Blind X r) (a : Library) :
    (renLib r a).marshal X = renExtra r (a.marshal X) := by
  have hs : ∀ o : Option String, (o.map Node.str).map (renNode r) = (o.map r).map Node.str := by
    intro o
    cases o <;> simp [ren_str]
  have hu : ∀ m : OM String Node, (ifNonEmpty m (renderStrMap id m)).map (renNode r) =
      ifNonEmpty (renUntyped r m) (renderStrMap id (renUntyped r m)) := by
    intro m
    rw [ren_part (ren_len (f := r) (g := renNode r) m), ren_untypedNode]
  have h1 : (ifNonEmpty a.uses (renderStrMap .str a.uses)).map (renNode r) =
      ifNonEmpty (renMap r r a.uses) (renderStrMap .str (renMap r r a.uses)) := by
    rw [ren_part (ren_len (f := r) (g := r) a.uses), ren_strMap (g := r) ren_str]
  have h2 : (ifNonEmpty a.types (typeMapNode X a.types)).map (renNode r) =
      ifNonEmpty (renMap r (renType r) a.types) (typeMapNode X (renMap r (renType r) a.types)) := by
    rw [ren_part (ren_len (f := r) (g := renType r) a.types), ren_typeMap h hX]
  have w : ∀ w ∈ reservedWords, ∀ m o, renExtra r (m.putOpt (.str w) o) =
      (renExtra r m).putOpt (.str w) (o.map (renNode r)) := fun w hw m o => out_ren_opt h hw m o
  have w7 := w "usage" (by decide)
  have w8 := w "uses" (by decide)
  have w9 := w "securitySchemes" (by decide)
  have w11 := w "traits" (by decide)
  have w12 := w "annotationTypes" (by decide)
  have w13 := w "resourceTypes" (by decide)
  have w14 := w "types" (by decide)
  unfold Library.marshal
  simp only [w7, w8, w9, w11, w12, w13, w14, out_ren_all h, ren_annEnts, hs, hu, h1, h2]
  rfl

theorem ren_lib_write (h : Renaming r) (hX : Blind X r) (a : Library) :
    (renLib r a).toYAML X = renNode r (a.toYAML X) := by
  unfold Library.toYAML
  rw [ren_any hX, ren_lib_marshal h hX]

end Verif.Doc
