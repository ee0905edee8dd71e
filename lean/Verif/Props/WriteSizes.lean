import Verif.Props.Sizes

/-!
# C96: writing what was read makes a document at most three times as large

The weights are those of C88: the nodes of a tree, and what a value holds.
-/

namespace Verif.Props
open Verif Verif.Doc Verif.Doc.Spec

/-- The standard conversions do so. -/
theorem single_std : Single Xyml.std where
  int _ := rfl
  flt _ := rfl
  bool b := by cases b <;> rfl
  key k := by cases k <;> rfl

/-! ### Maps on the way to being written -/

theorem pairs_sum (ps : List (Node × Node)) :
    pairsWeight ps = (ps.map fun p => nodeWeight p.1 + nodeWeight p.2).sum := by
  induction ps with
  | nil => rfl
  | cons p ps ih => obtain ⟨k, v⟩ := p; simp [pairsWeight, pairWeight, ih]

theorem nodes_sum (ns : List Node) : nodesWeight ns = (ns.map nodeWeight).sum := by
  induction ns with
  | nil => rfl
  | cons n ns ih => simp [nodesWeight, ih]

theorem renderPairs_weight (b : Bool) (ps : List (Node × Node)) :
    nodeWeight (renderPairs b ps) ≤ 1 + pairsWeight ps + ps.length := by
  cases b with
  | false => simp only [renderPairs, nodeWeight, Bool.false_eq_true, if_false]; omega
  | true =>
    have : nodesWeight (ps.map fun p => .map [p]) = pairsWeight ps + ps.length := by
      induction ps with
      | nil => rfl
      | cons p ps ih =>
        simp only [List.map_cons, nodesWeight, nodeWeight, pairsWeight, List.length_cons, ih]
        omega
    simp only [renderPairs, nodeWeight, if_true, this]
    omega

theorem renderStrMap_weight {V : Type} {vn : V → Node} {w : V → Nat}
    (h : ∀ x, nodeWeight (vn x) ≤ 1 + 3 * w x) (m : OM String V) :
    nodeWeight (renderStrMap vn m) ≤ 1 + 3 * mapWeight w m := by
  have h1 := renderPairs_weight m.omap (m.ents.map fun e => (Node.str e.1, vn e.2))
  have h2 : pairsWeight (m.ents.map fun e => (Node.str e.1, vn e.2)) + m.ents.length ≤
      3 * mapWeight w m := by
    unfold mapWeight
    induction m.ents with
    | nil => simp [pairsWeight]
    | cons e es ih =>
      have := h e.2
      simp only [List.map_cons, pairsWeight, pairWeight, List.length_cons, List.sum_cons,
        show nodeWeight (Node.str e.1) = 1 from rfl]
      omega
  simp only [renderStrMap]
  rw [List.length_map] at h1
  omega

theorem renderAny_weight {X : Xyml} (hX : Single X) (m : OM Scalar Node) (h : m.omap = false) :
    nodeWeight (renderAny X m) = 1 + mapWeight nodeWeight m := by
  simp only [renderAny, h, renderPairs, nodeWeight, Bool.false_eq_true, if_false, pairs_sum,
    mapWeight, List.map_map, Function.comp_def, hX.key]

theorem putOpt_weight (m : OM Scalar Node) (k : Scalar) (o : Option Node) :
    mapWeight nodeWeight (m.putOpt k o) ≤ mapWeight nodeWeight m + optWeight nodeWeight o := by
  cases o with
  | none => exact Nat.le_refl _
  | some n =>
    have := mapWeight_put nodeWeight m k n
    simp only [OM.putOpt, optWeight]
    omega

theorem putAll_weight (es : List (Scalar × Node)) (m : OM Scalar Node) :
    mapWeight nodeWeight (m.putAll es) ≤
      mapWeight nodeWeight m + (es.map fun e => 1 + nodeWeight e.2).sum := by
  induction es generalizing m with
  | nil => exact Nat.le_refl _
  | cons e es ih =>
    have h1 := ih (m.put e.1 e.2)
    have h2 := mapWeight_put nodeWeight m e.1 e.2
    simp only [OM.putAll, List.foldl_cons, List.map_cons, List.sum_cons] at h1 ⊢
    omega

theorem anns_weight (m : OM String Ann) :
    ((annEnts m).map fun e => 1 + nodeWeight e.2).sum ≤ 3 * mapWeight (mapWeight nodeWeight) m := by
  unfold annEnts mapWeight
  induction m.ents with
  | nil => simp
  | cons e es ih =>
    have := renderStrMap_weight (vn := id) (w := nodeWeight) (fun x => by simp only [id]; omega) e.2
    simp only [List.map_cons, List.sum_cons]
    have h2 : (e.2.ents.map fun e => 1 + nodeWeight e.2).sum = mapWeight nodeWeight e.2 := rfl
    rw [h2]
    omega

/-- A plain facet: a key and a value. -/
theorem plain_weight {α : Type} {g : α → Node} (h : ∀ x, nodeWeight (g x) = 1) (o : Option α) :
    optWeight nodeWeight (o.map g) ≤ 3 * flag o.isSome := by
  cases o with
  | none => exact Nat.le_refl _
  | some x => simp [optWeight, h, flag]

theorem cond_weight {c : Prop} [Decidable c] {n : Node} {b : Bool} (hn : nodeWeight n = 1)
    (h : c → b = true) : optWeight nodeWeight (if c then some n else none) ≤ 3 * flag b := by
  by_cases hc : c
  · simp [hc, h hc, optWeight, hn, flag]
  · simp [hc, optWeight]

theorem list_weight {V : Type} {g : V → Node} {w : V → Nat} (h : ∀ x, nodeWeight (g x) ≤ 3 * w x)
    (o : Option (List V)) : optWeight nodeWeight (o.map (renderList g)) ≤ 3 * listWeight w o := by
  cases o with
  | none => exact Nat.zero_le _
  | some l =>
    have h1 : nodesWeight (l.map g) ≤ 3 * (l.map w).sum := by
      induction l with
      | nil => simp [nodesWeight]
      | cons x l ih =>
        have := h x
        simp only [List.map_cons, nodesWeight, List.sum_cons]
        omega
    simp only [Option.map_some, optWeight, renderList, nodeWeight, listWeight, Option.getD_some,
      Option.isSome_some, flag, if_true]
    omega

theorem val_weight {X : Xyml} (hX : Single X) (x : Val) :
    nodeWeight (x.render X) ≤ valWeight x := by
  cases x <;> simp [Val.render, valWeight, hX.int, hX.flt, hX.bool, nodeWeight, Node.str]

theorem val_pos (x : Val) : 1 ≤ valWeight x := by
  cases x <;> simp [valWeight, nodeWeight_pos]

/-- C96: a written example. -/
theorem C96_example {X : Xyml} (hX : Single X) (e : Example) :
    nodeWeight (e.toYAML X) ≤ 3 * exampleWeight e := by
  have hf : (e.marshal X).omap = false := by
    unfold Example.marshal
    split
    · dsimp only
      split <;> simp [OM.empty]
    · rfl
  simp only [Example.toYAML]
  rw [renderAny_weight hX _ hf]
  have hv : 1 ≤ (e.value.map valWeight).getD 1 := by
    cases e.value with
    | none => exact Nat.le_refl _
    | some x => exact val_pos x
  unfold Example.marshal
  split
  · dsimp only
    have h1 := plain_weight (g := Node.str) (fun _ => rfl) e.displayName
    have h2 := plain_weight (g := Node.str) (fun _ => rfl) e.description
    have h3 : optWeight nodeWeight (e.value.map (Val.render X)) ≤ 1 + (e.value.map valWeight).getD 1 := by
      cases e.value with
      | none => exact Nat.zero_le _
      | some x => have := val_weight hX x; simp only [Option.map_some, optWeight, Option.getD_some]; omega
    have h4 := anns_weight e.annotations
    have h5 : (e.extra.ents.map fun e => 1 + nodeWeight e.2).sum = mapWeight nodeWeight e.extra := rfl
    generalize hg : ((((OM.empty false : OM Scalar Node).putOpt (.str "displayName")
      (e.displayName.map .str)).putOpt (.str "description") (e.description.map .str)).putOpt
      (.str "value") (e.value.map (Val.render X))) = o1
    have h6 : mapWeight nodeWeight o1 ≤ 3 * flag e.displayName.isSome +
        3 * flag e.description.isSome + (1 + (e.value.map valWeight).getD 1) := by
      subst hg
      refine Nat.le_trans (putOpt_weight _ _ _) (Nat.add_le_add ?_ h3)
      refine Nat.le_trans (putOpt_weight _ _ _) (Nat.add_le_add ?_ h2)
      refine Nat.le_trans (putOpt_weight _ _ _) ?_
      rw [mapWeight_empty]
      omega
    have h7 : mapWeight nodeWeight (if e.strict = true then o1 else
        o1.put (.str "strict") (X.ofBool e.strict)) ≤ mapWeight nodeWeight o1 + 3 * flag (!e.strict) := by
      cases e.strict with
      | true => simp
      | false =>
        have := mapWeight_put nodeWeight o1 (.str "strict") (X.ofBool false)
        have := hX.bool false
        simp only [Bool.false_eq_true, if_false, Bool.not_false, flag, if_true]
        omega
    have h8 := putAll_weight e.extra.ents ((if e.strict = true then o1 else
        o1.put (.str "strict") (X.ofBool e.strict)).putAll (annEnts e.annotations))
    have h9 := putAll_weight (annEnts e.annotations) (if e.strict = true then o1 else
        o1.put (.str "strict") (X.ofBool e.strict))
    simp only [exampleWeight]
    omega
  · have h1 := mapWeight_put nodeWeight (OM.empty false) (Scalar.str "")
      ((e.value.map (Val.render X)).getD nullNode)
    have h2 : nodeWeight ((e.value.map (Val.render X)).getD nullNode) ≤
        (e.value.map valWeight).getD 1 := by
      cases e.value with
      | none => exact Nat.le_refl _
      | some x => exact val_weight hX x
    rw [mapWeight_empty] at h1
    simp only [exampleWeight]
    omega

/-- Concrete case: an example given by its value alone is written as a mapping with the empty
key, which is the worst that can happen to an example. -/
example : ∃ e, (Example.new .string).unmarshal Xyml.std (.str "a") = .ok e ∧
    exampleWeight e = 1 ∧ nodeWeight (e.toYAML Xyml.std) = 3 := ⟨_, rfl, rfl, rfl⟩

/-! ### Types -/

theorem body_write {X : Xyml} (hX : Single X) (props items : Option Node) (b : Body)
    (out : OM Scalar Node) :
    mapWeight nodeWeight (b.marshal X props items out) ≤ mapWeight nodeWeight out +
      3 * bodyWeight b + optWeight nodeWeight props + optWeight nodeWeight items := by
  have step : ∀ {o : OM Scalar Node} {a : Nat} {k : Scalar} {v : Option Node} {c : Nat},
      mapWeight nodeWeight o ≤ a → optWeight nodeWeight v ≤ c →
      mapWeight nodeWeight (o.putOpt k v) ≤ a + c := fun h1 h2 =>
    Nat.le_trans (putOpt_weight _ _ _) (Nat.add_le_add h1 h2)
  have hs : ∀ s : String, nodeWeight (Node.str s) = 1 := fun _ => rfl
  have z := Nat.le_refl (mapWeight nodeWeight out)
  cases b with
  | string f =>
    refine Nat.le_trans (step (step (step z (plain_weight hs _))
      (cond_weight (b := f.minLength != 0) (hX.int _) (fun h => by simp; omega)))
      (plain_weight (fun n : Nat => hX.int n) _)) ?_
    simp only [bodyWeight]
    omega
  | file f =>
    refine Nat.le_trans (step (step (step z (list_weight (w := fun _ => 1)
      (fun s => by rw [hs]; omega) _))
      (cond_weight (b := f.minLength != 0) (hX.int _) (fun h => by simp; omega)))
      (cond_weight (b := f.maxLength != 2147483647) (hX.int _) (fun h => by simp; omega))) ?_
    simp only [bodyWeight]
    omega
  | array f =>
    refine Nat.le_trans (step (step (step (step z
      (cond_weight (b := f.uniqueItems) (hX.bool _) (fun h => by simpa using h)))
      (cond_weight (b := f.minItems != 0) (hX.int _) (fun h => by simp; omega)))
      (cond_weight (b := f.maxItems != 2147483647) (hX.int _) (fun h => by simp; omega)))
      (Nat.le_refl _)) ?_
    simp only [bodyWeight]
    omega
  | object f =>
    have h1 : optWeight nodeWeight (if f.addtlProps = true then none
        else some (X.ofBool f.addtlProps)) ≤ 3 * flag (!f.addtlProps) := by
      cases f.addtlProps with
      | true => exact Nat.zero_le _
      | false => simp [optWeight, hX.bool, flag]
    refine Nat.le_trans (step (step (step (step (step (step z h1)
      (plain_weight (fun n : Nat => hX.int n) _)) (plain_weight (fun n : Nat => hX.int n) _))
      (plain_weight hs _)) (Nat.le_refl _)) (Nat.le_refl _)) ?_
    simp only [bodyWeight]
    omega
  | datetime f =>
    refine Nat.le_trans (step z (plain_weight hs _)) ?_
    simp only [bodyWeight]
    omega
  | number f =>
    refine Nat.le_trans (step (step (step (step z (plain_weight hs _))
      (plain_weight hX.flt _)) (plain_weight hX.flt _)) (plain_weight hX.flt _)) ?_
    simp only [bodyWeight]
    omega
  | integer f =>
    refine Nat.le_trans (step (step (step (step z (plain_weight hs _))
      (plain_weight hX.int _)) (plain_weight hX.int _)) (plain_weight hX.flt _)) ?_
    simp only [bodyWeight]
    omega
  | _ => simp only [Body.marshal, bodyWeight]; omega

theorem body_omap (X : Xyml) (props items : Option Node) (b : Body) (out : OM Scalar Node) :
    (b.marshal X props items out).omap = out.omap := by
  cases b <;> simp [Body.marshal]

theorem ext_write {X : Xyml} (hX : Single X) (facets : Option Node) (h : Hdr)
    (out : OM Scalar Node) :
    mapWeight nodeWeight (h.marshalExt X facets out) ≤ mapWeight nodeWeight out + 2 +
      3 * flag h.displayName.isSome + 3 * flag h.description.isSome + 3 * flag (!h.required) +
      mapWeight nodeWeight h.extra + 3 * mapWeight (mapWeight nodeWeight) h.annotations +
      optWeight nodeWeight facets + 3 * optWeight xmlWeight h.xml := by
  have hs : ∀ s : String, nodeWeight (Node.str s) = 1 := fun _ => rfl
  have h1 := plain_weight hs h.displayName
  have h2 := plain_weight hs h.description
  have h3 := anns_weight h.annotations
  have h4 : (h.extra.ents.map fun e => 1 + nodeWeight e.2).sum = mapWeight nodeWeight h.extra := rfl
  have h5 : optWeight nodeWeight (h.xml.map XML.toYAML) ≤ 3 * optWeight xmlWeight h.xml := by
    cases h.xml with
    | none => exact Nat.le_refl _
    | some x => simp only [Option.map_some, optWeight, XML.toYAML, nodeWeight, pairsWeight]; omega
  unfold Hdr.marshalExt marshalBase
  dsimp only
  generalize hg : (out.putOpt (.str "displayName") (h.displayName.map .str)).putOpt
    (.str "description") (h.description.map .str) = o1
  have h6 : mapWeight nodeWeight o1 ≤ mapWeight nodeWeight out + 3 * flag h.displayName.isSome +
      3 * flag h.description.isSome := by
    subst hg
    refine Nat.le_trans (putOpt_weight _ _ _) (Nat.add_le_add ?_ h2)
    exact Nat.le_trans (putOpt_weight _ _ _) (Nat.add_le_add (Nat.le_refl _) h1)
  have h7 := mapWeight_put nodeWeight o1 (.str "type") (.str h.schema)
  have h8 := putAll_weight h.extra.ents (o1.put (.str "type") (.str h.schema))
  rw [hs] at h7
  generalize (o1.put (.str "type") (.str h.schema)).putAll h.extra.ents = o2 at h8
  have h9 : mapWeight nodeWeight (if h.required = true then o2 else
      o2.put (.str "required") (X.ofBool h.required)) ≤
        mapWeight nodeWeight o2 + 3 * flag (!h.required) := by
    cases h.required with
    | true => simp
    | false =>
      have := mapWeight_put nodeWeight o2 (.str "required") (X.ofBool false)
      have := hX.bool false
      simp only [Bool.false_eq_true, if_false, Bool.not_false, flag, if_true]
      omega
  generalize (if h.required = true then o2 else
      o2.put (.str "required") (X.ofBool h.required)) = o3 at h9
  have h10 := putAll_weight (annEnts h.annotations) o3
  generalize o3.putAll (annEnts h.annotations) = o4 at h10
  have h11 := putOpt_weight o4 (.str "facets") facets
  have h12 := putOpt_weight (o4.putOpt (.str "facets") facets) (.str "xml") (h.xml.map XML.toYAML)
  omega

theorem ext_omap (X : Xyml) (facets : Option Node) (h : Hdr) (out : OM Scalar Node) :
    (h.marshalExt X facets out).omap = out.omap := by
  unfold Hdr.marshalExt marshalBase
  cases h.required <;> simp

theorem examples_write {X : Xyml} (hX : Single X) (m : OM String Example) :
    optWeight nodeWeight (if m.len > 0 then some (renderStrMap (Example.toYAML X) m) else none) ≤
      3 * partWeight exampleWeight m := by
  by_cases h : m.len > 0
  · have h1 := renderStrMap_weight (vn := Example.toYAML X) (w := exampleWeight) (fun e => by
      have := C96_example hX e; omega) m
    have h2 : flag (!m.ents.isEmpty) = 1 := by
      cases hm : m.ents with
      | nil => simp [OM.len, hm] at h
      | cons e es => rfl
    simp only [h, if_true, optWeight, partWeight, h2]
    omega
  · simp [h, optWeight]

theorem marshalDT_weight {X : Xyml} (hX : Single X) (h : Hdr) (b : Body)
    (facets props items : Option Node) :
    mapWeight nodeWeight (marshalDT X h b facets props items) ≤ 2 + 3 * hdrWeight h +
      3 * bodyWeight b + optWeight nodeWeight facets + optWeight nodeWeight props +
      optWeight nodeWeight items := by
  have h1 := putOpt_weight (OM.empty false) (.str "default") h.dflt
  rw [mapWeight_empty] at h1
  have h2 := ext_write hX facets h ((OM.empty false : OM Scalar Node).putOpt (.str "default") h.dflt)
  have h3 := body_write hX props items b (h.marshalExt X facets
    ((OM.empty false : OM Scalar Node).putOpt (.str "default") h.dflt))
  have h4 := list_weight (g := Val.render X) (w := valWeight) (fun x => by
    have := val_weight hX x; omega) h.enum
  have h5 : optWeight nodeWeight (h.example.map (Example.toYAML X)) ≤
      3 * optWeight exampleWeight h.example := by
    cases h.example with
    | none => exact Nat.le_refl _
    | some e => have := C96_example hX e; simp only [Option.map_some, optWeight]; omega
  have h6 := examples_write hX h.examples
  unfold marshalDT
  dsimp only
  generalize b.marshal X props items (h.marshalExt X facets
    ((OM.empty false : OM Scalar Node).putOpt (.str "default") h.dflt)) = o at h3
  have h7 := putOpt_weight o (.str "enum") (h.enum.map (renderList (Val.render X)))
  have h8 := putOpt_weight (o.putOpt (.str "enum") (h.enum.map (renderList (Val.render X))))
    (.str "example") (h.example.map (Example.toYAML X))
  have h9 := putOpt_weight ((o.putOpt (.str "enum") (h.enum.map (renderList (Val.render X)))).putOpt
    (.str "example") (h.example.map (Example.toYAML X))) (.str "examples")
    (if h.examples.len > 0 then some (renderStrMap (Example.toYAML X) h.examples) else none)
  simp only [hdrWeight]
  omega

theorem marshalDT_omap (X : Xyml) (h : Hdr) (b : Body) (facets props items : Option Node) :
    (marshalDT X h b facets props items).omap = false := by
  unfold marshalDT
  simp [body_omap, ext_omap, OM.empty]

theorem finish_weight {X : Xyml} (hX : Single X) (m : OM Scalar Node) (hm : m.omap = false) :
    nodeWeight (finish X m) ≤ 1 + mapWeight nodeWeight m := by
  unfold finish
  split
  · rename_i h
    obtain ⟨es, b⟩ := m
    match es, h with
    | [e], h =>
      have h2 : (OM.mk [e] b).get (.str "type") = some e.2 := by
        have h3 := h.2
        simp only [OM.has, List.any_cons, List.any_nil, Bool.or_false] at h3
        simp [OM.get, h3]
      rw [h2]
      simp only [Option.getD_some, mapWeight, List.map_cons, List.map_nil, List.sum_cons,
        List.sum_nil]
      omega
  · exact Nat.le_of_eq (renderAny_weight hX m hm)

theorem basic_weight {X : Xyml} (hX : Single X) (n : Node) (hn : nodeWeight n = 1)
    (x : OM Scalar Node) : nodeWeight (finish X (marshalBase n x (OM.empty false))) ≤
      3 * (1 + mapWeight nodeWeight x) := by
  refine Nat.le_trans (finish_weight hX _ (by simp [marshalBase, OM.empty])) ?_
  have h1 := mapWeight_put nodeWeight (OM.empty false) (Scalar.str "type") n
  have h2 := putAll_weight x.ents ((OM.empty false : OM Scalar Node).put (.str "type") n)
  have h3 : (x.ents.map fun e => 1 + nodeWeight e.2).sum = mapWeight nodeWeight x := rfl
  rw [mapWeight_empty] at h1
  simp only [marshalBase]
  omega

theorem flag_cons {α : Type} (x : α) (l : List α) : flag (!(x :: l).isEmpty) = 1 := rfl

theorem typeEnts_length (X : Xyml) (es : List (String × DT)) :
    (typeEnts X es).length = es.length := by
  induction es with
  | nil => rfl
  | cons e es ih => simp only [typeEnts, List.length_cons, ih]

theorem facetEnts_length (X : Xyml) (es : List (String × OM String DT)) :
    (facetEnts X es).length = es.length := by
  induction es with
  | nil => rfl
  | cons e es ih => simp only [facetEnts, List.length_cons, ih]

mutual

theorem type_write {X : Xyml} (hX : Single X) : ∀ t : DT,
    nodeWeight (t.toYAML X) ≤ 3 * typeWeight t
  | .basic i s x => by
    have := basic_weight hX (if i then .scalar "!include" s else .str s) (by cases i <;> rfl) x
    simpa only [DT.toYAML, typeWeight] using this
  | .ext h b fs ps it => by
    have h1 := finish_weight hX _ (marshalDT_omap X h b (facetsNode X fs) (propsNode X ps)
      (itemsNode X it))
    have h2 := marshalDT_weight hX h b (facetsNode X fs) (propsNode X ps) (itemsNode X it)
    have h3 := facets_write hX fs
    have h4 := props_write hX ps
    have h5 := items_write hX it
    simp only [DT.toYAML, typeWeight]
    omega

theorem items_write {X : Xyml} (hX : Single X) : ∀ o : Option DT,
    optWeight nodeWeight (itemsNode X o) ≤ 3 * itemsWeight o
  | none => by simp [itemsNode, optWeight]
  | some t => by
    have := type_write hX t
    simp only [itemsNode, optWeight, itemsWeight]
    omega

theorem props_write {X : Xyml} (hX : Single X) : ∀ m : OM String DT,
    optWeight nodeWeight (propsNode X m) ≤ 3 * (flag (!m.ents.isEmpty) + typesWeight m)
  | ⟨[], b⟩ => by simp [propsNode, optWeight]
  | ⟨e :: es, b⟩ => by
    have h1 := typeEnts_write hX (e :: es)
    have h2 := renderPairs_weight b (typeEnts X (e :: es))
    have h3 : (typeEnts X (e :: es)).length = (e :: es).length := typeEnts_length X (e :: es)
    simp only [propsNode, List.length_cons, Nat.zero_lt_succ, if_true, optWeight, flag_cons,
      typesWeight, gt_iff_lt] at h1 h2 h3 ⊢
    omega

theorem typeEnts_write {X : Xyml} (hX : Single X) : ∀ es : List (String × DT),
    pairsWeight (typeEnts X es) + es.length ≤ 3 * typeEntsWeight es
  | [] => by simp [typeEnts, pairsWeight]
  | e :: es => by
    have h1 := typeEnt_write hX e
    have h2 := typeEnts_write hX es
    simp only [typeEnts, pairsWeight, List.length_cons, typeEntsWeight]
    omega

theorem typeEnt_write {X : Xyml} (hX : Single X) : ∀ e : String × DT,
    pairWeight (typeEnt X e) + 1 ≤ 3 * typeEntWeight e
  | (k, t) => by
    have := type_write hX t
    simp only [typeEnt, pairWeight, typeEntWeight, show nodeWeight (Node.str k) = 1 from rfl]
    omega

theorem facets_write {X : Xyml} (hX : Single X) : ∀ m : OM String (OM String DT),
    optWeight nodeWeight (facetsNode X m) ≤ 3 * (flag (!m.ents.isEmpty) + facetsWeight m)
  | ⟨[], b⟩ => by simp [facetsNode, optWeight]
  | ⟨e :: es, b⟩ => by
    have h1 := facetEnts_write hX (e :: es)
    have h2 := renderPairs_weight b (facetEnts X (e :: es))
    have h3 : (facetEnts X (e :: es)).length = (e :: es).length := facetEnts_length X (e :: es)
    simp only [facetsNode, List.length_cons, Nat.zero_lt_succ, if_true, optWeight, flag_cons,
      facetsWeight, gt_iff_lt] at h1 h2 h3 ⊢
    omega

theorem facetEnts_write {X : Xyml} (hX : Single X) : ∀ es : List (String × OM String DT),
    pairsWeight (facetEnts X es) + es.length ≤ 3 * facetEntsWeight es
  | [] => by simp [facetEnts, pairsWeight]
  | e :: es => by
    have h1 := facetEnt_write hX e
    have h2 := facetEnts_write hX es
    simp only [facetEnts, pairsWeight, List.length_cons, facetEntsWeight]
    omega

theorem facetEnt_write {X : Xyml} (hX : Single X) : ∀ e : String × OM String DT,
    pairWeight (facetEnt X e) + 1 ≤ 3 * facetEntWeight e
  | (k, ⟨es, b⟩) => by
    have h1 := typeEnts_write hX es
    have h2 := renderPairs_weight b (typeEnts X es)
    have h3 := typeEnts_length X es
    simp only [facetEnt, pairWeight, facetEntWeight, show nodeWeight (Node.str k) = 1 from rfl,
      typeMapNode, typesWeight]
    omega

end

/-- C96: a written type has at most three nodes for each thing the type holds. -/
theorem C96_type {X : Xyml} (hX : Single X) (t : DT) :
    nodeWeight (t.toYAML X) ≤ 3 * typeWeight t := type_write hX t

/-- Concrete case: a type with an example as item type of an array type with an annotation. -/
example : ∃ t, hat Xyml.std (.map [(.str "items", .map [(.str "example", .str "a")]),
      (.str "(n)", .map [(.str "k", .str "v")]), (.str "uniqueItems", .scalar "!!bool" "true")]) = .ok t ∧
    nodeWeight (t.toYAML Xyml.std) = 18 ∧ typeWeight t = 9 := by
  refine ⟨_, rfl, ?_, ?_⟩ <;> decide +kernel

/-- C96: reading a type and writing it again makes the definition at most three times as large. -/
theorem C96_type_rewritten {X : Xyml} (hX : Single X) {n : Node} {t : DT} (h : hat X n = .ok t) :
    nodeWeight (t.toYAML X) ≤ 3 * nodeWeight n := by
  have := C96_type hX t
  have := C88_type X n t h
  omega

/-- More than twice as large is possible. -/
example : ∃ t, hat Xyml.std (.map [(.str "example", .str "a")]) = .ok t ∧
    nodeWeight (.map [(.str "example", .str "a")]) = 3 ∧ nodeWeight (t.toYAML Xyml.std) = 7 :=
  ⟨_, rfl, rfl, rfl⟩

/-! ### Documents -/

theorem part_write {V : Type} {m : OM String V} {w : V → Nat} {n : Node}
    (h : nodeWeight n ≤ 1 + 3 * mapWeight w m) :
    optWeight nodeWeight (ifNonEmpty m n) ≤ 3 * partWeight w m := by
  unfold ifNonEmpty
  by_cases hl : m.len > 0
  · have h2 : flag (!m.ents.isEmpty) = 1 := by
      cases hm : m.ents with
      | nil => simp [OM.len, hm] at hl
      | cons e es => rfl
    simp only [hl, if_true, optWeight, partWeight, h2]
    omega
  · simp [hl, optWeight]

theorem typeMap_write {X : Xyml} (hX : Single X) (m : OM String DT) :
    nodeWeight (typeMapNode X m) ≤ 1 + 3 * mapWeight typeWeight m := by
  rw [← types_eq]
  obtain ⟨es, b⟩ := m
  have h1 := typeEnts_write hX es
  have h2 := renderPairs_weight b (typeEnts X es)
  have h3 := typeEnts_length X es
  simp only [typeMapNode, typesWeight]
  omega

theorem untyped_write (m : OM String Node) :
    nodeWeight (renderStrMap id m) ≤ 1 + 3 * mapWeight nodeWeight m :=
  renderStrMap_weight (fun x => by simp only [id]; omega) m

theorem strings_write (m : OM String String) :
    nodeWeight (renderStrMap Node.str m) ≤ 1 + 3 * mapWeight (fun _ => 0) m :=
  renderStrMap_weight (w := fun _ => 0) (fun _ => Nat.le_refl _) m

/-- C96: a written API document. -/
theorem C96_api {X : Xyml} (hX : Single X) (a : APISpec) :
    nodeWeight (a.toYAML X) ≤ 3 * apiWeight a := by
  have hf : (a.marshal X).omap = false := by simp [APISpec.marshal, OM.empty]
  simp only [APISpec.toYAML]
  rw [renderAny_weight hX _ hf]
  have step : ∀ {o : OM Scalar Node} {a : Nat} {k : Scalar} {v : Option Node} {c : Nat},
      mapWeight nodeWeight o ≤ a → optWeight nodeWeight v ≤ c →
      mapWeight nodeWeight (o.putOpt k v) ≤ a + c := fun h1 h2 =>
    Nat.le_trans (putOpt_weight _ _ _) (Nat.add_le_add h1 h2)
  have all : ∀ {o : OM Scalar Node} {a : Nat} {es : List (Scalar × Node)} {c : Nat},
      mapWeight nodeWeight o ≤ a → (es.map fun e => 1 + nodeWeight e.2).sum ≤ c →
      mapWeight nodeWeight (o.putAll es) ≤ a + c := fun h1 h2 =>
    Nat.le_trans (putAll_weight _ _) (Nat.add_le_add h1 h2)
  have hs : ∀ s : String, nodeWeight (Node.str s) = 1 := fun _ => rfl
  have hl : ∀ s : String, nodeWeight (Node.str s) ≤ 3 * 1 := fun s => by rw [hs]; omega
  have hd : ∀ d : Documentation, nodeWeight d.toYAML ≤ 3 * docWeight d := by
    intro d
    simp only [Documentation.toYAML, nodeWeight, pairsWeight, docWeight]
    omega
  have h0 := mapWeight_put nodeWeight (OM.empty false) (Scalar.str "title") (.str a.title)
  rw [mapWeight_empty, hs] at h0
  have hr : ((strEnts a.resources).map fun e => 1 + nodeWeight e.2).sum =
      mapWeight nodeWeight a.resources := by
    simp only [strEnts, List.map_map, mapWeight, Function.comp_def]
  refine Nat.le_trans (Nat.add_le_add_left (step (all (all (all (step (step (step (step (step (step
    (step (step (step (step (step (step (step h0 (plain_weight hs _)) (plain_weight hs _))
    (plain_weight hs _)) (list_weight (w := fun _ => 1) hl _)) (list_weight (w := fun _ => 1) hl _))
    (list_weight hd _)) (list_weight (w := fun _ => 1) hl _)) (part_write (strings_write _)))
    (part_write (untyped_write _))) (part_write (untyped_write _))) (part_write (untyped_write _)))
    (part_write (untyped_write _))) (part_write (untyped_write _))) (anns_weight _))
    (Nat.le_refl _)) (Nat.le_of_eq hr)) (part_write (typeMap_write hX _))) 1) ?_
  have he : (a.extra.ents.map fun e => 1 + nodeWeight e.2).sum = mapWeight nodeWeight a.extra := rfl
  simp only [apiWeight]
  omega

/-- C96: reading an API document and writing it again makes it at most three times as large. -/
theorem C96_api_rewritten {X : Xyml} (hX : Single X) {n : Node} {a : APISpec}
    (h : parseApi X n = .ok a) : nodeWeight (a.toYAML X) ≤ 3 * nodeWeight n := by
  have := C96_api hX a
  have := C88_api X n a h
  omega

/-- The bound is reached: the title is always written. -/
example : ∃ a, parseApi Xyml.std (.map []) = .ok a ∧ nodeWeight (a.toYAML Xyml.std) = 3 ∧
    nodeWeight (.map []) = 1 := ⟨_, rfl, rfl, rfl⟩

/-- Concrete case: media types given as one string, a type and an annotation. -/
example : ∃ a, parseApi Xyml.std (.map [(.str "title", .str "t"), (.str "mediaType", .str "m"),
      (.str "types", .map [(.str "A", .map [(.str "example", .str "x")])]),
      (.str "(n)", .map [(.str "k", .str "v")])]) = .ok a ∧
    nodeWeight (a.toYAML Xyml.std) = 21 ∧ apiWeight a = 12 := by
  refine ⟨_, rfl, ?_, ?_⟩ <;> decide +kernel

/-- C96: a written library. -/
theorem C96_library {X : Xyml} (hX : Single X) (l : Library) :
    nodeWeight (l.toYAML X) ≤ 3 * libWeight l := by
  have hf : (l.marshal X).omap = false := by simp [Library.marshal, OM.empty]
  simp only [Library.toYAML]
  rw [renderAny_weight hX _ hf]
  have step : ∀ {o : OM Scalar Node} {a : Nat} {k : Scalar} {v : Option Node} {c : Nat},
      mapWeight nodeWeight o ≤ a → optWeight nodeWeight v ≤ c →
      mapWeight nodeWeight (o.putOpt k v) ≤ a + c := fun h1 h2 =>
    Nat.le_trans (putOpt_weight _ _ _) (Nat.add_le_add h1 h2)
  have all : ∀ {o : OM Scalar Node} {a : Nat} {es : List (Scalar × Node)} {c : Nat},
      mapWeight nodeWeight o ≤ a → (es.map fun e => 1 + nodeWeight e.2).sum ≤ c →
      mapWeight nodeWeight (o.putAll es) ≤ a + c := fun h1 h2 =>
    Nat.le_trans (putAll_weight _ _) (Nat.add_le_add h1 h2)
  have h0 : mapWeight nodeWeight (OM.empty false : OM Scalar Node) ≤ 0 := Nat.le_refl _
  refine Nat.le_trans (Nat.add_le_add_left (step (all (step (all (step (step (step (step (step h0
    (plain_weight (fun _ => rfl) _)) (part_write (strings_write _)))
    (part_write (untyped_write _))) (part_write (untyped_write _))) (part_write (untyped_write _)))
    (anns_weight _)) (part_write (untyped_write _))) (Nat.le_refl _))
    (part_write (typeMap_write hX _))) 1) ?_
  have he : (l.extra.ents.map fun e => 1 + nodeWeight e.2).sum = mapWeight nodeWeight l.extra := rfl
  simp only [libWeight]
  omega

/-- C96: reading a library and writing it again makes it at most three times as large. -/
theorem C96_library_rewritten {X : Xyml} (hX : Single X) {o : Option Node} {l : Library}
    (h : parseLibrary X o = .ok l) :
    nodeWeight (l.toYAML X) ≤ 3 * (o.map nodeWeight).getD 1 := by
  have := C96_library hX l
  have := C88_library X o l h
  omega

/-- Concrete case: annotation types of a library are written as top-level annotations, in order. -/
example : ∃ l, parseLibrary Xyml.std (some (.map [(.str "annotationTypes",
      .map [(.str "a", .map [(.str "type", .str "string")])])])) = .ok l ∧
    nodeWeight (l.toYAML Xyml.std) = 6 ∧ libWeight l = 4 := by
  refine ⟨_, rfl, ?_, ?_⟩ <;> decide +kernel

end Verif.Props
