import Verif.Doc.Parsed
import Verif.Doc.RenameSpec

/-! # Reading and writing commute with renaming -/

namespace Verif.Doc
open Verif Verif.Doc.Spec

variable {X : Xyml} {r : String → String}

/-! ### Trees -/

theorem renNodes_eq (ns : List Node) : renNodes r ns = ns.map (renNode r) := by
  induction ns with
  | nil => simp [renNodes]
  | cons n ns ih => simp [renNodes, ih]

theorem renPairs_eq (ps : List (Node × Node)) :
    renPairs r ps = ps.map fun p => (renNode r p.1, renNode r p.2) := by
  induction ps with
  | nil => simp [renPairs]
  | cons p ps ih => obtain ⟨k, v⟩ := p; simp [renPairs, renPair, ih]

theorem ren_scalar (t s : String) : renNode r (.scalar t s) = .scalar t (r s) := by simp [renNode]

theorem ren_seq (t : String) (ns : List Node) :
    renNode r (.seq t ns) = .seq t (ns.map (renNode r)) := by simp [renNode, renNodes_eq]

theorem ren_map (ps : List (Node × Node)) :
    renNode r (.map ps) = .map (ps.map fun p => (renNode r p.1, renNode r p.2)) := by
  simp [renNode, renPairs_eq]

theorem ren_str (s : String) : renNode r (.str s) = .str (r s) := ren_scalar _ _

theorem ren_isStr (n : Node) : (renNode r n).isStr = n.isStr := by
  cases n <;> simp [ren_scalar, ren_seq, ren_map, Node.isStr]

theorem ren_value (h : Renaming r) (n : Node) : (renNode r n).value = r n.value := by
  have : r "" = "" := h.word _ (by decide)
  cases n <;> simp [ren_scalar, ren_seq, ren_map, Node.value, this]

theorem ren_eq (h : Renaming r) {w : String} (hw : w ∈ reservedWords) (s : String) :
    (r s = w) = (s = w) := by
  refine propext ⟨fun e => h.inj ?_, fun e => ?_⟩
  · rw [e, h.word _ hw]
  · rw [e, h.word _ hw]

theorem renKey_inj (h : Renaming r) {a b : Scalar} (e : renKey r a = renKey r b) : a = b := by
  cases a <;> cases b <;> simp_all [renKey]
  exact h.inj e

/-! ### Dictionaries -/

section Maps
variable {K V : Type} [DecidableEq K] {f : K → K} {g : V → V}

omit [DecidableEq K] in
theorem ren_empty (b : Bool) : renMap f g (OM.empty b : OM K V) = OM.empty b := rfl

theorem ren_put (hf : ∀ {a b}, f a = f b → a = b) (m : OM K V) (k : K) (v : V) :
    renMap f g (m.put k v) = (renMap f g m).put (f k) (g v) := by
  simp only [renMap, OM.put, List.map_append, List.map_cons, List.map_nil, List.filter_map]
  congr 3
  refine List.filter_congr (fun e _ => ?_)
  simp only [Function.comp_apply]
  by_cases he : e.1 = k
  · simp [he]
  · have : f e.1 ≠ f k := fun h => he (hf h)
    rw [beq_eq_false_iff_ne.mpr he, beq_eq_false_iff_ne.mpr this]

theorem ren_putOpt (hf : ∀ {a b}, f a = f b → a = b) (m : OM K V) (k : K) (o : Option V) :
    renMap f g (m.putOpt k o) = (renMap f g m).putOpt (f k) (o.map g) := by
  cases o with
  | none => rfl
  | some v => exact ren_put hf m k v

theorem ren_putAll (hf : ∀ {a b}, f a = f b → a = b) (m : OM K V) (es : List (K × V)) :
    renMap f g (m.putAll es) = (renMap f g m).putAll (es.map fun e => (f e.1, g e.2)) := by
  induction es generalizing m with
  | nil => rfl
  | cons e es ih =>
    simp only [List.map_cons, OM.putAll_cons]
    rw [ih, ren_put hf]

omit [DecidableEq K] in
theorem ren_len (m : OM K V) : (renMap f g m).len = m.len := by simp [renMap, OM.len]

end Maps

/-! ### Loops -/

theorem map_map {α β γ : Type} (x : Res α) (f : α → β) (g : β → γ) :
    (x.map f).map g = x.map fun a => g (f a) := by cases x <;> rfl

theorem map_ok {α β : Type} (a : α) (f : α → β) : (Res.ok a).map f = .ok (f a) := rfl

theorem map_bind {α β γ : Type} (x : Res α) (f : α → Res β) (g : β → γ) :
    (x.bind f).map g = x.bind fun a => (f a).map g := by cases x <;> rfl

theorem bind_map {α β γ : Type} (x : Res α) (f : α → β) (g : β → Res γ) :
    (x.map f).bind g = x.bind fun a => g (f a) := by cases x <;> rfl

theorem ren_pairs {σ : Type} {F : Node → Node → σ → Res σ} {g : σ → σ} (ps : List (Node × Node))
    (hF : ∀ p ∈ ps, ∀ s, F (renNode r p.1) (renNode r p.2) (g s) = (F p.1 p.2 s).map g) (s : σ) :
    forPairs F (ps.map fun p => (renNode r p.1, renNode r p.2)) (g s) = (forPairs F ps s).map g := by
  induction ps generalizing s with
  | nil => rfl
  | cons p ps ih =>
    simp only [List.map_cons, forPairs]
    rw [hF p (by simp), bind_map, map_bind]
    congr 1
    funext a
    exact ih (fun q hq => hF q (by simp [hq])) a

theorem ren_mapEach {σ : Type} {F : Node → Node → σ → Res σ} {g : σ → σ} (v : Node)
    (hF : ∀ p ∈ mapEntries v, ∀ s, F (renNode r p.1) (renNode r p.2) (g s) = (F p.1 p.2 s).map g)
    (s : σ) : mapForEach F (renNode r v) (g s) = (mapForEach F v s).map g := by
  cases v with
  | map ps => rw [ren_map]; exact ren_pairs ps hF s
  | scalar a b => rw [ren_scalar]; rfl
  | seq a b => rw [ren_seq]; rfl

theorem ren_seqEach {σ : Type} {F : Node → σ → Res σ} {g : σ → σ} (v : Node)
    (hF : ∀ n, ∀ s, F (renNode r n) (g s) = (F n s).map g) (s : σ) :
    seqForEach F (renNode r v) (g s) = (seqForEach F v s).map g := by
  cases v with
  | map ps => rw [ren_map]; rfl
  | scalar a b => rw [ren_scalar]; rfl
  | seq a ns =>
    rw [ren_seq]
    simp only [seqForEach]
    induction ns generalizing s with
    | nil => rfl
    | cons n ns ih =>
      simp only [List.map_cons, forItems]
      rw [hF, bind_map, map_bind]
      congr 1
      funext a
      exact ih a

/-! ### Helpers -/

theorem ren_asString (h : Renaming r) (v : Node) : asString (renNode r v) = (asString v).map r := by
  unfold asString
  rw [ren_isStr, ren_value h]
  split <;> rfl

theorem ren_dateFormat (h : Renaming r) (v : Node) :
    loadDateFormat (renNode r v) = (loadDateFormat v).map r := by
  unfold loadDateFormat
  rw [ren_isStr, ren_value h]
  split <;> rfl

theorem ren_asBool (hX : Blind X r) (v : Node) : asBool X (renNode r v) = asBool X v := by
  unfold asBool
  rw [hX.toBool]

theorem ren_asInt (hX : Blind X r) (v : Node) : asInt X (renNode r v) = asInt X v := by
  unfold asInt
  rw [hX.toInt]

theorem ren_asFlt (hX : Blind X r) (v : Node) : asFlt X (renNode r v) = asFlt X v := by
  unfold asFlt
  rw [hX.toFlt]

theorem ren_asUint (hX : Blind X r) (v : Node) : asUint X (renNode r v) = asUint X v := by
  unfold asUint
  rw [ren_asInt hX]

theorem ren_asScalar (hX : Blind X r) (v : Node) :
    asScalar X (renNode r v) = (asScalar X v).map (renKey r) := by
  unfold asScalar
  rw [hX.toScalar]
  cases X.toScalar v <;> rfl

theorem ren_stringList (h : Renaming r) (v : Node) :
    asStringList (renNode r v) = (asStringList v).map fun l => l.map r := by
  unfold asStringList
  refine ren_seqEach (g := fun l : List String => l.map r) v (fun n s => ?_) []
  rw [ren_asString h, map_map, map_map]
  simp

theorem ren_untyped (h : Renaming r) (m : OM String Node) (v : Node) :
    loadUntyped (renUntyped r m) (renNode r v) = (loadUntyped m v).map (renUntyped r) := by
  unfold loadUntyped
  refine ren_mapEach v (fun p _ s => ?_) m
  rw [ren_asString h, map_map, map_map]
  simp only [ren_put h.inj]

theorem ren_ann (h : Renaming r) (v : Node) :
    loadAnn (renNode r v) = (loadAnn v).map (renMap r (renNode r)) := ren_untyped h (OM.empty true) v

theorem ren_loader {V : Type} (h : Renaming r) {G : Node → Res V} {g : V → V} (v : Node)
    (hG : ∀ p ∈ mapEntries v, G (renNode r p.2) = (G p.2).map g) (m : OM String V) :
    mapForEach (fun k v m => (asString k).bind fun s => (G v).map fun x => m.put s x) (renNode r v)
      (renMap r g m) = (mapForEach (fun k v m => (asString k).bind fun s => (G v).map fun x =>
        m.put s x) v m).map (renMap r g) := by
  refine ren_mapEach v (fun p hp s => ?_) m
  rw [ren_asString h, bind_map, map_bind]
  simp only [hG p hp, map_map, ren_put h.inj]

theorem ren_strings (h : Renaming r) (m : OM String String) (v : Node) :
    loadStrings (renMap r r m) (renNode r v) = (loadStrings m v).map (renMap r r) :=
  ren_loader h (G := asString) v (fun p _ => ren_asString h p.2) m

theorem ren_anns (h : Renaming r) (m : OM String Ann) (v : Node) :
    loadAnns (renAnns r m) (renNode r v) = (loadAnns m v).map (renAnns r) :=
  ren_loader h (G := loadAnn) v (fun p _ => ren_ann h p.2) m

/-! ### Examples, XML settings, enums -/

theorem ren_exampleVal (h : Renaming r) (hX : Blind X r) (kd : Kind) (v : Node) :
    exampleVal X kd (renNode r v) = (exampleVal X kd v).map (renVal r) := by
  cases kd <;> simp only [exampleVal, ren_asString h, ren_asBool hX, ren_asInt hX, ren_asFlt hX,
    map_map, renVal] <;> try rfl
  cases v <;> simp [ren_scalar, ren_seq, ren_map, Res.map, renVal]

theorem ren_enumVal (hX : Blind X r) (kd : Kind) (v : Node) :
    enumVal X kd (renNode r v) = (enumVal X kd v).map (renVal r) := by
  cases kd <;> simp only [enumVal, ren_asBool hX, ren_asInt hX, ren_asFlt hX, map_map, renVal,
    hX.toStr] <;> try rfl
  all_goals cases X.toStr v <;> rfl

theorem ren_enum (hX : Blind X r) (kd : Kind) (l : Option (List Val)) (v : Node) :
    loadEnum X kd (l.map fun l => l.map (renVal r)) (renNode r v) =
      (loadEnum X kd l v).map fun l => l.map fun l => l.map (renVal r) := by
  unfold loadEnum
  refine ren_seqEach (g := fun l : Option (List Val) => l.map fun l => l.map (renVal r)) v
    (fun n s => ?_) l
  rw [ren_enumVal hX, map_map, map_map]
  cases s <;> simp [pushEnum]

theorem ren_xml_assign (h : Renaming r) (hX : Blind X r) (k v : Node) (x : XML) :
    XML.assign X (renNode r k) (renNode r v) (renXML r x) = (XML.assign X k v x).map (renXML r) := by
  unfold XML.assign
  simp only [ren_value h, ren_eq h (w := "attribute") (by decide), ren_eq h (w := "wrapped") (by decide),
    ren_eq h (w := "name") (by decide), ren_eq h (w := "namespace") (by decide),
    ren_eq h (w := "prefix") (by decide)]
  simp only [ren_asString h, ren_asBool hX, ren_asScalar hX]
  split_ifs <;> simp only [map_map, renXML, Option.map_some, ren_put (f := renKey r) (renKey_inj h)]

theorem ren_xml_load (h : Renaming r) (hX : Blind X r) (v : Node) (x : XML) :
    (renXML r x).unmarshal X (renNode r v) = (x.unmarshal X v).map (renXML r) :=
  ren_mapEach v (fun p _ s => ren_xml_assign h hX p.1 p.2 s) x

theorem ren_loadXML (h : Renaming r) (hX : Blind X r) (v : Node) :
    loadXML X (renNode r v) = (loadXML X v).map (renXML r) := ren_xml_load h hX v XML.new

theorem ren_first (h : Renaming r) (s : String) : (firstChar (r s) = none) = (firstChar s = none) := by
  have e : ∀ t, (firstChar t = none) = (t = "") := by
    intro t
    simp [firstChar]
  rw [e, e, ren_eq h (by decide)]

theorem ren_example_assign (h : Renaming r) (hX : Blind X r) (k v : Node) (e : Example) :
    Example.assign X (renNode r k) (renNode r v) (renExample r e) =
      (Example.assign X k v e).map (renExample r) := by
  have hx : ∀ e, Example.putExtra X (renNode r k) (renNode r v) (renExample r e) =
      (Example.putExtra X k v e).map (renExample r) := by
    intro e
    unfold Example.putExtra
    simp only [ren_asScalar hX, map_map, renExample, ren_put (f := renKey r) (renKey_inj h)]
  unfold Example.assign
  simp only [ren_isStr, ren_value h, ren_eq h (w := "displayName") (by decide),
    ren_eq h (w := "description") (by decide), ren_eq h (w := "strict") (by decide),
    ren_eq h (w := "value") (by decide), hx]
  have h1 := ren_first h k.value
  have h2 := h.paren k.value
  cases ha : firstChar k.value <;> cases hb : firstChar (r k.value) <;> rw [ha, hb] at h1 h2 <;>
    simp only [reduceCtorEq, eq_iff_iff, iff_false, iff_true, not_true,
      Option.some.injEq] at h1 h2
  · split <;> rfl
  · simp only [h2, ren_asString h, ren_asBool hX, ren_ann h]
    split_ifs <;> simp only [map_map, renExample, Option.map_some, ren_put h.inj, ren_exampleVal h hX]

theorem ren_example_load (h : Renaming r) (hX : Blind X r) (v : Node) (e : Example) :
    (renExample r e).unmarshal X (renNode r v) = (e.unmarshal X v).map (renExample r) := by
  have hv : ∀ v, ((exampleVal X (renExample r e).kind (renNode r v)).map fun x =>
      { renExample r e with value := some x }) =
      ((exampleVal X e.kind v).map fun x => { e with value := some x }).map (renExample r) := by
    intro v
    simp only [renExample, ren_exampleVal h hX, map_map, Option.map_some]
  cases v with
  | map ps =>
    rw [ren_map]
    exact ren_pairs ps (fun p _ s => ren_example_assign h hX p.1 p.2 s) e
  | scalar a b => have := hv (.scalar a b); rw [ren_scalar] at this ⊢; exact this
  | seq a b => have := hv (.seq a b); rw [ren_seq] at this ⊢; exact this

theorem ren_loadExample (h : Renaming r) (hX : Blind X r) (kd : Kind) (v : Node) :
    loadExample X kd (renNode r v) = (loadExample X kd v).map (renExample r) := by
  unfold loadExample
  have e : exampleSortingHat kd = (exampleSortingHat kd).map (renExample r) := by cases kd <;> rfl
  rw [map_bind]
  conv_lhs => rw [e]
  rw [bind_map]
  simp only [ren_example_load h hX]

theorem ren_examples (h : Renaming r) (hX : Blind X r) (kd : Kind) (m : OM String Example)
    (v : Node) : loadExamples X kd (renMap r (renExample r) m) (renNode r v) =
      (loadExamples X kd m v).map (renMap r (renExample r)) :=
  ren_loader h (G := fun n => (Example.new kd).unmarshal X n) v
    (fun p _ => ren_example_load h hX p.2 (Example.new kd)) m

/-! ### Types -/

theorem renTypeList_eq (es : List (String × DT)) :
    renTypeList r es = es.map fun e => (r e.1, renType r e.2) := by
  induction es with
  | nil => simp [renTypeList]
  | cons e es ih => obtain ⟨k, t⟩ := e; simp [renTypeList, ih]

theorem renFacetList_eq (es : List (String × OM String DT)) :
    renFacetList r es = es.map fun e => (r e.1, renMap r (renType r) e.2) := by
  induction es with
  | nil => simp [renFacetList]
  | cons e es ih =>
    obtain ⟨k, ⟨ts, o⟩⟩ := e
    simp [renFacetList, ih, renTypeList_eq, renMap]

theorem renItems_eq (o : Option DT) : renItems r o = o.map (renType r) := by
  cases o <;> simp [renItems]

theorem ren_ext (h : Hdr) (b : Body) (fs : OM String (OM String DT)) (ps : OM String DT)
    (it : Option DT) : renType r (.ext h b fs ps it) = .ext (renHdr r h) (renBody r b)
      (renMap r (renMap r (renType r)) fs) (renMap r (renType r) ps) (it.map (renType r)) := by
  simp only [renType, renTypeList_eq, renFacetList_eq, renItems_eq, renMap]

theorem ren_basic (i : Bool) (s : String) (x : OM Scalar Node) :
    renType r (.basic i s x) = .basic i (r s) (renExtra r x) := by simp only [renType]

theorem ren_bodyKind (b : Body) : (renBody r b).kind = b.kind := by cases b <;> rfl
theorem ren_isObject (b : Body) : (renBody r b).isObject = b.isObject := by cases b <;> rfl
theorem ren_isArray (b : Body) : (renBody r b).isArray = b.isArray := by cases b <;> rfl

theorem ren_isProperty (t : DT) : (renType r t).isProperty = t.isProperty := by
  cases t
  · rw [ren_basic]; rfl
  · rw [ren_ext]; rfl

theorem ren_kind (t : DT) : (renType r t).kind = t.kind := by
  cases t
  · rw [ren_basic]; rfl
  · rw [ren_ext]; exact ren_bodyKind _

theorem ren_new (h : Renaming r) (kd : Kind) : renType r (DT.new kd) = DT.new kd := by
  have hn : ∀ kd : Kind, r kd.name = kd.name := fun kd => h.word _ (by cases kd <;> decide)
  have hh : ∀ kd, renHdr r (Hdr.new kd) = Hdr.new kd := by
    intro kd
    simp only [Hdr.new, renHdr, hn]
    rfl
  cases kd <;> simp only [DT.new, DT.newExt, ren_ext, ren_basic, hn, hh] <;> rfl

theorem ren_setSchema (s : String) (t : DT) :
    renType r (t.setSchema s) = (renType r t).setSchema (r s) := by
  cases t
  · simp only [DT.setSchema, ren_basic]
  · simp only [DT.setSchema, ren_ext, renHdr]

theorem ren_typeToKind (h : Renaming r) (s : String) :
    typeToKind (r s) = renType r (typeToKind s) := by
  unfold typeToKind
  simp only [ren_eq h (w := "any") (by decide), ren_eq h (w := "array") (by decide),
    ren_eq h (w := "boolean") (by decide), ren_eq h (w := "date-only") (by decide),
    ren_eq h (w := "datetime") (by decide), ren_eq h (w := "datetime-only") (by decide),
    ren_eq h (w := "file") (by decide), ren_eq h (w := "integer") (by decide),
    ren_eq h (w := "nil") (by decide), ren_eq h (w := "number") (by decide),
    ren_eq h (w := "object") (by decide), ren_eq h (w := "string") (by decide),
    ren_eq h (w := "time-only") (by decide), h.incl, h.bar]
  simp only [apply_ite (renType r), ren_setSchema, ren_new h]

theorem ren_scan (h : Renaming r) (ps : List (Node × Node)) (p i : Bool) :
    siftScan (ps.map fun p => (renNode r p.1, renNode r p.2)) p i =
      ((siftScan ps p i).1.map (renNode r), (siftScan ps p i).2) := by
  have hb : ∀ w ∈ reservedWords, ∀ s, (r s == w) = (s == w) := by
    intro w hw s
    rw [Bool.eq_iff_iff, beq_iff_eq, beq_iff_eq, ren_eq h hw]
  induction ps generalizing p i with
  | nil => rfl
  | cons e ps ih =>
    obtain ⟨k, v⟩ := e
    simp only [List.map_cons, siftScan]
    simp only [ren_value h, ren_eq h (w := "type") (by decide), ren_eq h (w := "schema") (by decide),
      hb "properties" (by decide), hb "items" (by decide)]
    split
    · rfl
    · exact ih _ _

theorem ren_sift (h : Renaming r) (ps : List (Node × Node)) :
    siftType (ps.map fun p => (renNode r p.1, renNode r p.2)) = (siftType ps).map (renType r) := by
  unfold siftType
  rw [ren_scan h]
  obtain ⟨o, p, i⟩ := siftScan ps false false
  cases o with
  | none =>
    simp only [Option.map_none]
    split
    · simp [Res.map, ren_new h]
    split <;> simp [Res.map, ren_new h]
  | some t =>
    simp only [Option.map_some, ren_isStr, ren_value h, ren_typeToKind h]
    split
    · rfl
    cases t with
    | seq a b => rw [ren_seq]; rfl
    | map a => rw [ren_map]; rfl
    | scalar a b =>
      simp only [ren_scalar]
      split
      · simp [Res.map, ren_new h]
      · rfl

/-- Rename in an outcome that may be missing. -/
theorem ren_common (h : Renaming r) (hX : Blind X r) (kd : Kind) (k : String) (v : Node) (x : Hdr) :
    (renHdr r x).assignCommon X kd (r k) (renNode r v) =
      (x.assignCommon X kd k v).map fun o => o.map (renHdr r) := by
  unfold Hdr.assignCommon
  simp only [ren_eq h (w := "example") (by decide), ren_eq h (w := "examples") (by decide),
    ren_eq h (w := "enum") (by decide), ren_eq h (w := "required") (by decide)]
  have he := ren_examples h hX kd x.examples v
  have hl := ren_enum hX kd x.enum v
  simp only [ren_loadExample h hX, ren_asBool hX]
  split_ifs
  · simp only [Option.map_some, map_map, renHdr]
  · simp only [Option.map_some, map_map]
    show some ((loadExamples X kd (renMap r (renExample r) x.examples) (renNode r v)).map _) = _
    rw [he, map_map]
    rfl
  · simp only [Option.map_some, map_map]
    show some ((loadEnum X kd (x.enum.map fun l => l.map (renVal r)) (renNode r v)).map _) = _
    rw [hl, map_map]
    rfl
  · simp only [Option.map_some, map_map, renHdr]
  · rfl

theorem ren_bodyAssign (h : Renaming r) (hX : Blind X r) (k : String) (v : Node) (b : Body) :
    (renBody r b).assign X (r k) (renNode r v) =
      (b.assign X k v).map fun o => o.map (renBody r) := by
  have w1 : (r k = "pattern") = (k = "pattern") := ren_eq h (by decide) k
  have w2 : (r k = "minLength") = (k = "minLength") := ren_eq h (by decide) k
  have w3 : (r k = "maxLength") = (k = "maxLength") := ren_eq h (by decide) k
  have w4 : (r k = "fileTypes") = (k = "fileTypes") := ren_eq h (by decide) k
  have w5 : (r k = "uniqueItems") = (k = "uniqueItems") := ren_eq h (by decide) k
  have w6 : (r k = "minItems") = (k = "minItems") := ren_eq h (by decide) k
  have w7 : (r k = "maxItems") = (k = "maxItems") := ren_eq h (by decide) k
  have w8 : (r k = "minProperties") = (k = "minProperties") := ren_eq h (by decide) k
  have w9 : (r k = "maxProperties") = (k = "maxProperties") := ren_eq h (by decide) k
  have w10 : (r k = "additionalProperties") = (k = "additionalProperties") := ren_eq h (by decide) k
  have w11 : (r k = "discriminator") = (k = "discriminator") := ren_eq h (by decide) k
  have w12 : (r k = "discriminatorValue") = (k = "discriminatorValue") := ren_eq h (by decide) k
  have w13 : (r k = "format") = (k = "format") := ren_eq h (by decide) k
  have w14 : (r k = "minimum") = (k = "minimum") := ren_eq h (by decide) k
  have w15 : (r k = "maximum") = (k = "maximum") := ren_eq h (by decide) k
  have w16 : (r k = "multipleOf") = (k = "multipleOf") := ren_eq h (by decide) k
  cases b <;> simp only [renBody, Body.assign, ren_asString h, ren_asBool hX, ren_asUint hX,
    ren_asFlt hX, ren_asInt hX, ren_stringList h, ren_dateFormat h, Option.map_none,
    w1, w2, w3, w4, w5, w6, w7, w8, w9, w10, w11, w12, w13, w14, w15, w16,
    apply_ite (Option.map fun o : Res Body => o.map (renBody r)), Option.map_some, map_map]
  all_goals rfl

theorem ren_assignBase (h : Renaming r) (k v : Node) (s : String) (x : OM Scalar Node) :
    assignBase (renNode r k) (renNode r v) (r s) (renExtra r x) =
      (assignBase k v s x).map fun p => (r p.1, renExtra r p.2) := by
  unfold assignBase
  simp only [ren_value h, ren_eq h (w := "type") (by decide), ren_eq h (w := "schema") (by decide),
    ren_asString h]
  split
  · simp only [map_map]
  · have e := ren_put (f := renKey r) (g := renNode r) (renKey_inj h) x (.str k.value) v
    rw [map_ok]
    show _ = Res.ok (r s, renMap (renKey r) (renNode r) (x.put (.str k.value) v))
    rw [e]
    rfl

theorem ren_hdrBase (h : Renaming r) (k v : Node) (x : Hdr) :
    (renHdr r x).assignBase (renNode r k) (renNode r v) = (x.assignBase k v).map (renHdr r) := by
  unfold Hdr.assignBase
  show (assignBase (renNode r k) (renNode r v) (r x.schema) (renExtra r x.extra)).map _ = _
  rw [ren_assignBase h, map_map, map_map]
  rfl

theorem ren_annIn (h : Renaming r) (k : String) (v : Node) (m : OM String Ann) :
    annIn (r k) (renNode r v) (renAnns r m) =
      (annIn k v m).map fun o => o.map (renAnns r) := by
  unfold annIn
  have h1 := ren_first h k
  have h2 := h.paren k
  cases ha : firstChar k <;> cases hb : firstChar (r k) <;> rw [ha, hb] at h1 h2 <;>
    simp only [reduceCtorEq, eq_iff_iff, iff_false, iff_true, not_true,
      Option.some.injEq] at h1 h2
  · rfl
  · simp only [h2, ren_ann h]
    split_ifs
    · simp only [map_map, Option.map_some, ren_put h.inj]
    · rfl

theorem ren_assignExt (h : Renaming r) (hX : Blind X r) (k v : Node) (x : Hdr) :
    (renHdr r x).assignExt X (renNode r k) (renNode r v) = (x.assignExt X k v).map (renHdr r) := by
  unfold Hdr.assignExt
  simp only [ren_value h, ren_eq h (w := "displayName") (by decide),
    ren_eq h (w := "description") (by decide), ren_eq h (w := "xml") (by decide), ren_isStr,
    ren_asString h, ren_loadXML h hX, ren_hdrBase h]
  split_ifs
  · simp only [map_map, renHdr, Option.map_some]
  · simp only [map_map, renHdr, Option.map_some]
  · simp only [map_map, renHdr, Option.map_some]
  · show (annIn (r k.value) (renNode r v) (renAnns r x.annotations)).bind _ = _
    rw [ren_annIn h, bind_map, map_bind]
    congr 1
    funext o
    cases o with
    | none => rfl
    | some m => rfl
  · rfl

theorem ren_flat (h : Renaming r) (hX : Blind X r) (k v : Node) (x : Hdr) (b : Body) :
    assignFlat X (renNode r k) (renNode r v) (renHdr r x) (renBody r b) =
      (assignFlat X k v x b).map fun p => (renHdr r p.1, renBody r p.2) := by
  unfold assignFlat
  rw [ren_value h, ren_bodyKind, ren_common h hX, ren_bodyAssign h hX, ren_assignExt h hX]
  cases x.assignCommon X b.kind k.value v with
  | some o => simp only [Option.map_some, map_map]
  | none =>
    cases b.assign X k.value v with
    | some o => simp only [Option.map_some, Option.map_none, map_map]
    | none => simp only [Option.map_none, map_map]

/-- Reading a type commutes with renaming, given that it does so for the smaller trees. -/
theorem ren_assign_ih (h : Renaming r) (hX : Blind X r) (k v : Node)
    (ih : ∀ n, sizeOf n ≤ sizeOf v → hat X (renNode r n) = (hat X n).map (renType r)) (t : DT) :
    assign X (renNode r k, renNode r v) (renType r t) = (assign X (k, v) t).map (renType r) := by
  have hent : ∀ v' : Node, ∀ p ∈ mapEntries v', sizeOf p.2 ≤ sizeOf v' := by
    intro v p hp
    cases v with
    | map ps => exact Nat.le_of_lt (size_entry hp)
    | scalar a b => cases hp
    | seq a b => cases hp
  have hty : ∀ w, sizeOf w ≤ sizeOf v → ∀ m, loadTypes X (renNode r w) (renMap r (renType r) m) =
      (loadTypes X w m).map (renMap r (renType r)) := by
    intro w hw m
    rw [loadTypes_eq, loadTypes_eq]
    refine ren_mapEach w (fun p hp s => ?_) m
    simp only [loadType]
    rw [ren_asString h, ih p.2 (Nat.le_trans (hent w p hp) hw), bind_map, map_bind]
    simp only [bind_map, map_bind, map_ok, ren_put h.inj]
  cases t with
  | basic i s x =>
    simp only [ren_basic, assign]
    rw [ren_assignBase h, map_map, map_map]
    simp only [ren_basic]
  | ext x b fs ps it =>
    simp only [ren_ext, assign]
    simp only [ren_value h, ren_eq h (w := "facets") (by decide), ren_eq h (w := "properties") (by decide),
      ren_eq h (w := "items") (by decide), ren_isObject, ren_isArray]
    split_ifs
    · rw [loadFacets_eq, loadFacets_eq, map_map]
      rw [ren_mapEach (g := renMap r (renMap r (renType r))) v (fun p hp s => ?_) fs, map_map]
      · simp only [ren_ext]
      · simp only [loadFacet]
        have := hty p.2 (hent v p hp) (OM.empty true)
        rw [ren_empty] at this
        rw [ren_asString h, this, bind_map, map_bind]
        simp only [bind_map, map_bind, map_ok, ren_put h.inj]
    · rw [loadProps_eq, loadProps_eq, map_map]
      rw [ren_mapEach (g := renMap r (renType r)) v (fun p hp s => ?_) ps, map_map]
      · simp only [ren_ext]
      · simp only [loadProp]
        rw [ren_asString h, ih p.2 (hent v p hp), bind_map, map_bind]
        congr 1
        funext a
        rw [bind_map, map_bind]
        congr 1
        funext t
        rw [ren_isProperty]
        split
        · simp only [Res.map, Res.bind_ok, ren_put h.inj]
        · rfl
    · rw [ih v (Nat.le_refl _), map_map, map_map]
      simp only [ren_ext, Option.map_some]
    · rw [ren_flat h hX, map_map, map_map]
      simp only [ren_ext]

theorem ren_hat (h : Renaming r) (hX : Blind X r) (n : Node) :
    hat X (renNode r n) = (hat X n).map (renType r) := by
  have main : ∀ k n, sizeOf n < k → hat X (renNode r n) = (hat X n).map (renType r) := by
    intro k
    induction k with
    | zero => intro n hn; omega
    | succ k ih =>
      intro n hsz
      cases n with
      | seq a b => rw [ren_seq]; simp [hat, Res.map]
      | scalar a b =>
        rw [ren_scalar]
        simp only [hat]
        split
        · simp [Res.map, ren_typeToKind h]
        split
        · simp [Res.map, ren_setSchema, ren_new h]
        · rfl
      | map ps =>
        rw [ren_map]
        simp only [hat]
        rw [ren_sift h, bind_map, map_bind]
        congr 1
        funext t
        rw [assignAll_eq, assignAll_eq]
        exact ren_pairs ps (fun p hp s => ren_assign_ih h hX p.1 p.2
          (fun m hm => ih m (by have := size_entry hp; omega)) s) t
  exact main _ n (Nat.lt_succ_self _)

theorem ren_type_load (h : Renaming r) (hX : Blind X r) (n : Node) (t : DT) :
    (renType r t).unmarshal X (renNode r n) = (t.unmarshal X n).map (renType r) := by
  unfold DT.unmarshal
  rw [ren_isStr, ren_value h]
  split
  · simp [Res.map, ren_setSchema]
  · cases n with
    | seq a b => rw [ren_seq]; rfl
    | scalar a b => rw [ren_scalar]; rfl
    | map ps =>
      rw [ren_map]
      simp only
      rw [assignAll_eq, assignAll_eq]
      exact ren_pairs ps (fun p _ s => ren_assign_ih h hX p.1 p.2 (fun m _ => ren_hat h hX m) s) t

theorem ren_types (h : Renaming r) (hX : Blind X r) (v : Node) (m : OM String DT) :
    loadTypes X (renNode r v) (renMap r (renType r) m) =
      (loadTypes X v m).map (renMap r (renType r)) := by
  rw [loadTypes_eq, loadTypes_eq]
  refine ren_mapEach v (fun p hp s => ?_) m
  simp only [loadType]
  rw [ren_asString h, ren_hat h hX, bind_map, map_bind]
  simp only [bind_map, map_bind, map_ok, ren_put h.inj]

/-! ### Documents -/

theorem ren_doc_load (h : Renaming r) (hX : Blind X r) (v : Node) (d : Documentation) :
    (renDoc r d).unmarshal X (renNode r v) = (d.unmarshal X v).map (renDoc r) := by
  refine ren_mapEach v (fun p _ d => ?_) d
  unfold Documentation.assign
  simp only [ren_value h, ren_eq h (w := "title") (by decide), ren_eq h (w := "content") (by decide),
    ren_asScalar hX]
  split_ifs
  · rfl
  · rfl
  · simp only [map_map, renDoc, ren_put (f := renKey r) (renKey_inj h)]

theorem ren_docs (h : Renaming r) (hX : Blind X r) (v : Node) (l : Option (List Documentation)) :
    seqForEach (pushDoc X) (renNode r v) (l.map fun l => l.map (renDoc r)) =
      (seqForEach (pushDoc X) v l).map fun l => l.map fun l => l.map (renDoc r) := by
  refine ren_seqEach (g := fun l : Option (List Documentation) => l.map fun l => l.map (renDoc r)) v
    (fun n s => ?_) l
  have e : loadDocumentation X (renNode r n) = (loadDocumentation X n).map (renDoc r) := by
    have := ren_doc_load h hX n Documentation.new
    have hn : renDoc r Documentation.new = Documentation.new := by
      have : r "" = "" := h.word _ (by decide)
      simp only [renDoc, Documentation.new, this]
      rfl
    rw [hn] at this
    exact this
  unfold pushDoc
  rw [e, map_map, map_map]
  cases s <;> simp

theorem ren_api_key (h : Renaming r) (hX : Blind X r) (k v : Node) (a : APISpec) :
    APISpec.assignKey X (renNode r k) (renNode r v) (renApi r a) =
      (APISpec.assignKey X k v a).map (renApi r) := by
  unfold APISpec.assignKey
  simp only [ren_value h, ren_eq h (w := "title") (by decide), ren_eq h (w := "version") (by decide),
    ren_eq h (w := "baseUri") (by decide), ren_eq h (w := "description") (by decide),
    ren_eq h (w := "protocols") (by decide), ren_eq h (w := "mediaType") (by decide),
    ren_eq h (w := "documentation") (by decide), ren_eq h (w := "securedBy") (by decide),
    ren_eq h (w := "uses") (by decide), ren_eq h (w := "securitySchemes") (by decide),
    ren_eq h (w := "baseUriParameters") (by decide), ren_eq h (w := "traits") (by decide),
    ren_eq h (w := "annotationTypes") (by decide), ren_eq h (w := "resourceTypes") (by decide),
    ren_eq h (w := "types") (by decide), ren_eq h (w := "schemas") (by decide), ren_isStr,
    ren_asString h, ren_stringList h]
  have x1 := ren_docs h hX v a.documentation
  have x2 := ren_strings h a.uses v
  have x3 := ren_untyped h a.securitySchemes v
  have x4 := ren_untyped h a.baseURIParameters v
  have x5 := ren_untyped h a.traits v
  have x6 := ren_untyped h a.annotationTypes v
  have x7 := ren_untyped h a.resourceTypes v
  have x8 := ren_types h hX v a.types
  have x9 : APISpec.putExtra X (renNode r k) (renNode r v) (renApi r a) =
      (APISpec.putExtra X k v a).map (renApi r) := by
    unfold APISpec.putExtra
    simp only [ren_asScalar hX, map_map, renApi, ren_put (f := renKey r) (renKey_inj h)]
  have y1 : (renApi r a).mediaType.getD [] ++ [r v.value] =
      (a.mediaType.getD [] ++ [v.value]).map r := by
    simp only [renApi]
    cases a.mediaType <;> simp
  rw [x9]
  by_cases c1 : k.value = "title"
  · rw [if_pos c1, if_pos c1, map_map, map_map]; rfl
  rw [if_neg c1, if_neg c1]
  by_cases c2 : k.value = "version"
  · rw [if_pos c2, if_pos c2, map_map, map_map]; rfl
  rw [if_neg c2, if_neg c2]
  by_cases c3 : k.value = "baseUri"
  · rw [if_pos c3, if_pos c3, map_map, map_map]; rfl
  rw [if_neg c3, if_neg c3]
  by_cases c4 : k.value = "description"
  · rw [if_pos c4, if_pos c4, map_map, map_map]; rfl
  rw [if_neg c4, if_neg c4]
  by_cases c5 : k.value = "protocols"
  · rw [if_pos c5, if_pos c5, map_map, map_map]; rfl
  rw [if_neg c5, if_neg c5]
  by_cases c6 : k.value = "mediaType"
  · rw [if_pos c6, if_pos c6]
    split
    · rw [map_ok, y1]
      rfl
    · rw [map_map, map_map]; rfl
  rw [if_neg c6, if_neg c6]
  by_cases c7 : k.value = "documentation"
  · rw [if_pos c7, if_pos c7, map_map]
    show (seqForEach (pushDoc X) (renNode r v) (a.documentation.map fun l => l.map (renDoc r))).map _ = _
    rw [x1, map_map]; rfl
  rw [if_neg c7, if_neg c7]
  by_cases c8 : k.value = "securedBy"
  · rw [if_pos c8, if_pos c8, map_map, map_map]; rfl
  rw [if_neg c8, if_neg c8]
  by_cases c9 : k.value = "uses"
  · rw [if_pos c9, if_pos c9, map_map]
    show (loadStrings (renMap r r a.uses) (renNode r v)).map _ = _
    rw [x2, map_map]; rfl
  rw [if_neg c9, if_neg c9]
  by_cases c10 : k.value = "securitySchemes"
  · rw [if_pos c10, if_pos c10, map_map]
    show (loadUntyped (renUntyped r a.securitySchemes) (renNode r v)).map _ = _
    rw [x3, map_map]; rfl
  rw [if_neg c10, if_neg c10]
  by_cases c11 : k.value = "baseUriParameters"
  · rw [if_pos c11, if_pos c11, map_map]
    show (loadUntyped (renUntyped r a.baseURIParameters) (renNode r v)).map _ = _
    rw [x4, map_map]; rfl
  rw [if_neg c11, if_neg c11]
  by_cases c12 : k.value = "traits"
  · rw [if_pos c12, if_pos c12, map_map]
    show (loadUntyped (renUntyped r a.traits) (renNode r v)).map _ = _
    rw [x5, map_map]; rfl
  rw [if_neg c12, if_neg c12]
  by_cases c13 : k.value = "annotationTypes"
  · rw [if_pos c13, if_pos c13, map_map]
    show (loadUntyped (renUntyped r a.annotationTypes) (renNode r v)).map _ = _
    rw [x6, map_map]; rfl
  rw [if_neg c13, if_neg c13]
  by_cases c14 : k.value = "resourceTypes"
  · rw [if_pos c14, if_pos c14, map_map]
    show (loadUntyped (renUntyped r a.resourceTypes) (renNode r v)).map _ = _
    rw [x7, map_map]; rfl
  rw [if_neg c14, if_neg c14]
  by_cases c15 : k.value = "types" ∨ k.value = "schemas"
  · rw [if_pos c15, if_pos c15, map_map]
    show (loadTypes X (renNode r v) (renMap r (renType r) a.types)).map _ = _
    rw [x8, map_map]; rfl
  rw [if_neg c15, if_neg c15]

theorem ren_api_assign (h : Renaming r) (hX : Blind X r) (k v : Node) (a : APISpec) :
    APISpec.assign X (renNode r k) (renNode r v) (renApi r a) =
      (APISpec.assign X k v a).map (renApi r) := by
  unfold APISpec.assign
  have x9 : APISpec.putExtra X (renNode r k) (renNode r v) (renApi r a) =
      (APISpec.putExtra X k v a).map (renApi r) := by
    unfold APISpec.putExtra
    simp only [ren_asScalar hX, map_map, renApi, ren_put (f := renKey r) (renKey_inj h)]
  rw [ren_isStr, ren_value h, x9]
  have h1 := ren_first h k.value
  have h2 := h.paren k.value
  have h3 := h.slash k.value
  split
  · rfl
  cases ha : firstChar k.value <;> cases hb : firstChar (r k.value) <;> rw [ha, hb] at h1 h2 h3 <;>
    simp only [reduceCtorEq, eq_iff_iff, iff_false, iff_true, not_true,
      Option.some.injEq] at h1 h2 h3
  · rfl
  · simp only [h2, h3, ren_ann h, ren_api_key h hX]
    split_ifs
    · simp only [map_map, renApi, ren_put (f := r) h.inj]
    · simp only [map_ok, renApi, ren_put (f := r) h.inj]
    · rfl

theorem ren_api_load (h : Renaming r) (hX : Blind X r) (v : Node) (a : APISpec) :
    (renApi r a).unmarshal X (renNode r v) = (a.unmarshal X v).map (renApi r) :=
  ren_mapEach v (fun p _ s => ren_api_assign h hX p.1 p.2 s) a

theorem ren_api_new (h : Renaming r) : renApi r APISpec.new = APISpec.new := by
  have : r "" = "" := h.word _ (by decide)
  simp only [renApi, APISpec.new, this]
  rfl

theorem ren_lib_assign (h : Renaming r) (hX : Blind X r) (k v : Node) (a : Library) :
    Library.assign X (renNode r k) (renNode r v) (renLib r a) =
      (Library.assign X k v a).map (renLib r) := by
  unfold Library.assign
  have x9 : Library.putExtra X (renNode r k) (renNode r v) (renLib r a) =
      (Library.putExtra X k v a).map (renLib r) := by
    unfold Library.putExtra
    simp only [ren_asScalar hX, map_map, renLib, ren_put (f := renKey r) (renKey_inj h)]
  simp only [ren_value h, ren_eq h (w := "annotationTypes") (by decide),
    ren_eq h (w := "resourceTypes") (by decide), ren_eq h (w := "types") (by decide),
    ren_eq h (w := "schemas") (by decide), ren_eq h (w := "traits") (by decide),
    ren_eq h (w := "uses") (by decide), ren_eq h (w := "usage") (by decide),
    ren_eq h (w := "securitySchemes") (by decide), ren_isStr, ren_asString h]
  rw [x9]
  have x1 := ren_anns h a.annotations v
  have x2 := ren_strings h a.uses v
  have x3 := ren_untyped h a.securitySchemes v
  have x5 := ren_untyped h a.traits v
  have x7 := ren_untyped h a.resourceTypes v
  have x8 := ren_types h hX v a.types
  by_cases c1 : k.value = "annotationTypes"
  · rw [if_pos c1, if_pos c1, map_map]
    show (loadAnns (renAnns r a.annotations) (renNode r v)).map _ = _
    rw [x1, map_map]; rfl
  rw [if_neg c1, if_neg c1]
  by_cases c2 : k.value = "resourceTypes"
  · rw [if_pos c2, if_pos c2, map_map]
    show (loadUntyped (renUntyped r a.resourceTypes) (renNode r v)).map _ = _
    rw [x7, map_map]; rfl
  rw [if_neg c2, if_neg c2]
  by_cases c3 : k.value = "types" ∨ k.value = "schemas"
  · rw [if_pos c3, if_pos c3, map_map]
    show (loadTypes X (renNode r v) (renMap r (renType r) a.types)).map _ = _
    rw [x8, map_map]; rfl
  rw [if_neg c3, if_neg c3]
  by_cases c4 : k.value = "traits"
  · rw [if_pos c4, if_pos c4, map_map]
    show (loadUntyped (renUntyped r a.traits) (renNode r v)).map _ = _
    rw [x5, map_map]; rfl
  rw [if_neg c4, if_neg c4]
  by_cases c5 : k.value = "uses"
  · rw [if_pos c5, if_pos c5, map_map]
    show (loadStrings (renMap r r a.uses) (renNode r v)).map _ = _
    rw [x2, map_map]; rfl
  rw [if_neg c5, if_neg c5]
  by_cases c6 : k.value = "usage"
  · rw [if_pos c6, if_pos c6, map_map, map_map]; rfl
  rw [if_neg c6, if_neg c6]
  by_cases c7 : k.value = "securitySchemes"
  · rw [if_pos c7, if_pos c7, map_map]
    show (loadUntyped (renUntyped r a.securitySchemes) (renNode r v)).map _ = _
    rw [x3, map_map]; rfl
  rw [if_neg c7, if_neg c7]
  have h1 := ren_first h k.value
  have h2 := h.paren k.value
  split
  · cases ha : firstChar k.value <;> cases hb : firstChar (r k.value) <;> rw [ha, hb] at h1 h2 <;>
      simp only [reduceCtorEq, eq_iff_iff, iff_false, iff_true, not_true,
        Option.some.injEq] at h1 h2
    · rfl
    · simp only [h2, ren_ann h]
      split_ifs
      · simp only [map_map, renLib, ren_put (f := r) h.inj]
      · rfl
  · rfl

theorem ren_lib_load (h : Renaming r) (hX : Blind X r) (v : Node) (a : Library) :
    (renLib r a).unmarshal X (renNode r v) = (a.unmarshal X v).map (renLib r) :=
  ren_mapEach v (fun p _ s => ren_lib_assign h hX p.1 p.2 s) a

theorem ren_lib_new : renLib r Library.new = Library.new := rfl

end Verif.Doc
