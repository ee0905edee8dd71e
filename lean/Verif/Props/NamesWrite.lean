import Verif.Props.Names
import Verif.Props.Readable
import Verif.Doc.ApiWrite

/-! # C112: names in dictionaries are written as they are -/

namespace Verif.Props
open Verif Verif.Doc Verif.Doc.Spec

theorem rekeyed_render (r : String → String) (b : Bool) (ps : List (Node × Node)) :
    rekeyed r (renderPairs b ps) = renderPairs b (ps.map fun p => (rekey r p.1, p.2)) := by
  unfold renderPairs
  cases b with
  | false => rfl
  | true =>
    simp only [if_true, rekeyed, List.map_map]
    rfl

theorem renamed_render {V : Type} (r : String → String) (vn : V → Node) (m : OM String V) :
    ifNonEmpty (renamed r m) (renderStrMap vn (renamed r m)) =
      (ifNonEmpty m (renderStrMap vn m)).map (rekeyed r) := by
  have h : renderStrMap vn (renamed r m) = rekeyed r (renderStrMap vn m) := by
    unfold renderStrMap
    rw [rekeyed_render]
    simp only [renamed, List.map_map]
    rfl
  rw [h]
  unfold ifNonEmpty OM.len
  simp only [renamed, List.length_map]
  split <;> rfl

theorem renamed_typeMap (X : Xyml) (r : String → String) (m : OM String DT) :
    typeMapNode X (renamed r m) = rekeyed r (typeMapNode X m) := by
  obtain ⟨es, b⟩ := m
  simp only [renamed, typeMapNode, rekeyed_render, typeEnts_eq, List.map_map]
  rfl

theorem renamed_types (X : Xyml) (r : String → String) (m : OM String DT) :
    ifNonEmpty (renamed r m) (typeMapNode X (renamed r m)) =
      (ifNonEmpty m (typeMapNode X m)).map (rekeyed r) := by
  rw [renamed_typeMap]
  unfold ifNonEmpty OM.len
  simp only [renamed, List.length_map]
  split <;> rfl

/-- A change of values that goes by the key leaves the last entries the last. -/
theorem lastWins_values {K V : Type} [DecidableEq K] (f : K × V → V) (es : List (K × V)) :
    lastWins (es.map fun e => (e.1, f e)) = (lastWins es).map fun e => (e.1, f e) := by
  induction es with
  | nil => rfl
  | cons e es ih =>
    have : (es.map fun e => (e.1, f e)).map Prod.fst = es.map Prod.fst := by simp
    simp only [List.map_cons, lastWins, this, ih]
    split <;> rfl

/-- The new value of a written entry. -/
def newValue (X : Xyml) (φ : Node × Node → Node) (e : Scalar × Node) : Scalar × Node :=
  (e.1, φ (X.ofKey e.1, e.2))

theorem asPairs_values (X : Xyml) (φ : Node × Node → Node) (es : List (Scalar × Node)) :
    asPairs X (lastWins (es.map (newValue X φ))) =
      (asPairs X (lastWins es)).map fun p => (p.1, φ p) := by
  show asPairs X (lastWins (es.map fun e => (e.1, φ (X.ofKey e.1, e.2)))) = _
  rw [lastWins_values]
  simp only [asPairs, List.map_map]
  rfl

theorem map_same {X : Xyml} {φ : Node × Node → Node} {es : List (Scalar × Node)}
    (h : ∀ e ∈ es, φ (X.ofKey e.1, e.2) = e.2) : es.map (newValue X φ) = es := by
  conv_rhs => rw [← List.map_id es]
  exact List.map_congr_left fun e he => by simp only [newValue, h e he, id]

theorem opt_new {X : Xyml} (hX : Lawful X) {φ : Node × Node → Node} {k : String} {g : Node → Node}
    (h : ∀ v, φ (.str k, v) = g v) (o : Option Node) :
    (OM.optEnt (.str k) o).map (newValue X φ) = OM.optEnt (.str k) (o.map g) := by
  cases o with
  | none => rfl
  | some v =>
    simp only [OM.optEnt, List.map_cons, List.map_nil, Option.map_some, newValue, hX.ofKey_str, h]

theorem opt_same {X : Xyml} (hX : Lawful X) {φ : Node × Node → Node} {k : String}
    (h : ∀ v, φ (.str k, v) = v) (o : Option Node) :
    (OM.optEnt (.str k) o).map (newValue X φ) = OM.optEnt (.str k) o := by
  rw [opt_new hX (g := fun v => v) h]
  cases o <;> rfl

/-! ### API documents -/

/-- The new value of an entry of an API document. -/
def apiValue (r : ApiSection → String → String) (p : Node × Node) : Node :=
  if (apiSectionOf p).isDict then rekeyed (r (apiSectionOf p)) p.2 else p.2

theorem api_not_dict {k : Node} (h : k.value ∉ apiDictKeys) (v : Node) :
    (apiSectionOf (k, v)).isDict = false := by
  unfold apiSectionOf
  split_ifs
  · rfl
  · rfl
  · cases hl : apiKeys.lookup k.value with
    | none => rfl
    | some s =>
      have : ∀ e ∈ apiKeys, e.1 ∉ apiDictKeys → e.2.isDict = false := by decide
      exact this _ (lookup_some_mem hl) h
  · rfl

theorem apiValue_other {r : ApiSection → String → String} {k : Node} (h : k.value ∉ apiDictKeys)
    (v : Node) : apiValue r (k, v) = v := by
  simp only [apiValue, api_not_dict h, Bool.false_eq_true, if_false]

theorem apiValue_nonstr {r : ApiSection → String → String} {k : Node} (h : k.isStr = false)
    (v : Node) : apiValue r (k, v) = v := by
  have : (apiSectionOf (k, v)).isDict = false := by
    unfold apiSectionOf
    rw [h]
    split_ifs <;> first | rfl | contradiction
  simp only [apiValue, this, Bool.false_eq_true, if_false]

theorem apiValue_dict {r : ApiSection → String → String} {k : String} {s : ApiSection}
    (h : (k, s) ∈ apiKeys) (hs : s.isDict = true) (v : Node) :
    apiValue r (.str k, v) = rekeyed (r s) v := by
  simp only [apiValue, apiSectionOf_known h, hs, if_true]

theorem renamedApi_ents {X : Xyml} (hX : Lawful X) (r : ApiSection → String → String) {a : APISpec}
    (ha : ApiKeysFree a) :
    (renamedApi r a).ents X = (a.ents X).map (newValue X (apiValue r)) := by
  have same : ∀ k : String, k ∉ apiDictKeys → ∀ o : Option Node,
      (OM.optEnt (.str k) o).map (newValue X (apiValue r)) = OM.optEnt (.str k) o :=
    fun k hk => opt_same hX fun v => apiValue_other (k := .str k) hk v
  have dict : ∀ (k : String) (s : ApiSection), (k, s) ∈ apiKeys → s.isDict = true →
      ∀ o : Option Node, (OM.optEnt (.str k) o).map (newValue X (apiValue r)) =
        OM.optEnt (.str k) (o.map (rekeyed (r s))) :=
    fun k s hk hs => opt_new hX fun v => apiValue_dict hk hs v
  have h1 : (annEnts a.annotations).map (newValue X (apiValue r)) = annEnts a.annotations := by
    refine map_same fun e he => ?_
    obtain ⟨x, hx, rfl⟩ := List.mem_map.mp he
    simp only [hX.ofKey_str]
    exact apiValue_other (k := .str x.1) (ha.annotations x hx) _
  have h2 : a.extra.ents.map (newValue X (apiValue r)) = a.extra.ents := by
    refine map_same fun e he => ?_
    by_cases hs : ∃ s, e.1 = .str s
    · obtain ⟨s, hs⟩ := hs
      rw [hs, hX.ofKey_str]
      exact apiValue_other (k := .str s) (ha.extra e he s hs) _
    · exact apiValue_nonstr (hX.ofKey_isStr fun s h => hs ⟨s, h⟩) _
  have h3 : (strEnts a.resources).map (newValue X (apiValue r)) = strEnts a.resources := by
    refine map_same fun e he => ?_
    obtain ⟨x, hx, rfl⟩ := List.mem_map.mp he
    simp only [hX.ofKey_str]
    exact apiValue_other (k := .str x.1) (ha.resources x hx) _
  have h4 : newValue X (apiValue r) (.str "title", .str a.title) = (.str "title", .str a.title) := by
    simp only [newValue, hX.ofKey_str]
    rw [apiValue_other (k := .str "title") (by decide)]
  unfold APISpec.ents APISpec.headEnts APISpec.typesEnts
  simp only [List.map_append, List.map_cons, h1, h2, h3, h4]
  rw [same "version" (by decide), same "baseUri" (by decide), same "description" (by decide),
    same "protocols" (by decide), same "mediaType" (by decide), same "documentation" (by decide),
    same "securedBy" (by decide), dict "uses" .uses (by decide) rfl,
    dict "securitySchemes" .securitySchemes (by decide) rfl,
    dict "baseUriParameters" .baseUriParameters (by decide) rfl,
    dict "traits" .traits (by decide) rfl, dict "annotationTypes" .annotationTypes (by decide) rfl,
    dict "resourceTypes" .resourceTypes (by decide) rfl, dict "types" .types (by decide) rfl]
  simp only [renamedApi, renamed_render, renamed_types]

/-- C112: an API document with new names is written as it was with the new names. -/
theorem C112_api (X : Xyml) (hX : Lawful X) (r : ApiSection → String → String) (a : APISpec)
    (ha : ApiKeysFree a) : (renamedApi r a).toYAML X = renamedApiDoc r (a.toYAML X) := by
  rw [api_toYAML_eq, api_toYAML_eq, renamedApi_ents hX r ha, asPairs_values]
  rfl

theorem head_free {s : String} {c : Char} (h : s.toList.head? = some c) (hc : c = '(' ∨ c = '/')
    {l : List String} (hl : ∀ k ∈ l, k.toList.head? ≠ some '(' ∧ k.toList.head? ≠ some '/') :
    s ∉ l := by
  intro hs
  rcases hc with rfl | rfl
  · exact (hl s hs).1 h
  · exact (hl s hs).2 h

/-- C112: where only strings are read as strings, a document that was read keeps its annotations,
resources and unknown entries off the keys of dictionaries. -/
theorem C112_api_free (X : Xyml) (hX : Lawful X)
    (hs : ∀ n s, X.toScalar n = some (.str s) → n = .str s) {n : Node} {a : APISpec}
    (h : parseApi X n = .ok a) : ApiKeysFree a := by
  have hr := (C95_apis hX a).mp ⟨n, h⟩
  refine ⟨fun e he => ?_, fun e he => ?_, fun e he s hk => ?_⟩
  · exact head_free (hr.parsed.annotations.keys e he) (.inl rfl) (by decide)
  · exact head_free (hr.parsed.resourceKeys e he) (.inr rfl) (by decide)
  · have := ((C95_api_keys hX hs e.1).mp (hr.extraKeys e he) s hk).2.2.2
    exact fun h' => this ((by decide : ∀ k ∈ apiDictKeys, k ∈ ["title", "version", "baseUri",
      "description", "protocols", "mediaType", "documentation", "securedBy", "uses",
      "securitySchemes", "baseUriParameters", "traits", "annotationTypes", "resourceTypes", "types",
      "schemas"]) s h')

/-- C112: an API document with new names is read and written as it was with the new names. -/
theorem C112_api_rewritten (X : Xyml) (hX : Lawful X)
    (hs : ∀ n s, X.toScalar n = some (.str s) → n = .str s) {r : ApiSection → String → String}
    (hr : ∀ s a b, r s a = r s b → a = b) {n : Node} {a : APISpec} (h : parseApi X n = .ok a) :
    (parseApi X (renamedApiDoc r n)).map (APISpec.toYAML X) = .ok (renamedApiDoc r (a.toYAML X)) := by
  rw [C111_api X hr, h]
  exact congrArg Res.ok (C112_api X hX r a (C112_api_free X hX hs h))

/-! ### Libraries -/

/-- The new value of an entry of a library. -/
def libValue (r : LibSection → String → String) (p : Node × Node) : Node :=
  if (libSectionOf p).isDict then rekeyed (r (libSectionOf p)) p.2 else p.2

theorem libValue_other {r : LibSection → String → String} {k : Node} (h : k.value ∉ libDictKeys)
    (v : Node) : libValue r (k, v) = v := by
  have : (libSectionOf (k, v)).isDict = false := by
    unfold libSectionOf
    cases hl : libKeys.lookup k.value with
    | none =>
      simp only
      split_ifs <;> rfl
    | some s =>
      have : ∀ e ∈ libKeys, e.1 ∉ libDictKeys → e.2.isDict = false := by decide
      simp only
      exact this _ (lookup_some_mem hl) h
  simp only [libValue, this, Bool.false_eq_true, if_false]

theorem libValue_dict {r : LibSection → String → String} {k : String} {s : LibSection}
    (h : (k, s) ∈ libKeys) (hs : s.isDict = true) (v : Node) :
    libValue r (.str k, v) = rekeyed (r s) v := by
  simp only [libValue, libSectionOf_known h, hs, if_true]

theorem renamedLib_ents {X : Xyml} (hX : Lawful X) (r : LibSection → String → String) {l : Library}
    (hl : LibKeysFree l) :
    (renamedLib r l).ents X = (l.ents X).map (newValue X (libValue r)) := by
  have same : ∀ k : String, k ∉ libDictKeys → ∀ o : Option Node,
      (OM.optEnt (.str k) o).map (newValue X (libValue r)) = OM.optEnt (.str k) o :=
    fun k hk => opt_same hX fun v => libValue_other (k := .str k) hk v
  have dict : ∀ (k : String) (s : LibSection), (k, s) ∈ libKeys → s.isDict = true →
      ∀ o : Option Node, (OM.optEnt (.str k) o).map (newValue X (libValue r)) =
        OM.optEnt (.str k) (o.map (rekeyed (r s))) :=
    fun k s hk hs => opt_new hX fun v => libValue_dict hk hs v
  have h1 : (annEnts l.annotations).map (newValue X (libValue r)) = annEnts l.annotations := by
    refine map_same fun e he => ?_
    obtain ⟨x, hx, rfl⟩ := List.mem_map.mp he
    simp only [hX.ofKey_str]
    exact libValue_other (k := .str x.1) (hl.annotations x hx) _
  have h2 : l.extra.ents.map (newValue X (libValue r)) = l.extra.ents := by
    refine map_same fun e he => ?_
    by_cases hs : ∃ s, e.1 = .str s
    · obtain ⟨s, hs⟩ := hs
      rw [hs, hX.ofKey_str]
      exact libValue_other (k := .str s) (hl.extra e he s hs) _
    · have h : libDictKeys ⊆ libraryKeys := by decide
      exact libValue_other (fun h' => hX.ofKey_value (fun s h => hs ⟨s, h⟩) (h h')) _
  unfold Library.ents
  simp only [List.map_append, h1, h2]
  rw [same "usage" (by decide), dict "uses" .uses (by decide) rfl,
    dict "securitySchemes" .securitySchemes (by decide) rfl, dict "traits" .traits (by decide) rfl,
    same "annotationTypes" (by decide), dict "resourceTypes" .resourceTypes (by decide) rfl,
    dict "types" .types (by decide) rfl]
  simp only [renamedLib, renamed_render, renamed_types]

/-- C112: a library with new names is written as it was with the new names. -/
theorem C112_library (X : Xyml) (hX : Lawful X) (r : LibSection → String → String) (l : Library)
    (hl : LibKeysFree l) : (renamedLib r l).toYAML X = renamedLibDoc r (l.toYAML X) := by
  rw [lib_toYAML_eq, lib_toYAML_eq, renamedLib_ents hX r hl, asPairs_values]
  rfl

/-- C112: a library with new names is read and written as it was with the new names, if none of
its annotation types, which are read as annotations, has the name of a dictionary. -/
theorem C112_library_rewritten (X : Xyml) (hX : Lawful X)
    (hs : ∀ n s, X.toScalar n = some (.str s) → n = .str s) {r : LibSection → String → String}
    (hr : ∀ s a b, r s a = r s b → a = b) {n : Node} {l : Library}
    (h : parseLibrary X (some n) = .ok l) (hl : ∀ e ∈ l.annotations.ents, e.1 ∉ libDictKeys) :
    (parseLibrary X (some (renamedLibDoc r n))).map (Library.toYAML X) =
      .ok (renamedLibDoc r (l.toYAML X)) := by
  rw [C111_library X hr, h]
  refine congrArg Res.ok (C112_library X hX r l ⟨hl, fun e he s hk => ?_⟩)
  have := ((C95_library_keys hX hs e.1).mp (((C95_libraries hX l).mp ⟨_, h⟩).extraKeys e he) s hk).2.2
  exact fun h' => this ((by decide : ∀ k ∈ libDictKeys, k ∈ ["annotationTypes", "resourceTypes",
    "types", "schemas", "traits", "uses", "usage", "securitySchemes"]) s h')

/-! ### Types -/

/-- The new value of an entry of a type. -/
def typeValue (kd : Kind) (r : Facet → String → String) (p : Node × Node) : Node :=
  if (facetOf kd p).isDict then rekeyed (r (facetOf kd p)) p.2 else p.2

theorem typeValue_other {kd : Kind} {r : Facet → String → String} {k : Node}
    (h : k.value ≠ "properties" ∧ k.value ≠ "examples" ∧ k.value ≠ "facets") (v : Node) :
    typeValue kd r (k, v) = v := by
  have : (facetOf kd (k, v)).isDict = false := by
    unfold facetOf
    split_ifs
    · cases hl : facetNamed.lookup k.value with
      | none => rfl
      | some f =>
        have : ∀ e ∈ facetNamed, (e.1 ≠ "properties" ∧ e.1 ≠ "examples" ∧ e.1 ≠ "facets") →
          e.2.isDict = false := by decide
        exact this _ (mem_of_lookup hl) h
    · rfl
    · rfl
  simp only [typeValue, this, Bool.false_eq_true, if_false]

theorem typeValue_unknown {kd : Kind} {r : Facet → String → String} {k : Node}
    (h : k.value ∉ facetNames kd) (v : Node) : typeValue kd r (k, v) = v := by
  have : (facetOf kd (k, v)).isDict = false := by
    unfold facetOf
    rw [if_neg (by simpa using h)]
    split_ifs <;> rfl
  simp only [typeValue, this, Bool.false_eq_true, if_false]

theorem typeValue_dict {kd : Kind} {r : Facet → String → String} {k : String} {f : Facet}
    (h1 : (facetNames kd).contains k = true) (h2 : facetNamed.lookup k = some f)
    (hf : f.isDict = true) (v : Node) : typeValue kd r (.str k, v) = rekeyed (r f) v := by
  simp only [typeValue, facetOf_eq (k := .str k) rfl h1 h2, hf, if_true]

theorem free_key {s : String} (h : s ∉ typeDictKeys) :
    s ≠ "properties" ∧ s ≠ "examples" ∧ s ≠ "facets" := by
  simp only [typeDictKeys, List.mem_cons, List.not_mem_nil, or_false, not_or] at h
  exact h.2

theorem renamed_facetsNode (X : Xyml) (r : String → String) (m : OM String (OM String DT)) :
    facetsNode X (renamed r m) = (facetsNode X m).map (rekeyed r) := by
  obtain ⟨es, b⟩ := m
  have h : facetEnts X (es.map fun e => (r e.1, e.2)) =
      (facetEnts X es).map fun p => (rekey r p.1, p.2) := by
    induction es with
    | nil => rfl
    | cons e es ih =>
      obtain ⟨k, m⟩ := e
      simp only [List.map_cons, facetEnts, ih, facetEnt]
      rfl
  simp only [renamed, facetsNode, h, List.length_map]
  split
  · simp only [Option.map_some, rekeyed_render]
  · rfl

theorem renamed_propsNode (X : Xyml) (r : String → String) (m : OM String DT) :
    propsNode X (renamed r m) = (propsNode X m).map (rekeyed r) := by
  obtain ⟨es, b⟩ := m
  simp only [renamed, propsNode, List.length_map, typeEnts_eq]
  split
  · simp only [Option.map_some, rekeyed_render, List.map_map]
    rfl
  · rfl

theorem renamedType_ents {X : Xyml} (hX : Lawful X) (r : Facet → String → String) {t : DT}
    (ht : TypeKeysFree X t) :
    (renamedType r t).ents X = (t.ents X).map (newValue X (typeValue t.kind r)) := by
  have h2 : t.extra.ents.map (newValue X (typeValue t.kind r)) = t.extra.ents :=
    map_same fun e he => by
      by_cases h : (X.ofKey e.1).value ∈ typeDictKeys
      · exact typeValue_unknown (ht.extra e he h) _
      · exact typeValue_other (free_key h) _
  have one : ∀ k : String, (k ≠ "properties" ∧ k ≠ "examples" ∧ k ≠ "facets") → ∀ v,
      newValue X (typeValue t.kind r) (.str k, v) = (.str k, v) := by
    intro k hk v
    simp only [newValue, hX.ofKey_str]
    rw [typeValue_other (k := .str k) hk]
  have same : ∀ k : String, (k ≠ "properties" ∧ k ≠ "examples" ∧ k ≠ "facets") → ∀ o : Option Node,
      (OM.optEnt (.str k) o).map (newValue X (typeValue t.kind r)) = OM.optEnt (.str k) o :=
    fun k hk => opt_same hX fun v => typeValue_other (k := .str k) hk v
  have dict : ∀ (k : String) (f : Facet), (facetNames t.kind).contains k = true →
      facetNamed.lookup k = some f → f.isDict = true → ∀ o : Option Node,
      (OM.optEnt (.str k) o).map (newValue X (typeValue t.kind r)) =
        OM.optEnt (.str k) (o.map (rekeyed (r f))) :=
    fun k f h1 h2 h3 => opt_new hX fun v => typeValue_dict h1 h2 h3 v
  cases t with
  | basic i s x =>
    have h2' : x.ents.map (newValue X (typeValue (DT.basic i s x).kind r)) = x.ents := h2
    simp only [renamedType, DT.ents, List.map_cons, h2', one "type" (by decide)]
  | ext h b fs ps it =>
    have h2' : h.extra.ents.map (newValue X (typeValue (DT.ext h b fs ps it).kind r)) = h.extra.ents := h2
    have h1 : (annEnts h.annotations).map (newValue X (typeValue (DT.ext h b fs ps it).kind r)) =
        annEnts h.annotations := by
      refine map_same fun e he => ?_
      obtain ⟨x, hx, rfl⟩ := List.mem_map.mp he
      simp only [hX.ofKey_str]
      exact typeValue_other (k := .str x.1) (free_key (ht.annotations x hx)) _
    have hb : b.ents X (propsNode X (renamed (r .properties) ps)) (itemsNode X it) =
        (b.ents X (propsNode X ps) (itemsNode X it)).map
          (newValue X (typeValue (DT.ext h b fs ps it).kind r)) := by
      rw [renamed_propsNode]
      cases b <;> simp only [Body.ents, List.map_append, List.map_nil]
      case string => rw [same "pattern" (by decide), same "minLength" (by decide), same "maxLength" (by decide)]
      case file => rw [same "fileTypes" (by decide), same "minLength" (by decide), same "maxLength" (by decide)]
      case array => rw [same "uniqueItems" (by decide), same "minItems" (by decide), same "maxItems" (by decide), same "items" (by decide)]
      case object => rw [same "additionalProperties" (by decide), same "minProperties" (by decide), same "maxProperties" (by decide), same "discriminator" (by decide), same "discriminatorValue" (by decide), dict "properties" .properties (by simp only [DT.kind, Body.kind]; decide) (by decide) rfl]
      case datetime => rw [same "format" (by decide)]
      case number => rw [same "format" (by decide), same "minimum" (by decide), same "maximum" (by decide), same "multipleOf" (by decide)]
      case integer => rw [same "format" (by decide), same "minimum" (by decide), same "maximum" (by decide), same "multipleOf" (by decide)]
    have hfa : (facetNames (DT.ext h b fs ps it).kind).contains "facets" = true := by
      cases b <;> (simp only [DT.kind, Body.kind]; decide)
    have hex : (facetNames (DT.ext h b fs ps it).kind).contains "examples" = true := by
      cases b <;> (simp only [DT.kind, Body.kind]; decide)
    have hx : (if (renamed (r .examples) h.examples).len > 0 then
          some (renderStrMap (Example.toYAML X) (renamed (r .examples) h.examples)) else none) =
        (if h.examples.len > 0 then some (renderStrMap (Example.toYAML X) h.examples) else none).map
          (rekeyed (r .examples)) := renamed_render (r .examples) (Example.toYAML X) h.examples
    simp only [renamedType, DT.ents, dtEnts, Hdr.headEnts, Hdr.reqEnts, Hdr.tailEnts, List.map_append,
      List.map_cons, List.map_nil, h1, h2', hb, hx, renamed_facetsNode, one "type" (by decide)]
    rw [same "default" (by decide), same "displayName" (by decide), same "description" (by decide),
      same "required" (by decide), dict "facets" .facets hfa (by decide) rfl, same "xml" (by decide),
      same "enum" (by decide), same "example" (by decide), dict "examples" .examples hex (by decide) rfl]

theorem opt_key {k : String} {o : Option Node} {e : Scalar × Node}
    (h : e ∈ OM.optEnt (.str k) o) : e.1 = .str k := by
  cases o with
  | none => cases h
  | some v => rw [List.mem_singleton.mp h]

theorem type_facet (kd : Kind) : "type" ∈ facetNames kd := by cases kd <;> decide

theorem type_entry {X : Xyml} (hX : Lawful X) {t : DT} (ht : TypeKeysFree X t) :
    ∀ e ∈ t.ents X, e.1 = .str "type" → ∃ a b, e.2 = .scalar a b := by
  have hx : ∀ e ∈ t.extra.ents, e.1 ≠ .str "type" := by
    intro e he h
    have := ht.extra e he
    rw [h, hX.ofKey_str] at this
    exact this (by decide) (type_facet t.kind)
  intro e he hk
  cases t with
  | basic i s x =>
    rcases List.mem_cons.mp he with rfl | he
    · cases i
      · exact ⟨_, _, rfl⟩
      · exact ⟨_, _, rfl⟩
    · exact absurd hk (hx e he)
  | ext h b fs ps it =>
    simp only [DT.ents, dtEnts, Hdr.headEnts, Hdr.reqEnts, List.mem_append] at he
    rcases he with he | (he | he | he) | he | he | he | he
    · exact absurd ((opt_key he).symm.trans hk) (by decide)
    · exact absurd ((opt_key he).symm.trans hk) (by decide)
    · exact absurd ((opt_key he).symm.trans hk) (by decide)
    · rw [List.mem_singleton.mp he]
      exact ⟨_, _, rfl⟩
    · exact absurd hk (hx e he)
    · exact absurd ((opt_key he).symm.trans hk) (by decide)
    · obtain ⟨x, h1, rfl⟩ := List.mem_map.mp he
      have := ht.annotations x h1
      simp only [Scalar.str.injEq] at hk
      rw [hk] at this
      exact absurd (by decide) this
    · simp only [Hdr.tailEnts, List.mem_append] at he
      rcases he with he | he | he | he | he | he
      · exact absurd ((opt_key he).symm.trans hk) (by decide)
      · exact absurd ((opt_key he).symm.trans hk) (by decide)
      · have h1 := (Body.ents_keys X (propsNode X ps) (itemsNode X it) b).subset
          (List.mem_map_of_mem he)
        rw [hk] at h1
        exact absurd h1 (by cases b <;> (simp only [Body.kind]; decide))
      · exact absurd ((opt_key he).symm.trans hk) (by decide)
      · exact absurd ((opt_key he).symm.trans hk) (by decide)
      · exact absurd ((opt_key he).symm.trans hk) (by decide)

theorem lastWins_nodup {K V : Type} [DecidableEq K] (es : List (K × V)) :
    ((lastWins es).map Prod.fst).Nodup := by
  induction es with
  | nil => exact List.nodup_nil
  | cons e es ih =>
    unfold lastWins
    split
    · exact ih
    · rename_i hn
      refine List.nodup_cons.mpr ⟨fun h => hn ?_, ih⟩
      obtain ⟨x, h1, h2⟩ := List.mem_map.mp h
      rw [← h2]
      exact List.mem_map_of_mem (mem_lastWins h1)

/-- A type with no entry but its type is written as a scalar. -/
theorem short_written {X : Xyml} (hX : Lawful X) {t : DT} (ht : TypeKeysFree X t)
    (hall : ∀ e ∈ t.ents X, e.1 = Scalar.str "type") :
    ∃ a b, finish X ((OM.empty false).putAll (t.ents X)) = .scalar a b := by
  have he : ((OM.empty false).putAll (t.ents X) : OM Scalar Node).ents = lastWins (t.ents X) :=
    OM.empty_putAll_ents _ _
  have hd := lastWins_nodup (t.ents X)
  obtain ⟨v, _, h1⟩ := lastWins_suffix (A := []) (type_key X t)
  rw [List.nil_append] at h1
  have hone : lastWins (t.ents X) = [(.str "type", v)] := by
    have hl : ∀ e ∈ lastWins (t.ents X), e.1 = Scalar.str "type" := fun e h => hall e (mem_lastWins h)
    revert hl hd h1
    generalize lastWins (t.ents X) = l
    intro hd h1 hl
    match l with
    | [] => cases h1
    | [x] => rw [List.mem_singleton.mp h1]
    | x :: y :: l =>
      simp [hl x (by simp), hl y (by simp)] at hd
  obtain ⟨a, b, hv⟩ := type_entry hX ht _ (mem_lastWins h1) rfl
  have hv : v = .scalar a b := hv
  have hf : finish X ((OM.empty false).putAll (t.ents X)) = .scalar a b := by
    unfold finish
    simp [OM.len, OM.has, OM.get, he, hone, hv]
  exact ⟨a, b, hf⟩

/-- C112: a type with new names is written as it was with the new names. -/
theorem C112_type (X : Xyml) (hX : Lawful X) (r : Facet → String → String) (t : DT)
    (ht : TypeKeysFree X t) :
    (renamedType r t).toYAML X = renamedTypeDef t.kind r (t.toYAML X) := by
  have hkeys : ((renamedType r t).ents X).map Prod.fst = (t.ents X).map Prod.fst := by
    rw [renamedType_ents hX r ht, List.map_map]
    rfl
  by_cases h : ∃ k ∈ (t.ents X).map Prod.fst, k ≠ Scalar.str "type"
  · obtain ⟨k, hk, hne⟩ := h
    rw [toYAML_eq, toYAML_eq, finish_map hk (type_key X t) hne,
      finish_map (by rw [hkeys]; exact hk) (by rw [hkeys]; exact type_key X t) hne,
      renamedType_ents hX r ht, asPairs_values]
    rfl
  · have hall : ∀ e ∈ t.ents X, e.1 = Scalar.str "type" := fun e he =>
      Classical.byContradiction fun hne => h ⟨_, List.mem_map_of_mem he, hne⟩
    have hsame : (renamedType r t).ents X = t.ents X := by
      rw [renamedType_ents hX r ht]
      refine map_same fun e he => ?_
      rw [hall e he, hX.ofKey_str]
      exact typeValue_other (k := .str "type") (by decide) _
    obtain ⟨a, b, hf⟩ := short_written hX ht hall
    rw [toYAML_eq, toYAML_eq, hsame, hf]
    rfl

/-- C112: a type that was read keeps its annotations and extra facets off the keys of its
dictionaries. -/
theorem C112_type_free (X : Xyml) (hX : Lawful X) {n : Node} {t : DT} (h : hat X n = .ok t) :
    TypeKeysFree X t := by
  cases hat_readable hX h with
  | @basic i s x hx =>
    refine ⟨fun e he => (nomatch he), fun e he _ => ?_⟩
    obtain ⟨s, h1, h2⟩ := hx.keys e he
    rw [h1, hX.ofKey_str]
    cases i <;> exact h2
  | ext hh =>
    refine ⟨fun e he => head_free (hh.annotations.keys e he) (.inl rfl) (by decide),
      fun e he _ => ?_⟩
    obtain ⟨s, h1, h2⟩ := hh.extra.keys e he
    rw [h1, hX.ofKey_str]
    exact h2

/-- C112: a definition with new names is read and written as it was with the new names. -/
theorem C112_type_rewritten (X : Xyml) (hX : Lawful X) {r : Facet → String → String}
    (hr : ∀ f a b, r f a = r f b → a = b) {n : Node} {t : DT} (h : hat X n = .ok t) :
    (hat X (renamedTypeDef t.kind r n)).map (DT.toYAML X) =
      .ok (renamedTypeDef t.kind r (t.toYAML X)) := by
  rw [C111_type X hr h]
  exact congrArg Res.ok (C112_type X hX r t (C112_type_free X hX h))

/-! ### Cases -/

/-- With the standard conversions only strings are read as strings. -/
theorem strings_only : ∀ n s, Xyml.std.toScalar n = some (.str s) → n = .str s := by
  intro n s h
  simp only [Xyml.std] at h
  split at h
  · cases h; rfl
  · rename_i v
    cases hv : v.toInt? with
    | none => rw [hv] at h; cases h
    | some i => rw [hv] at h; cases h
  all_goals cases h

/-- The definition of C111 is written with its new names, a property `type` among them. -/
example : (hat Xyml.std (renamedTypeDef .object namesNew namesDef)).map (DT.toYAML Xyml.std) =
    .ok (.map [(.str "type", .str "object"), (.str "properties", .map [
      (.str "type", .str "string"), (.str "owner", .map [(.str "type", .str "object"),
        (.str "required", .scalar "!!bool" "false")])]),
      (.str "examples", .map [(.str "properties", .map [(.str "", .str "x")])])]) := by
  have h : ∃ t, hat Xyml.std namesDef = .ok t ∧ t.kind = .object ∧ t.toYAML Xyml.std =
        .map [(.str "type", .str "object"), (.str "properties", .map [
          (.str "id", .str "string"), (.str "owner", .map [(.str "type", .str "object"),
            (.str "required", .scalar "!!bool" "false")])]),
          (.str "examples", .map [(.str "first", .map [(.str "", .str "x")])])] :=
    ⟨_, rfl, rfl, rfl⟩
  obtain ⟨t, h1, h2, h5⟩ := h
  have := C112_type_rewritten Xyml.std Xyml.std_lawful namesNew_inj h1
  rw [h2, h5] at this
  rw [this]
  rfl

/-- The API document of C111. -/
example : (parseApi Xyml.std (renamedApiDoc namesApiNew namesApi)).map (APISpec.toYAML Xyml.std) =
    .ok (.map [(.str "title", .str "T"), (.str "uses", .map [(.str "(x)", .str "lib.raml")]),
      (.str "traits", .map [(.str "title", .str "p")]),
      (.str "/users", .str "r"), (.str "types", .map [(.str "types", .str "object")])]) := by
  have h : ∃ a, parseApi Xyml.std namesApi = .ok a ∧ a.toYAML Xyml.std =
        .map [(.str "title", .str "T"), (.str "uses", .map [(.str "lib", .str "lib.raml")]),
          (.str "traits", .map [(.str "paged", .str "p")]),
          (.str "/users", .str "r"), (.str "types", .map [(.str "User", .str "object")])] :=
    ⟨_, rfl, rfl⟩
  obtain ⟨a, h1, h5⟩ := h
  rw [C112_api_rewritten Xyml.std Xyml.std_lawful strings_only namesApiNew_inj h1, h5]
  rfl

/-- The library of C111. -/
example : (parseLibrary Xyml.std (some (renamedLibDoc namesLibNew namesLib))).map
      (Library.toYAML Xyml.std) =
    .ok (.map [(.str "usage", .str "U"), (.str "traits", .map [(.str "usage", .str "p")]),
      (.str "(a)", .seq "!!omap" [.map [(.str "k", .str "v")]])]) := by
  have h : ∃ l, parseLibrary Xyml.std (some namesLib) = .ok l ∧
      l.annotations.ents.map Prod.fst = ["(a)"] ∧ l.toYAML Xyml.std =
        .map [(.str "usage", .str "U"), (.str "traits", .map [(.str "paged", .str "p")]),
          (.str "(a)", .seq "!!omap" [.map [(.str "k", .str "v")]])] := ⟨_, rfl, rfl, rfl⟩
  obtain ⟨l, h1, h2, h4⟩ := h
  rw [C112_library_rewritten Xyml.std Xyml.std_lawful strings_only namesLibNew_inj h1 (fun e he hk => ?_),
    h4]
  · rfl
  · have : e.1 ∈ l.annotations.ents.map Prod.fst := List.mem_map_of_mem he
    rw [h2, List.mem_singleton] at this
    rw [this] at hk
    exact absurd hk (by decide)

/-- Unknown entries must keep off the keys of dictionaries: under `types`, the entry replaces the
types and keeps its names. -/
example : ∃ a : APISpec, a.extra.ents = [(.str "types", .map [(.str "User", .str "object")])] ∧
    (renamedApi namesApiNew a).toYAML Xyml.std ≠ renamedApiDoc namesApiNew (a.toYAML Xyml.std) := by
  refine ⟨{ APISpec.new with extra := ⟨[(.str "types", .map [(.str "User", .str "object")])], false⟩ },
    rfl, fun h => ?_⟩
  have h1 : (Node.map [(.str "title", .str ""), (.str "types", .map [(.str "User", .str "object")])]) =
      .map [(.str "title", .str ""), (.str "types", .map [(.str "types", .str "object")])] := h
  simp [Node.str] at h1

/-- A library whose annotation type is called `types`: it is read as an annotation and written as
the types, so its names are taken for names of types. -/
example : ∃ l, parseLibrary Xyml.std (some (.map [(.str "annotationTypes",
      .map [(.str "types", .map [(.str "a", .str "x")])])])) = .ok l ∧
    l.annotations.ents.map Prod.fst = ["types"] ∧ l.toYAML Xyml.std =
      .map [(.str "types", .seq "!!omap" [.map [(.str "a", .str "x")]])] := ⟨_, rfl, rfl, rfl⟩

end Verif.Props
