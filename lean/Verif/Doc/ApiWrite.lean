import Verif.Doc.Written
import Verif.Doc.ApiWriteSpec
import Verif.Doc.ApiLemmas

/-! # The entries of a written API document or library, and reading them back -/

namespace Verif.Doc
open Verif Verif.Doc.Spec
open scoped List

/-! ### API documents: the entries -/

/-- The entries before the annotations (auxiliary). -/
def APISpec.headEnts (a : APISpec) : List (Scalar × Node) :=
  (.str "title", .str a.title) ::
  (OM.optEnt (.str "version") (a.version.map .str) ++
  (OM.optEnt (.str "baseUri") (a.baseURI.map .str) ++
  (OM.optEnt (.str "description") (a.description.map .str) ++
  (OM.optEnt (.str "protocols") (a.protocols.map (renderList .str)) ++
  (OM.optEnt (.str "mediaType") (a.mediaType.map (renderList .str)) ++
  (OM.optEnt (.str "documentation") (a.documentation.map (renderList Documentation.toYAML)) ++
  (OM.optEnt (.str "securedBy") (a.securedBy.map (renderList .str)) ++
  (OM.optEnt (.str "uses") (ifNonEmpty a.uses (renderStrMap .str a.uses)) ++
  (OM.optEnt (.str "securitySchemes")
    (ifNonEmpty a.securitySchemes (renderStrMap id a.securitySchemes)) ++
  (OM.optEnt (.str "baseUriParameters")
    (ifNonEmpty a.baseURIParameters (renderStrMap id a.baseURIParameters)) ++
  (OM.optEnt (.str "traits") (ifNonEmpty a.traits (renderStrMap id a.traits)) ++
  (OM.optEnt (.str "annotationTypes")
    (ifNonEmpty a.annotationTypes (renderStrMap id a.annotationTypes)) ++
  OM.optEnt (.str "resourceTypes")
    (ifNonEmpty a.resourceTypes (renderStrMap id a.resourceTypes))))))))))))))

/-- The `types` entry (auxiliary). -/
def APISpec.typesEnts (X : Xyml) (a : APISpec) : List (Scalar × Node) :=
  OM.optEnt (.str "types") (ifNonEmpty a.types (typeMapNode X a.types))

/-- All puts, in order (auxiliary). -/
def APISpec.ents (X : Xyml) (a : APISpec) : List (Scalar × Node) :=
  a.headEnts ++ (annEnts a.annotations ++ (a.extra.ents ++ (strEnts a.resources ++ a.typesEnts X)))

theorem api_marshal_eq (X : Xyml) (a : APISpec) :
    a.marshal X = (OM.empty false).putAll (a.ents X) := by
  simp only [APISpec.marshal, APISpec.ents, APISpec.headEnts, APISpec.typesEnts, OM.putOpt_eq,
    OM.putAll_append, OM.putAll_cons, List.cons_append]

theorem strEnts_keys (m : OM String Node) :
    (strEnts m).map Prod.fst = m.ents.map fun e => Scalar.str e.1 := by
  simp [strEnts, List.map_map, Function.comp_def]

theorem api_head_keys (a : APISpec) :
    a.headEnts.map Prod.fst <+ (apiWriteKeys.dropLast).map .str := by
  simp only [APISpec.headEnts, List.map_append, List.map_cons]
  exact .cons_cons _ ((optEnt_keys _ _).append ((optEnt_keys _ _).append ((optEnt_keys _ _).append
    ((optEnt_keys _ _).append ((optEnt_keys _ _).append ((optEnt_keys _ _).append
    ((optEnt_keys _ _).append ((optEnt_keys _ _).append ((optEnt_keys _ _).append
    ((optEnt_keys _ _).append ((optEnt_keys _ _).append ((optEnt_keys _ _).append
    (optEnt_keys _ _)))))))))))))

private theorem map_str_nodup {V : Type} {es : List (String × V)} (h : Distinct es) :
    (es.map fun e => Scalar.str e.1).Nodup := by
  unfold Distinct at h
  rw [show (fun e : String × V => Scalar.str e.1) = Scalar.str ∘ Prod.fst from rfl, ← List.map_map]
  exact nodup_map_str h

theorem api_ents_distinct {X : Xyml} {a : APISpec} (hw : CleanApi a) : Distinct (a.ents X) := by
  let F : List Scalar := (a.headEnts ++ a.typesEnts X).map Prod.fst
  let E := a.extra.ents.map Prod.fst
  let N := (annEnts a.annotations).map Prod.fst
  let R := (strEnts a.resources).map Prod.fst
  have hF : F <+ apiWriteKeys.map .str := by
    simp only [F, List.map_append]
    exact (api_head_keys a).append (optEnt_keys (Scalar.str "types") _)
  have hp : ((a.ents X).map Prod.fst).Perm (F ++ (E ++ (N ++ R))) := by
    classical
    rw [List.perm_iff_count]
    intro x
    simp only [F, E, N, R, APISpec.ents, List.map_append, List.count_append]
    omega
  have hN : ∀ x ∈ N, ∃ s : String, x = .str s ∧ s.toList.head? = some '(' := by
    intro x hx
    simp only [N, annEnts_keys, List.mem_map] at hx
    obtain ⟨e, he, rfl⟩ := hx
    exact ⟨e.1, rfl, hw.annotationKeys e he⟩
  have hR : ∀ x ∈ R, ∃ s : String, x = .str s ∧ s.toList.head? = some '/' := by
    intro x hx
    simp only [R, strEnts_keys, List.mem_map] at hx
    obtain ⟨e, he, rfl⟩ := hx
    exact ⟨e.1, rfl, hw.resourceKeys e he⟩
  have hE : ∀ x ∈ E, ∀ s, x = .str s →
      s ∉ apiWriteKeys ∧ s.toList.head? ≠ some '(' ∧ s.toList.head? ≠ some '/' := by
    intro x hx
    obtain ⟨p, hp, rfl⟩ := List.mem_map.mp hx
    exact hw.extraKeys p hp
  have hK : ∀ s ∈ apiWriteKeys, s.toList.head? ≠ some '(' ∧ s.toList.head? ≠ some '/' := by decide
  unfold Distinct
  rw [hp.nodup_iff, List.nodup_append, List.nodup_append, List.nodup_append]
  refine ⟨hF.nodup (nodup_map_str (by decide)), ⟨hw.extra, ⟨?_, ?_, ?_⟩, ?_⟩, ?_⟩
  · simp only [N, annEnts_keys]; exact map_str_nodup hw.annotations
  · simp only [R, strEnts_keys]; exact map_str_nodup hw.resources
  · intro x hx y hy hxy
    obtain ⟨s, h1, h2⟩ := hN x hx
    obtain ⟨s', h3, h4⟩ := hR y hy
    rw [hxy, h3] at h1
    cases h1
    rw [h2] at h4
    exact absurd h4 (by decide)
  · intro x hx y hy hxy
    rcases List.mem_append.mp hy with hy | hy
    · obtain ⟨s', h3, h4⟩ := hN y hy
      exact (hE x hx s' (hxy.trans h3)).2.1 h4
    · obtain ⟨s', h3, h4⟩ := hR y hy
      exact (hE x hx s' (hxy.trans h3)).2.2 h4
  · intro x hx y hy hxy
    subst hxy
    obtain ⟨k, hk, rfl⟩ := List.mem_map.mp (hF.subset hx)
    obtain ⟨h1, h2⟩ := hK k hk
    rcases List.mem_append.mp hy with hy | hy
    · exact (hE _ hy k rfl).1 hk
    · rcases List.mem_append.mp hy with hy | hy
      · obtain ⟨s, h3, h4⟩ := hN _ hy
        cases h3
        exact h1 h4
      · obtain ⟨s, h3, h4⟩ := hR _ hy
        cases h3
        exact h2 h4

theorem api_toYAML_eq (X : Xyml) (a : APISpec) :
    a.toYAML X = .map (asPairs X (lastWins (a.ents X))) := by
  unfold APISpec.toYAML renderAny renderPairs
  rw [api_marshal_eq, OM.omap_putAll, OM.empty_putAll_ents]
  rfl

theorem api_toYAML_clean {X : Xyml} {a : APISpec} (hw : CleanApi a) :
    a.toYAML X = .map (asPairs X (a.ents X)) := by
  unfold APISpec.toYAML renderAny renderPairs
  rw [api_marshal_eq, putAll_distinct _ (api_ents_distinct hw)]
  rfl

/-! ### Libraries: the entries -/

/-- All puts, in order (auxiliary). -/
def Library.ents (X : Xyml) (l : Library) : List (Scalar × Node) :=
  OM.optEnt (.str "usage") (l.usage.map .str) ++
  (OM.optEnt (.str "uses") (ifNonEmpty l.uses (renderStrMap .str l.uses)) ++
  (OM.optEnt (.str "securitySchemes")
    (ifNonEmpty l.securitySchemes (renderStrMap id l.securitySchemes)) ++
  (OM.optEnt (.str "traits") (ifNonEmpty l.traits (renderStrMap id l.traits)) ++
  (OM.optEnt (.str "annotationTypes")
    (ifNonEmpty l.annotationTypes (renderStrMap id l.annotationTypes)) ++
  (annEnts l.annotations ++
  (OM.optEnt (.str "resourceTypes")
    (ifNonEmpty l.resourceTypes (renderStrMap id l.resourceTypes)) ++
  (l.extra.ents ++
  OM.optEnt (.str "types") (ifNonEmpty l.types (typeMapNode X l.types)))))))))

theorem lib_marshal_eq (X : Xyml) (l : Library) :
    l.marshal X = (OM.empty false).putAll (l.ents X) := by
  simp only [Library.marshal, Library.ents, OM.putOpt_eq, OM.putAll_append]

theorem lib_ents_distinct {X : Xyml} {l : Library} (hw : CleanLib l) : Distinct (l.ents X) := by
  let F : List Scalar := (OM.optEnt (Scalar.str "usage") (l.usage.map Node.str) ++
    (OM.optEnt (Scalar.str "uses") (ifNonEmpty l.uses (renderStrMap Node.str l.uses)) ++
    (OM.optEnt (Scalar.str "securitySchemes")
      (ifNonEmpty l.securitySchemes (renderStrMap id l.securitySchemes)) ++
    (OM.optEnt (Scalar.str "traits") (ifNonEmpty l.traits (renderStrMap id l.traits)) ++
    (OM.optEnt (Scalar.str "annotationTypes")
      (ifNonEmpty l.annotationTypes (renderStrMap id l.annotationTypes)) ++
    (OM.optEnt (Scalar.str "resourceTypes")
      (ifNonEmpty l.resourceTypes (renderStrMap id l.resourceTypes)) ++
    OM.optEnt (Scalar.str "types") (ifNonEmpty l.types (typeMapNode X l.types)))))))).map Prod.fst
  let E := l.extra.ents.map Prod.fst
  let N := (annEnts l.annotations).map Prod.fst
  have hF : F <+ libWriteKeys.map .str := by
    simp only [F, List.map_append]
    exact (optEnt_keys _ _).append ((optEnt_keys _ _).append ((optEnt_keys _ _).append
      ((optEnt_keys _ _).append ((optEnt_keys _ _).append ((optEnt_keys _ _).append
      (optEnt_keys _ _))))))
  have hp : ((l.ents X).map Prod.fst).Perm (F ++ (E ++ N)) := by
    classical
    rw [List.perm_iff_count]
    intro x
    simp only [F, E, N, Library.ents, List.map_append, List.count_append]
    omega
  have hN : ∀ x ∈ N, ∃ s : String, x = .str s ∧ s.toList.head? = some '(' := by
    intro x hx
    simp only [N, annEnts_keys, List.mem_map] at hx
    obtain ⟨e, he, rfl⟩ := hx
    exact ⟨e.1, rfl, hw.annotationKeys e he⟩
  have hE : ∀ x ∈ E, ∀ s, x = .str s → s ∉ libWriteKeys ∧ s.toList.head? ≠ some '(' := by
    intro x hx
    obtain ⟨p, hp, rfl⟩ := List.mem_map.mp hx
    exact hw.extraKeys p hp
  have hK : ∀ s ∈ libWriteKeys, s.toList.head? ≠ some '(' := by decide
  unfold Distinct
  rw [hp.nodup_iff, List.nodup_append, List.nodup_append]
  refine ⟨hF.nodup (nodup_map_str (by decide)), ⟨hw.extra, ?_, ?_⟩, ?_⟩
  · simp only [N, annEnts_keys]; exact map_str_nodup hw.annotations
  · intro x hx y hy hxy
    obtain ⟨s', h3, h4⟩ := hN y hy
    exact (hE x hx s' (hxy.trans h3)).2 h4
  · intro x hx y hy hxy
    subst hxy
    obtain ⟨k, hk, rfl⟩ := List.mem_map.mp (hF.subset hx)
    rcases List.mem_append.mp hy with hy | hy
    · exact (hE _ hy k rfl).1 hk
    · obtain ⟨s, h3, h4⟩ := hN _ hy
      cases h3
      exact hK k hk h4

theorem lib_toYAML_eq (X : Xyml) (l : Library) :
    l.toYAML X = .map (asPairs X (lastWins (l.ents X))) := by
  unfold Library.toYAML renderAny renderPairs
  rw [lib_marshal_eq, OM.omap_putAll, OM.empty_putAll_ents]
  rfl

theorem lib_toYAML_clean {X : Xyml} {l : Library} (hw : CleanLib l) :
    l.toYAML X = .map (asPairs X (l.ents X)) := by
  unfold Library.toYAML renderAny renderPairs
  rw [lib_marshal_eq, putAll_distinct _ (lib_ents_distinct hw)]
  rfl

/-! ### Reading dictionaries back -/

theorem ifNonEmpty_none {K V : Type} {m : OM K V} {n : Node} (h : ifNonEmpty m n = none) :
    m.ents = [] := by
  unfold ifNonEmpty at h
  split at h
  · cases h
  · rename_i h0
    simpa [OM.len, List.length_eq_zero_iff] using h0

theorem ifNonEmpty_some {K V : Type} {m : OM K V} {n v : Node} (h : ifNonEmpty m n = some v) :
    m.ents ≠ [] ∧ v = n := by
  unfold ifNonEmpty at h
  split at h
  · rename_i h0
    cases h
    exact ⟨fun he => by simp [OM.len, he] at h0, rfl⟩
  · cases h

theorem map_pair_id {V : Type} (es : List (String × V)) : es.map (fun e => (e.1, id e.2)) = es := by
  simp

theorem loadStrings_render {m : OM String String} (h1 : m.omap = false) (h2 : Distinct m.ents) :
    loadStrings (OM.empty false) (renderStrMap .str m) = .ok (plainMap m) := by
  unfold renderStrMap renderPairs
  rw [h1]
  have := loader_render (g := asString) (vn := Node.str) (c := id) m.ents
    (OM.empty false : OM String String) fun _ _ => rfl
  have h3 : loadStrings (OM.empty false) (.map (m.ents.map fun e => (Node.str e.1, Node.str e.2))) =
      .ok ((OM.empty false).putAll (m.ents.map fun e => (e.1, id e.2))) := this
  rw [map_pair_id, putAll_distinct _ h2] at h3
  exact h3

theorem loadUntyped_render {m : OM String Node} (h1 : m.omap = false) (h2 : Distinct m.ents) :
    loadUntyped (OM.empty false) (renderStrMap id m) = .ok (plainMap m) := by
  unfold renderStrMap renderPairs
  rw [h1]
  have := loader_render (g := Res.ok) (vn := id) (c := id) m.ents
    (OM.empty false : OM String Node) fun _ _ => rfl
  have h3 : loadUntyped (OM.empty false) (.map (m.ents.map fun e => (Node.str e.1, id e.2))) =
      .ok ((OM.empty false).putAll (m.ents.map fun e => (e.1, id e.2))) := by
    rw [← this]
    congr 1
  rw [map_pair_id, putAll_distinct _ h2] at h3
  exact h3

theorem loadTypes_render {X : Xyml} (hX : Lawful X) {m : OM String DT} (h1 : m.omap = false)
    (h2 : Distinct m.ents) (h3 : ∀ e ∈ m.ents, Writable e.2) :
    loadTypes X (typeMapNode X m) (OM.empty false) = .ok (canonTypes false m) := by
  obtain ⟨es, b⟩ := m
  cases h1
  unfold typeMapNode renderPairs
  rw [canonTypes, canonEnts_eq]
  show loadTypesL X (typeEnts X es) (OM.empty false) = _
  rw [loadTypesL_render es _ (fun e he => hat_toYAML hX (h3 e he)),
    putAll_distinct _ (distinct_canon h2)]

theorem pushDocs_render (X : Xyml) (l : List Documentation) :
    seqForEach (pushDoc X) (renderList Documentation.toYAML l) none =
      .ok (match some l with
        | some (d :: ds) => some ((d :: ds).map fun _ => Documentation.new)
        | _ => none) := by
  have key : ∀ (l : List Documentation) (acc : Option (List Documentation)),
      forItems (pushDoc X) (l.map Documentation.toYAML) acc =
        .ok (if l = [] then acc else some (acc.getD [] ++ l.map fun _ => Documentation.new)) := by
    intro l
    induction l with
    | nil => intro acc; rfl
    | cons d l ih =>
      intro acc
      show (pushDoc X (.map []) acc).bind _ = _
      rw [show pushDoc X (.map []) acc = .ok (some (acc.getD [] ++ [Documentation.new])) from rfl]
      rw [Res.bind_ok, ih]
      cases l <;> simp
  have h := key l none
  show forItems (pushDoc X) (l.map Documentation.toYAML) none = _
  rw [h]
  cases l <;> simp

/-! ### Reading an API document back -/

theorem apiSectionOf_known {k : String} {s : ApiSection} (h : (k, s) ∈ apiKeys) (v : Node) :
    apiSectionOf (Node.str k, v) = s := by
  have h1 : ∀ e ∈ apiKeys, apiSectionOf (Node.str e.1, nullNode) = e.2 := by decide
  exact h1 _ h

theorem setPart_get (s : ApiSection) (a : APISpec) : a.setPart s (apiGet s a) = a := by
  cases s <;> rfl

theorem forPairs_chain {σ : Type} {f : Node → Node → σ → Res σ} {as bs : List (Node × Node)}
    {s t : σ} {r : Res σ} (h1 : forPairs f as s = .ok t) (h2 : forPairs f bs t = r) :
    forPairs f (as ++ bs) s = r := by
  rw [forPairs_append, h1]; exact h2

section Steps
variable {X : Xyml} (hX : Lawful X)
include hX

theorem api_read_one {k : String} {v : Node} {s : ApiSection} {x : s.Ty} {a : APISpec}
    (hs : apiSectionOf (Node.str k, v) = s)
    (h : apiStep X (Node.str k) v s (apiGet s a) = .ok x) :
    forPairs (APISpec.assign X) (asPairs X [(.str k, v)]) a = .ok (a.setPart s x) := by
  show (a.assign X (X.ofKey (.str k)) v).bind _ = _
  subst hs
  rw [hX.ofKey_str, api_assign_eq, h]
  rfl

theorem api_read_opt {k : String} {o : Option Node} {s : ApiSection} {x : s.Ty} {a : APISpec}
    (hs : ∀ v, apiSectionOf (Node.str k, v) = s) (h0 : o = none → x = apiGet s a)
    (h1 : ∀ v, o = some v → apiStep X (Node.str k) v s (apiGet s a) = .ok x) :
    forPairs (APISpec.assign X) (asPairs X (OM.optEnt (.str k) o)) a = .ok (a.setPart s x) := by
  cases o with
  | none => rw [h0 rfl, setPart_get]; rfl
  | some v => exact api_read_one hX (hs v) (h1 v rfl)

theorem api_read_enc {α : Type} {k : String} {s : ApiSection} (enc : α → Node) (o : Option α)
    (c : Option α → s.Ty) {a : APISpec} (hs : ∀ v, apiSectionOf (Node.str k, v) = s)
    (h0 : c none = apiGet s a)
    (h1 : ∀ b, apiStep X (Node.str k) (enc b) s (apiGet s a) = .ok (c (some b))) :
    forPairs (APISpec.assign X) (asPairs X (OM.optEnt (.str k) (o.map enc))) a =
      .ok (a.setPart s (c o)) := by
  refine api_read_opt hX hs (fun h => ?_) (fun v hv => ?_)
  · rw [Option.map_eq_none_iff] at h; rw [h, h0]
  · rw [Option.map_eq_some_iff] at hv
    obtain ⟨b, hb, rfl⟩ := hv
    rw [hb]; exact h1 b

theorem api_read_anns (es : List (String × Ann)) (a : APISpec)
    (h : ∀ e ∈ es, e.1.toList.head? = some '(' ∧ e.2.omap = false ∧ Distinct e.2.ents) :
    forPairs (APISpec.assign X)
        (asPairs X (es.map fun e => (Scalar.str e.1, renderStrMap id e.2))) a =
      .ok (a.setPart .annotations
        (a.annotations.putAll (es.map fun e => (e.1, (⟨e.2.ents, true⟩ : Ann))))) := by
  induction es generalizing a with
  | nil => rfl
  | cons e es ih =>
    obtain ⟨h1, h2, h3⟩ := h e (by simp)
    refine forPairs_chain (api_read_one hX (s := .annotations) (x := a.annotations.put e.1 _) ?_ ?_)
      (ih _ fun y hy => h y (by simp [hy]))
    · simp [apiSectionOf, startsWith, Node.str, Node.isStr, Node.value, h1]
    · show (loadAnn (renderStrMap id e.2)).map _ = _
      rw [loadAnn_render h2 h3]
      rfl

theorem api_read_resources (es : List (String × Node)) (a : APISpec)
    (h : ∀ e ∈ es, e.1.toList.head? = some '/') :
    forPairs (APISpec.assign X) (asPairs X (es.map fun e => (Scalar.str e.1, e.2))) a =
      .ok (a.setPart .resources (a.resources.putAll es)) := by
  induction es generalizing a with
  | nil => rfl
  | cons e es ih =>
    have h1 := h e (by simp)
    refine forPairs_chain (api_read_one hX (s := .resources) (x := a.resources.put e.1 e.2) ?_ ?_)
      (ih _ fun y hy => h y (by simp [hy]))
    · simp [apiSectionOf, startsWith, Node.str, Node.isStr, Node.value, h1]
    · rfl

omit hX in
theorem apiSectionOf_extra {s : String} {v : Node} (h1 : s ∉ apiWriteKeys) (h2 : s ≠ "schemas")
    (h3 : s.toList.head? ≠ some '(') (h4 : s.toList.head? ≠ some '/') :
    apiSectionOf (Node.str s, v) = .extra := by
  simp only [apiSectionOf, startsWith, Node.str, Node.isStr, Node.value]
  simp only [apiWriteKeys, List.mem_cons, List.not_mem_nil, or_false, not_or] at h1
  simp [h3, h4, apiKeys, List.lookup, beq_false_of_ne, h1, h2]

theorem api_read_extra (es : List (Scalar × Node)) (a : APISpec)
    (h : ∀ p ∈ es, ∀ s, p.1 = .str s → s ∉ apiWriteKeys ∧ s ≠ "" ∧ s ≠ "schemas" ∧
      s.toList.head? ≠ some '(' ∧ s.toList.head? ≠ some '/') :
    forPairs (APISpec.assign X) (asPairs X es) a = .ok (a.setPart .extra (a.extra.putAll es)) := by
  induction es generalizing a with
  | nil => rfl
  | cons p es ih =>
    obtain ⟨k, v⟩ := p
    have hstep : a.assign X (X.ofKey k) v = .ok { a with extra := a.extra.put k v } := by
      by_cases hk : ∃ s, k = .str s
      · obtain ⟨s, rfl⟩ := hk
        obtain ⟨h1, h2, h3, h4, h5⟩ := h _ (List.mem_cons_self ..) s rfl
        rw [hX.ofKey_str, api_assign_eq, apiSectionOf_extra h1 h3 h4 h5]
        have hsc := hX.toScalar_ofKey (.str s)
        rw [hX.ofKey_str] at hsc
        have hne : ¬(((Node.str s).isStr && (Node.str s).value == "") = true) := by
          simp [Node.str, Node.value, h2]
        have : apiStep X (Node.str s) v .extra (apiGet .extra a) = .ok (a.extra.put (.str s) v) := by
          simp only [apiStep, asScalar, hsc]
          rw [if_neg hne]
          rfl
        rw [this]
        rfl
      · have hk' : ∀ s, k ≠ .str s := fun s hs => hk ⟨s, hs⟩
        unfold APISpec.assign
        rw [hX.ofKey_isStr hk']
        simp [APISpec.putExtra, asScalar, hX.toScalar_ofKey]
    show (a.assign X (X.ofKey k) v).bind _ = _
    rw [hstep, Res.bind_ok]
    exact ih _ fun q hq => h q (by simp [hq])

/-- Reading back what is written for an API document. -/
theorem parseApi_toYAML {a : APISpec} (h : WritableApi a) :
    parseApi X (a.toYAML X) = .ok (canonApi a) := by
  rw [api_toYAML_clean h.clean]
  show forPairs (APISpec.assign X) (asPairs X (a.ents X)) APISpec.new = _
  have str : ∀ {k : String} {s : ApiSection} (m : OM String Node) (b : APISpec),
      WritableMap m → (∀ v, apiSectionOf (Node.str k, v) = s) →
      ∀ x : s.Ty, (m.ents = [] → x = apiGet s b) →
      (∀ v, loadUntyped (OM.empty false) v = .ok (plainMap m) →
        apiStep X (Node.str k) v s (apiGet s b) = .ok x) →
      forPairs (APISpec.assign X) (asPairs X (OM.optEnt (.str k)
        (ifNonEmpty m (renderStrMap id m)))) b = .ok (b.setPart s x) := by
    intro k s m b hm hs x h0 h1
    refine api_read_opt hX hs (fun hn => h0 (ifNonEmpty_none hn)) (fun v hv => ?_)
    obtain ⟨h2, rfl⟩ := ifNonEmpty_some hv
    exact h1 _ (loadUntyped_render (hm.1 h2) hm.2)
  simp only [APISpec.ents, APISpec.headEnts, APISpec.typesEnts, List.append_assoc, List.cons_append]
  rw [show ∀ (e : Scalar × Node) es, asPairs X (e :: es) = asPairs X [e] ++ asPairs X es from
    fun _ _ => rfl]
  simp only [asPairs_append]
  have pm : ∀ {V : Type} {m : OM String V}, m.ents = [] → plainMap m = OM.empty false := by
    intro V m hm; simp [plainMap, hm, OM.empty]
  refine forPairs_chain (api_read_one hX (s := .title) (x := a.title) (apiSectionOf_known (by decide) _) rfl) ?_
  refine forPairs_chain (api_read_enc hX (s := .version) Node.str a.version id (apiSectionOf_known (by decide)) rfl
    fun _ => rfl) ?_
  refine forPairs_chain (api_read_enc hX (s := .baseUri) Node.str a.baseURI id (apiSectionOf_known (by decide)) rfl
    fun _ => rfl) ?_
  refine forPairs_chain (api_read_enc hX (s := .description) Node.str a.description id
    (apiSectionOf_known (by decide)) rfl fun _ => rfl) ?_
  refine forPairs_chain (api_read_enc hX (s := .protocols) (renderList Node.str) a.protocols id
    (apiSectionOf_known (by decide)) rfl fun l => by
      show (asStringList (renderList Node.str l)).map _ = _
      rw [asStringList_render]; rfl) ?_
  refine forPairs_chain (api_read_enc hX (s := .mediaType) (renderList Node.str) a.mediaType id
    (apiSectionOf_known (by decide)) rfl fun l => by
      show (asStringList (renderList Node.str l)).map _ = _
      rw [asStringList_render]; rfl) ?_
  refine forPairs_chain (api_read_enc hX (s := .documentation) (renderList Documentation.toYAML)
    a.documentation (fun o => match o with
        | some (d :: ds) => some ((d :: ds).map fun _ => Documentation.new)
        | _ => none) (apiSectionOf_known (by decide)) rfl fun l => pushDocs_render X l) ?_
  refine forPairs_chain (api_read_enc hX (s := .securedBy) (renderList Node.str) a.securedBy id
    (apiSectionOf_known (by decide)) rfl fun l => by
      show (asStringList (renderList Node.str l)).map _ = _
      rw [asStringList_render]; rfl) ?_
  refine forPairs_chain (api_read_opt hX (s := .uses) (x := plainMap a.uses) (apiSectionOf_known (by decide))
    (fun hn => pm (ifNonEmpty_none hn)) (fun v hv => by
      obtain ⟨h2, rfl⟩ := ifNonEmpty_some hv
      exact loadStrings_render (h.uses.1 h2) h.uses.2)) ?_
  refine forPairs_chain (str (s := .securitySchemes) _ _ h.securitySchemes (apiSectionOf_known (by decide)) _
    (fun hn => pm hn) fun _ hv => hv) ?_
  refine forPairs_chain (str (s := .baseUriParameters) _ _ h.baseURIParameters (apiSectionOf_known (by decide)) _
    (fun hn => pm hn) fun _ hv => hv) ?_
  refine forPairs_chain (str (s := .traits) _ _ h.traits (apiSectionOf_known (by decide)) _
    (fun hn => pm hn) fun _ hv => hv) ?_
  refine forPairs_chain (str (s := .annotationTypes) _ _ h.annotationTypes (apiSectionOf_known (by decide)) _
    (fun hn => pm hn) fun _ hv => hv) ?_
  refine forPairs_chain (str (s := .resourceTypes) _ _ h.resourceTypes (apiSectionOf_known (by decide)) _
    (fun hn => pm hn) fun _ hv => hv) ?_
  refine forPairs_chain (api_read_anns hX a.annotations.ents _ h.annotations.2) ?_
  refine forPairs_chain (api_read_extra hX a.extra.ents _ fun p hp s hs => by
    obtain ⟨h1, h2, h3⟩ := h.clean.extraKeys p hp s hs
    obtain ⟨h4, h5⟩ := h.extraKeys p hp s hs
    exact ⟨h1, h4, h5, h2, h3⟩) ?_
  refine forPairs_chain (api_read_resources hX a.resources.ents _ h.clean.resourceKeys) ?_
  rw [api_read_opt hX (s := .types) (x := canonTypes false a.types) (apiSectionOf_known (by decide))]
  · have e1 : (OM.empty false : OM String Ann).putAll
        (a.annotations.ents.map fun e => (e.1, (⟨e.2.ents, true⟩ : Ann))) =
        canonAnns false a.annotations := putAll_distinct _ (distinct_canon (c := fun x : Ann => (⟨x.ents, true⟩ : Ann)) h.annotations.1)
    have e2 : (OM.empty false : OM Scalar Node).putAll a.extra.ents = plainMap a.extra :=
      putAll_distinct _ h.clean.extra
    have e3 : (OM.empty false : OM String Node).putAll a.resources.ents = plainMap a.resources :=
      putAll_distinct _ h.clean.resources
    unfold canonApi
    rw [← e1, ← e2, ← e3]
    simp only [APISpec.setPart, APISpec.new, id]
    cases a.documentation with
    | none => rfl
    | some l => cases l <;> rfl
  · intro hn
    have := ifNonEmpty_none hn
    show canonTypes false a.types = OM.empty false
    cases ht : a.types with
    | mk es b =>
      rw [ht] at this
      cases this
      rw [canonTypes, canonEnts]
      rfl
  · intro v hv
    obtain ⟨h2, rfl⟩ := ifNonEmpty_some hv
    exact loadTypes_render hX (h.types.1 h2) h.types.2 h.typesEach

/-! ### Reading a library back -/

omit hX in
theorem lib_setPart_get (s : LibSection) (l : Library) : l.setPart s (libGet s l) = l := by
  cases s <;> rfl

omit hX in
theorem libSectionOf_known {k : String} {s : LibSection} (h : (k, s) ∈ libKeys) (v : Node) :
    libSectionOf (Node.str k, v) = s := by
  have h1 : ∀ e ∈ libKeys, libSectionOf (Node.str e.1, nullNode) = e.2 := by decide
  exact h1 _ h

theorem lib_read_one {k : String} {v : Node} {s : LibSection} {x : s.Ty} {a : Library}
    (hs : libSectionOf (Node.str k, v) = s)
    (h : libStep X (Node.str k) v s (libGet s a) = .ok x) :
    forPairs (Library.assign X) (asPairs X [(.str k, v)]) a = .ok (a.setPart s x) := by
  show (a.assign X (X.ofKey (.str k)) v).bind _ = _
  subst hs
  rw [hX.ofKey_str, lib_assign_eq, h]
  rfl

theorem lib_read_opt {k : String} {o : Option Node} {s : LibSection} {x : s.Ty} {a : Library}
    (hs : ∀ v, libSectionOf (Node.str k, v) = s) (h0 : o = none → x = libGet s a)
    (h1 : ∀ v, o = some v → libStep X (Node.str k) v s (libGet s a) = .ok x) :
    forPairs (Library.assign X) (asPairs X (OM.optEnt (.str k) o)) a = .ok (a.setPart s x) := by
  cases o with
  | none => rw [h0 rfl, lib_setPart_get]; rfl
  | some v => exact lib_read_one hX (hs v) (h1 v rfl)

omit hX in
theorem libSectionOf_new {s : String} {v : Node} (h1 : s ∉ libWriteKeys) (h2 : s ≠ "schemas") :
    libSectionOf (Node.str s, v) = if startsWith '(' (Node.str s) then .annotations else .extra := by
  simp only [libSectionOf, Node.value, Node.str]
  simp only [libWriteKeys, List.mem_cons, List.not_mem_nil, or_false, not_or] at h1
  simp [libKeys, List.lookup, beq_false_of_ne, h1, h2]

theorem lib_read_anns (es : List (String × Ann)) (a : Library)
    (h : ∀ e ∈ es, e.1.toList.head? = some '(' ∧ e.2.omap = false ∧ Distinct e.2.ents) :
    forPairs (Library.assign X)
        (asPairs X (es.map fun e => (Scalar.str e.1, renderStrMap id e.2))) a =
      .ok { a with annotations :=
        (a.annotations.putAll (es.map fun e => (e.1, (⟨e.2.ents, true⟩ : Ann)))) } := by
  induction es generalizing a with
  | nil => rfl
  | cons e es ih =>
    obtain ⟨h1, h2, h3⟩ := h e (by simp)
    have hK : ∀ s ∈ libWriteKeys, s.toList.head? ≠ some '(' := by decide
    have hne : e.1 ≠ "annotationTypes" := fun he => by rw [he] at h1; exact absurd h1 (by decide)
    refine forPairs_chain (lib_read_one hX (s := .annotations) (x := a.annotations.put e.1 _) ?_ ?_)
      (ih _ fun y hy => h y (by simp [hy]))
    · rw [libSectionOf_new (fun hm => hK _ hm h1)
        (fun he => by rw [he] at h1; exact absurd h1 (by decide))]
      simp [startsWith, Node.str, Node.isStr, Node.value, h1]
    · have : libStep X (Node.str e.1) (renderStrMap id e.2) .annotations a.annotations =
          (loadAnn (renderStrMap id e.2)).map fun x => a.annotations.put e.1 x := if_neg hne
      show libStep X (Node.str e.1) (renderStrMap id e.2) .annotations a.annotations = _
      rw [this, loadAnn_render h2 h3]
      rfl

theorem lib_read_extra (es : List (Scalar × Node)) (a : Library)
    (h : ∀ p ∈ es, ∀ s, p.1 = .str s → s ∉ libWriteKeys ∧ s ≠ "" ∧ s ≠ "schemas" ∧
      s.toList.head? ≠ some '(') :
    forPairs (Library.assign X) (asPairs X es) a = .ok { a with extra := a.extra.putAll es } := by
  induction es generalizing a with
  | nil => rfl
  | cons p es ih =>
    obtain ⟨k, v⟩ := p
    have hstep : a.assign X (X.ofKey k) v = .ok { a with extra := a.extra.put k v } := by
      have hsc := hX.toScalar_ofKey k
      have hsec : libSectionOf (X.ofKey k, v) = .extra ∧
          ¬(((X.ofKey k).isStr && (X.ofKey k).value == "") = true) := by
        by_cases hk : ∃ s, k = .str s
        · obtain ⟨s, rfl⟩ := hk
          obtain ⟨h1, h2, h3, h4⟩ := h _ (List.mem_cons_self ..) s rfl
          rw [hX.ofKey_str, libSectionOf_new h1 h3]
          constructor
          · simp [startsWith, Node.str, Node.isStr, Node.value, h4]
          · simp [Node.str, Node.value, h2]
        · have hk' : ∀ s, k ≠ .str s := fun s hs => hk ⟨s, hs⟩
          have h5 := hX.ofKey_isStr hk'
          have h6 := hX.ofKey_value hk'
          constructor
          · have h7 : libKeys.lookup (X.ofKey k).value = none := by
              simp only [libraryKeys, List.mem_cons, List.not_mem_nil, or_false, not_or] at h6
              simp [libKeys, List.lookup, beq_false_of_ne, h6]
            simp [libSectionOf, h7, startsWith, h5]
          · simp [h5]
      have h8 : libStep X (X.ofKey k) v .extra (libGet .extra a) = .ok (a.extra.put k v) := by
        simp only [libStep, asScalar, hsc]
        rw [if_neg hsec.2]
        rfl
      rw [lib_assign_eq, hsec.1, h8]
      rfl
    show (a.assign X (X.ofKey k) v).bind _ = _
    rw [hstep, Res.bind_ok]
    exact ih _ fun q hq => h q (by simp [hq])

/-- Reading back what is written for a library. -/
theorem parseLibrary_toYAML {l : Library} (h : WritableLib l) :
    parseLibrary X (some (l.toYAML X)) = .ok (canonLib l) := by
  rw [lib_toYAML_clean h.clean]
  show forPairs (Library.assign X) (asPairs X (l.ents X)) Library.new = _
  have pm : ∀ {V : Type} {m : OM String V}, m.ents = [] → plainMap m = OM.empty false := by
    intro V m hm; simp [plainMap, hm, OM.empty]
  have str : ∀ {k : String} {s : LibSection} (m : OM String Node) (b : Library),
      WritableMap m → (∀ v, libSectionOf (Node.str k, v) = s) →
      ∀ x : s.Ty, (m.ents = [] → x = libGet s b) →
      (∀ v, loadUntyped (OM.empty false) v = .ok (plainMap m) →
        libStep X (Node.str k) v s (libGet s b) = .ok x) →
      forPairs (Library.assign X) (asPairs X (OM.optEnt (.str k)
        (ifNonEmpty m (renderStrMap id m)))) b = .ok (b.setPart s x) := by
    intro k s m b hm hs x h0 h1
    refine lib_read_opt hX hs (fun hn => h0 (ifNonEmpty_none hn)) (fun v hv => ?_)
    obtain ⟨h2, rfl⟩ := ifNonEmpty_some hv
    exact h1 _ (loadUntyped_render (hm.1 h2) hm.2)
  simp only [Library.ents, asPairs_append]
  refine forPairs_chain (lib_read_opt hX (s := .usage) (x := l.usage)
    (libSectionOf_known (by decide)) (fun hn => Option.map_eq_none_iff.mp hn) fun v hv => by
      obtain ⟨s, hs, rfl⟩ := Option.map_eq_some_iff.mp hv
      rw [hs]; rfl) ?_
  refine forPairs_chain (lib_read_opt hX (s := .uses) (x := plainMap l.uses)
    (libSectionOf_known (by decide)) (fun hn => pm (ifNonEmpty_none hn)) (fun v hv => by
      obtain ⟨h2, rfl⟩ := ifNonEmpty_some hv
      exact loadStrings_render (h.uses.1 h2) h.uses.2)) ?_
  refine forPairs_chain (str (s := .securitySchemes) _ _ h.securitySchemes
    (libSectionOf_known (by decide)) _ (fun hn => pm hn) fun _ hv => hv) ?_
  refine forPairs_chain (str (s := .traits) _ _ h.traits
    (libSectionOf_known (by decide)) _ (fun hn => pm hn) fun _ hv => hv) ?_
  have hat : ifNonEmpty l.annotationTypes (renderStrMap id l.annotationTypes) = none := by
    simp [ifNonEmpty, OM.len, h.annotationTypes]
  rw [hat]
  refine forPairs_chain (as := asPairs X (OM.optEnt _ none)) rfl ?_
  refine forPairs_chain (lib_read_anns hX l.annotations.ents _ h.annotations.2) ?_
  refine forPairs_chain (str (s := .resourceTypes) _ _ h.resourceTypes
    (libSectionOf_known (by decide)) _ (fun hn => pm hn) fun _ hv => hv) ?_
  refine forPairs_chain (lib_read_extra hX l.extra.ents _ fun p hp s hs => by
    obtain ⟨h1, h2⟩ := h.clean.extraKeys p hp s hs
    obtain ⟨h4, h5⟩ := h.extraKeys p hp s hs
    exact ⟨h1, h4, h5, h2⟩) ?_
  rw [lib_read_opt hX (s := .types) (x := canonTypes false l.types)
    (libSectionOf_known (by decide))]
  · have e1 : (OM.empty false : OM String Ann).putAll
        (l.annotations.ents.map fun e => (e.1, (⟨e.2.ents, true⟩ : Ann))) =
        canonAnns false l.annotations :=
      putAll_distinct _ (distinct_canon (c := fun x : Ann => (⟨x.ents, true⟩ : Ann)) h.annotations.1)
    have e2 : (OM.empty false : OM Scalar Node).putAll l.extra.ents = plainMap l.extra :=
      putAll_distinct _ h.clean.extra
    unfold canonLib
    rw [← e1, ← e2]
    rfl
  · intro hn
    have := ifNonEmpty_none hn
    show canonTypes false l.types = OM.empty false
    cases ht : l.types with
    | mk es b =>
      rw [ht] at this
      cases this
      rw [canonTypes, canonEnts]
      rfl
  · intro v hv
    obtain ⟨h2, rfl⟩ := ifNonEmpty_some hv
    exact loadTypes_render hX (h.types.1 h2) h.types.2 h.typesEach

end Steps

/-! ### The fragments without loss -/

private theorem writable_of_flag {V : Type} {m : OM String V} (h : m.omap = false ∧ Distinct m.ents) :
    WritableMap m := ⟨fun _ => h.1, h.2⟩

theorem plainMap_of_flag {K V : Type} {m : OM K V} (h : m.omap = false) : plainMap m = m := by
  cases m; cases h; rfl

private theorem canonTypes_plain {m : OM String DT} (h : m.omap = false)
    (h' : ∀ e ∈ m.ents, Plain e.2) : canonTypes false m = m := by
  obtain ⟨es, b⟩ := m
  cases h
  rw [canonTypes, canonEnts_eq]
  congr 1
  conv => rhs; rw [← List.map_id es]
  apply List.map_congr_left
  intro e he
  rw [(h' e he).canon]
  rfl

theorem Spec.PlainApi.writable {a : APISpec} (h : PlainApi a) : WritableApi a where
  clean :=
    { extra := h.extra
      extraKeys := fun p hp s hs => by
        obtain ⟨h1, h2, h3, h4⟩ := h.extraKeys p hp s hs
        refine ⟨fun hm => h1 ?_, h3, h4⟩
        have : ∀ s ∈ apiWriteKeys, s ∈ apiKeys.map Prod.fst := by decide
        exact this s hm
      annotations := by rw [h.annotations]; exact List.nodup_nil
      annotationKeys := fun e he => by rw [h.annotations] at he; cases he
      resources := h.resources
      resourceKeys := h.resourceKeys }
  extraKeys := fun p hp s hs => by
    obtain ⟨h1, h2, h3, h4⟩ := h.extraKeys p hp s hs
    exact ⟨h2, fun he => h1 (by rw [he]; decide)⟩
  uses := writable_of_flag h.uses
  securitySchemes := writable_of_flag h.securitySchemes
  baseURIParameters := writable_of_flag h.baseURIParameters
  traits := writable_of_flag h.traits
  annotationTypes := writable_of_flag h.annotationTypes
  resourceTypes := writable_of_flag h.resourceTypes
  types := writable_of_flag h.types
  typesEach := fun e he => (h.typesEach e he).writable
  annotations := by rw [h.annotations]; exact ⟨List.nodup_nil, fun e he => by cases he⟩

theorem Spec.PlainApi.canon {a : APISpec} (h : PlainApi a) : canonApi a = a := by
  unfold canonApi
  rw [plainMap_of_flag h.baseURIParameters.1, plainMap_of_flag h.traits.1,
    plainMap_of_flag h.resourceTypes.1, plainMap_of_flag h.annotationTypes.1,
    plainMap_of_flag h.securitySchemes.1, plainMap_of_flag h.uses.1,
    plainMap_of_flag h.resourcesFlag, plainMap_of_flag h.extraFlag,
    canonTypes_plain h.types.1 h.typesEach]
  have h1 : canonAnns false a.annotations = a.annotations := by rw [h.annotations]; rfl
  rw [h1, h.documentation]
  cases a
  cases h.documentation
  rfl

theorem Spec.PlainLib.writable {l : Library} (h : PlainLib l) : WritableLib l where
  clean :=
    { extra := h.extra
      extraKeys := fun p hp s hs => by
        obtain ⟨h1, h2, h3⟩ := h.extraKeys p hp s hs
        refine ⟨fun hm => h1 ?_, h3⟩
        have : ∀ s ∈ libWriteKeys, s ∈ libKeys.map Prod.fst := by decide
        exact this s hm
      annotations := by rw [h.annotations]; exact List.nodup_nil
      annotationKeys := fun e he => by rw [h.annotations] at he; cases he }
  extraKeys := fun p hp s hs => by
    obtain ⟨h1, h2, h3⟩ := h.extraKeys p hp s hs
    exact ⟨h2, fun he => h1 (by rw [he]; decide)⟩
  uses := writable_of_flag h.uses
  securitySchemes := writable_of_flag h.securitySchemes
  traits := writable_of_flag h.traits
  annotationTypes := by rw [h.annotationTypes]; rfl
  resourceTypes := writable_of_flag h.resourceTypes
  types := writable_of_flag h.types
  typesEach := fun e he => (h.typesEach e he).writable
  annotations := by rw [h.annotations]; exact ⟨List.nodup_nil, fun e he => by cases he⟩

theorem Spec.PlainLib.canon {l : Library} (h : PlainLib l) : canonLib l = l := by
  unfold canonLib
  rw [plainMap_of_flag h.traits.1, plainMap_of_flag h.resourceTypes.1,
    plainMap_of_flag h.securitySchemes.1, plainMap_of_flag h.uses.1,
    plainMap_of_flag h.extraFlag, canonTypes_plain h.types.1 h.typesEach, ← h.annotationTypes]
  have h1 : canonAnns false l.annotations = l.annotations := by rw [h.annotations]; rfl
  rw [h1]

end Verif.Doc
