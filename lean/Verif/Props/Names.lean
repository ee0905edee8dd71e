import Verif.Props.ApiParse
import Verif.Doc.Rename
import Verif.Doc.NamesSpec
import Verif.Doc.Laws

/-! # C111: names in dictionaries are free -/

namespace Verif.Props
open Verif Verif.Doc Verif.Doc.Spec

/-! ### Dictionaries -/

theorem renamed_put {V : Type} {r : String → String} (hr : ∀ a b, r a = r b → a = b)
    (m : OM String V) (k : String) (v : V) : (renamed r m).put (r k) v = renamed r (m.put k v) := by
  have h : ∀ es : List (String × V), (es.map fun e => (r e.1, e.2)).filter (fun e => !(e.1 == r k)) =
      (es.filter fun e => !(e.1 == k)).map fun e => (r e.1, e.2) := by
    intro es
    induction es with
    | nil => rfl
    | cons e es ih =>
      have : (r e.1 == r k) = (e.1 == k) := by
        by_cases he : e.1 = k
        · simp [he]
        · have : r e.1 ≠ r k := fun h => he (hr _ _ h)
          rw [beq_false_of_ne he, beq_false_of_ne this]
      simp only [List.map_cons, List.filter_cons, this, ih]
      split <;> rfl
  simp only [renamed, OM.put, h, List.map_append, List.map_cons, List.map_nil]

theorem asString_rekey (r : String → String) (k : Node) :
    asString (rekey r k) = (asString k).map r := by
  cases k with
  | scalar t s =>
    show (if (t == "!!str") = true then Res.ok (r s) else .err .notString) =
      Res.map r (if (t == "!!str") = true then .ok s else .err .notString)
    split <;> rfl
  | seq t ns =>
    simp only [rekey, asString]
    split <;> rename_i h <;> simp_all [Node.isStr, Res.map]
  | map ps =>
    simp only [rekey, asString]
    split <;> rename_i h <;> simp_all [Node.isStr, Res.map]

theorem pairs_comm {σ : Type} {F : Node → Node → σ → Res σ} {g : σ → σ} {e : Node × Node → Node × Node}
    {P : σ → Prop} (ps : List (Node × Node))
    (hF : ∀ p ∈ ps, ∀ s, P s → F (e p).1 (e p).2 (g s) = (F p.1 p.2 s).map g ∧
      ∀ s', F p.1 p.2 s = .ok s' → P s') (s : σ) (hs : P s) :
    forPairs F (ps.map e) (g s) = (forPairs F ps s).map g := by
  induction ps generalizing s with
  | nil => rfl
  | cons p ps ih =>
    simp only [List.map_cons, forPairs]
    obtain ⟨h1, h2⟩ := hF p (by simp) s hs
    rw [h1]
    cases h : F p.1 p.2 s with
    | ok s' => exact ih (fun q hq => hF q (by simp [hq])) s' (h2 s' h)
    | err e => rfl
    | panic c => rfl

/-- A loader of a dictionary. -/
theorem loader_rename {V : Type} {g : Node → Res V} {r : String → String}
    (hr : ∀ a b, r a = r b → a = b) (v : Node) (m : OM String V) :
    mapForEach (fun k v m => (asString k).bind fun s => (g v).map fun x => m.put s x) (rekeyed r v)
      (renamed r m) =
    (mapForEach (fun k v m => (asString k).bind fun s => (g v).map fun x => m.put s x) v m).map
      (renamed r) := by
  cases v with
  | scalar a b => rfl
  | seq a b => rfl
  | map ps =>
    refine pairs_comm (P := fun _ => True) (e := fun p => (rekey r p.1, p.2)) ps
      (fun p _ s _ => ⟨?_, fun _ _ => trivial⟩) m trivial
    simp only [asString_rekey]
    cases asString p.1 with
    | ok k =>
      show (g p.2).map _ = ((g p.2).map _).map _
      cases g p.2 with
      | ok x => exact congrArg Res.ok (renamed_put hr s k x)
      | err e => rfl
      | panic c => rfl
    | err e => rfl
    | panic c => rfl

theorem untyped_form :
    (fun k v (m : OM String Node) => (asString k).map fun s => m.put s v) =
      fun k v m => (asString k).bind fun s => ((Res.ok v : Res Node)).map fun x => m.put s x := by
  funext k v m
  cases asString k <;> rfl

theorem untyped_rename {r : String → String} (hr : ∀ a b, r a = r b → a = b) (v : Node)
    (m : OM String Node) : loadUntyped (renamed r m) (rekeyed r v) =
      (loadUntyped m v).map (renamed r) := by
  unfold loadUntyped
  rw [untyped_form]
  exact loader_rename hr v m

theorem strings_rename {r : String → String} (hr : ∀ a b, r a = r b → a = b) (v : Node)
    (m : OM String String) : loadStrings (renamed r m) (rekeyed r v) =
      (loadStrings m v).map (renamed r) := loader_rename hr v m

theorem types_rename {r : String → String} (hr : ∀ a b, r a = r b → a = b) (X : Xyml) (v : Node)
    (m : OM String DT) : loadTypes X (rekeyed r v) (renamed r m) =
      (loadTypes X v m).map (renamed r) := by
  rw [loadTypes_eq, loadTypes_eq, loadType_form]
  exact loader_rename hr v m

theorem facets_rename {r : String → String} (hr : ∀ a b, r a = r b → a = b) (X : Xyml) (v : Node)
    (m : OM String (OM String DT)) : loadFacets X (rekeyed r v) (renamed r m) =
      (loadFacets X v m).map (renamed r) := by
  have h : (fun k v (m : OM String (OM String DT)) => loadFacet X (k, v) m) =
      fun k v m => (asString k).bind fun s => (loadTypes X v (OM.empty true)).map fun x => m.put s x := by
    funext k v m
    unfold loadFacet
    rfl
  rw [loadFacets_eq, loadFacets_eq, h]
  exact loader_rename hr v m

theorem props_rename {r : String → String} (hr : ∀ a b, r a = r b → a = b) (X : Xyml) (v : Node)
    (m : OM String DT) : loadProps X (rekeyed r v) (renamed r m) =
      (loadProps X v m).map (renamed r) := by
  have h : (fun k v (m : OM String DT) => loadProp X (k, v) m) =
      fun k v m => (asString k).bind fun s => ((hat X v).bind fun t =>
        if t.isProperty then .ok t else .panic .notProperty).map fun x => m.put s x := by
    funext k v m
    unfold loadProp
    congr 1
    funext s
    cases hat X v with
    | ok t =>
      show (if t.isProperty then _ else _) = Res.map _ (if t.isProperty then _ else _)
      split <;> rfl
    | err e => rfl
    | panic c => rfl
  rw [loadProps_eq, loadProps_eq, h]
  exact loader_rename hr v m

theorem examples_rename {r : String → String} (hr : ∀ a b, r a = r b → a = b) (X : Xyml) (kd : Kind)
    (v : Node) (m : OM String Example) : loadExamples X kd (renamed r m) (rekeyed r v) =
      (loadExamples X kd m v).map (renamed r) := loader_rename hr v m

/-! ### Types -/

/-- The new value of one facet. -/
def renamedFacet (r : Facet → String → String) : (f : Facet) → f.Ty → f.Ty
  | .properties, x => renamed (V := DT) (r .properties) x
  | .examples, x => renamed (V := Example) (r .examples) x
  | .facets, x => renamed (V := OM String DT) (r .facets) x
  | _, x => x

theorem renamed_kind (r : Facet → String → String) (t : DT) : (renamedType r t).kind = t.kind := by
  cases t <;> rfl

theorem renamed_look (r : Facet → String → String) (f : Facet) (t : DT) :
    look f (renamedType r t) = renamedFacet r f (look f t) := by
  cases t <;> cases f <;> rfl

theorem renamed_set (r : Facet → String → String) (f : Facet) (x : f.Ty) (t : DT) :
    (renamedType r t).setFacet f (renamedFacet r f x) = renamedType r (t.setFacet f x) := by
  cases t <;> cases f <;> rfl

theorem renamed_step {X : Xyml} {kd : Kind} {k v : Node} {r : Facet → String → String}
    (hr : ∀ f a b, r f a = r f b → a = b) (f : Facet) (x : f.Ty) :
    facetStep X kd k (if f.isDict then rekeyed (r f) v else v) f (renamedFacet r f x) =
      (facetStep X kd k v f x).map (renamedFacet r f) := by
  have hid : ∀ {α : Type} (y : Res α), y = y.map fun a => a := fun y => by cases y <;> rfl
  cases f <;> first
    | exact props_rename (hr _) X v x
    | exact examples_rename (hr _) X kd v x
    | exact facets_rename (hr _) X v x
    | exact hid _

theorem assign_rename {X : Xyml} {r : Facet → String → String}
    (hr : ∀ f a b, r f a = r f b → a = b) (p : Node × Node) (t : DT) :
    assign X (p.1, if (facetOf t.kind p).isDict then rekeyed (r (facetOf t.kind p)) p.2 else p.2)
      (renamedType r t) = (assign X p t).map (renamedType r) := by
  obtain ⟨k, v⟩ := p
  have key : ∀ (w : Node) (f : Facet), w = (if f.isDict then rekeyed (r f) v else v) →
      (facetStep X t.kind k w f (look f (renamedType r t))).map
        (fun x => (renamedType r t).setFacet f x) =
      ((facetStep X t.kind k v f (look f t)).map fun x => t.setFacet f x).map (renamedType r) := by
    intro w f hw
    rw [hw, renamed_look, renamed_step hr]
    cases facetStep X t.kind k v f (look f t) with
    | ok x => exact congrArg Res.ok (renamed_set r f x t)
    | err e => rfl
    | panic c => rfl
  rw [assign_eq, assign_eq]
  unfold DT.step
  rw [renamed_kind]
  exact key _ _ rfl

theorem assign_keeps_kind {X : Xyml} {p : Node × Node} {t t' : DT} (h : assign X p t = .ok t') :
    t'.kind = t.kind := by
  have : assignAll X [p] t = .ok t' := by
    simp only [assignAll, h]
    rfl
  exact assignAll_kind this

theorem assignAll_rename {X : Xyml} {r : Facet → String → String}
    (hr : ∀ f a b, r f a = r f b → a = b) (ps : List (Node × Node)) (t : DT) :
    assignAll X (ps.map fun p => (p.1, if (facetOf t.kind p).isDict then
      rekeyed (r (facetOf t.kind p)) p.2 else p.2)) (renamedType r t) =
        (assignAll X ps t).map (renamedType r) := by
  rw [assignAll_eq, assignAll_eq]
  refine pairs_comm (P := fun u => u.kind = t.kind) ps (fun p _ u hu => ⟨?_, fun u' h => ?_⟩) t rfl
  · have := assign_rename (X := X) hr p u
    rw [hu] at this
    exact this
  · rw [← hu]
    exact assign_keeps_kind h

/-- C111: new names for the properties, examples and facet declarations of a type in use and of
what is loaded into it give the same type with new names, or the same error. -/
theorem C111_type_load (X : Xyml) {r : Facet → String → String}
    (hr : ∀ f a b, r f a = r f b → a = b) (n : Node) (t : DT) :
    (renamedType r t).unmarshal X (renamedTypeDef t.kind r n) =
      (t.unmarshal X n).map (renamedType r) := by
  cases n with
  | scalar a b =>
    change (renamedType r t).unmarshal X (.scalar a b) = _
    simp only [DT.unmarshal]
    by_cases h : (Node.scalar a b).isStr = true
    · rw [if_pos h, if_pos h]; cases t <;> rfl
    · rw [if_neg h, if_neg h]; rfl
  | seq a b =>
    change (renamedType r t).unmarshal X (.seq a b) = _
    simp only [DT.unmarshal]
    by_cases h : (Node.seq a b).isStr = true
    · rw [if_pos h, if_pos h]; cases t <;> rfl
    · rw [if_neg h, if_neg h]; rfl
  | map ps =>
    simp only [renamedTypeDef, DT.unmarshal]
    have : ∀ qs : List (Node × Node), Node.isStr (.map qs) = false := fun _ => rfl
    simp only [this, Bool.false_eq_true, if_false]
    exact assignAll_rename hr ps t

theorem sift_rename {kd : Kind} {r : Facet → String → String} (ps : List (Node × Node)) :
    siftType (ps.map fun p => (p.1, if (facetOf kd p).isDict then
      rekeyed (r (facetOf kd p)) p.2 else p.2)) = siftType ps := by
  have h : ∀ (ps : List (Node × Node)) a b, siftScan (ps.map fun p => (p.1, if (facetOf kd p).isDict then
      rekeyed (r (facetOf kd p)) p.2 else p.2)) a b = siftScan ps a b := by
    intro ps
    induction ps with
    | nil => intro a b; rfl
    | cons p ps ih =>
      intro a b
      obtain ⟨k, v⟩ := p
      simp only [List.map_cons, siftScan, ih]
      by_cases hk : k.value = "type" ∨ k.value = "schema"
      · have hf : facetOf kd (k, v) = .type := by
          rcases hk with hk | hk
          · exact facetOf_eq hk (by cases kd <;> decide) (by decide)
          · exact facetOf_eq hk (by cases kd <;> decide) (by decide)
        rw [if_pos hk, if_pos hk, hf]
        rfl
      · rw [if_neg hk, if_neg hk]
  unfold siftType
  rw [h]

theorem renamed_nil {V : Type} {r : String → String} {m : OM String V} (h : m.ents = []) :
    renamed r m = m := by
  obtain ⟨es, o⟩ := m
  simp only at h
  subst h
  rfl

theorem renamed_bare {r : Facet → String → String} {t : DT} (h : Bare t) : renamedType r t = t := by
  cases t with
  | basic i s x => rfl
  | ext hd b fs ps it =>
    have h1 : hd.examples.ents = [] := h.examples
    have h2 : fs.ents = [] := h.facets
    have h3 : ps.ents = [] := h.properties
    simp only [renamedType, renamed_nil h1, renamed_nil h2, renamed_nil h3]

/-- C111: a type definition with new names for its properties, examples and facet declarations is
read as the type with new names. -/
theorem C111_type (X : Xyml) {r : Facet → String → String} (hr : ∀ f a b, r f a = r f b → a = b)
    {n : Node} {t : DT} (h : hat X n = .ok t) :
    hat X (renamedTypeDef t.kind r n) = .ok (renamedType r t) := by
  cases n with
  | scalar a b =>
    have : renamedType r t = t := by
      simp only [hat] at h
      split_ifs at h
      · cases h
        exact renamed_bare (typeToKind_spec b).2.2
      · cases h; rfl
    rw [this]
    exact h
  | seq a b => simp [hat] at h
  | map ps =>
    obtain ⟨t0, h0, _, hb, h1, h2⟩ := hat_map_ok h
    have := assignAll_rename (X := X) hr ps t0
    rw [h1, renamed_bare hb, ← h2] at this
    simp only [renamedTypeDef, hat, sift_rename, h0]
    exact this

/-! ### API documents -/

/-- The new value of one part of an API document. -/
def renamedPart (r : ApiSection → String → String) : (s : ApiSection) → s.Ty → s.Ty
  | .uses, x => renamed (V := String) (r .uses) x
  | .securitySchemes, x => renamed (V := Node) (r .securitySchemes) x
  | .baseUriParameters, x => renamed (V := Node) (r .baseUriParameters) x
  | .traits, x => renamed (V := Node) (r .traits) x
  | .annotationTypes, x => renamed (V := Node) (r .annotationTypes) x
  | .resourceTypes, x => renamed (V := Node) (r .resourceTypes) x
  | .types, x => renamed (V := DT) (r .types) x
  | _, x => x

theorem renamedApi_get (r : ApiSection → String → String) (s : ApiSection) (a : APISpec) :
    apiGet s (renamedApi r a) = renamedPart r s (apiGet s a) := by
  cases s <;> rfl

theorem renamedApi_set (r : ApiSection → String → String) (s : ApiSection) (x : s.Ty) (a : APISpec) :
    (renamedApi r a).setPart s (renamedPart r s x) = renamedApi r (a.setPart s x) := by
  cases s <;> rfl

theorem renamedApi_step {X : Xyml} {k v : Node} {r : ApiSection → String → String}
    (hr : ∀ s a b, r s a = r s b → a = b) (s : ApiSection) (x : s.Ty) :
    apiStep X k (if s.isDict then rekeyed (r s) v else v) s (renamedPart r s x) =
      (apiStep X k v s x).map (renamedPart r s) := by
  have hid : ∀ {α : Type} (y : Res α), y = y.map fun a => a := fun y => by cases y <;> rfl
  cases s <;> first
    | exact strings_rename (hr _) v x
    | exact untyped_rename (hr _) v x
    | exact types_rename (hr _) X v x
    | exact hid _

/-- C111: new names in the dictionaries of an API document in use and of what is loaded into it
give the same document with new names, or the same error. -/
theorem C111_api_load (X : Xyml) {r : ApiSection → String → String}
    (hr : ∀ s a b, r s a = r s b → a = b) (n : Node) (a : APISpec) :
    (renamedApi r a).unmarshal X (renamedApiDoc r n) = (a.unmarshal X n).map (renamedApi r) := by
  cases n with
  | scalar a b => rfl
  | seq a b => rfl
  | map ps =>
    refine pairs_comm (P := fun _ => True) ps (fun p _ a _ => ⟨?_, fun _ _ => trivial⟩) a trivial
    obtain ⟨k, v⟩ := p
    have key : ∀ (w : Node) (s : ApiSection), w = (if s.isDict then rekeyed (r s) v else v) →
        (apiStep X k w s (apiGet s (renamedApi r a))).map (fun x => (renamedApi r a).setPart s x) =
        ((apiStep X k v s (apiGet s a)).map fun x => a.setPart s x).map (renamedApi r) := by
      intro w s hw
      rw [hw, renamedApi_get, renamedApi_step hr]
      cases apiStep X k v s (apiGet s a) with
      | ok x => exact congrArg Res.ok (renamedApi_set r s x a)
      | err e => rfl
      | panic c => rfl
    rw [api_assign_eq, api_assign_eq]
    exact key _ _ rfl

/-- C111: an API document with new names in its dictionaries is read as the document with new
names, or refused alike. -/
theorem C111_api (X : Xyml) {r : ApiSection → String → String}
    (hr : ∀ s a b, r s a = r s b → a = b) (n : Node) :
    parseApi X (renamedApiDoc r n) = (parseApi X n).map (renamedApi r) :=
  C111_api_load X hr n APISpec.new

/-! ### Libraries -/

/-- The new value of one part of a library. -/
def renamedLibPart (r : LibSection → String → String) : (s : LibSection) → s.Ty → s.Ty
  | .uses, x => renamed (V := String) (r .uses) x
  | .types, x => renamed (V := DT) (r .types) x
  | .resourceTypes, x => renamed (V := Node) (r .resourceTypes) x
  | .traits, x => renamed (V := Node) (r .traits) x
  | .securitySchemes, x => renamed (V := Node) (r .securitySchemes) x
  | _, x => x

theorem renamedLib_get (r : LibSection → String → String) (s : LibSection) (a : Library) :
    libGet s (renamedLib r a) = renamedLibPart r s (libGet s a) := by
  cases s <;> rfl

theorem renamedLib_set (r : LibSection → String → String) (s : LibSection) (x : s.Ty) (a : Library) :
    (renamedLib r a).setPart s (renamedLibPart r s x) = renamedLib r (a.setPart s x) := by
  cases s <;> rfl

theorem renamedLib_step {X : Xyml} {k v : Node} {r : LibSection → String → String}
    (hr : ∀ s a b, r s a = r s b → a = b) (s : LibSection) (x : s.Ty) :
    libStep X k (if s.isDict then rekeyed (r s) v else v) s (renamedLibPart r s x) =
      (libStep X k v s x).map (renamedLibPart r s) := by
  have hid : ∀ {α : Type} (y : Res α), y = y.map fun a => a := fun y => by cases y <;> rfl
  cases s <;> first
    | exact strings_rename (hr _) v x
    | exact untyped_rename (hr _) v x
    | exact types_rename (hr _) X v x
    | exact hid _

/-- C111: new names in the dictionaries of a library in use and of what is loaded into it give the
same library with new names, or the same error. -/
theorem C111_library_load (X : Xyml) {r : LibSection → String → String}
    (hr : ∀ s a b, r s a = r s b → a = b) (n : Node) (l : Library) :
    (renamedLib r l).unmarshal X (renamedLibDoc r n) = (l.unmarshal X n).map (renamedLib r) := by
  cases n with
  | scalar a b => rfl
  | seq a b => rfl
  | map ps =>
    refine pairs_comm (P := fun _ => True) ps (fun p _ l _ => ⟨?_, fun _ _ => trivial⟩) l trivial
    obtain ⟨k, v⟩ := p
    have key : ∀ (w : Node) (s : LibSection), w = (if s.isDict then rekeyed (r s) v else v) →
        (libStep X k w s (libGet s (renamedLib r l))).map (fun x => (renamedLib r l).setPart s x) =
        ((libStep X k v s (libGet s l)).map fun x => l.setPart s x).map (renamedLib r) := by
      intro w s hw
      rw [hw, renamedLib_get, renamedLib_step hr]
      cases libStep X k v s (libGet s l) with
      | ok x => exact congrArg Res.ok (renamedLib_set r s x l)
      | err e => rfl
      | panic c => rfl
    rw [lib_assign_eq, lib_assign_eq]
    exact key _ _ rfl

/-- C111: a library with new names in its dictionaries is read as the library with new names, or
refused alike. -/
theorem C111_library (X : Xyml) {r : LibSection → String → String}
    (hr : ∀ s a b, r s a = r s b → a = b) (n : Node) :
    parseLibrary X (some (renamedLibDoc r n)) = (parseLibrary X (some n)).map (renamedLib r) :=
  C111_library_load X hr n Library.new

/-! ### Cases -/

/-- Two names exchanged. -/
def swapped (a b s : String) : String := if s = a then b else if s = b then a else s

theorem swapped_inj (a b s t : String) (h : swapped a b s = swapped a b t) : s = t := by
  unfold swapped at h
  split_ifs at h <;> simp_all

/-- A property may be called `type`, an example `properties`: both are read as any other name. -/
def namesDef : Node := .map [(.str "properties", .map [(.str "id", .str "string"),
  (.str "owner", .map [(.str "type", .str "object"), (.str "required", .scalar "!!bool" "false")])]),
  (.str "examples", .map [(.str "first", .map [(.str "value", .str "x")])])]

def namesNew : Facet → String → String
  | .properties => swapped "id" "type"
  | .examples => swapped "first" "properties"
  | _ => fun s => s

theorem namesNew_inj (f : Facet) (a b : String) (h : namesNew f a = namesNew f b) : a = b := by
  cases f <;> first | exact h | exact swapped_inj _ _ _ _ h

example : renamedTypeDef .object namesNew namesDef = .map [(.str "properties", .map [
    (.str "type", .str "string"), (.str "owner", .map [(.str "type", .str "object"),
      (.str "required", .scalar "!!bool" "false")])]),
    (.str "examples", .map [(.str "properties", .map [(.str "value", .str "x")])])] := by
  rfl

example : ∃ t, hat Xyml.std namesDef = .ok t ∧ t.kind = .object ∧
    (properties t).ents.map Prod.fst = ["id", "owner"] ∧
    hat Xyml.std (renamedTypeDef .object namesNew namesDef) = .ok (renamedType namesNew t) ∧
    (properties (renamedType namesNew t)).ents.map Prod.fst = ["type", "owner"] := by
  have h : ∃ t, hat Xyml.std namesDef = .ok t ∧ t.kind = .object ∧
    (properties t).ents.map Prod.fst = ["id", "owner"] := ⟨_, rfl, rfl, rfl⟩
  obtain ⟨t, h1, h2, h3⟩ := h
  have h4 := C111_type Xyml.std namesNew_inj h1
  rw [h2] at h4
  refine ⟨t, h1, h2, h3, h4, ?_⟩
  cases t with
  | basic i s x => simp [properties, OM.empty] at h3
  | ext hd b fs ps it =>
    have h3' : ps.ents.map Prod.fst = ["id", "owner"] := h3
    show (ps.ents.map fun e => (swapped "id" "type" e.1, e.2)).map Prod.fst = _
    have : (ps.ents.map fun e => (swapped "id" "type" e.1, e.2)).map Prod.fst =
        (ps.ents.map Prod.fst).map (swapped "id" "type") := by simp
    rw [this, h3']
    decide

/-- Two names made one lose an entry: the new names must differ where the old ones did. -/
example : (hat Xyml.std (renamedTypeDef .object (fun _ _ => "id") namesDef)).map
    (fun t => (properties t).ents.length) = .ok 1 ∧
    (hat Xyml.std namesDef).map
      (fun t => (properties (renamedType (fun _ _ => "id") t)).ents.length) = .ok 2 := ⟨rfl, rfl⟩

/-- A type may be called `types`, a trait `title`, a library `(x)`. -/
def namesApi : Node := .map [(.str "title", .str "T"),
  (.str "types", .map [(.str "User", .map [(.str "type", .str "object")])]),
  (.str "uses", .map [(.str "lib", .str "lib.raml")]),
  (.str "traits", .map [(.str "paged", .str "p")]), (.str "/users", .str "r")]

def namesApiNew : ApiSection → String → String
  | .types => swapped "User" "types"
  | .uses => swapped "lib" "(x)"
  | .traits => swapped "paged" "title"
  | _ => fun s => s

theorem namesApiNew_inj (s : ApiSection) (a b : String) (h : namesApiNew s a = namesApiNew s b) :
    a = b := by
  cases s <;> first | exact h | exact swapped_inj _ _ _ _ h

example : (parseApi Xyml.std (renamedApiDoc namesApiNew namesApi)).map (fun a =>
      (a.title, a.types.ents.map Prod.fst, a.uses.ents, a.traits.ents.map Prod.fst,
        a.annotations.ents.length, a.resources.ents.map Prod.fst)) =
    .ok ("T", ["types"], [("(x)", "lib.raml")], ["title"], 0, ["/users"]) := by
  rw [C111_api Xyml.std namesApiNew_inj]
  rfl

/-- A library whose trait is called `usage`. -/
def namesLib : Node := .map [(.str "usage", .str "U"),
  (.str "traits", .map [(.str "paged", .str "p")]), (.str "(a)", .map [(.str "k", .str "v")])]

def namesLibNew : LibSection → String → String
  | .traits => swapped "paged" "usage"
  | _ => fun s => s

theorem namesLibNew_inj (s : LibSection) (a b : String) (h : namesLibNew s a = namesLibNew s b) :
    a = b := by
  cases s <;> first | exact h | exact swapped_inj _ _ _ _ h

example : (parseLibrary Xyml.std (some (renamedLibDoc namesLibNew namesLib))).map (fun l =>
      (l.usage, l.traits.ents.map Prod.fst, l.annotations.ents.map Prod.fst)) =
    .ok (some "U", ["usage"], ["(a)"]) := by
  rw [C111_library Xyml.std namesLibNew_inj]
  rfl

end Verif.Props
