import Verif.Props.NamesWrite
import Verif.Doc.ContentsSpec

/-! # C113: what the library does not look into is carried unopened -/

namespace Verif.Props
open Verif Verif.Doc Verif.Doc.Spec

/-! ### Dictionaries -/

theorem filled_put {K V : Type} [DecidableEq K] (g : V → V) (m : OM K V) (k : K) (v : V) :
    (filled g m).put k (g v) = filled g (m.put k v) := by
  have h : ∀ es : List (K × V), (es.map fun e => (e.1, g e.2)).filter (fun e => !(e.1 == k)) =
      (es.filter fun e => !(e.1 == k)).map fun e => (e.1, g e.2) := by
    intro es
    induction es with
    | nil => rfl
    | cons e es ih =>
      simp only [List.map_cons, List.filter_cons, ih]
      split <;> rfl
  simp only [filled, OM.put, h, List.map_append, List.map_cons, List.map_nil]

/-- A loader of a dictionary. -/
theorem loader_fill {V : Type} {ld : Node → Res V} {g : Node → Node} {f : V → V}
    (hld : ∀ v, ld (g v) = (ld v).map f) (v : Node) (m : OM String V) :
    mapForEach (fun k v m => (asString k).bind fun s => (ld v).map fun x => m.put s x) (revalued g v)
      (filled f m) =
    (mapForEach (fun k v m => (asString k).bind fun s => (ld v).map fun x => m.put s x) v m).map
      (filled f) := by
  cases v with
  | scalar a b => rfl
  | seq a b => rfl
  | map ps =>
    refine pairs_comm (P := fun _ => True) (e := fun p => (p.1, g p.2)) ps
      (fun p _ s _ => ⟨?_, fun _ _ => trivial⟩) m trivial
    simp only
    cases asString p.1 with
    | ok k =>
      show (ld (g p.2)).map _ = ((ld p.2).map _).map _
      rw [hld]
      cases ld p.2 with
      | ok x => exact congrArg Res.ok (filled_put f s k x)
      | err e => rfl
      | panic c => rfl
    | err e => rfl
    | panic c => rfl

theorem untyped_fill (g : Node → Node) (v : Node) (m : OM String Node) :
    loadUntyped (filled g m) (revalued g v) = (loadUntyped m v).map (filled g) := by
  unfold loadUntyped
  rw [untyped_form]
  exact loader_fill (fun _ => rfl) v m

theorem ann_fill (g : Node → Node) (v : Node) :
    loadAnn (revalued g v) = (loadAnn v).map (filled g) := untyped_fill g v (OM.empty true)

theorem anns_fill (g : Node → Node) (v : Node) (m : OM String Ann) :
    loadAnns (filled (filled g) m) (revalued (revalued g) v) =
      (loadAnns m v).map (filled (filled g)) := loader_fill (ann_fill g) v m

theorem put_ann_fill (g : Node → Node) (v : Node) (k : String) (m : OM String Ann) :
    (loadAnn (revalued g v)).map (fun a => (filled (filled g) m).put k a) =
      ((loadAnn v).map fun a => m.put k a).map (filled (filled g)) := by
  rw [ann_fill]
  cases loadAnn v with
  | ok a => exact congrArg Res.ok (filled_put (filled g) m k a)
  | err e => rfl
  | panic c => rfl

theorem put_extra_fill (X : Xyml) (g : Node → Node) (k v : Node) (m : OM Scalar Node) :
    (if k.isStr && k.value == "" then (.panic .emptyKey : Res (OM Scalar Node))
      else (asScalar X k).map fun s => (filled g m).put s (g v)) =
    (if k.isStr && k.value == "" then (.panic .emptyKey : Res (OM Scalar Node))
      else (asScalar X k).map fun s => m.put s v).map (filled g) := by
  split
  · rfl
  · cases asScalar X k with
    | ok s => exact congrArg Res.ok (filled_put g m s v)
    | err e => rfl
    | panic c => rfl

/-! ### API documents -/

/-- The new value of one part of an API document. -/
def filledPart (g : ApiSection → Node → Node) : (s : ApiSection) → s.Ty → s.Ty
  | .securitySchemes, x => filled (K := String) (V := Node) (g .securitySchemes) x
  | .baseUriParameters, x => filled (K := String) (V := Node) (g .baseUriParameters) x
  | .traits, x => filled (K := String) (V := Node) (g .traits) x
  | .annotationTypes, x => filled (K := String) (V := Node) (g .annotationTypes) x
  | .resourceTypes, x => filled (K := String) (V := Node) (g .resourceTypes) x
  | .annotations, x => filled (K := String) (V := Ann) (filled (g .annotations)) x
  | .resources, x => filled (K := String) (V := Node) (g .resources) x
  | .extra, x => filled (K := Scalar) (V := Node) (g .extra) x
  | _, x => x

theorem filledApi_get (g : ApiSection → Node → Node) (s : ApiSection) (a : APISpec) :
    apiGet s (filledApi g a) = filledPart g s (apiGet s a) := by
  cases s <;> rfl

theorem filledApi_set (g : ApiSection → Node → Node) (s : ApiSection) (x : s.Ty) (a : APISpec) :
    (filledApi g a).setPart s (filledPart g s x) = filledApi g (a.setPart s x) := by
  cases s <;> rfl

theorem filledApi_step {X : Xyml} {k v : Node} (g : ApiSection → Node → Node) (s : ApiSection)
    (x : s.Ty) : apiStep X k (apiFill g s v) s (filledPart g s x) =
      (apiStep X k v s x).map (filledPart g s) := by
  have hid : ∀ {α : Type} (y : Res α), y = y.map fun a => a := fun y => by cases y <;> rfl
  cases s <;> first
    | exact untyped_fill _ v x
    | exact put_ann_fill _ v _ x
    | exact congrArg Res.ok (filled_put _ (K := String) x k.value v)
    | exact put_extra_fill X _ k v x
    | exact hid _

/-- C113: new contents of an API document in use and of what is loaded into it give the same
document with new contents, or the same error. -/
theorem C113_api_load (X : Xyml) (g : ApiSection → Node → Node) (n : Node) (a : APISpec) :
    (filledApi g a).unmarshal X (filledApiDoc g n) = (a.unmarshal X n).map (filledApi g) := by
  cases n with
  | scalar a b => rfl
  | seq a b => rfl
  | map ps =>
    refine pairs_comm (P := fun _ => True) ps (fun p _ a _ => ⟨?_, fun _ _ => trivial⟩) a trivial
    obtain ⟨k, v⟩ := p
    have key : ∀ (w : Node) (s : ApiSection), w = apiFill g s v →
        (apiStep X k w s (apiGet s (filledApi g a))).map (fun x => (filledApi g a).setPart s x) =
        ((apiStep X k v s (apiGet s a)).map fun x => a.setPart s x).map (filledApi g) := by
      intro w s hw
      rw [hw, filledApi_get, filledApi_step]
      cases apiStep X k v s (apiGet s a) with
      | ok x => exact congrArg Res.ok (filledApi_set g s x a)
      | err e => rfl
      | panic c => rfl
    rw [api_assign_eq, api_assign_eq]
    exact key _ _ rfl

/-- C113: an API document with new contents is read as the document with new contents, or refused
alike. -/
theorem C113_api (X : Xyml) (g : ApiSection → Node → Node) (n : Node) :
    parseApi X (filledApiDoc g n) = (parseApi X n).map (filledApi g) :=
  C113_api_load X g n APISpec.new

/-! ### Libraries -/

/-- The new value of one part of a library. -/
def filledLibPart (g : LibSection → Node → Node) : (s : LibSection) → s.Ty → s.Ty
  | .resourceTypes, x => filled (K := String) (V := Node) (g .resourceTypes) x
  | .traits, x => filled (K := String) (V := Node) (g .traits) x
  | .securitySchemes, x => filled (K := String) (V := Node) (g .securitySchemes) x
  | .annotations, x => filled (K := String) (V := Ann) (filled (g .annotations)) x
  | .extra, x => filled (K := Scalar) (V := Node) (g .extra) x
  | _, x => x

theorem filledLib_get (g : LibSection → Node → Node) (s : LibSection) (a : Library) :
    libGet s (filledLib g a) = filledLibPart g s (libGet s a) := by
  cases s <;> rfl

theorem filledLib_set (g : LibSection → Node → Node) (s : LibSection) (x : s.Ty) (a : Library) :
    (filledLib g a).setPart s (filledLibPart g s x) = filledLib g (a.setPart s x) := by
  cases s <;> rfl

theorem libAnn_fill (g : Node → Node) (k v : Node) (m : OM String Ann) :
    (if k.value = "annotationTypes" then
        loadAnns (filled (filled g) m) (if k.value = "annotationTypes" then revalued (revalued g) v
          else revalued g v)
      else (loadAnn (if k.value = "annotationTypes" then revalued (revalued g) v
          else revalued g v)).map fun a => OM.put (filled (filled g) m) k.value a) =
    (if k.value = "annotationTypes" then loadAnns m v
      else (loadAnn v).map fun a => OM.put m k.value a).map (filled (filled g)) := by
  by_cases h : k.value = "annotationTypes"
  · simp only [h, if_true]
    exact anns_fill g v m
  · simp only [h, if_false]
    exact put_ann_fill g v _ m

theorem filledLib_step {X : Xyml} {k v : Node} (g : LibSection → Node → Node) (s : LibSection)
    (x : s.Ty) : libStep X k (libFill g k s v) s (filledLibPart g s x) =
      (libStep X k v s x).map (filledLibPart g s) := by
  have hid : ∀ {α : Type} (y : Res α), y = y.map fun a => a := fun y => by cases y <;> rfl
  cases s <;> first
    | exact untyped_fill _ v x
    | exact libAnn_fill _ k v x
    | exact put_extra_fill X _ k v x
    | exact hid _

/-- C113: new contents of a library in use and of what is loaded into it give the same library with
new contents, or the same error. -/
theorem C113_library_load (X : Xyml) (g : LibSection → Node → Node) (n : Node) (l : Library) :
    (filledLib g l).unmarshal X (filledLibDoc g n) = (l.unmarshal X n).map (filledLib g) := by
  cases n with
  | scalar a b => rfl
  | seq a b => rfl
  | map ps =>
    refine pairs_comm (P := fun _ => True) ps (fun p _ l _ => ⟨?_, fun _ _ => trivial⟩) l trivial
    obtain ⟨k, v⟩ := p
    have key : ∀ (w : Node) (s : LibSection), w = libFill g k s v →
        (libStep X k w s (libGet s (filledLib g l))).map (fun x => (filledLib g l).setPart s x) =
        ((libStep X k v s (libGet s l)).map fun x => l.setPart s x).map (filledLib g) := by
      intro w s hw
      rw [hw, filledLib_get, filledLib_step]
      cases libStep X k v s (libGet s l) with
      | ok x => exact congrArg Res.ok (filledLib_set g s x l)
      | err e => rfl
      | panic c => rfl
    rw [lib_assign_eq, lib_assign_eq]
    exact key _ _ rfl

/-- C113: a library with new contents is read as the library with new contents, or refused
alike. -/
theorem C113_library (X : Xyml) (g : LibSection → Node → Node) (n : Node) :
    parseLibrary X (some (filledLibDoc g n)) = (parseLibrary X (some n)).map (filledLib g) :=
  C113_library_load X g n Library.new

/-! ### Types -/

/-- The new value of one facet. -/
def filledFacet (g : Facet → Node → Node) : (f : Facet) → f.Ty → f.Ty
  | .annotations, x => filled (K := String) (V := Ann) (filled (g .annotations)) x
  | .extra, x => filled (K := Scalar) (V := Node) (g .extra) x
  | .discriminatorValue, x => Option.map (α := Node) (g .discriminatorValue) x
  | _, x => x

theorem filled_kind (g : Facet → Node → Node) (t : DT) : (filledType g t).kind = t.kind := by
  cases t with
  | basic => rfl
  | ext h b => cases b <;> rfl

theorem filled_look (g : Facet → Node → Node) (f : Facet) (t : DT) :
    look f (filledType g t) = filledFacet g f (look f t) := by
  cases t with
  | basic => cases f <;> rfl
  | ext h b => cases b <;> cases f <;> rfl

theorem filled_set (g : Facet → Node → Node) (f : Facet) (x : f.Ty) (t : DT) :
    (filledType g t).setFacet f (filledFacet g f x) = filledType g (t.setFacet f x) := by
  cases t with
  | basic => cases f <;> rfl
  | ext h b => cases b <;> cases f <;> rfl

theorem filled_step {X : Xyml} {kd : Kind} {k v : Node} (g : Facet → Node → Node) (f : Facet)
    (x : f.Ty) : facetStep X kd k (typeFill g f v) f (filledFacet g f x) =
      (facetStep X kd k v f x).map (filledFacet g f) := by
  have hid : ∀ {α : Type} (y : Res α), y = y.map fun a => a := fun y => by cases y <;> rfl
  have hex : ∀ (h : Node → Node) (m : OM Scalar Node),
      (if !isBasic kd && k.isStr && k.value == "" then (.panic .emptyKey : Res (OM Scalar Node))
        else .ok ((filled h m).put (.str k.value) (h v))) =
      (if !isBasic kd && k.isStr && k.value == "" then (.panic .emptyKey : Res (OM Scalar Node))
        else .ok (m.put (.str k.value) v)).map (filled h) := by
    intro h m
    split
    · rfl
    · exact congrArg Res.ok (filled_put h m _ v)
  cases f <;> first
    | exact put_ann_fill _ v _ x
    | exact hex _ x
    | exact hid _
    | rfl

theorem assign_fill {X : Xyml} (g : Facet → Node → Node) (p : Node × Node) (t : DT) :
    assign X (p.1, typeFill g (facetOf t.kind p) p.2) (filledType g t) =
      (assign X p t).map (filledType g) := by
  obtain ⟨k, v⟩ := p
  have key : ∀ (w : Node) (f : Facet), w = typeFill g f v →
      (facetStep X t.kind k w f (look f (filledType g t))).map
        (fun x => (filledType g t).setFacet f x) =
      ((facetStep X t.kind k v f (look f t)).map fun x => t.setFacet f x).map (filledType g) := by
    intro w f hw
    rw [hw, filled_look, filled_step]
    cases facetStep X t.kind k v f (look f t) with
    | ok x => exact congrArg Res.ok (filled_set g f x t)
    | err e => rfl
    | panic c => rfl
  rw [assign_eq, assign_eq]
  unfold DT.step
  rw [filled_kind]
  exact key _ _ rfl

theorem assignAll_fill {X : Xyml} (g : Facet → Node → Node) (ps : List (Node × Node)) (t : DT) :
    assignAll X (ps.map fun p => (p.1, typeFill g (facetOf t.kind p) p.2)) (filledType g t) =
      (assignAll X ps t).map (filledType g) := by
  rw [assignAll_eq, assignAll_eq]
  refine pairs_comm (P := fun u => u.kind = t.kind) ps (fun p _ u hu => ⟨?_, fun u' h => ?_⟩) t rfl
  · have := assign_fill (X := X) g p u
    rw [hu] at this
    exact this
  · rw [← hu]
    exact assign_keeps_kind h

/-- C113: new contents of a type in use and of what is loaded into it give the same type with new
contents, or the same error. -/
theorem C113_type_load (X : Xyml) (g : Facet → Node → Node) (n : Node) (t : DT) :
    (filledType g t).unmarshal X (filledTypeDef t.kind g n) = (t.unmarshal X n).map (filledType g) := by
  cases n with
  | scalar a b =>
    change (filledType g t).unmarshal X (.scalar a b) = _
    simp only [DT.unmarshal]
    by_cases h : (Node.scalar a b).isStr = true
    · rw [if_pos h, if_pos h]; cases t <;> rfl
    · rw [if_neg h, if_neg h]; rfl
  | seq a b =>
    change (filledType g t).unmarshal X (.seq a b) = _
    simp only [DT.unmarshal]
    by_cases h : (Node.seq a b).isStr = true
    · rw [if_pos h, if_pos h]; cases t <;> rfl
    · rw [if_neg h, if_neg h]; rfl
  | map ps =>
    simp only [filledTypeDef, DT.unmarshal]
    have : ∀ qs : List (Node × Node), Node.isStr (.map qs) = false := fun _ => rfl
    simp only [this, Bool.false_eq_true, if_false]
    exact assignAll_fill g ps t

theorem sift_fill {kd : Kind} (g : Facet → Node → Node) (ps : List (Node × Node)) :
    siftType (ps.map fun p => (p.1, typeFill g (facetOf kd p) p.2)) = siftType ps := by
  have h : ∀ (ps : List (Node × Node)) a b,
      siftScan (ps.map fun p => (p.1, typeFill g (facetOf kd p) p.2)) a b = siftScan ps a b := by
    intro ps
    induction ps with
    | nil => intro a b; rfl
    | cons p ps ih =>
      intro a b
      obtain ⟨k, v⟩ := p
      simp only [List.map_cons, siftScan, ih]
      by_cases hk : k.value = "type" ∨ k.value = "schema"
      · have hf : facetOf kd (k, v) = .type := by
          rcases hk with hk | hk
          · exact facetOf_eq hk (by cases kd <;> decide) (by decide)
          · exact facetOf_eq hk (by cases kd <;> decide) (by decide)
        rw [if_pos hk, if_pos hk, hf]
        rfl
      · rw [if_neg hk, if_neg hk]
  unfold siftType
  rw [h]

theorem filled_nil {K V : Type} {g : V → V} {m : OM K V} (h : m.ents = []) : filled g m = m := by
  obtain ⟨es, o⟩ := m
  simp only at h
  subst h
  rfl

theorem filled_bare (g : Facet → Node → Node) {t : DT} (h : Bare t) : filledType g t = t := by
  cases t with
  | basic i s x =>
    have h1 : x.ents = [] := h.extra
    simp only [filledType, filled_nil h1]
  | ext hd b fs ps it =>
    have h1 : hd.annotations.ents = [] := h.annotations
    have h2 : hd.extra.ents = [] := h.extra
    have h3 : hd.dflt = none := h.dflt
    have h4 : filledBody (g .discriminatorValue) b = b := by
      have := h.body b rfl
      cases b with
      | object f =>
        have h5 : f.discrimVal = none := this.2.2.2.2
        obtain ⟨⟩ := f
        simp only at h5
        subst h5
        rfl
      | _ => rfl
    simp only [filledType, filled_nil h1, filled_nil h2, h4]
    rw [h3]
    obtain ⟨⟩ := hd
    simp only at h3
    rw [h3]
    rfl

/-- C113: a type definition with new contents is read as the type with new contents. -/
theorem C113_type (X : Xyml) (g : Facet → Node → Node) {n : Node} {t : DT} (h : hat X n = .ok t) :
    hat X (filledTypeDef t.kind g n) = .ok (filledType g t) := by
  cases n with
  | scalar a b =>
    have : filledType g t = t := by
      simp only [hat] at h
      split_ifs at h
      · cases h
        exact filled_bare g (typeToKind_spec b).2.2
      · cases h; rfl
    rw [this]
    exact h
  | seq a b => simp [hat] at h
  | map ps =>
    obtain ⟨t0, h0, _, hb, h1, h2⟩ := hat_map_ok h
    have := assignAll_fill (X := X) g ps t0
    rw [h1, filled_bare g hb, ← h2] at this
    simp only [filledTypeDef, hat, sift_fill, h0]
    exact this

/-- C113: a type read from a definition with new contents is one that can be read from the old
definition, with new contents; so the definition is accepted with the new contents only if it is
accepted with the old. -/
theorem C113_type_only (X : Xyml) (g : Facet → Node → Node) {n : Node} {t' : DT}
    (h : hat X (filledTypeDef t'.kind g n) = .ok t') :
    ∃ t, hat X n = .ok t ∧ t.kind = t'.kind ∧ filledType g t = t' := by
  have back : ∀ t, hat X n = .ok t → t.kind = t'.kind →
      ∃ t, hat X n = .ok t ∧ t.kind = t'.kind ∧ filledType g t = t' := by
    intro t ht hk
    have := C113_type X g ht
    rw [hk, h] at this
    cases this
    exact ⟨t, ht, hk, rfl⟩
  cases n with
  | scalar a b => exact back t' h rfl
  | seq a b => simp [filledTypeDef, hat] at h
  | map ps =>
    obtain ⟨t0, h0, _, hb, h1, h2⟩ := hat_map_ok h
    rw [sift_fill] at h0
    have := assignAll_fill (X := X) g ps t0
    rw [filled_bare g hb, ← h2, h1] at this
    cases hr : assignAll X ps t0 with
    | ok t =>
      have ht : hat X (.map ps) = .ok t := by simp only [hat, h0]; exact hr
      obtain ⟨t1, h3, _, _, _, h4⟩ := hat_map_ok ht
      rw [h0] at h3
      cases h3
      exact back t ht (h4.trans h2.symm)
    | err e => rw [hr] at this; cases this
    | panic c => rw [hr] at this; cases this

theorem sift_kindOf {ps : List (Node × Node)} {kd : Kind} (h : kindOf ps = some kd) :
    ∃ t0, siftType ps = .ok t0 ∧ t0.kind = kd ∧ Bare t0 := by
  obtain ⟨h1, h2⟩ := siftType_spec ps
  unfold kindOf at h
  cases hf : ps.find? isTypeEntry with
  | none =>
    rw [hf] at h
    cases h
    exact ⟨_, h2 hf, kind_new _, bare_new _⟩
  | some e =>
    rw [hf] at h
    by_cases hs : e.2.isStr = true
    · simp only [hs, if_true, Option.some.injEq] at h
      obtain ⟨hk1, _, hk3⟩ := typeToKind_spec e.2.value
      exact ⟨_, by rw [h1 e hf, if_pos hs], hk1.trans h, hk3⟩
    · simp [hs] at h

/-- C113: any definition of a type, with new contents, is accepted or refused as it was, and gives
the type with new contents. -/
theorem C113_definition (X : Xyml) (g : Facet → Node → Node) (n : Node) :
    hat X (filledDef g n) = (hat X n).map (filledType g) := by
  have bare : ∀ v, filledType g (typeToKind v) = typeToKind v := fun v =>
    filled_bare g (typeToKind_spec v).2.2
  cases n with
  | scalar a b =>
    simp only [filledDef, hat]
    split_ifs
    · exact congrArg Res.ok (bare b).symm
    · rfl
    · rfl
  | seq a b => simp only [filledDef, hat]; rfl
  | map ps =>
    cases hk : kindOf ps with
    | none =>
      simp only [filledDef, hk]
      cases h : hat X (.map ps) with
      | ok t =>
        obtain ⟨t0, _, h1, _⟩ := hat_map_ok h
        rw [hk] at h1
        cases h1
      | err e => rfl
      | panic c => rfl
    | some kd =>
      obtain ⟨t0, h0, h1, h2⟩ := sift_kindOf hk
      subst h1
      simp only [filledDef, hk, filledTypeDef, hat, sift_fill, h0]
      have := assignAll_fill (X := X) g ps t0
      rw [filled_bare g h2] at this
      exact this

/-- C113: a dictionary of types, with new contents in each of them, is accepted or refused as it was,
and gives the types with new contents. -/
theorem C113_types (X : Xyml) (g : Facet → Node → Node) (n : Node) (m : OM String DT) :
    loadTypes X (revalued (filledDef g) n) (filled (filledType g) m) =
      (loadTypes X n m).map (filled (filledType g)) := by
  have form : (fun k v m => loadType X (k, v) m) = fun (k v : Node) (m : OM String DT) =>
      (asString k).bind fun s => (hat X v).map fun t => m.put s t := by
    funext k v m
    unfold loadType
    cases asString k with
    | ok s => cases hat X v <;> rfl
    | err e => rfl
    | panic c => rfl
  rw [loadTypes_eq, loadTypes_eq, form]
  exact loader_fill (C113_definition X g) n m

/-- C113: an API document with new contents in the types it declares is accepted or refused as it
was, and gives the document with new contents in its types. -/
theorem C113_api_types (X : Xyml) (g : Facet → Node → Node) (n : Node) :
    parseApi X (filledTypesApi g n) =
      (parseApi X n).map fun a => { a with types := filled (filledType g) a.types } := by
  cases n with
  | scalar a b => rfl
  | seq a b => rfl
  | map ps =>
    refine pairs_comm (P := fun _ => True)
      (g := fun a : APISpec => { a with types := filled (filledType g) a.types }) ps
      (fun p _ a _ => ⟨?_, fun _ _ => trivial⟩) APISpec.new trivial
    obtain ⟨k, v⟩ := p
    rw [api_assign_eq, api_assign_eq]
    have key : ∀ (w : Node) (s : ApiSection),
        (w = if s = .types then revalued (filledDef g) v else v) →
        (apiStep X k w s (apiGet s { a with types := filled (filledType g) a.types })).map
          (fun x => { a with types := filled (filledType g) a.types }.setPart s x) =
        ((apiStep X k v s (apiGet s a)).map fun x => a.setPart s x).map
          fun a => { a with types := filled (filledType g) a.types } := by
      intro w s hw
      by_cases hs : s = .types
      · subst hs
        rw [hw, if_pos rfl]
        have := C113_types X g v a.types
        show (loadTypes X (revalued (filledDef g) v) (filled (filledType g) a.types)).map _ =
          ((loadTypes X v a.types).map _).map _
        rw [this]
        cases loadTypes X v a.types <;> rfl
      · rw [hw, if_neg hs]
        have h1 : apiGet s { a with types := filled (filledType g) a.types } = apiGet s a := by
          cases s <;> first | rfl | exact absurd rfl hs
        rw [h1]
        cases apiStep X k v s (apiGet s a) with
        | ok x => cases s <;> first | rfl | exact absurd rfl hs
        | err e => rfl
        | panic c => rfl
    exact key _ _ rfl

/-- C113: the same for a library. -/
theorem C113_library_types (X : Xyml) (g : Facet → Node → Node) (n : Node) :
    parseLibrary X (some (filledTypesLib g n)) =
      (parseLibrary X (some n)).map fun l => { l with types := filled (filledType g) l.types } := by
  cases n with
  | scalar a b => rfl
  | seq a b => rfl
  | map ps =>
    refine pairs_comm (P := fun _ => True)
      (g := fun l : Library => { l with types := filled (filledType g) l.types }) ps
      (fun p _ l _ => ⟨?_, fun _ _ => trivial⟩) Library.new trivial
    obtain ⟨k, v⟩ := p
    rw [lib_assign_eq, lib_assign_eq]
    have key : ∀ (w : Node) (s : LibSection),
        (w = if s = .types then revalued (filledDef g) v else v) →
        (libStep X k w s (libGet s { l with types := filled (filledType g) l.types })).map
          (fun x => { l with types := filled (filledType g) l.types }.setPart s x) =
        ((libStep X k v s (libGet s l)).map fun x => l.setPart s x).map
          fun l => { l with types := filled (filledType g) l.types } := by
      intro w s hw
      by_cases hs : s = .types
      · subst hs
        rw [hw, if_pos rfl]
        have := C113_types X g v l.types
        show (loadTypes X (revalued (filledDef g) v) (filled (filledType g) l.types)).map _ =
          ((loadTypes X v l.types).map _).map _
        rw [this]
        cases loadTypes X v l.types <;> rfl
      · rw [hw, if_neg hs]
        have h1 : libGet s { l with types := filled (filledType g) l.types } = libGet s l := by
          cases s <;> first | rfl | exact absurd rfl hs
        rw [h1]
        cases libStep X k v s (libGet s l) with
        | ok x => cases s <;> first | rfl | exact absurd rfl hs
        | err e => rfl
        | panic c => rfl
    exact key _ _ rfl

/-! ### Writing -/

theorem revalued_render (g : Node → Node) (b : Bool) (ps : List (Node × Node)) :
    revalued g (renderPairs b ps) = renderPairs b (ps.map fun p => (p.1, g p.2)) := by
  unfold renderPairs
  cases b with
  | false => rfl
  | true =>
    simp only [if_true, revalued, List.map_map]
    rfl

theorem filled_render1 (g : Node → Node) (m : OM String Node) :
    renderStrMap id (filled g m) = revalued g (renderStrMap id m) := by
  unfold renderStrMap
  rw [revalued_render]
  simp only [filled, List.map_map]
  rfl

theorem filled_render (g : Node → Node) (m : OM String Node) :
    ifNonEmpty (filled g m) (renderStrMap id (filled g m)) =
      (ifNonEmpty m (renderStrMap id m)).map (revalued g) := by
  rw [filled_render1]
  unfold ifNonEmpty OM.len
  simp only [filled, List.length_map]
  split <;> rfl

theorem filled_annEnts {X : Xyml} (hX : Lawful X) {φ : Node × Node → Node} {g : Node → Node}
    {m : OM String Ann} (h : ∀ e ∈ m.ents, ∀ v, φ (.str e.1, v) = revalued g v) :
    annEnts (filled (filled g) m) = (annEnts m).map (newValue X φ) := by
  simp only [annEnts, filled, List.map_map]
  refine List.map_congr_left fun e he => ?_
  have := filled_render1 g e.2
  simp only [filled] at this
  simp only [Function.comp, newValue, hX.ofKey_str, h e he, this]

theorem apiSection_at {s : String} (h : s.toList.head? = some '(') (v : Node) :
    apiSectionOf (.str s, v) = .annotations := by
  have : startsWith '(' (Node.str s) = true := by
    show (true && (s.toList.head? == some '(')) = true
    rw [h]; rfl
  simp only [apiSectionOf, this, if_true]

theorem apiSection_slash {s : String} (h : s.toList.head? = some '/') (v : Node) :
    apiSectionOf (.str s, v) = .resources := by
  have h1 : startsWith '(' (Node.str s) = false := by
    show (true && (s.toList.head? == some '(')) = false
    rw [h]; rfl
  have h2 : startsWith '/' (Node.str s) = true := by
    show (true && (s.toList.head? == some '/')) = true
    rw [h]; rfl
  simp only [apiSectionOf, h1, h2, Bool.false_eq_true, if_true, if_false]

theorem not_key {α : Type} {l : List (String × α)} {s : String} (h : s ∉ l.map Prod.fst) :
    l.lookup s = none := by
  induction l with
  | nil => rfl
  | cons e l ih =>
    simp only [List.map_cons, List.mem_cons, not_or] at h
    obtain ⟨k, a⟩ := e
    rw [List.lookup_cons, beq_false_of_ne h.1]
    exact ih h.2

theorem apiSection_extra {s : String} (h1 : s.toList.head? ≠ some '(')
    (h2 : s.toList.head? ≠ some '/') (h3 : s ∉ apiKeys.map Prod.fst) (v : Node) :
    apiSectionOf (.str s, v) = .extra := by
  have h1 : startsWith '(' (Node.str s) = false := by
    show (true && (s.toList.head? == some '(')) = false
    rw [beq_false_of_ne h1]; rfl
  have h2 : startsWith '/' (Node.str s) = false := by
    show (true && (s.toList.head? == some '/')) = false
    rw [beq_false_of_ne h2]; rfl
  have h4 : apiKeys.lookup (Node.str s).value = none := not_key h3
  simp only [apiSectionOf, h1, h2, h4, Bool.false_eq_true, if_false, Option.getD_none]
  split <;> rfl

theorem apiSection_nonstr {k : Node} (h : k.isStr = false) (v : Node) :
    apiSectionOf (k, v) = .extra := by
  simp [apiSectionOf, startsWith, h]

theorem filledApi_ents {X : Xyml} (hX : Lawful X) (g : ApiSection → Node → Node) {a : APISpec}
    (ha : ApiKeysApart a) :
    (filledApi g a).ents X =
      (a.ents X).map (newValue X fun p => apiFill g (apiSectionOf p) p.2) := by
  have same : ∀ (k : String) (s : ApiSection), (k, s) ∈ apiKeys → (∀ v, apiFill g s v = v) →
      ∀ o : Option Node, (OM.optEnt (.str k) o).map
        (newValue X fun p => apiFill g (apiSectionOf p) p.2) = OM.optEnt (.str k) o :=
    fun k s hk hs => opt_same hX fun v => by
      simp only [apiSectionOf_known hk, hs]
  have dict : ∀ (k : String) (s : ApiSection), (k, s) ∈ apiKeys →
      (∀ v, apiFill g s v = revalued (g s) v) →
      ∀ o : Option Node, (OM.optEnt (.str k) o).map
        (newValue X fun p => apiFill g (apiSectionOf p) p.2) =
          OM.optEnt (.str k) (o.map (revalued (g s))) :=
    fun k s hk hs => opt_new hX fun v => by
      simp only [apiSectionOf_known hk, hs]
  have h1 : annEnts (filled (filled (g .annotations)) a.annotations) = (annEnts a.annotations).map
      (newValue X fun p => apiFill g (apiSectionOf p) p.2) :=
    filled_annEnts hX fun e he v => by
      simp only [apiSection_at (ha.annotations e he)]
      rfl
  have h2 : (filled (g .extra) a.extra).ents = a.extra.ents.map
      (newValue X fun p => apiFill g (apiSectionOf p) p.2) := by
    refine List.map_congr_left fun e he => ?_
    have : apiSectionOf (X.ofKey e.1, e.2) = .extra := by
      by_cases hs : ∃ s, e.1 = .str s
      · obtain ⟨s, hs⟩ := hs
        obtain ⟨h1, h2, h3⟩ := ha.extra e he s hs
        rw [hs, hX.ofKey_str]
        exact apiSection_extra h1 h2 h3 _
      · exact apiSection_nonstr (hX.ofKey_isStr fun s h => hs ⟨s, h⟩) _
    simp only [newValue, this]
    rfl
  have h3 : strEnts (filled (g .resources) a.resources) = (strEnts a.resources).map
      (newValue X fun p => apiFill g (apiSectionOf p) p.2) := by
    simp only [strEnts, filled, List.map_map]
    refine List.map_congr_left fun e he => ?_
    simp only [Function.comp, newValue, hX.ofKey_str, apiSection_slash (ha.resources e he)]
    rfl
  have h4 : newValue X (fun p => apiFill g (apiSectionOf p) p.2) (.str "title", .str a.title) =
      (.str "title", .str a.title) := by
    simp only [newValue, hX.ofKey_str, apiSectionOf_known (k := "title") (s := .title) (by decide)]
    rfl
  unfold APISpec.ents APISpec.headEnts APISpec.typesEnts
  simp only [List.map_append, List.map_cons, h4]
  rw [same "version" .version (by decide) fun _ => rfl, same "baseUri" .baseUri (by decide) fun _ => rfl,
    same "description" .description (by decide) fun _ => rfl,
    same "protocols" .protocols (by decide) fun _ => rfl,
    same "mediaType" .mediaType (by decide) fun _ => rfl,
    same "documentation" .documentation (by decide) fun _ => rfl,
    same "securedBy" .securedBy (by decide) fun _ => rfl, same "uses" .uses (by decide) fun _ => rfl,
    dict "securitySchemes" .securitySchemes (by decide) fun _ => rfl,
    dict "baseUriParameters" .baseUriParameters (by decide) fun _ => rfl,
    dict "traits" .traits (by decide) fun _ => rfl,
    dict "annotationTypes" .annotationTypes (by decide) fun _ => rfl,
    dict "resourceTypes" .resourceTypes (by decide) fun _ => rfl,
    same "types" .types (by decide) fun _ => rfl, ← h1, ← h2, ← h3]
  simp only [filledApi, filled_render]

/-- C113: an API document with new contents is written as it was with the new contents. -/
theorem C113_api_written (X : Xyml) (hX : Lawful X) (g : ApiSection → Node → Node) (a : APISpec)
    (ha : ApiKeysApart a) : (filledApi g a).toYAML X = filledApiDoc g (a.toYAML X) := by
  rw [api_toYAML_eq, api_toYAML_eq, filledApi_ents hX g ha, asPairs_values]
  rfl

/-- C113: an API document with new contents is read and written as it was with the new
contents. -/
theorem C113_api_rewritten (X : Xyml) (hX : Lawful X)
    (hs : ∀ n s, X.toScalar n = some (.str s) → n = .str s) (g : ApiSection → Node → Node) {n : Node}
    {a : APISpec} (h : parseApi X n = .ok a) :
    (parseApi X (filledApiDoc g n)).map (APISpec.toYAML X) = .ok (filledApiDoc g (a.toYAML X)) := by
  have hr := (C95_apis hX a).mp ⟨n, h⟩
  rw [C113_api, h]
  refine congrArg Res.ok (C113_api_written X hX g a ⟨hr.parsed.annotations.keys,
    hr.parsed.resourceKeys, fun e he s hk => ?_⟩)
  exact ((C95_api_keys hX hs e.1).mp (hr.extraKeys e he) s hk).2

theorem libSection_at {s : String} (h : s.toList.head? = some '(') (v : Node) :
    libSectionOf (.str s, v) = .annotations ∧ s ≠ "annotationTypes" := by
  have h1 : startsWith '(' (Node.str s) = true := by
    show (true && (s.toList.head? == some '(')) = true
    rw [h]; rfl
  have h2 : libKeys.lookup (Node.str s).value = none := by
    refine not_key fun hs => ?_
    exact (by decide : ∀ k ∈ libKeys.map Prod.fst, k.toList.head? ≠ some '(') s hs h
  refine ⟨by simp only [libSectionOf, h1, h2, if_true], fun hs => ?_⟩
  rw [hs] at h
  exact absurd h (by decide)

theorem filledLib_ents {X : Xyml} (hX : Lawful X) (g : LibSection → Node → Node) {l : Library}
    (hl : LibKeysApart l) :
    (filledLib g l).ents X =
      (l.ents X).map (newValue X fun p => libFill g p.1 (libSectionOf p) p.2) := by
  have same : ∀ (k : String) (s : LibSection), (k, s) ∈ libKeys → (∀ v, libFill g (.str k) s v = v) →
      ∀ o : Option Node, (OM.optEnt (.str k) o).map
        (newValue X fun p => libFill g p.1 (libSectionOf p) p.2) = OM.optEnt (.str k) o :=
    fun k s hk hs => opt_same hX fun v => by
      simp only [libSectionOf_known hk, hs]
  have dict : ∀ (k : String) (s : LibSection) (f : Node → Node), (k, s) ∈ libKeys →
      (∀ v, libFill g (.str k) s v = revalued f v) →
      ∀ o : Option Node, (OM.optEnt (.str k) o).map
        (newValue X fun p => libFill g p.1 (libSectionOf p) p.2) =
          OM.optEnt (.str k) (o.map (revalued f)) :=
    fun k s f hk hs => opt_new hX fun v => by
      simp only [libSectionOf_known hk, hs]
  have h1 : annEnts (filled (filled (g .annotations)) l.annotations) = (annEnts l.annotations).map
      (newValue X fun p => libFill g p.1 (libSectionOf p) p.2) :=
    filled_annEnts hX fun e he v => by
      obtain ⟨h1, h2⟩ := libSection_at (hl.annotations e he) v
      simp only [h1]
      exact if_neg h2
  have h2 : (filled (g .extra) l.extra).ents = l.extra.ents.map
      (newValue X fun p => libFill g p.1 (libSectionOf p) p.2) := by
    refine List.map_congr_left fun e he => ?_
    have : libSectionOf (X.ofKey e.1, e.2) = .extra := by
      by_cases hs : ∃ s, e.1 = .str s
      · obtain ⟨s, hs⟩ := hs
        obtain ⟨h1, h3⟩ := hl.extra e he s hs
        rw [hs, hX.ofKey_str]
        have h1 : startsWith '(' (Node.str s) = false := by
          show (true && (s.toList.head? == some '(')) = false
          rw [beq_false_of_ne h1]; rfl
        have h4 : libKeys.lookup (Node.str s).value = none := not_key h3
        simp only [libSectionOf, h1, h4, Bool.false_eq_true, if_false]
      · have h3 := hX.ofKey_value fun s h => hs ⟨s, h⟩
        have h4 : libKeys.lookup (X.ofKey e.1).value = none := not_key h3
        simp [libSectionOf, h4, startsWith, hX.ofKey_isStr fun s h => hs ⟨s, h⟩]
    simp only [newValue, this]
    rfl
  unfold Library.ents
  simp only [List.map_append]
  rw [same "usage" .usage (by decide) fun _ => rfl, same "uses" .uses (by decide) fun _ => rfl,
    dict "securitySchemes" .securitySchemes (g .securitySchemes) (by decide) fun _ => rfl,
    dict "traits" .traits (g .traits) (by decide) fun _ => rfl,
    dict "annotationTypes" .annotations (revalued (g .annotations)) (by decide) fun _ => rfl,
    dict "resourceTypes" .resourceTypes (g .resourceTypes) (by decide) fun _ => rfl,
    same "types" .types (by decide) fun _ => rfl, ← h1, ← h2]
  simp only [filledLib, filled_render]

/-- C113: a library with new contents is written as it was with the new contents. -/
theorem C113_library_written (X : Xyml) (hX : Lawful X) (g : LibSection → Node → Node) (l : Library)
    (hl : LibKeysApart l) : (filledLib g l).toYAML X = filledLibDoc g (l.toYAML X) := by
  rw [lib_toYAML_eq, lib_toYAML_eq, filledLib_ents hX g hl, asPairs_values]
  rfl

theorem facet_ext (b : Body) : isBasic b.kind = false := by cases b <;> rfl

theorem filledType_ents {X : Xyml} (hX : Lawful X) (g : Facet → Node → Node) {t : DT}
    (ht : TypeKeysApart X t) :
    (filledType g t).ents X =
      (t.ents X).map (newValue X fun p => typeFill g (facetOf t.kind p) p.2) := by
  have hx : (filled (g .extra) t.extra).ents = t.extra.ents.map
      (newValue X fun p => typeFill g (facetOf t.kind p) p.2) := by
    refine List.map_congr_left fun e he => ?_
    have : facetOf t.kind (X.ofKey e.1, e.2) = .extra := by
      obtain ⟨h1, h2⟩ := ht.extra e he
      unfold facetOf
      rw [if_neg (by simpa using h1), if_neg]
      rcases h2 with h2 | h2 <;> simp [h2]
    simp only [newValue, this]
    rfl
  have one : ∀ v, newValue X (fun p => typeFill g (facetOf t.kind p) p.2) (.str "type", v) =
      (.str "type", v) := by
    intro v
    have : facetOf t.kind (.str "type", v) = .type :=
      facetOf_eq rfl (show (facetNames t.kind).contains "type" = true by simpa using type_facet t.kind) (by decide)
    simp only [newValue, hX.ofKey_str, this]
    rfl
  cases t with
  | basic i s x =>
    have hx' : (filled (g .extra) x).ents = _ := hx
    simp only [filledType, DT.ents, List.map_cons, one, hx']
    rfl
  | ext h b fs ps it =>
    have hx' : (filled (g .extra) h.extra).ents = _ := hx
    have hb := facet_ext b
    have same : ∀ (k : String) (f : Facet), (facetNames b.kind).contains k = true →
        facetNamed.lookup k = some f → (∀ v, typeFill g f v = v) → ∀ o : Option Node,
        (OM.optEnt (.str k) o).map
          (newValue X fun p => typeFill g (facetOf (DT.ext h b fs ps it).kind p) p.2) =
            OM.optEnt (.str k) o :=
      fun k f h1 h2 h3 => opt_same hX fun v => by
        have : facetOf (DT.ext h b fs ps it).kind (.str k, v) = f := facetOf_eq rfl h1 h2
        simp only [this, h3]
    have common : ∀ k, facetNames.common.contains k = true → (facetNames b.kind).contains k = true :=
      fun k hk => contains_common b hk
    have h1 : annEnts (filled (filled (g .annotations)) h.annotations) = (annEnts h.annotations).map
        (newValue X fun p => typeFill g (facetOf (DT.ext h b fs ps it).kind p) p.2) :=
      filled_annEnts hX fun e he v => by
        have h2 : e.1.toList.head? = some '(' := ht.annotations e he
        have h3 : startsWith '(' (Node.str e.1) = true := by
          show (true && (e.1.toList.head? == some '(')) = true
          rw [h2]; rfl
        have h4 : e.1 ∉ facetNames b.kind := by
          intro h5
          have : ∀ kd, ∀ k ∈ facetNames kd, k.toList.head? ≠ some '(' := by
            intro kd; cases kd <;> decide
          exact this _ _ h5 h2
        have h5 : facetOf (DT.ext h b fs ps it).kind (.str e.1, v) = .annotations := by
          show facetOf b.kind (.str e.1, v) = _
          unfold facetOf
          refine (if_neg (show ¬ (facetNames b.kind).contains e.1 = true by simpa using h4)).trans
            (if_pos ?_)
          simp only [hb, h3]
          rfl
        simp only [h5]
        rfl
    have hdef : ∀ v, facetOf (DT.ext h b fs ps it).kind (.str "default", v) = .extra := by
      intro v
      show facetOf b.kind (.str "default", v) = _
      unfold facetOf
      refine (if_neg (show ¬ (facetNames b.kind).contains "default" = true by
        cases b <;> (simp only [Body.kind]; decide))).trans (if_neg ?_)
      simp only [show startsWith '(' (Node.str "default") = false by decide, Bool.and_false,
        Bool.false_eq_true, not_false_eq_true]
    have hd : (OM.optEnt (.str "default") h.dflt).map
        (newValue X fun p => typeFill g (facetOf (DT.ext h b fs ps it).kind p) p.2) =
          OM.optEnt (.str "default") (h.dflt.map (g .extra)) := by
      rw [opt_new hX (g := g .extra) fun v => ?_]
      simp only [hdef]
      rfl
    have hbody : (filledBody (g .discriminatorValue) b).ents X (propsNode X ps) (itemsNode X it) =
        (b.ents X (propsNode X ps) (itemsNode X it)).map
          (newValue X fun p => typeFill g (facetOf (DT.ext h b fs ps it).kind p) p.2) := by
      cases b <;> simp only [filledBody, Body.ents, List.map_append, List.map_nil]
      case string =>
        rw [same "pattern" .pattern (by simp only [Body.kind]; decide) (by decide) fun _ => rfl,
          same "minLength" .minLength (by simp only [Body.kind]; decide) (by decide) fun _ => rfl,
          same "maxLength" .maxLength (by simp only [Body.kind]; decide) (by decide) fun _ => rfl]
      case file =>
        rw [same "fileTypes" .fileTypes (by simp only [Body.kind]; decide) (by decide) fun _ => rfl,
          same "minLength" .minLength (by simp only [Body.kind]; decide) (by decide) fun _ => rfl,
          same "maxLength" .maxLength (by simp only [Body.kind]; decide) (by decide) fun _ => rfl]
      case array =>
        rw [same "uniqueItems" .uniqueItems (by simp only [Body.kind]; decide) (by decide) fun _ => rfl,
          same "minItems" .minItems (by simp only [Body.kind]; decide) (by decide) fun _ => rfl,
          same "maxItems" .maxItems (by simp only [Body.kind]; decide) (by decide) fun _ => rfl,
          same "items" .items (by simp only [Body.kind]; decide) (by decide) fun _ => rfl]
      case object f =>
        rw [same "additionalProperties" .additionalProperties (by simp only [Body.kind]; decide) (by decide) fun _ => rfl,
          same "minProperties" .minProperties (by simp only [Body.kind]; decide) (by decide) fun _ => rfl,
          same "maxProperties" .maxProperties (by simp only [Body.kind]; decide) (by decide) fun _ => rfl,
          same "discriminator" .discriminator (by simp only [Body.kind]; decide) (by decide) fun _ => rfl,
          same "properties" .properties (by simp only [Body.kind]; decide) (by decide) fun _ => rfl,
          opt_new hX (k := "discriminatorValue") (g := g .discriminatorValue) fun v => by
            have : facetOf (DT.ext h (.object f) fs ps it).kind (.str "discriminatorValue", v) =
              .discriminatorValue := facetOf_eq rfl (by simp only [DT.kind, Body.kind]; decide) (by decide)
            simp only [this]
            rfl]
      case datetime =>
        rw [same "format" .format (by simp only [Body.kind]; decide) (by decide) fun _ => rfl]
      case number =>
        rw [same "format" .format (by simp only [Body.kind]; decide) (by decide) fun _ => rfl,
          same "minimum" .minimum (by simp only [Body.kind]; decide) (by decide) fun _ => rfl,
          same "maximum" .maximum (by simp only [Body.kind]; decide) (by decide) fun _ => rfl,
          same "multipleOf" .multipleOf (by simp only [Body.kind]; decide) (by decide) fun _ => rfl]
      case integer =>
        rw [same "format" .format (by simp only [Body.kind]; decide) (by decide) fun _ => rfl,
          same "minimum" .minimum (by simp only [Body.kind]; decide) (by decide) fun _ => rfl,
          same "maximum" .maximum (by simp only [Body.kind]; decide) (by decide) fun _ => rfl,
          same "multipleOf" .multipleOf (by simp only [Body.kind]; decide) (by decide) fun _ => rfl]
    simp only [filledType, DT.ents, dtEnts, Hdr.headEnts, Hdr.reqEnts, Hdr.tailEnts, List.map_append,
      List.map_cons, List.map_nil, h1, hx', hbody, one, hd]
    rw [same "displayName" .displayName (common _ (by decide)) (by decide) fun _ => rfl,
      same "description" .description (common _ (by decide)) (by decide) fun _ => rfl,
      same "required" .required (common _ (by decide)) (by decide) fun _ => rfl,
      same "facets" .facets (common _ (by decide)) (by decide) fun _ => rfl,
      same "xml" .xml (common _ (by decide)) (by decide) fun _ => rfl,
      same "enum" .enum (common _ (by decide)) (by decide) fun _ => rfl,
      same "example" .example (common _ (by decide)) (by decide) fun _ => rfl,
      same "examples" .examples (common _ (by decide)) (by decide) fun _ => rfl]
    rfl

/-- C113: a type with new contents is written as it was with the new contents. -/
theorem C113_type_written (X : Xyml) (hX : Lawful X) (g : Facet → Node → Node) (t : DT)
    (ht : TypeKeysApart X t) : (filledType g t).toYAML X = filledTypeDef t.kind g (t.toYAML X) := by
  have hfree : TypeKeysFree X t :=
    ⟨fun e he => head_free (ht.annotations e he) (.inl rfl) (by decide),
      fun e he _ => (ht.extra e he).1⟩
  have hkeys : ((filledType g t).ents X).map Prod.fst = (t.ents X).map Prod.fst := by
    rw [filledType_ents hX g ht, List.map_map]
    rfl
  by_cases h : ∃ k ∈ (t.ents X).map Prod.fst, k ≠ Scalar.str "type"
  · obtain ⟨k, hk, hne⟩ := h
    rw [toYAML_eq, toYAML_eq, finish_map hk (type_key X t) hne,
      finish_map (by rw [hkeys]; exact hk) (by rw [hkeys]; exact type_key X t) hne,
      filledType_ents hX g ht, asPairs_values]
    rfl
  · have hall : ∀ e ∈ t.ents X, e.1 = Scalar.str "type" := fun e he =>
      Classical.byContradiction fun hne => h ⟨_, List.mem_map_of_mem he, hne⟩
    have hsame : (filledType g t).ents X = t.ents X := by
      rw [filledType_ents hX g ht]
      refine map_same fun e he => ?_
      have : facetOf t.kind (.str "type", e.2) = .type := facetOf_eq rfl
        (show (facetNames t.kind).contains "type" = true by simpa using type_facet t.kind) (by decide)
      simp only [hall e he, hX.ofKey_str, this]
      rfl
    obtain ⟨a, b, hf⟩ := short_written hX hfree hall
    rw [toYAML_eq, toYAML_eq, hsame, hf]
    rfl

/-- C113: a type with new contents is read and written as it was with the new contents. -/
theorem C113_type_rewritten (X : Xyml) (hX : Lawful X) (g : Facet → Node → Node) {n : Node} {t : DT}
    (h : hat X n = .ok t) (ht : TypeKeysApart X t) :
    (hat X (filledTypeDef t.kind g n)).map (DT.toYAML X) = .ok (filledTypeDef t.kind g (t.toYAML X)) := by
  rw [C113_type X g h]
  exact congrArg Res.ok (C113_type_written X hX g t ht)

/-- C113: a library whose annotations look like annotations is, with new contents, read and written
as it was with the new contents. -/
theorem C113_library_rewritten (X : Xyml) (hX : Lawful X)
    (hs : ∀ n s, X.toScalar n = some (.str s) → n = .str s) (g : LibSection → Node → Node) {n : Node}
    {l : Library} (h : parseLibrary X (some n) = .ok l)
    (hl : ∀ e ∈ l.annotations.ents, e.1.toList.head? = some '(') :
    (parseLibrary X (some (filledLibDoc g n))).map (Library.toYAML X) =
      .ok (filledLibDoc g (l.toYAML X)) := by
  rw [C113_library, h]
  refine congrArg Res.ok (C113_library_written X hX g l ⟨hl, fun e he s hk => ?_⟩)
  have := ((C95_library_keys hX hs e.1).mp (((C95_libraries hX l).mp ⟨_, h⟩).extraKeys e he) s hk).2
  exact ⟨this.1, fun h' => this.2 ((by decide : ∀ k ∈ libKeys.map Prod.fst, k ∈ ["annotationTypes",
    "resourceTypes", "types", "schemas", "traits", "uses", "usage", "securitySchemes"]) s h')⟩

/-- C113: two API documents that differ only in contents are read alike but for those contents; in
particular both are accepted or neither is. -/
theorem C113_api_blind (X : Xyml) {n n' : Node}
    (h : filledApiDoc (fun _ _ => nullNode) n = filledApiDoc (fun _ _ => nullNode) n') :
    (parseApi X n).map (filledApi fun _ _ => nullNode) =
        (parseApi X n').map (filledApi fun _ _ => nullNode) ∧
      (parseApi X n).isOk = (parseApi X n').isOk := by
  have := congrArg (parseApi X) h
  rw [C113_api, C113_api] at this
  refine ⟨this, ?_⟩
  have := congrArg Res.isOk this
  revert this
  cases parseApi X n <;> cases parseApi X n' <;> exact id

/-! ### Examples and documentation entries -/

/-- C113: an example with new contents is read as it was, with the new contents. -/
theorem C113_example (X : Xyml) (ga gx : Node → Node) (n : Node) (e : Example) :
    (filledExample ga gx e).unmarshal X (filledExampleDoc ga gx n) =
      (e.unmarshal X n).map (filledExample ga gx) := by
  have val : ∀ (v : Node) (e : Example),
      ((exampleVal X e.kind v).map fun x => { filledExample ga gx e with value := some x }) =
      ((exampleVal X e.kind v).map fun x => { e with value := some x }).map (filledExample ga gx) :=
    fun v e => by cases exampleVal X e.kind v <;> rfl
  have extra : ∀ (k v : Node) (e : Example), (filledExample ga gx e).putExtra X k (gx v) =
      (e.putExtra X k v).map (filledExample ga gx) := by
    intro k v e
    unfold Example.putExtra
    cases asScalar X k with
    | ok s =>
      refine congrArg Res.ok ?_
      simp only [filledExample, filled_put]
    | err e => rfl
    | panic c => rfl
  cases n with
  | scalar a b => exact val _ e
  | seq a b => exact val _ e
  | map ps =>
    refine pairs_comm (P := fun _ => True) ps (fun p _ e _ => ⟨?_, fun _ _ => trivial⟩) e trivial
    obtain ⟨k, v⟩ := p
    simp only [Example.assign]
    by_cases hk : k.isStr = true
    · simp only [hk, Bool.not_true, Bool.false_eq_true, if_false, true_and]
      simp only [firstChar]
      cases hc : k.value.toList.head? with
      | none => rfl
      | some c =>
        by_cases hp : c = '('
        · subst hp
          simp only [if_true]
          have := put_ann_fill ga v k.value e.annotations
          rw [ann_fill] at this ⊢
          cases h : loadAnn v with
          | ok a =>
            rw [h] at this
            refine congrArg Res.ok ?_
            simp only [filledExample, filled_put]
          | err e => rfl
          | panic c => rfl
        · simp only [Option.some.injEq, hp, if_false]
          by_cases h1 : k.value = "displayName"
          · simp only [h1, if_true, List.mem_cons, true_or]
            cases asString v <;> rfl
          by_cases h2 : k.value = "description"
          · simp only [h2, if_true, List.mem_cons, true_or, or_true, if_neg (by decide : ¬ "description" = "displayName")]
            cases asString v <;> rfl
          by_cases h3 : k.value = "strict"
          · simp only [h3, if_true, List.mem_cons, true_or, or_true, if_neg (by decide : ¬ "strict" = "displayName"),
              if_neg (by decide : ¬ "strict" = "description")]
            cases asBool X v <;> rfl
          by_cases h4 : k.value = "value"
          · simp only [h4, if_true, List.mem_cons, true_or, or_true, if_neg (by decide : ¬ "value" = "displayName"),
              if_neg (by decide : ¬ "value" = "description"), if_neg (by decide : ¬ "value" = "strict")]
            exact val v e
          simp only [h1, h2, h3, h4, if_false, List.mem_cons, List.not_mem_nil, or_false]
          exact extra k v e
    · simp only [hk, Bool.not_false, if_true, Bool.false_eq_true, false_and, if_false]
      exact extra k v e

/-- The new value of an entry of an example. -/
def exampleFill (ga gx : Node → Node) (p : Node × Node) : Node :=
  if p.1.isStr = true ∧ p.1.value.toList.head? = some '(' then revalued ga p.2
  else if p.1.isStr = true ∧ p.1.value ∈ ["displayName", "description", "strict", "value"] then p.2
  else gx p.2

theorem exampleFill_known (ga gx : Node → Node) {k : String}
    (h : k ∈ ["displayName", "description", "strict", "value"]) (v : Node) :
    exampleFill ga gx (.str k, v) = v := by
  have h' : ¬ ((Node.str k).isStr = true ∧ (Node.str k).value.toList.head? = some '(') := fun hc =>
    (by decide : ∀ k ∈ ["displayName", "description", "strict", "value"],
      k.toList.head? ≠ some '(') k h hc.2
  unfold exampleFill
  rw [if_neg h', if_pos ⟨rfl, h⟩]

/-- The entries of an example in its long form. -/
def longEnts (X : Xyml) (e : Example) : List (Scalar × Node) :=
  OM.optEnt (.str "displayName") (e.displayName.map .str) ++
    OM.optEnt (.str "description") (e.description.map .str) ++
    OM.optEnt (.str "value") (e.value.map (Val.render X)) ++
    OM.optEnt (.str "strict") (if e.strict then none else some (X.ofBool e.strict)) ++
    annEnts e.annotations ++ e.extra.ents

theorem long_toYAML (X : Xyml) {e : Example} (h : e.expand = true) :
    e.toYAML X = .map (asPairs X (lastWins (longEnts X e))) := by
  have : e.marshal X = (OM.empty false).putAll (longEnts X e) := by
    simp only [Example.marshal, h, if_true, longEnts, OM.putOpt_eq, OM.putAll_append]
    cases e.strict <;> rfl
  unfold Example.toYAML renderAny renderPairs
  rw [this, OM.omap_putAll, OM.empty_putAll_ents]
  rfl

/-- C113: an example written in its long form is, with new contents, written as it was with the new
contents. -/
theorem C113_example_written (X : Xyml) (hX : Lawful X) (ga gx : Node → Node) (e : Example)
    (hl : e.expand = true) (he : ExampleKeysApart e) :
    (filledExample ga gx e).toYAML X = filledExampleDoc ga gx (e.toYAML X) := by
  have hl' : (filledExample ga gx e).expand = true := by
    simp only [Example.expand, Bool.or_eq_true, decide_eq_true_eq] at hl ⊢
    simpa only [filledExample, filled, OM.len, List.length_map] using hl
  have hents : longEnts X (filledExample ga gx e) =
      (longEnts X e).map (newValue X (exampleFill ga gx)) := by
    have same : ∀ k ∈ ["displayName", "description", "strict", "value"], ∀ o : Option Node,
        (OM.optEnt (.str k) o).map (newValue X (exampleFill ga gx)) = OM.optEnt (.str k) o :=
      fun k hk => opt_same hX (exampleFill_known ga gx hk)
    have h1 : annEnts (filled (filled ga) e.annotations) =
        (annEnts e.annotations).map (newValue X (exampleFill ga gx)) :=
      filled_annEnts hX fun a ha v => if_pos ⟨rfl, he.annotations a ha⟩
    have h2 : (filled gx e.extra).ents = e.extra.ents.map (newValue X (exampleFill ga gx)) := by
      refine List.map_congr_left fun x hx => ?_
      have : exampleFill ga gx (X.ofKey x.1, x.2) = gx x.2 := by
        by_cases hs : ∃ s, x.1 = .str s
        · obtain ⟨s, hs⟩ := hs
          obtain ⟨h1, h2⟩ := he.extra x hx s hs
          rw [hs, hX.ofKey_str]
          exact (if_neg fun hc => h1 hc.2).trans (if_neg fun hc => h2 hc.2)
        · have := hX.ofKey_isStr fun s h => hs ⟨s, h⟩
          exact (if_neg fun hc => absurd (this.symm.trans hc.1) (by decide)).trans
            (if_neg fun hc => absurd (this.symm.trans hc.1) (by decide))
      simp only [newValue, this]
    unfold longEnts
    simp only [List.map_append]
    rw [same _ (by decide), same _ (by decide), same _ (by decide), same _ (by decide), ← h1, ← h2]
    rfl
  rw [long_toYAML X hl, long_toYAML X hl', hents, asPairs_values]
  rfl

/-- C113: a documentation entry with new contents is read as it was, with the new contents. -/
theorem C113_documentation (X : Xyml) (g : Node → Node) (n : Node) :
    loadDocumentation X (filledDocEntry g n) =
      (loadDocumentation X n).map fun d => { d with extra := filled g d.extra } := by
  cases n with
  | scalar a b => rfl
  | seq a b => rfl
  | map ps =>
    refine pairs_comm (P := fun _ => True) (g := fun d : Documentation => { d with extra := filled g d.extra })
      ps (fun p _ d _ => ⟨?_, fun _ _ => trivial⟩) Documentation.new trivial
    obtain ⟨k, v⟩ := p
    simp only [Documentation.assign]
    by_cases h1 : k.value = "title"
    · simp only [h1, if_true, true_or]; rfl
    by_cases h2 : k.value = "content"
    · simp only [h2, if_true, or_true, if_neg (by decide : ¬ "content" = "title")]; rfl
    simp only [h1, h2, if_false, or_self]
    cases asScalar X k with
    | ok s => exact congrArg Res.ok (by simp only [filled_put])
    | err e => rfl
    | panic c => rfl

/-! ### Cases -/

/-- What replaces the contents: any node by a word, or by a list of it twice. -/
def contentsNew : Node → Node
  | .scalar t v => .seq t [.scalar t v, .scalar t v]
  | _ => .str "types"

/-- A document with a trait, a resource, an annotation, an unknown entry and a type. -/
def contentsApi : Node := .map [(.str "title", .str "T"),
  (.str "traits", .map [(.str "paged", .map [(.str "type", .str "x")])]),
  (.str "(a)", .map [(.str "k", .str "v")]), (.str "/users", .map [(.str "get", .str "r")]),
  (.scalar "!!int" "5", .str "five"), (.str "types", .map [(.str "User", .str "object")])]

example : filledApiDoc (fun _ => contentsNew) contentsApi = .map [(.str "title", .str "T"),
    (.str "traits", .map [(.str "paged", .str "types")]),
    (.str "(a)", .map [(.str "k", .seq "!!str" [.str "v", .str "v"])]), (.str "/users", .str "types"),
    (.scalar "!!int" "5", .seq "!!str" [.str "five", .str "five"]),
    (.str "types", .map [(.str "User", .str "object")])] := by
  rfl

example : ∃ a, parseApi Xyml.std (.map [(.str "title", .str "T"),
      (.str "traits", .map [(.str "paged", .map [(.str "type", .str "x")])]),
      (.str "(a)", .map [(.str "k", .str "v")]), (.str "/users", .map [(.str "get", .str "r")])]) = .ok a ∧
    (filledApi (fun _ => contentsNew) a).traits.ents = [("paged", .str "types")] ∧
    (filledApi (fun _ => contentsNew) a).resources.ents = [("/users", .str "types")] ∧
    (filledApi (fun _ => contentsNew) a).toYAML Xyml.std = .map [(.str "title", .str "T"),
      (.str "traits", .map [(.str "paged", .str "types")]),
      (.str "(a)", .seq "!!omap" [.map [(.str "k", .seq "!!str" [.str "v", .str "v"])]]),
      (.str "/users", .str "types")] := ⟨_, rfl, rfl, rfl, rfl⟩

/-- A library: annotation types are read as annotations, one level deeper. -/
example : ∃ l, parseLibrary Xyml.std (some (filledLibDoc (fun _ => contentsNew) (.map [
      (.str "annotationTypes", .map [(.str "(b)", .map [(.str "k", .str "v")])]),
      (.str "x", .str "y")]))) = .ok l ∧
    l.annotations.ents = [("(b)", ⟨[("k", .seq "!!str" [.str "v", .str "v"])], true⟩)] ∧
    l.extra.ents = [(.str "x", .seq "!!str" [.str "y", .str "y"])] ∧
    l.toYAML Xyml.std = .map [(.str "(b)", .seq "!!omap" [.map [(.str "k",
      .seq "!!str" [.str "v", .str "v"])]]), (.str "x", .seq "!!str" [.str "y", .str "y"])] :=
  ⟨_, rfl, rfl, rfl, rfl⟩

example : LibKeysApart { Library.new with
    annotations := ⟨[("(b)", OM.empty true)], false⟩,
    extra := ⟨[(.str "x", .str "y"), (.int 5, .str "z")], false⟩ } := by
  refine ⟨fun e he => ?_, fun e he s hs => ?_⟩
  · rw [List.mem_singleton.mp he]; decide
  · simp only [List.mem_cons, List.not_mem_nil, or_false] at he
    rcases he with rfl | rfl
    · cases hs; decide
    · cases hs

/-- An object type with a discriminator value, an annotation and an unknown facet. -/
example : ∃ t, hat Xyml.std (.map [(.str "type", .str "object"),
      (.str "discriminatorValue", .str "d"), (.str "(a)", .map [(.str "k", .str "v")]),
      (.str "x", .map [])]) = .ok t ∧ t.kind = .object ∧
    (filledType (fun _ => contentsNew) t).extra.ents = [(.str "x", .str "types")] ∧
    (filledType (fun _ => contentsNew) t).toYAML Xyml.std = .map [(.str "type", .str "object"),
      (.str "x", .str "types"),
      (.str "(a)", .seq "!!omap" [.map [(.str "k", .seq "!!str" [.str "v", .str "v"])]]),
      (.str "discriminatorValue", .seq "!!str" [.str "d", .str "d"])] := ⟨_, rfl, rfl, rfl, rfl⟩

example : ∃ t, hat Xyml.std (.map [(.str "type", .str "object"),
      (.str "(a)", .map [(.str "k", .str "v")]), (.str "x", .map [])]) = .ok t ∧
    TypeKeysApart Xyml.std t := by
  refine ⟨_, rfl, fun e he => ?_, fun e he => ?_⟩
  · rw [List.mem_singleton.mp (show e ∈ [("(a)", ⟨[("k", .str "v")], true⟩)] from he)]; decide
  · rw [List.mem_singleton.mp (show e ∈ [(Scalar.str "x", Node.map [])] from he)]; decide +kernel

example : filledApiDoc (fun _ _ => nullNode) contentsApi =
    filledApiDoc (fun _ _ => nullNode) (filledApiDoc (fun _ => contentsNew) contentsApi) := by
  rfl

/-- An example with a value of its kind, an annotation and an unknown entry. -/
example : ∃ e, (Example.new .string).unmarshal Xyml.std (filledExampleDoc contentsNew contentsNew
      (.map [(.str "value", .str "v"), (.str "(a)", .map [(.str "k", .map [])]),
        (.str "x", .map []), (.str "y", .str "five")])) = .ok e ∧
    e.annotations.ents = [("(a)", ⟨[("k", .str "types")], true⟩)] ∧
    e.extra.ents = [(.str "x", .str "types"), (.str "y", .seq "!!str" [.str "five", .str "five"])] :=
  ⟨_, rfl, rfl, rfl⟩

/-- A loose example with an annotation and an unknown entry is written in its long form. -/
example : ∃ e : Example, e = { Example.new .string with
      value := some (.str "v"), strict := false,
      annotations := ⟨[("(a)", ⟨[("k", .map [])], true⟩)], false⟩,
      extra := ⟨[(.str "x", .map []), (.int 5, .map [])], false⟩ } ∧
    e.expand = true ∧ ExampleKeysApart e := by
  refine ⟨_, rfl, rfl, fun a ha => ?_, fun x hx s hs => ?_⟩
  · rw [List.mem_singleton.mp ha]; decide
  · simp only [List.mem_cons, List.not_mem_nil, or_false] at hx
    rcases hx with rfl | rfl
    · cases hs; decide
    · cases hs

/-- In the short form the value is written under the empty key, which looks like an unknown one. -/
example : (filledExample contentsNew contentsNew { Example.new .string with value := some (.str "v") }).toYAML
      Xyml.std = .map [(.str "", .str "v")] ∧
    filledExampleDoc contentsNew contentsNew (.map [(.str "", .str "v")]) =
      .map [(.str "", .seq "!!str" [.str "v", .str "v"])] := ⟨rfl, rfl⟩

example : ∃ d, loadDocumentation Xyml.std (filledDocEntry contentsNew
      (.map [(.str "title", .str "v"), (.str "x", .map [])])) = .ok d ∧
    d.title = "v" ∧ d.extra.ents = [(.str "x", .str "types")] := ⟨_, rfl, rfl, rfl⟩

/-- Two types, one with an unknown facet. -/
example : ∃ m, loadTypes Xyml.std (revalued (filledDef fun _ => contentsNew) (.map [
      (.str "A", .map [(.str "x", .map [])]), (.str "B", .str "string")])) (OM.empty false) = .ok m ∧
    m.ents.map (fun e => (e.1, e.2.kind, e.2.extra.ents)) =
      [("A", .string, [(.str "x", .str "types")]), ("B", .string, [])] := ⟨_, rfl, rfl⟩

/-- The key `schemas` is another name of `types`. -/
example : filledTypesApi (fun _ => contentsNew) (.map [(.str "schemas", .map [
      (.str "A", .map [(.str "x", .map []), (.str "displayName", .str "X")])]), (.str "x", .map [])]) =
    .map [(.str "schemas", .map [(.str "A", .map [(.str "x", .str "types"),
      (.str "displayName", .str "X")])]), (.str "x", .map [])] := by
  rfl

/-- A type is refused for its minimum length whatever its unknown facet is. -/
example : (loadTypes Xyml.std (revalued (filledDef fun _ => contentsNew) (.map [
    (.str "A", .map [(.str "x", .map []), (.str "minLength", .str "long")])])) (OM.empty false)).isOk =
      false := by
  rfl

/-- The names of types and what they stand for are looked at: there a change is not free. -/
example : (parseApi Xyml.std (.map [(.str "types", .map [(.str "User", .seq "!!seq" [])])])).isOk = false := by
  rfl

end Verif.Props
