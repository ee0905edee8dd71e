import Verif.Doc.ApiWrite

/-! # What the parser guarantees about API documents and libraries -/

namespace Verif.Doc.Spec
open Verif Verif.Doc

/-- A dictionary as the parser builds it. -/
def ParsedMap {V : Type} (m : OM String V) : Prop := m.omap = false ∧ Distinct m.ents

/-- API documents as the parser builds them. -/
structure ParsedApi (a : APISpec) : Prop where
  extra : a.extra.omap = false ∧ Distinct a.extra.ents
  resources : ParsedMap a.resources
  resourceKeys : ∀ e ∈ a.resources.ents, e.1.toList.head? = some '/'
  uses : ParsedMap a.uses
  securitySchemes : ParsedMap a.securitySchemes
  baseURIParameters : ParsedMap a.baseURIParameters
  traits : ParsedMap a.traits
  annotationTypes : ParsedMap a.annotationTypes
  resourceTypes : ParsedMap a.resourceTypes
  types : ParsedMap a.types
  typesEach : ∀ e ∈ a.types.ents, Parsed e.2
  annotations : ParsedAnns false a.annotations
  documentation : a.documentation ≠ some []

/-- Libraries as the parser builds them. -/
structure ParsedLib (l : Library) : Prop where
  extra : l.extra.omap = false ∧ Distinct l.extra.ents
  uses : ParsedMap l.uses
  securitySchemes : ParsedMap l.securitySchemes
  traits : ParsedMap l.traits
  annotationTypes : l.annotationTypes = OM.empty false
  resourceTypes : ParsedMap l.resourceTypes
  types : ParsedMap l.types
  typesEach : ∀ e ∈ l.types.ents, Parsed e.2
  annotations : ParsedMap l.annotations
  annotationValues : ∀ e ∈ l.annotations.ents, e.2.omap = true ∧ Distinct e.2.ents

/-- API documents that use only what can be written: no documentation entries and annotations,
only mild types, no extra facet under a key that means something else. -/
structure MildApi (a : APISpec) : Prop where
  extraKeys : ∀ p ∈ a.extra.ents, ∀ s, p.1 = .str s →
    s ∉ apiKeys.map Prod.fst ∧ s ≠ "" ∧ s.toList.head? ≠ some '(' ∧ s.toList.head? ≠ some '/'
  typesEach : ∀ e ∈ a.types.ents, Mild e.2
  annotations : a.annotations.ents = []
  documentation : a.documentation = none

/-- Libraries that use only what can be written. -/
structure MildLib (l : Library) : Prop where
  extraKeys : ∀ p ∈ l.extra.ents, ∀ s, p.1 = .str s →
    s ∉ libKeys.map Prod.fst ∧ s ≠ "" ∧ s.toList.head? ≠ some '('
  typesEach : ∀ e ∈ l.types.ents, Mild e.2
  annotations : l.annotations.ents = []

theorem ParsedApi.plain {a : APISpec} (h : ParsedApi a) (hm : MildApi a) : PlainApi a where
  extraFlag := h.extra.1
  extra := h.extra.2
  extraKeys := hm.extraKeys
  resourcesFlag := h.resources.1
  resources := h.resources.2
  resourceKeys := h.resourceKeys
  uses := h.uses
  securitySchemes := h.securitySchemes
  baseURIParameters := h.baseURIParameters
  traits := h.traits
  annotationTypes := h.annotationTypes
  resourceTypes := h.resourceTypes
  types := h.types
  typesEach := fun e he => (h.typesEach e he).plain (hm.typesEach e he)
  annotations := by
    have h1 := h.annotations.omap
    have h2 := hm.annotations
    cases ha : a.annotations with
    | mk es b => rw [ha] at h1 h2; cases h1; cases h2; rfl
  documentation := hm.documentation

theorem ParsedLib.plain {l : Library} (h : ParsedLib l) (hm : MildLib l) : PlainLib l where
  extraFlag := h.extra.1
  extra := h.extra.2
  extraKeys := hm.extraKeys
  uses := h.uses
  securitySchemes := h.securitySchemes
  traits := h.traits
  annotationTypes := h.annotationTypes
  resourceTypes := h.resourceTypes
  types := h.types
  typesEach := fun e he => (h.typesEach e he).plain (hm.typesEach e he)
  annotations := by
    have h1 := h.annotations.1
    have h2 := hm.annotations
    cases ha : l.annotations with
    | mk es b => rw [ha] at h1 h2; cases h1; cases h2; rfl

end Verif.Doc.Spec

namespace Verif.Doc
open Verif Verif.Doc.Spec

theorem startsWith_head {c : Char} {k : Node} (h : startsWith c k = true) :
    k.value.toList.head? = some c := by
  simp only [startsWith, Bool.and_eq_true, beq_iff_eq] at h
  exact h.2

theorem loadStrings_parsed {m m' : OM String String} {v : Node} (h : loadStrings m v = .ok m')
    (hd : ParsedMap m) : ParsedMap m' := by
  cases v with
  | map ps =>
    refine forPairs_inv_mem (I := fun x => ParsedMap x) ?_ hd h
    intro p _ s s' hI hs
    obtain ⟨k, _, h2⟩ := Res.bind_eq_ok.mp hs
    obtain ⟨w, _, rfl⟩ := Res.map_eq_ok.mp h2
    exact ⟨hI.1, distinct_put _ _ hI.2⟩
  | _ => cases h

theorem loadUntyped_parsed' {m m' : OM String Node} {v : Node} (h : loadUntyped m v = .ok m')
    (hd : ParsedMap m) : ParsedMap m' := by
  obtain ⟨h1, h2⟩ := loadUntyped_parsed h hd.2
  exact ⟨h1.trans hd.1, h2⟩

theorem loadTypes_parsed' {X : Xyml} (hX : Lawful X) {m m' : OM String DT} {v : Node}
    (h : loadTypes X v m = .ok m') (hd : ParsedMap m) (hp : ∀ e ∈ m.ents, Parsed e.2) :
    ParsedMap m' ∧ ∀ e ∈ m'.ents, Parsed e.2 := by
  obtain ⟨h1, h2, h3⟩ := loadTypes_parsed h (fun n t _ ht => hat_parsed hX ht) hd.2 hp
  exact ⟨⟨h1.trans hd.1, h2⟩, h3⟩

theorem pushDoc_parsed {X : Xyml} {v : Node} {l l' : Option (List Documentation)}
    (h : seqForEach (pushDoc X) v l = .ok l') (hl : l ≠ some []) : l' ≠ some [] := by
  cases v with
  | seq t ns =>
    have h : forItems (pushDoc X) ns l = .ok l' := h
    induction ns generalizing l with
    | nil => cases h; exact hl
    | cons n ns ih =>
      obtain ⟨l1, h1, h2⟩ := Res.bind_eq_ok.mp h
      obtain ⟨d, _, rfl⟩ := Res.map_eq_ok.mp h1
      exact ih (by simp) h2 h2
  | _ => cases h

/-- What holds of each part of a parsed API document (auxiliary). -/
def ApiOK : (s : ApiSection) → s.Ty → Prop
  | .uses, m => ParsedMap (V := String) m
  | .securitySchemes, m => ParsedMap (V := Node) m
  | .baseUriParameters, m => ParsedMap (V := Node) m
  | .traits, m => ParsedMap (V := Node) m
  | .annotationTypes, m => ParsedMap (V := Node) m
  | .resourceTypes, m => ParsedMap (V := Node) m
  | .types, m => ParsedMap (V := DT) m ∧ ∀ e ∈ OM.ents (V := DT) m, Parsed e.2
  | .resources, m => ParsedMap (V := Node) m ∧
      ∀ e ∈ OM.ents (V := Node) m, e.1.toList.head? = some '/'
  | .annotations, m => ParsedAnns false m
  | .extra, m => OM.omap (K := Scalar) (V := Node) m = false ∧ Distinct (OM.ents (V := Node) m)
  | .documentation, l => l ≠ some []
  | _, _ => True

theorem apiStep_ok {X : Xyml} (hX : Lawful X) {k v : Node} {s : ApiSection} {x y : s.Ty}
    (hs : apiSectionOf (k, v) = s) (h : apiStep X k v s x = .ok y) (hx : ApiOK s x) :
    ApiOK s y := by
  cases s with
  | uses => exact loadStrings_parsed h hx
  | securitySchemes => exact loadUntyped_parsed' h hx
  | baseUriParameters => exact loadUntyped_parsed' h hx
  | traits => exact loadUntyped_parsed' h hx
  | annotationTypes => exact loadUntyped_parsed' h hx
  | resourceTypes => exact loadUntyped_parsed' h hx
  | types => exact loadTypes_parsed' hX h hx.1 hx.2
  | documentation => exact pushDoc_parsed h hx
  | resources =>
    have hk : k.value.toList.head? = some '/' := by
      unfold apiSectionOf at hs
      split at hs
      · cases hs
      · split at hs
        · rename_i h1; exact startsWith_head h1
        · split at hs
          · cases hl : apiKeys.lookup k.value with
            | none => simp only at hs; rw [hl] at hs; cases hs
            | some c =>
              simp only at hs
              rw [hl] at hs
              have hs : c = .resources := hs
              subst hs
              obtain ⟨l1, l2, hl', _⟩ := List.lookup_eq_some_iff.mp hl
              have hm : (k.value, ApiSection.resources) ∈ apiKeys := by rw [hl']; simp
              have : ∀ e ∈ apiKeys, e.2 ≠ .resources := by decide
              exact absurd rfl (this _ hm)
          · cases hs
    have h : Res.ok (OM.put (V := Node) x k.value v) = Res.ok y := h
    have h := Res.ok.inj h
    subst h
    obtain ⟨⟨h1, h2⟩, h3⟩ := hx
    refine ⟨⟨h1, distinct_put _ _ h2⟩, fun e he => ?_⟩
    rcases mem_put (V := Node) he with he | rfl
    · exact h3 e he
    · exact hk
  | annotations =>
    have hk : k.value.toList.head? = some '(' := by
      unfold apiSectionOf at hs
      split at hs
      · rename_i h1; exact startsWith_head h1
      · split at hs
        · cases hs
        · split at hs
          · cases hl : apiKeys.lookup k.value with
            | none => simp only at hs; rw [hl] at hs; cases hs
            | some c =>
              simp only at hs
              rw [hl] at hs
              have hs : c = .annotations := hs
              subst hs
              obtain ⟨l1, l2, hl', _⟩ := List.lookup_eq_some_iff.mp hl
              have hm : (k.value, ApiSection.annotations) ∈ apiKeys := by rw [hl']; simp
              have : ∀ e ∈ apiKeys, e.2 ≠ .annotations := by decide
              exact absurd rfl (this _ hm)
          · cases hs
    obtain ⟨a, ha, hy⟩ := Res.map_eq_ok.mp h
    subst hy
    exact Spec.ParsedAnns.put hx hk ha
  | extra =>
    have h : (if k.isStr && k.value == "" then Res.panic .emptyKey
      else (asScalar X k).map fun s => OM.put (V := Node) x s v) = .ok y := h
    split at h
    · cases h
    · obtain ⟨s, _, hy⟩ := Res.map_eq_ok.mp h
      subst hy
      exact ⟨hx.1, distinct_put _ _ hx.2⟩
  | _ => trivial

/-- What the parser guarantees about API documents. -/
theorem parseApi_parsed {X : Xyml} (hX : Lawful X) {n : Node} {a : APISpec}
    (h : parseApi X n = .ok a) : ParsedApi a := by
  cases n with
  | map ps =>
    have key : ∀ s, ApiOK s (apiGet s a) := by
      refine forPairs_inv_mem (f := APISpec.assign X) (ps := ps)
        (I := fun b : APISpec => ∀ s, ApiOK s (apiGet s b)) ?_ ?_ h
      · intro p _ b b' hI hb s
        obtain ⟨h1, h2⟩ := api_assign_ok hb
        by_cases hs : s = apiSectionOf (p.1, p.2)
        · subst hs
          exact apiStep_ok hX rfl h1 (hI _)
        · rw [h2 s hs]; exact hI s
      · intro s
        cases s with
        | annotations => exact ⟨rfl, List.nodup_nil, fun e h => (nomatch h), fun e h => (nomatch h)⟩
        | types => exact ⟨⟨rfl, List.nodup_nil⟩, fun e h => (nomatch h)⟩
        | resources => exact ⟨⟨rfl, List.nodup_nil⟩, fun e h => (nomatch h)⟩
        | documentation => exact fun h => (nomatch h)
        | title => trivial
        | version => trivial
        | baseUri => trivial
        | description => trivial
        | protocols => trivial
        | mediaType => trivial
        | securedBy => trivial
        | _ => exact ⟨rfl, List.nodup_nil⟩
    exact ⟨key .extra, (key .resources).1, (key .resources).2, key .uses, key .securitySchemes,
      key .baseUriParameters, key .traits, key .annotationTypes, key .resourceTypes,
      (key .types).1, (key .types).2, key .annotations, key .documentation⟩
  | _ => cases h

/-- What holds of each part of a parsed library (auxiliary). -/
def LibOK : (s : LibSection) → s.Ty → Prop
  | .uses, m => ParsedMap (V := String) m
  | .securitySchemes, m => ParsedMap (V := Node) m
  | .traits, m => ParsedMap (V := Node) m
  | .resourceTypes, m => ParsedMap (V := Node) m
  | .types, m => ParsedMap (V := DT) m ∧ ∀ e ∈ OM.ents (V := DT) m, Parsed e.2
  | .annotations, m => ParsedMap (V := Ann) m ∧
      ∀ e ∈ OM.ents (V := Ann) m, e.2.omap = true ∧ Distinct e.2.ents
  | .extra, m => OM.omap (K := Scalar) (V := Node) m = false ∧ Distinct (OM.ents (V := Node) m)
  | .usage, _ => True

private theorem ann_put {m : OM String Ann} {k : String} {v : Node} {a : Ann}
    (hm : ParsedMap m ∧ ∀ e ∈ m.ents, e.2.omap = true ∧ Distinct e.2.ents)
    (ha : loadAnn v = .ok a) : ParsedMap (m.put k a) ∧
      ∀ e ∈ (m.put k a).ents, e.2.omap = true ∧ Distinct e.2.ents := by
  refine ⟨⟨hm.1.1, distinct_put _ _ hm.1.2⟩, fun e he => ?_⟩
  rcases mem_put he with he | rfl
  · exact hm.2 e he
  · exact loadAnn_parsed ha

theorem libStep_ok {X : Xyml} (hX : Lawful X) {k v : Node} {s : LibSection} {x y : s.Ty}
    (h : libStep X k v s x = .ok y) (hx : LibOK s x) : LibOK s y := by
  cases s with
  | uses => exact loadStrings_parsed h hx
  | securitySchemes => exact loadUntyped_parsed' h hx
  | traits => exact loadUntyped_parsed' h hx
  | resourceTypes => exact loadUntyped_parsed' h hx
  | types => exact loadTypes_parsed' hX h hx.1 hx.2
  | annotations =>
    have h : (if k.value = "annotationTypes" then loadAnns x v
      else (loadAnn v).map fun a => OM.put (V := Ann) x k.value a) = .ok y := h
    split at h
    · cases v with
      | map ps =>
        refine forPairs_inv_mem (I := fun m : OM String Ann => ParsedMap m ∧
          ∀ e ∈ m.ents, e.2.omap = true ∧ Distinct e.2.ents) ?_ hx h
        intro p _ m m' hI hm
        obtain ⟨s, _, h2⟩ := Res.bind_eq_ok.mp hm
        obtain ⟨a, ha, rfl⟩ := Res.map_eq_ok.mp h2
        exact ann_put hI ha
      | _ => cases h
    · obtain ⟨a, ha, hy⟩ := Res.map_eq_ok.mp h
      subst hy
      exact ann_put hx ha
  | extra =>
    have h : (if k.isStr && k.value == "" then Res.panic .emptyKey
      else (asScalar X k).map fun s => OM.put (V := Node) x s v) = .ok y := h
    split at h
    · cases h
    · obtain ⟨s, _, hy⟩ := Res.map_eq_ok.mp h
      subst hy
      exact ⟨hx.1, distinct_put _ _ hx.2⟩
  | usage => trivial

/-- What the parser guarantees about libraries. -/
theorem parseLibrary_parsed {X : Xyml} (hX : Lawful X) {o : Option Node} {l : Library}
    (h : parseLibrary X o = .ok l) : ParsedLib l := by
  have init : ∀ s, LibOK s (libGet s Library.new) := by
    intro s
    cases s with
    | annotations => exact ⟨⟨rfl, List.nodup_nil⟩, fun e h => (nomatch h)⟩
    | types => exact ⟨⟨rfl, List.nodup_nil⟩, fun e h => (nomatch h)⟩
    | usage => trivial
    | _ => exact ⟨rfl, List.nodup_nil⟩
  have fin : (∀ s, LibOK s (libGet s l)) → l.annotationTypes = OM.empty false → ParsedLib l := by
    intro key ha
    exact ⟨key .extra, key .uses, key .securitySchemes, key .traits, ha, key .resourceTypes,
      (key .types).1, (key .types).2, (key .annotations).1, (key .annotations).2⟩
  cases o with
  | none => cases h; exact fin init rfl
  | some n =>
    cases n with
    | map ps =>
      have key : (∀ s, LibOK s (libGet s l)) ∧ l.annotationTypes = OM.empty false := by
        refine forPairs_inv_mem (f := Library.assign X) (ps := ps)
          (I := fun b : Library => (∀ s, LibOK s (libGet s b)) ∧
            b.annotationTypes = OM.empty false) ?_ ⟨init, rfl⟩ h
        intro p _ b b' hI hb
        obtain ⟨h1, h2, h3⟩ := lib_assign_ok hb
        refine ⟨fun s => ?_, h3.trans hI.2⟩
        by_cases hs : s = libSectionOf (p.1, p.2)
        · subst hs
          exact libStep_ok hX h1 (hI.1 _)
        · rw [h2 s hs]; exact hI.1 s
      exact fin key.1 key.2
    | _ => cases h

end Verif.Doc
