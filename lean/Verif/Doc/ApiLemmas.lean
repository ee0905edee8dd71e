import Verif.Doc.ApiSpec
import Verif.Doc.FacetLemmas
import Mathlib.Data.List.Forall2

/-! # Reading API documents and libraries, part by part -/

namespace Verif.Doc
open Verif Verif.Doc.Spec

/-- Replace a part (auxiliary). -/
def APISpec.setPart : (s : ApiSection) → s.Ty → APISpec → APISpec
  | .title, x, a => { a with title := x }
  | .version, x, a => { a with version := x }
  | .baseUri, x, a => { a with baseURI := x }
  | .description, x, a => { a with description := x }
  | .protocols, x, a => { a with protocols := x }
  | .mediaType, x, a => { a with mediaType := x }
  | .documentation, x, a => { a with documentation := x }
  | .securedBy, x, a => { a with securedBy := x }
  | .uses, x, a => { a with uses := x }
  | .securitySchemes, x, a => { a with securitySchemes := x }
  | .baseUriParameters, x, a => { a with baseURIParameters := x }
  | .traits, x, a => { a with traits := x }
  | .annotationTypes, x, a => { a with annotationTypes := x }
  | .resourceTypes, x, a => { a with resourceTypes := x }
  | .types, x, a => { a with types := x }
  | .annotations, x, a => { a with annotations := x }
  | .resources, x, a => { a with resources := x }
  | .extra, x, a => { a with extra := x }

/-- The new value of a part, from its old value and one entry (auxiliary). -/
def apiStep (X : Xyml) (k v : Node) : (s : ApiSection) → s.Ty → Res s.Ty
  | .title, _ => asString v
  | .version, _ => (asString v).map some
  | .baseUri, _ => (asString v).map some
  | .description, _ => (asString v).map some
  | .protocols, _ => (asStringList v).map some
  | .mediaType, l => if v.isStr then .ok (some (Option.getD l [] ++ [v.value]))
      else (asStringList v).map some
  | .documentation, l => seqForEach (pushDoc X) v l
  | .securedBy, _ => (asStringList v).map some
  | .uses, m => loadStrings m v
  | .securitySchemes, m => loadUntyped m v
  | .baseUriParameters, m => loadUntyped m v
  | .traits, m => loadUntyped m v
  | .annotationTypes, m => loadUntyped m v
  | .resourceTypes, m => loadUntyped m v
  | .types, m => loadTypes X v m
  | .annotations, m => (loadAnn v).map fun a => OM.put m k.value a
  | .resources, m => .ok (OM.put m k.value v)
  | .extra, m => if k.isStr && k.value == "" then .panic .emptyKey
      else (asScalar X k).map fun s => OM.put m s v

theorem apiGet_setPart_self (s : ApiSection) (x : s.Ty) (a : APISpec) :
    apiGet s (a.setPart s x) = x := by cases s <;> rfl

theorem apiGet_setPart_ne {s s' : ApiSection} (h : s' ≠ s) (x : s.Ty) (a : APISpec) :
    apiGet s' (a.setPart s x) = apiGet s' a := by
  cases s <;> cases s' <;> first | rfl | exact absurd rfl h

theorem api_ext {a b : APISpec} (h : ∀ s, apiGet s a = apiGet s b) : a = b := by
  cases a; cases b
  simp only [APISpec.mk.injEq]
  exact ⟨h .title, h .description, h .version, h .baseUri, h .baseUriParameters, h .protocols,
    h .mediaType, h .documentation, h .types, h .traits, h .resourceTypes, h .annotationTypes,
    h .annotations, h .securitySchemes, h .securedBy, h .uses, h .resources, h .extra⟩

theorem startsWith_firstChar {k : Node} {c d : Char} (hs : k.isStr = true)
    (h : firstChar k.value = some c) : startsWith d k = (c == d) := by
  unfold startsWith
  rw [hs, ← firstChar_eq, h]
  rfl

private theorem lookup_none_ne {β : Type} {s : String} {l : List (String × β)}
    (h : l.lookup s = none) : ∀ e ∈ l, s ≠ e.1 := by
  intro e he hs
  rw [List.lookup_eq_none_iff] at h
  have := h e he
  simp [hs] at this

theorem lookup_some_mem {β : Type} {s : String} {b : β} {l : List (String × β)}
    (h : l.lookup s = some b) : (s, b) ∈ l := by
  obtain ⟨l1, l2, hl, _⟩ := List.lookup_eq_some_iff.mp h
  rw [hl]; simp

/-- One entry of an API document is one step on one part. -/
theorem api_assign_eq (X : Xyml) (k v : Node) (a : APISpec) :
    a.assign X k v = (apiStep X k v (apiSectionOf (k, v)) (apiGet (apiSectionOf (k, v)) a)).map
      fun x => a.setPart (apiSectionOf (k, v)) x := by
  unfold APISpec.assign
  by_cases hs : k.isStr = true
  · rw [if_neg (by simp [hs])]
    cases hc : firstChar k.value with
    | none =>
      have hv := firstChar_none.mp hc
      have hsec : apiSectionOf (k, v) = .extra := by
        have : apiKeys.lookup "" = none := by decide
        simp [apiSectionOf, startsWith, hs, hv, this]
      rw [hsec]
      simp [apiStep, hs, hv]
    | some c =>
      have hne : k.value ≠ "" := fun h => by rw [firstChar_none.mpr h] at hc; cases hc
      have hsw := fun d => startsWith_firstChar (d := d) hs hc
      by_cases h1 : c = '('
      · have hsec : apiSectionOf (k, v) = .annotations := by simp [apiSectionOf, hsw, h1]
        rw [hsec]
        simp only [h1, if_true]
        exact (Res.map_map (loadAnn v) (fun x => a.annotations.put k.value x)
          (fun x => a.setPart .annotations x)).symm
      · by_cases h2 : c = '/'
        · have hsec : apiSectionOf (k, v) = .resources := by simp [apiSectionOf, hsw, h2]
          rw [hsec]
          simp only [h2, if_true]
          rfl
        · have hsec : apiSectionOf (k, v) = (apiKeys.lookup k.value).getD .extra := by
            simp [apiSectionOf, hsw, h1, h2, hs]
          simp only [h1, h2, if_false]
          rw [hsec]
          cases hl : apiKeys.lookup k.value with
          | none =>
            have hn := lookup_none_ne hl
            simp only [apiKeys, List.mem_cons, List.not_mem_nil, or_false, forall_eq_or_imp,
              forall_eq] at hn
            simp only [APISpec.assignKey, hn, if_false, or_false, APISpec.putExtra]
            have hne' : (k.value == "") = false := by simpa using hne
            simp only [Option.getD_none, apiStep, hne', Bool.and_false, Bool.false_eq_true,
              if_false]
            exact (Res.map_map (asScalar X k) (fun x => a.extra.put x v)
              (fun x => a.setPart .extra x)).symm
          | some s =>
            have hm := lookup_some_mem hl
            simp only [apiKeys, List.mem_cons, List.not_mem_nil, or_false, Prod.mk.injEq] at hm
            rcases hm with ⟨hv, rfl⟩ | ⟨hv, rfl⟩ | ⟨hv, rfl⟩ | ⟨hv, rfl⟩ | ⟨hv, rfl⟩ | ⟨hv, rfl⟩ |
              ⟨hv, rfl⟩ | ⟨hv, rfl⟩ | ⟨hv, rfl⟩ | ⟨hv, rfl⟩ | ⟨hv, rfl⟩ | ⟨hv, rfl⟩ | ⟨hv, rfl⟩ |
              ⟨hv, rfl⟩ | ⟨hv, rfl⟩ | ⟨hv, rfl⟩
            all_goals
              simp only [APISpec.assignKey, hv, reduceIte, Option.getD_some, apiStep,
                String.reduceEq, or_true, true_or]
            all_goals first
              | rfl
              | exact (Res.map_map (asString v) some (fun x => a.setPart .version x)).symm
              | exact (Res.map_map (asString v) some (fun x => a.setPart .baseUri x)).symm
              | exact (Res.map_map (asString v) some (fun x => a.setPart .description x)).symm
              | exact (Res.map_map (asStringList v) some (fun x => a.setPart .protocols x)).symm
              | exact (Res.map_map (asStringList v) some (fun x => a.setPart .securedBy x)).symm
              | (split
                 · rfl
                 · exact (Res.map_map (asStringList v) some (fun x => a.setPart .mediaType x)).symm)
  · have hs : k.isStr = false := by simpa using hs
    have hsec : apiSectionOf (k, v) = .extra := by simp [apiSectionOf, startsWith, hs]
    rw [hsec]
    simp only [hs, Bool.not_false, if_true, APISpec.putExtra, apiStep, Bool.false_and,
      Bool.false_eq_true, if_false]
    exact (Res.map_map (asScalar X k) (fun x => a.extra.put x v) (fun x => a.setPart .extra x)).symm

theorem api_assign_ok {X : Xyml} {k v : Node} {a b : APISpec} (h : a.assign X k v = .ok b) :
    apiStep X k v (apiSectionOf (k, v)) (apiGet (apiSectionOf (k, v)) a) =
      .ok (apiGet (apiSectionOf (k, v)) b) ∧
      ∀ i, i ≠ apiSectionOf (k, v) → apiGet i b = apiGet i a := by
  rw [api_assign_eq] at h
  obtain ⟨x, hx, rfl⟩ := Res.map_eq_ok.mp h
  refine ⟨?_, fun i hi => apiGet_setPart_ne hi x a⟩
  rw [apiGet_setPart_self]
  exact hx

theorem api_sections (X : Xyml) :
    Sections (APISpec.assign X) ApiSection (fun _ => True) apiSectionOf
      (fun f s t => apiGet f s = apiGet f t) where
  inv := fun _ _ => trivial
  refl := fun _ _ => rfl
  symm := Eq.symm
  trans := Eq.trans
  frame := fun _ h hi => ((api_assign_ok h).2 _ hi).symm
  loc := by
    intro k v s s' t _ _ hR h
    obtain ⟨h1, _⟩ := api_assign_ok h
    rw [hR] at h1
    refine ⟨t.setPart (apiSectionOf (k, v)) (apiGet (apiSectionOf (k, v)) s'), ?_, ?_⟩
    · rw [api_assign_eq, h1]; rfl
    · exact (apiGet_setPart_self _ _ _).symm

/-- The value of a part after reading entries: only the entries of that part count. -/
theorem api_part {X : Xyml} (s : ApiSection) (ps : List (Node × Node)) (a b : APISpec)
    (h : forPairs (APISpec.assign X) ps a = .ok b) :
    forPairs (fun k v x => apiStep X k v s x) (apiEntries s ps) (apiGet s a) =
      .ok (apiGet s b) := by
  induction ps generalizing a with
  | nil => cases h; rfl
  | cons p ps ih =>
    obtain ⟨a1, h1, h2⟩ := Res.bind_eq_ok.mp h
    obtain ⟨g1, g2⟩ := api_assign_ok (k := p.1) (v := p.2) h1
    have := ih a1 h2
    by_cases hp : apiSectionOf p = s
    · subst hp
      simp only [apiEntries, List.filter_cons, beq_self_eq_true, if_true, forPairs]
      rw [show apiStep X p.1 p.2 (apiSectionOf p) (apiGet (apiSectionOf p) a) =
        .ok (apiGet (apiSectionOf p) a1) from g1]
      exact this
    · have hb : (apiSectionOf p == s) = false := by simpa using hp
      simp only [apiEntries, List.filter_cons, hb, Bool.false_eq_true, if_false]
      rw [g2 s (Ne.symm hp)] at this
      exact this

theorem api_part_mem {X : Xyml} {ps : List (Node × Node)} {a b : APISpec}
    (h : forPairs (APISpec.assign X) ps a = .ok b) {p : Node × Node} (hp : p ∈ ps) :
    ∃ x y, apiStep X p.1 p.2 (apiSectionOf p) x = .ok y := by
  obtain ⟨s1, s2, _, hs⟩ := forPairs_mem (I := fun _ => True) (fun _ _ _ _ _ _ => trivial)
    ps a b trivial h p hp
  exact ⟨_, _, (api_assign_ok (k := p.1) (v := p.2) hs).1⟩

/-! ### Libraries -/

/-- Replace a part (auxiliary). -/
def Library.setPart : (s : LibSection) → s.Ty → Library → Library
  | .usage, x, l => { l with usage := x }
  | .uses, x, l => { l with uses := x }
  | .types, x, l => { l with types := x }
  | .resourceTypes, x, l => { l with resourceTypes := x }
  | .traits, x, l => { l with traits := x }
  | .securitySchemes, x, l => { l with securitySchemes := x }
  | .annotations, x, l => { l with annotations := x }
  | .extra, x, l => { l with extra := x }

/-- The new value of a part, from its old value and one entry (auxiliary). -/
def libStep (X : Xyml) (k v : Node) : (s : LibSection) → s.Ty → Res s.Ty
  | .usage, _ => (asString v).map some
  | .uses, m => loadStrings m v
  | .types, m => loadTypes X v m
  | .resourceTypes, m => loadUntyped m v
  | .traits, m => loadUntyped m v
  | .securitySchemes, m => loadUntyped m v
  | .annotations, m => if k.value = "annotationTypes" then loadAnns m v
      else (loadAnn v).map fun a => OM.put m k.value a
  | .extra, m => if k.isStr && k.value == "" then .panic .emptyKey
      else (asScalar X k).map fun s => OM.put m s v

theorem libGet_setPart_self (s : LibSection) (x : s.Ty) (a : Library) :
    libGet s (a.setPart s x) = x := by cases s <;> rfl

theorem libGet_setPart_ne {s s' : LibSection} (h : s' ≠ s) (x : s.Ty) (a : Library) :
    libGet s' (a.setPart s x) = libGet s' a := by
  cases s <;> cases s' <;> first | rfl | exact absurd rfl h

theorem lib_annotationTypes_setPart (s : LibSection) (x : s.Ty) (a : Library) :
    (a.setPart s x).annotationTypes = a.annotationTypes := by cases s <;> rfl

theorem lib_ext {a b : Library} (h : ∀ s, libGet s a = libGet s b)
    (h' : a.annotationTypes = b.annotationTypes) : a = b := by
  cases a; cases b
  simp only [Library.mk.injEq]
  exact ⟨h .annotations, h', h .extra, h .uses, h .resourceTypes, h .securitySchemes,
    h .traits, h .types, h .usage⟩

/-- One entry of a library is one step on one part. -/
theorem lib_assign_eq (X : Xyml) (k v : Node) (a : Library) :
    a.assign X k v = (libStep X k v (libSectionOf (k, v)) (libGet (libSectionOf (k, v)) a)).map
      fun x => a.setPart (libSectionOf (k, v)) x := by
  unfold Library.assign
  cases hl : libKeys.lookup k.value with
  | some s =>
    have hsec : libSectionOf (k, v) = s := by simp [libSectionOf, hl]
    have hm := lookup_some_mem hl
    rw [hsec]
    simp only [libKeys, List.mem_cons, List.not_mem_nil, or_false, Prod.mk.injEq] at hm
    rcases hm with ⟨hv, rfl⟩ | ⟨hv, rfl⟩ | ⟨hv, rfl⟩ | ⟨hv, rfl⟩ | ⟨hv, rfl⟩ | ⟨hv, rfl⟩ |
      ⟨hv, rfl⟩ | ⟨hv, rfl⟩
    all_goals
      simp only [hv, reduceIte, libStep, String.reduceEq, or_true, true_or, or_self]
    all_goals first
      | rfl
      | exact (Res.map_map (asString v) some (fun x => a.setPart .usage x)).symm
  | none =>
    have hn := lookup_none_ne hl
    simp only [libKeys, List.mem_cons, List.not_mem_nil, or_false, forall_eq_or_imp,
      forall_eq] at hn
    simp only [hn, if_false, or_false]
    have hsec : libSectionOf (k, v) = if startsWith '(' k then .annotations else .extra := by
      simp [libSectionOf, hl]
    by_cases hs : k.isStr = true
    · rw [if_pos hs]
      cases hc : firstChar k.value with
      | none =>
        have hv := firstChar_none.mp hc
        have hsw : startsWith '(' k = false := by simp [startsWith, hv]
        rw [hsec, hsw]
        simp [libStep, hs, hv]
      | some c =>
        have hne : (k.value == "") = false := by
          simpa using fun h => by rw [firstChar_none.mpr h] at hc; cases hc
        have hsw := startsWith_firstChar (d := '(') hs hc
        by_cases h1 : c = '('
        · have hsec' : libSectionOf (k, v) = .annotations := by simp [hsec, hsw, h1]
          rw [hsec']
          simp only [h1, if_true, libStep, hn]
          exact (Res.map_map (loadAnn v) (fun x => a.annotations.put k.value x)
            (fun x => a.setPart .annotations x)).symm
        · have hsec' : libSectionOf (k, v) = .extra := by simp [hsec, hsw, h1]
          rw [hsec']
          simp only [h1, if_false, libStep, hne, Bool.and_false, Bool.false_eq_true,
            Library.putExtra]
          exact (Res.map_map (asScalar X k) (fun x => a.extra.put x v) (fun x => a.setPart .extra x)).symm
    · have hs : k.isStr = false := by simpa using hs
      have hsw : startsWith '(' k = false := by simp [startsWith, hs]
      rw [hsec, hsw]
      simp only [hs, Bool.false_eq_true, if_false, Library.putExtra, libStep, Bool.false_and]
      exact (Res.map_map (asScalar X k) (fun x => a.extra.put x v) (fun x => a.setPart .extra x)).symm

theorem lib_assign_ok {X : Xyml} {k v : Node} {a b : Library} (h : a.assign X k v = .ok b) :
    libStep X k v (libSectionOf (k, v)) (libGet (libSectionOf (k, v)) a) =
      .ok (libGet (libSectionOf (k, v)) b) ∧
      (∀ i, i ≠ libSectionOf (k, v) → libGet i b = libGet i a) ∧
      b.annotationTypes = a.annotationTypes := by
  rw [lib_assign_eq] at h
  obtain ⟨x, hx, rfl⟩ := Res.map_eq_ok.mp h
  refine ⟨?_, fun i hi => libGet_setPart_ne hi x a, lib_annotationTypes_setPart _ x a⟩
  rw [libGet_setPart_self]
  exact hx

theorem lib_sections (X : Xyml) :
    Sections (Library.assign X) LibSection (fun _ => True) libSectionOf
      (fun f s t => libGet f s = libGet f t) where
  inv := fun _ _ => trivial
  refl := fun _ _ => rfl
  symm := Eq.symm
  trans := Eq.trans
  frame := fun _ h hi => ((lib_assign_ok h).2.1 _ hi).symm
  loc := by
    intro k v s s' t _ _ hR h
    obtain ⟨h1, _⟩ := lib_assign_ok h
    rw [hR] at h1
    refine ⟨t.setPart (libSectionOf (k, v)) (libGet (libSectionOf (k, v)) s'), ?_, ?_⟩
    · rw [lib_assign_eq, h1]; rfl
    · exact (libGet_setPart_self _ _ _).symm

theorem lib_part {X : Xyml} (s : LibSection) (ps : List (Node × Node)) (a b : Library)
    (h : forPairs (Library.assign X) ps a = .ok b) :
    forPairs (fun k v x => libStep X k v s x) (libEntries s ps) (libGet s a) =
      .ok (libGet s b) := by
  induction ps generalizing a with
  | nil => cases h; rfl
  | cons p ps ih =>
    obtain ⟨a1, h1, h2⟩ := Res.bind_eq_ok.mp h
    obtain ⟨g1, g2, _⟩ := lib_assign_ok (k := p.1) (v := p.2) h1
    have := ih a1 h2
    by_cases hp : libSectionOf p = s
    · subst hp
      simp only [libEntries, List.filter_cons, beq_self_eq_true, if_true, forPairs]
      rw [show libStep X p.1 p.2 (libSectionOf p) (libGet (libSectionOf p) a) =
        .ok (libGet (libSectionOf p) a1) from g1]
      exact this
    · have hb : (libSectionOf p == s) = false := by simpa using hp
      simp only [libEntries, List.filter_cons, hb, Bool.false_eq_true, if_false]
      rw [g2 s (Ne.symm hp)] at this
      exact this

theorem lib_part_mem {X : Xyml} {ps : List (Node × Node)} {a b : Library}
    (h : forPairs (Library.assign X) ps a = .ok b) {p : Node × Node} (hp : p ∈ ps) :
    ∃ x y, libStep X p.1 p.2 (libSectionOf p) x = .ok y := by
  obtain ⟨s1, s2, _, hs⟩ := forPairs_mem (I := fun _ => True) (fun _ _ _ _ _ _ => trivial)
    ps a b trivial h p hp
  exact ⟨_, _, (lib_assign_ok (k := p.1) (v := p.2) hs).1⟩

/-! ### Dictionary loaders -/

/-- A loader that puts converted entries: it succeeds iff every key is a string and every value
converts, and then puts them in order. -/
theorem loader_ok {V : Type} (g : Node → Res V) (ps : List (Node × Node)) (m m' : OM String V) :
    forPairs (fun k v m => (asString k).bind fun s => (g v).map fun x => m.put s x) ps m = .ok m' ↔
      (∀ p ∈ ps, p.1.isStr = true) ∧ ∃ es : List (String × V),
        List.Forall₂ (fun p e => p.1.value = e.1 ∧ g p.2 = .ok e.2) ps es ∧ m' = m.putAll es := by
  induction ps generalizing m with
  | nil =>
    constructor
    · intro h; cases h; exact ⟨by simp, [], .nil, rfl⟩
    · rintro ⟨_, es, he, rfl⟩; cases he; rfl
  | cons p ps ih =>
    simp only [forPairs]
    constructor
    · intro h
      obtain ⟨m1, h1, h2⟩ := Res.bind_eq_ok.mp h
      obtain ⟨s, hs, h3⟩ := Res.bind_eq_ok.mp h1
      obtain ⟨x, hx, rfl⟩ := Res.map_eq_ok.mp h3
      obtain ⟨h4, es, h5, h6⟩ := (ih _).mp h2
      unfold asString at hs
      split at hs
      · rename_i hk
        cases hs
        refine ⟨?_, (p.1.value, x) :: es, .cons ⟨rfl, hx⟩ h5, h6⟩
        intro q hq
        rcases List.mem_cons.mp hq with rfl | hq
        · exact hk
        · exact h4 q hq
      · cases hs
    · rintro ⟨h1, es, h2, rfl⟩
      cases h2 with
      | cons h3 h4 =>
        rename_i e es
        have hk := h1 p (by simp)
        rw [Res.bind_eq_ok]
        refine ⟨m.put e.1 e.2, ?_, (ih _).mpr ⟨fun q hq => h1 q (by simp [hq]), es, h4, rfl⟩⟩
        simp only [asString, hk, if_true, Res.bind_ok, h3.2, Res.map_ok, h3.1]

private theorem forall₂_append_left {α β : Type} {R : α → β → Prop} {a b : List α} {c : List β}
    (h : List.Forall₂ R (a ++ b) c) :
    ∃ c1 c2, c = c1 ++ c2 ∧ List.Forall₂ R a c1 ∧ List.Forall₂ R b c2 := by
  induction a generalizing c with
  | nil => exact ⟨[], c, rfl, .nil, h⟩
  | cons x a ih =>
    cases h with
    | cons h1 h2 =>
      obtain ⟨c1, c2, rfl, h3, h4⟩ := ih h2
      exact ⟨_ :: c1, c2, rfl, .cons h1 h3, h4⟩

/-- The same for the loader of the values of several entries, each of which must be a mapping. -/
theorem loaders_ok {V : Type} (g : Node → Res V) (qs : List (Node × Node)) (m m' : OM String V) :
    forPairs (fun _ v m => mapForEach (fun k v m => (asString k).bind fun s =>
        (g v).map fun x => m.put s x) v m) qs m = .ok m' ↔
      (∀ q ∈ qs, isMap q.2 = true) ∧
      (∀ p ∈ qs.flatMap fun q => mapEntries q.2, p.1.isStr = true) ∧
      ∃ es : List (String × V),
        List.Forall₂ (fun p e => p.1.value = e.1 ∧ g p.2 = .ok e.2)
          (qs.flatMap fun q => mapEntries q.2) es ∧ m' = m.putAll es := by
  induction qs generalizing m with
  | nil =>
    constructor
    · intro h; cases h; exact ⟨by simp, by simp, [], .nil, rfl⟩
    · rintro ⟨_, _, es, he, rfl⟩; cases he; rfl
  | cons q qs ih =>
    simp only [forPairs, List.flatMap_cons]
    constructor
    · intro h
      obtain ⟨m1, h1, h2⟩ := Res.bind_eq_ok.mp h
      obtain ⟨h3, h4, es, h5, h6⟩ := (ih _).mp h2
      cases hq : q.2 with
      | map ps =>
        rw [hq] at h1
        obtain ⟨g1, fs, g2, rfl⟩ := (loader_ok g ps m m1).mp h1
        refine ⟨?_, ?_, fs ++ es, ?_, ?_⟩
        · intro r hr
          rcases List.mem_cons.mp hr with rfl | hr
          · rw [hq]; rfl
          · exact h3 r hr
        · intro r hr
          rcases List.mem_append.mp hr with hr | hr
          · exact g1 r hr
          · exact h4 r hr
        · exact List.rel_append g2 h5
        · rw [OM.putAll_append]; exact h6
      | scalar a b => rw [hq] at h1; cases h1
      | seq a b => rw [hq] at h1; cases h1
    · rintro ⟨h1, h2, es, h3, rfl⟩
      have hm := h1 q (by simp)
      cases hq : q.2 with
      | scalar a b => rw [hq] at hm; cases hm
      | seq a b => rw [hq] at hm; cases hm
      | map ps =>
        rw [hq] at h2 h3
        obtain ⟨fs, gs, rfl, h4, h5⟩ := forall₂_append_left h3
        rw [Res.bind_eq_ok]
        refine ⟨m.putAll fs, (loader_ok g ps m _).mpr
          ⟨fun p hp => h2 p (List.mem_append_left _ hp), fs, h4, rfl⟩, (ih _).mpr
          ⟨fun r hr => h1 r (by simp [hr]), fun p hp => h2 p (List.mem_append_right _ hp), gs, h5,
            OM.putAll_append _ _ _⟩⟩

end Verif.Doc
