import Verif.Props.ApiParse

/-! # C44–C46: libraries -/

namespace Verif.Props
open Verif Verif.Doc Verif.Doc.Spec

/-! ### C45 -/

/-- C45: two libraries with the same entries for a part agree on that part. -/
theorem C45_part_depends_on_own_entries (X : Xyml) (ps qs : List (Node × Node)) (a b : Library)
    (s : LibSection) (ha : parseLibrary X (some (.map ps)) = .ok a)
    (hb : parseLibrary X (some (.map qs)) = .ok b)
    (h : libEntries s ps = libEntries s qs) : libGet s a = libGet s b := by
  have h1 := lib_part s ps _ a ha
  have h2 := lib_part s qs _ b hb
  rw [h, h2] at h1
  exact (Res.ok.inj h1).symm

/-- C45: deleting all entries of the other parts leaves a library that still parses, with the
same value of the part. -/
theorem C45_remove_other_entries (X : Xyml) (ps : List (Node × Node)) (a : Library)
    (s : LibSection) (ha : parseLibrary X (some (.map ps)) = .ok a) :
    ∃ b, parseLibrary X (some (.map (libEntries s ps))) = .ok b ∧ libGet s b = libGet s a := by
  obtain ⟨b, hb, hR⟩ := (lib_sections X).project s ps _ a Library.new trivial trivial rfl ha
  have he : libEntries s ps = ps.filter fun p => decide (libSectionOf p = s) :=
    List.filter_congr fun p _ => Bool.beq_eq_decide_eq _ _
  exact ⟨b, by rw [he]; exact hb, hR.symm⟩

/-- The `annotationTypes` of a parsed library are those of a new one. -/
theorem lib_annotationTypes {X : Xyml} {ps : List (Node × Node)} {a : Library}
    (h : parseLibrary X (some (.map ps)) = .ok a) : a.annotationTypes = OM.empty false :=
  forPairs_inv (I := fun l : Library => l.annotationTypes = OM.empty false)
    (fun _ _ _ _ hI hs => (lib_assign_ok hs).2.2.trans hI) ps _ a rfl h

/-- C45: reordering entries of different parts changes nothing. -/
theorem C45_order_irrelevant (X : Xyml) (ps qs : List (Node × Node)) (a : Library)
    (ha : parseLibrary X (some (.map ps)) = .ok a)
    (h : ∀ s, libEntries s ps = libEntries s qs) :
    parseLibrary X (some (.map qs)) = .ok a := by
  obtain ⟨b, hb, hR⟩ := (lib_sections X).reorder (qs := qs) trivial (fun s => by
    have := h s
    simp only [libEntries, Bool.beq_eq_decide_eq] at this
    exact this) ha
  have hb' : parseLibrary X (some (.map qs)) = .ok b := hb
  rw [hb']
  congr 1
  exact (lib_ext hR ((lib_annotationTypes ha).trans (lib_annotationTypes hb').symm)).symm

/-- C45: the parts with a single text or a dictionary, as for API documents. -/
theorem C45_usage (X : Xyml) (ps : List (Node × Node)) (a : Library)
    (h : parseLibrary X (some (.map ps)) = .ok a) :
    (∀ p ∈ ps, p.1.value = "usage" → p.2.isStr = true) ∧
    a.usage = (lastVal "usage" ps).map Node.value := by
  have h1 := lib_part .usage ps _ a h
  have he : libEntries .usage ps = ps.filter fun p => p.1.value == "usage" := by
    apply List.filter_congr
    intro p _
    unfold libSectionOf
    by_cases hp : p.1.value = "usage"
    · simp [hp, libKeys, List.lookup]
    · cases hl : libKeys.lookup p.1.value with
      | some x =>
        obtain ⟨l1, l2, hl', _⟩ := List.lookup_eq_some_iff.mp hl
        have hm : (p.1.value, x) ∈ libKeys := by rw [hl']; simp
        have : ∀ e ∈ libKeys, e.2 = .usage → e.1 = "usage" := by decide
        rw [beq_false_of_ne hp]
        exact beq_false_of_ne fun hx => hp (this _ hm hx)
      | none =>
        rw [beq_false_of_ne hp]
        simp only
        split <;> rfl
  rw [he] at h1
  obtain ⟨h2, h3⟩ := last_of_loop _ (fun v => (asString v).map some) (fun _ _ _ => rfl) _ _ _ h1
  refine ⟨?_, ?_⟩
  · intro p hp hk
    obtain ⟨x, hx⟩ := h2 p (List.mem_filter.mpr ⟨hp, by simp [hk]⟩)
    obtain ⟨y, hy, _⟩ := Res.map_eq_ok.mp hx
    exact (asString_ok hy).1
  · rw [lastVal, lastBy_getLast]
    generalize (ps.filter fun p => p.1.value == "usage").getLast? = o at h3
    cases o with
    | none => exact h3
    | some p =>
      obtain ⟨y, hy, hy2⟩ := Res.map_eq_ok.mp h3
      have h4 : some y = a.usage := hy2
      rw [← h4]
      simp [(asString_ok hy).2]

/-- The untyped dictionaries of a library. -/
inductive LibUntyped : LibSection → (Library → OM String Node) → Prop where
  | resourceTypes : LibUntyped .resourceTypes Library.resourceTypes
  | traits : LibUntyped .traits Library.traits
  | securitySchemes : LibUntyped .securitySchemes Library.securitySchemes

/-- C45: the untyped dictionaries hold the last value per key, ordered by last occurrence. -/
theorem C45_untyped_parts (X : Xyml) (ps : List (Node × Node)) (a : Library) (s : LibSection)
    (get : Library → OM String Node) (hg : LibUntyped s get)
    (h : parseLibrary X (some (.map ps)) = .ok a) :
    (∀ q ∈ libEntries s ps, isMap q.2 = true) ∧ (∀ p ∈ libInner s ps, p.1.isStr = true) ∧
    (get a).ents = lastWins ((libInner s ps).map fun p => (p.1.value, p.2)) := by
  have key : ∀ m : OM String Node,
      forPairs (fun _ v m => loadUntyped m v) (libEntries s ps) (OM.empty false) = .ok m →
      (∀ q ∈ libEntries s ps, isMap q.2 = true) ∧ (∀ p ∈ libInner s ps, p.1.isStr = true) ∧
      m.ents = lastWins ((libInner s ps).map fun p => (p.1.value, p.2)) := by
    intro m hm
    obtain ⟨h1, h2, es, h3, rfl⟩ := (loaders_ok Res.ok _ _ _).mp hm
    refine ⟨h1, h2, ?_⟩
    rw [OM.empty_putAll_ents, forall₂_eq (g := id) (h3.imp fun _ _ h => ⟨h.1, Res.ok.inj h.2⟩)]
    rfl
  have h1 := lib_part s ps _ a h
  cases hg <;> exact key _ h1

/-- C45: `uses`. -/
theorem C45_uses (X : Xyml) (ps : List (Node × Node)) (a : Library)
    (h : parseLibrary X (some (.map ps)) = .ok a) :
    (∀ q ∈ libEntries .uses ps, isMap q.2 = true) ∧
    (∀ p ∈ libInner .uses ps, p.1.isStr = true ∧ p.2.isStr = true) ∧
    a.uses.ents = lastWins ((libInner .uses ps).map fun p => (p.1.value, p.2.value)) := by
  have h0 := lib_part .uses ps _ a h
  obtain ⟨h1, h2, es, h3, h4⟩ := (loaders_ok asString _ _ _).mp h0
  refine ⟨h1, fun p hp => ⟨h2 p hp, ?_⟩, ?_⟩
  · obtain ⟨e, _, he⟩ := forall₂_mem_left h3 hp
    exact (asString_ok he.2).1
  · have h5 : a.uses = (OM.empty false : OM String String).putAll es := h4
    rw [h5, OM.empty_putAll_ents,
      forall₂_eq (g := Node.value) (h3.imp fun _ _ h => ⟨h.1, (asString_ok h.2).2⟩)]
    rfl

/-- C45: `types` and `schemas` together. -/
theorem C45_types (X : Xyml) (ps : List (Node × Node)) (a : Library)
    (h : parseLibrary X (some (.map ps)) = .ok a) :
    (∀ q ∈ libEntries .types ps, isMap q.2 = true) ∧
    (∀ p ∈ libInner .types ps, p.1.isStr = true) ∧
    ∃ es : List (String × DT),
      List.Forall₂ (fun p e => p.1.value = e.1 ∧ hat X p.2 = .ok e.2) (libInner .types ps) es ∧
      a.types.ents = lastWins es := by
  have h0 := lib_part .types ps _ a h
  have h0' : forPairs (fun _ v m => mapForEach (fun k v (m : OM String DT) =>
      (asString k).bind fun s => (hat X v).map fun x => m.put s x) v m)
      (libEntries .types ps) (OM.empty false) = .ok a.types := by
    rw [← loadType_form]
    have : (fun _ v (m : OM String DT) => mapForEach (fun k v m => loadType X (k, v) m) v m) =
        fun (_ : Node) v m => loadTypes X v m := by
      funext _ v m; exact (loadTypes_eq X v m).symm
    rw [this]
    exact h0
  obtain ⟨h1, h2, es, h3, h4⟩ := (loaders_ok (hat X) _ _ _).mp h0'
  refine ⟨h1, h2, es, h3, ?_⟩
  rw [h4, OM.empty_putAll_ents]

/-- An entry of a library that is no known key and no annotation. -/
def isLibExtra (p : Node × Node) : Bool :=
  !(libKeys.map Prod.fst).contains p.1.value && !startsWith '(' p.1

private theorem libSection_extra (p : Node × Node) :
    (libSectionOf p == .extra) = isLibExtra p := by
  unfold libSectionOf isLibExtra
  cases hl : libKeys.lookup p.1.value with
  | none =>
    have : (libKeys.map Prod.fst).contains p.1.value = false := by
      rw [List.lookup_eq_none_iff] at hl
      simp only [List.contains_eq_mem, decide_eq_false_iff_not]
      intro hm
      obtain ⟨e, he, hek⟩ := List.mem_map.mp hm
      have := hl e he
      simp [hek] at this
    rw [this]
    simp only
    split <;> rename_i h1 <;> simp [h1]
  | some x =>
    obtain ⟨l1, l2, hl', _⟩ := List.lookup_eq_some_iff.mp hl
    have hm : (p.1.value, x) ∈ libKeys := by rw [hl']; simp
    have hx : ∀ e ∈ libKeys, e.2 ≠ .extra := by decide
    have : (libKeys.map Prod.fst).contains p.1.value = true := by
      simp only [List.contains_eq_mem, decide_eq_true_eq]
      exact List.mem_map.mpr ⟨_, hm, rfl⟩
    rw [this]
    exact beq_false_of_ne (hx _ hm)

/-- C45: every other entry is in `ExtraFacets()` under the scalar value of its key. -/
theorem C45_extra_facets (X : Xyml) (ps : List (Node × Node)) (a : Library)
    (h : parseLibrary X (some (.map ps)) = .ok a) :
    ∃ es : List (Scalar × Node),
      List.Forall₂ (fun p e => X.toScalar p.1 = some e.1 ∧ p.2 = e.2) (ps.filter isLibExtra) es ∧
      a.extra.ents = lastWins es := by
  have h1 := lib_part .extra ps _ a h
  have h5 : libEntries .extra ps = ps.filter isLibExtra :=
    List.filter_congr fun p _ => libSection_extra p
  rw [h5] at h1
  have key : ∀ (qs : List (Node × Node)) (m m' : OM Scalar Node),
      forPairs (fun k v x => libStep X k v .extra x) qs m = .ok m' →
      ∃ es : List (Scalar × Node),
        List.Forall₂ (fun p e => X.toScalar p.1 = some e.1 ∧ p.2 = e.2) qs es ∧
        m' = m.putAll es := by
    intro qs
    induction qs with
    | nil => intro m m' h; cases h; exact ⟨[], .nil, rfl⟩
    | cons p qs ih =>
      intro m m' h
      obtain ⟨m1, h1, h2⟩ := Res.bind_eq_ok.mp h
      simp only [libStep] at h1
      split at h1
      · cases h1
      · obtain ⟨s, hs, rfl⟩ := Res.map_eq_ok.mp h1
        obtain ⟨es, h3, h4⟩ := ih _ _ h2
        unfold asScalar at hs
        split at hs
        · cases hs
          rename_i hs
          exact ⟨(_, p.2) :: es, .cons ⟨hs, rfl⟩ h3, h4⟩
        · cases hs
  obtain ⟨es, h2, h3⟩ := key _ _ _ h1
  refine ⟨es, h2, ?_⟩
  have h4 : a.extra = (OM.empty false).putAll es := h3
  rw [h4, OM.empty_putAll_ents]

/-! ### C44 -/

/-- The entries that end up in `Annotations()` of a library: those of each `annotationTypes`
mapping, and the entries with a key starting with a parenthesis. -/
def libAnnSources (ps : List (Node × Node)) : List (Node × Node) :=
  ps.flatMap fun p =>
    if p.1.value = "annotationTypes" then mapEntries p.2
    else if startsWith '(' p.1 then [p] else []

private theorem paren_not_key {p : Node × Node} (h : startsWith '(' p.1 = true) :
    libKeys.lookup p.1.value = none := by
  rw [List.lookup_eq_none_iff]
  intro e he
  have : ∀ e ∈ libKeys, e.1.toList.head? ≠ some '(' := by decide
  have h2 := this e he
  simp only [startsWith, Bool.and_eq_true, beq_iff_eq] at h
  by_contra hc
  simp only [Bool.not_eq_true] at hc
  exact h2 (by rw [← (by simpa using hc : p.1.value = e.1)]; exact h.2)

/-- C44 as stated is false: after every parse `AnnotationTypes()` is empty, and the entries are
in `Annotations()`. -/
theorem C44_annotation_types_false (X : Xyml) (ps : List (Node × Node)) (a : Library)
    (h : parseLibrary X (some (.map ps)) = .ok a) :
    a.annotationTypes.ents = [] ∧
    ∃ es : List (String × Ann),
      List.Forall₂ (fun p e => p.1.value = e.1 ∧ IsAnn p.2 e.2) (libAnnSources ps) es ∧
      a.annotations.ents = lastWins es := by
  refine ⟨by rw [lib_annotationTypes h]; rfl, ?_⟩
  have key : ∀ (ps : List (Node × Node)) (a b : Library),
      forPairs (Library.assign X) ps a = .ok b →
      ∃ es : List (String × Ann),
        List.Forall₂ (fun p e => p.1.value = e.1 ∧ IsAnn p.2 e.2) (libAnnSources ps) es ∧
        b.annotations = a.annotations.putAll es := by
    intro ps
    induction ps with
    | nil => intro a b h; cases h; exact ⟨[], .nil, rfl⟩
    | cons p ps ih =>
      intro a b h
      obtain ⟨a1, h1, h2⟩ := Res.bind_eq_ok.mp h
      obtain ⟨es, h3, h4⟩ := ih a1 b h2
      obtain ⟨g1, g2, _⟩ := lib_assign_ok (k := p.1) (v := p.2) h1
      by_cases hk : p.1.value = "annotationTypes"
      · have hsec : libSectionOf (p.1, p.2) = .annotations := by
          simp [libSectionOf, hk, libKeys]
        rw [hsec] at g1
        replace g1 : (if p.1.value = "annotationTypes" then loadAnns a.annotations p.2
          else (loadAnn p.2).map fun x => OM.put a.annotations p.1.value x) =
            .ok a1.annotations := g1
        rw [if_pos hk] at g1
        cases hv : p.2 with
        | scalar x y => rw [hv] at g1; cases g1
        | seq x y => rw [hv] at g1; cases g1
        | map qs =>
          rw [hv] at g1
          obtain ⟨_, es', e1, e2⟩ := (loader_ok loadAnn qs _ _).mp g1
          refine ⟨es' ++ es, ?_, ?_⟩
          · simp only [libAnnSources, List.flatMap_cons, hk, if_true, hv]
            exact List.rel_append (e1.imp fun _ _ h => ⟨h.1, loadAnn_ok h.2⟩) h3
          · rw [h4, e2, OM.putAll_append]
      · by_cases hp : startsWith '(' p.1 = true
        · have hsec : libSectionOf (p.1, p.2) = .annotations := by
            simp [libSectionOf, paren_not_key hp, hp]
          rw [hsec] at g1
          replace g1 : (if p.1.value = "annotationTypes" then loadAnns a.annotations p.2
            else (loadAnn p.2).map fun x => OM.put a.annotations p.1.value x) =
              .ok a1.annotations := g1
          rw [if_neg hk] at g1
          obtain ⟨x, hx, hx2⟩ := Res.map_eq_ok.mp g1
          refine ⟨(p.1.value, x) :: es, ?_, ?_⟩
          · simp only [libAnnSources, List.flatMap_cons, hk, if_false, hp, if_true,
              List.singleton_append]
            exact .cons ⟨rfl, loadAnn_ok hx⟩ h3
          · rw [h4, ← hx2]; rfl
        · have hsec : libSectionOf (p.1, p.2) ≠ .annotations := by
            unfold libSectionOf
            cases hl : libKeys.lookup p.1.value with
            | none => simp [hp]
            | some s =>
              obtain ⟨l1, l2, hl', _⟩ := List.lookup_eq_some_iff.mp hl
              have hm : (p.1.value, s) ∈ libKeys := by rw [hl']; simp
              have : ∀ e ∈ libKeys, e.2 = .annotations → e.1 = "annotationTypes" := by decide
              intro hs
              exact hk (this _ hm hs)
          have he : a1.annotations = a.annotations := g2 .annotations (Ne.symm hsec)
          refine ⟨es, ?_, by rw [h4, he]⟩
          simpa only [libAnnSources, List.flatMap_cons, hk, if_false, hp, Bool.false_eq_true,
            List.nil_append] using h3
  obtain ⟨es, h1, h2⟩ := key ps _ a h
  refine ⟨es, h1, ?_⟩
  have h3 : a.annotations = (OM.empty false).putAll es := h2
  rw [h3, OM.empty_putAll_ents]

theorem keys_putAll_mono {K V : Type} [DecidableEq K] (es : List (K × V)) (m : OM K V) (k : K)
    (h : k ∈ m.keys ∨ k ∈ es.map Prod.fst) : k ∈ (m.putAll es).keys := by
  induction es generalizing m with
  | nil => simpa using h
  | cons e es ih =>
    apply ih
    rw [OM.keys_put]
    by_cases hk : k = e.1
    · left; simp [hk]
    · rcases h with h | h
      · left; simp [h, hk]
      · right; simpa [hk] using h

theorem keys_putOpt_mono {K V : Type} [DecidableEq K] (o : Option V) (m : OM K V) (k k' : K)
    (h : k ∈ m.keys) : k ∈ (m.putOpt k' o).keys := by
  rw [OM.putOpt_eq]; exact keys_putAll_mono _ _ _ (.inl h)

/-- The keys of what is written for a library. -/
theorem lib_written_keys (X : Xyml) (l : Library) :
    mapEntries (l.toYAML X) = (l.marshal X).ents.map fun e => (X.ofKey e.1, e.2) := by
  have : (l.marshal X).omap = false := by
    simp [Library.marshal, OM.omap_putAll, OM.omap_putOpt]
  simp [Library.toYAML, renderAny, renderPairs, this, mapEntries]

/-- C44: writing emits each of them as a top-level entry. -/
theorem C44_written_at_top_level (X : Xyml) (ps : List (Node × Node)) (a : Library)
    (h : parseLibrary X (some (.map ps)) = .ok a) (v : Node)
    (hv : v ∈ allVals "annotationTypes" ps) (q : Node × Node) (hq : q ∈ mapEntries v) :
    X.ofKey (.str q.1.value) ∈ (mapEntries (a.toYAML X)).map Prod.fst := by
  obtain ⟨_, es, h1, h2⟩ := C44_annotation_types_false X ps a h
  have hm : q ∈ libAnnSources ps := by
    obtain ⟨p, hp, rfl⟩ := List.mem_map.mp hv
    obtain ⟨hp1, hp2⟩ := List.mem_filter.mp hp
    refine List.mem_flatMap.mpr ⟨p, hp1, ?_⟩
    rw [if_pos (by simpa using hp2)]
    exact hq
  obtain ⟨e, he, hR⟩ := forall₂_mem_left h1 hm
  have hk : q.1.value ∈ a.annotations.ents.map Prod.fst := by
    rw [h2, lastWins_keys]
    exact List.mem_map.mpr ⟨e, he, hR.1.symm⟩
  have hk2 : Scalar.str q.1.value ∈ (annEnts a.annotations).map Prod.fst := by
    obtain ⟨f, hf, hf2⟩ := List.mem_map.mp hk
    exact List.mem_map.mpr ⟨_, List.mem_map.mpr ⟨f, hf, rfl⟩, by simp [hf2]⟩
  have hk3 : Scalar.str q.1.value ∈ (a.marshal X).keys := by
    unfold Library.marshal
    exact keys_putOpt_mono _ _ _ _ (keys_putAll_mono _ _ _ (.inl (keys_putOpt_mono _ _ _ _
      (keys_putAll_mono _ _ _ (.inr hk2)))))
  rw [lib_written_keys, List.map_map]
  obtain ⟨f, hf, hf2⟩ := List.mem_map.mp hk3
  exact List.mem_map.mpr ⟨f, hf, by simp [hf2]⟩

/-- C45: no top-level entry gets lost: it has a known key, or is under its key in the
annotations or the extra facets. -/
theorem C45_every_entry_accounted (X : Xyml) (ps : List (Node × Node)) (a : Library)
    (h : parseLibrary X (some (.map ps)) = .ok a) (p : Node × Node) (hp : p ∈ ps) :
    p.1.value ∈ libKeys.map Prod.fst ∨
    (startsWith '(' p.1 = true ∧ p.1.value ∈ a.annotations.ents.map Prod.fst) ∨
    (∃ s, X.toScalar p.1 = some s ∧ s ∈ a.extra.ents.map Prod.fst) := by
  by_cases hk : p.1.value ∈ libKeys.map Prod.fst
  · exact .inl hk
  · by_cases h1 : startsWith '(' p.1 = true
    · obtain ⟨_, es, h2, h3⟩ := C44_annotation_types_false X ps a h
      have hm : p ∈ libAnnSources ps := by
        refine List.mem_flatMap.mpr ⟨p, hp, ?_⟩
        rw [if_neg (fun he : p.1.value = "annotationTypes" => hk (by rw [he]; decide)), if_pos h1]
        simp
      obtain ⟨e, he, hR⟩ := forall₂_mem_left h2 hm
      refine .inr (.inl ⟨h1, ?_⟩)
      rw [h3, lastWins_keys]
      exact List.mem_map.mpr ⟨e, he, hR.1.symm⟩
    · obtain ⟨es, h4, h5⟩ := C45_extra_facets X ps a h
      obtain ⟨e, he, hR⟩ := forall₂_mem_left h4 (List.mem_filter.mpr
        ⟨hp, by simp only [isLibExtra, h1]; simpa using hk⟩)
      refine .inr (.inr ⟨e.1, hR.1, ?_⟩)
      rw [h5, lastWins_keys]
      exact List.mem_map.mpr ⟨e, he, rfl⟩

/-- A library with every kind of entry. -/
def sampleLib : List (Node × Node) :=
  [(.str "usage", .str "u"), (.str "annotationTypes", .map [(.str "note", .map [])]),
   (.str "traits", .map [(.str "t", .map [])]), (.str "(by)", .map [(.str "a", .str "b")]),
   (.str "types", .map [(.str "T", .str "string")]), (.str "odd", .str "x"),
   (.str "usage", .str "v")]

theorem sampleLib_parses : ∃ a, parseLibrary Xyml.std (some (.map sampleLib)) = .ok a :=
  Res.isOk_iff.mp (by decide +kernel)

example : ∃ a, parseLibrary Xyml.std (some (.map sampleLib)) = .ok a ∧
    a.usage = some "v" ∧ a.annotationTypes.ents = [] ∧
    a.annotations.ents.map Prod.fst = ["note", "(by)"] := by
  obtain ⟨a, h⟩ := sampleLib_parses
  refine ⟨a, h, (C45_usage _ _ a h).2.trans rfl, (C44_annotation_types_false _ _ a h).1, ?_⟩
  have : (parseLibrary Xyml.std (some (.map sampleLib))).map
      (fun l => l.annotations.ents.map Prod.fst) = .ok ["note", "(by)"] := by decide +kernel
  rw [h] at this
  exact Res.ok.inj this

/-! ### C46 -/

/-- Hand chunks to a writer one by one, whatever it answers. -/
def feed {σ : Type} (w : Writer σ) (cs : List String) (s : σ) : σ :=
  cs.foldl (fun s c => (w.write s c).2) s

/-- Does the writer accept all these chunks? -/
def accepts {σ : Type} (w : Writer σ) : List String → σ → Bool
  | [], _ => true
  | c :: cs, s => (w.write s c).1 && accepts w cs (w.write s c).2

/-- The chunks a caller hands over that stops at the first failure. -/
def handed {σ : Type} (w : Writer σ) : List String → σ → List String
  | [], _ => []
  | c :: cs, s => c :: if (w.write s c).1 then handed w cs (w.write s c).2 else []

private theorem writeAll_eq {σ : Type} (w : Writer σ) (cs : List String) (s : σ) :
    w.writeAll cs s = (accepts w cs s, feed w (handed w cs s) s) := by
  induction cs generalizing s with
  | nil => rfl
  | cons c cs ih =>
    unfold Writer.writeAll accepts handed
    cases hw : w.write s c with
    | mk ok s' =>
      cases ok with
      | true => simp only [ih, if_true, Bool.true_and, feed, List.foldl_cons, hw]
      | false =>
        simp [feed, hw]

/-- C46: `WriteRAML` hands the header and then the encoder's chunks to the writer, stops at the
first failure, and reports success iff every chunk was accepted. -/
theorem C46_header_first {σ : Type} (X : Xyml) (enc : Node → List String) (w : Writer σ)
    (l : Library) (s : σ) :
    l.writeRAML X enc w s =
      (accepts w ("#%RAML 1.0 Library\n---\n" :: enc (l.toYAML X)) s,
        feed w (handed w ("#%RAML 1.0 Library\n---\n" :: enc (l.toYAML X)) s) s) := by
  rw [← writeAll_eq]
  rfl

/-- C46: if the header cannot be written, nothing more is. -/
theorem C46_header_failure {σ : Type} (X : Xyml) (enc : Node → List String) (w : Writer σ)
    (l : Library) (s : σ) (h : (w.write s "#%RAML 1.0 Library\n---\n").1 = false) :
    l.writeRAML X enc w s = (false, (w.write s "#%RAML 1.0 Library\n---\n").2) := by
  rw [C46_header_first]
  simp [accepts, handed, h, feed]

/-- A writer that never fails: a buffer. -/
def buffer : Writer String := ⟨fun s c => (true, s ++ c)⟩

/-- A writer with room for a bounded number of bytes. -/
def bounded (n : Nat) : Writer String :=
  ⟨fun s c => if s.length + c.length ≤ n then (true, s ++ c) else (false, s)⟩

private theorem feed_buffer (w : Writer String) (hw : ∀ s c, (w.write s c).1 = true →
    (w.write s c).2 = s ++ c) (cs : List String) (s : String) (h : accepts w cs s = true) :
    feed w (handed w cs s) s = s ++ String.join cs := by
  induction cs generalizing s with
  | nil => simp [feed, handed, String.join]
  | cons c cs ih =>
    simp only [accepts, Bool.and_eq_true] at h
    have := ih _ h.2
    simp only [handed, h.1, if_true, feed, List.foldl_cons]
    rw [show List.foldl (fun s c => (w.write s c).2) (w.write s c).2
      (handed w cs (w.write s c).2) = feed w (handed w cs (w.write s c).2) (w.write s c).2
      from rfl, this, hw s c h.1]
    apply String.toList_injective
    simp [String.join_cons, String.append_assoc]

/-- C46: a writer that appends what it accepts holds, after a successful call, the library
header followed by the encoded library. -/
theorem C46_output (X : Xyml) (enc : Node → List String) (w : Writer String) (l : Library)
    (s : String) (hw : ∀ s c, (w.write s c).1 = true → (w.write s c).2 = s ++ c)
    (h : (l.writeRAML X enc w s).1 = true) :
    (l.writeRAML X enc w s).2 =
      s ++ ("#%RAML 1.0 Library\n---\n" ++ String.join (enc (l.toYAML X))) := by
  rw [C46_header_first] at h ⊢
  exact (feed_buffer w hw _ s h).trans (by rw [String.join_cons])

example : (Library.new.writeRAML Xyml.std (fun _ => ["{}\n"]) buffer "").1 = true ∧
    (Library.new.writeRAML Xyml.std (fun _ => ["{}\n"]) (bounded 10) "") = (false, "") := by
  decide +kernel

/-! ### C63: writing API documents -/

/-- C63: `WriteRAML` of an API document hands the writer the chunks of one document with head
comment `#%RAML 1.0` and the document's rendering as body; it stops at the first failure and
reports success iff every chunk was accepted. -/
theorem C63_chunks {σ : Type} (X : Xyml) (enc : String → Node → List String) (w : Writer σ)
    (a : APISpec) (s : σ) :
    a.writeRAML X enc w s =
      (accepts w (enc "#%RAML 1.0" (a.toYAML X)) s,
        feed w (handed w (enc "#%RAML 1.0" (a.toYAML X)) s) s) :=
  writeAll_eq w _ s

/-- What is assumed of the YAML encoder: the head comment is the first line. -/
def HeadFirst (enc : String → Node → List String) : Prop :=
  ∀ h n, ∃ rest, String.join (enc h n) = h ++ "\n" ++ rest

/-- C63: with such an encoder, a successful `WriteRAML` into an empty buffer leaves a text whose
first line is the RAML 1.0 header. -/
theorem C63_header (X : Xyml) (enc : String → Node → List String) (w : Writer String) (a : APISpec)
    (hw : ∀ s c, (w.write s c).1 = true → (w.write s c).2 = s ++ c) (he : HeadFirst enc)
    (h : (a.writeRAML X enc w "").1 = true) :
    ∃ rest, (a.writeRAML X enc w "").2 = "#%RAML 1.0\n" ++ rest := by
  rw [C63_chunks] at h ⊢
  obtain ⟨rest, hr⟩ := he "#%RAML 1.0" (a.toYAML X)
  refine ⟨rest, (feed_buffer w hw _ "" h).trans ?_⟩
  rw [hr]
  apply String.toList_injective
  simp

/-- C63: the two writers tell their documents apart: an API document's text is never a library's,
whatever the encoders emit after the header. -/
theorem C63_kinds_differ (X : Xyml) (enc : String → Node → List String)
    (enc' : Node → List String) (a : APISpec) (l : Library) (he : HeadFirst enc) :
    (a.writeRAML X enc buffer "").2 ≠ (l.writeRAML X enc' buffer "").2 := by
  have hb : ∀ s c, (buffer.write s c).1 = true → (buffer.write s c).2 = s ++ c := fun _ _ _ => rfl
  have hacc : ∀ cs s, accepts buffer cs s = true := by
    intro cs
    induction cs with
    | nil => intro s; rfl
    | cons c cs ih => intro s; simp only [accepts, ih, Bool.and_true]; rfl
  obtain ⟨rest, h1⟩ := C63_header X enc buffer a hb he (by rw [C63_chunks]; exact hacc _ _)
  have h2 := C46_output X enc' buffer l "" hb (by rw [C46_header_first]; exact hacc _ _)
  rw [h1, h2]
  intro h
  have := congrArg (fun s : String => s.toList.take 11) h
  simp at this

/-- A tiny encoder with the head comment first, and an API document written with it. -/
example : HeadFirst (fun h _ => [h, "\n", "{}\n"]) ∧
    (APISpec.new.writeRAML Xyml.std (fun h _ => [h, "\n", "{}\n"]) buffer "") =
      (true, "#%RAML 1.0\n{}\n") ∧
    (APISpec.new.writeRAML Xyml.std (fun h _ => [h, "\n", "{}\n"]) (bounded 10) "") =
      (false, "#%RAML 1.0") := by
  refine ⟨fun h n => ⟨"{}\n", ?_⟩, by decide +kernel, by decide +kernel⟩
  apply String.toList_injective
  simp [String.join]

end Verif.Props
