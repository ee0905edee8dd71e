import Verif.Props.FixedPoint
import Verif.Props.TypeOrder

/-! # C30, C39, C49 for documents: what was read from a document, written and read again -/

namespace Verif.Props
open Verif Verif.Doc Verif.Doc.Spec

/-- C49 for API documents: every dictionary has distinct keys, is written as a plain mapping and
holds well-formed types; annotation values are written as ordered maps. -/
theorem C49_parsed_api (X : Xyml) (hX : Lawful X) (n : Node) (a : APISpec)
    (h : parseApi X n = .ok a) : ParsedApi a := parseApi_parsed hX h

/-- C49 for libraries. -/
theorem C49_parsed_library (X : Xyml) (hX : Lawful X) (n : Option Node) (l : Library)
    (h : parseLibrary X n = .ok l) : ParsedLib l := parseLibrary_parsed hX h

/-! ### Entries of a document with string keys -/

theorem isStr_eq {n : Node} (h : n.isStr = true) : n = Node.str n.value := by
  cases n with
  | scalar t v =>
    simp only [Node.isStr, beq_iff_eq] at h
    rw [h]; rfl
  | seq _ _ => cases h
  | map _ => cases h

theorem toScalar_isStr {X : Xyml} (hX : Lawful X) {n : Node} (h : n.isStr = true) :
    X.toScalar n = some (.str n.value) := by
  rw [isStr_eq h, ← hX.ofKey_str, hX.toScalar_ofKey, hX.ofKey_str]
  rfl

/-- A document whose top-level keys are strings is written without clashes. -/
theorem api_clean {X : Xyml} (hX : Lawful X) {ps : List (Node × Node)} {a : APISpec}
    (h : parseApi X (.map ps) = .ok a) (hs : ∀ p ∈ ps, p.1.isStr = true) : CleanApi a := by
  have hp := parseApi_parsed hX h
  obtain ⟨es, h1, h2⟩ := C35_extra_facets X ps a h
  refine ⟨hp.extra.2, fun e he s hes => ?_, hp.annotations.distinct, hp.annotations.keys,
    hp.resources.2, hp.resourceKeys⟩
  rw [h2] at he
  obtain ⟨p, hpm, hR⟩ := forall₂_mem_left h1.flip (mem_lastWins he)
  obtain ⟨hpm, hx⟩ := List.mem_filter.mp hpm
  have hk := hs p hpm
  have h3 := hR.1
  rw [toScalar_isStr hX hk, hes] at h3
  cases h3
  simp only [isApiExtra, hk, Bool.not_true, Bool.false_or, Bool.and_eq_true,
    Bool.not_eq_true', startsWith, Bool.true_and] at hx
  obtain ⟨⟨x1, x2⟩, x3⟩ := hx
  refine ⟨fun hm => ?_, fun hc => ?_, fun hc => ?_⟩
  · have : ∀ s ∈ apiWriteKeys, s ∈ apiKeys.map Prod.fst := by decide
    rw [List.contains_iff_mem.mpr (this _ hm)] at x3
    cases x3
  · rw [hc] at x1; simp at x1
  · rw [hc] at x2; simp at x2

/-- C39 for documents, API documents: if an API document with string keys has an annotation, then
what is written after reading it cannot be read. -/
theorem C39_parsed_api_false (X : Xyml) (hX : Lawful X) (ps : List (Node × Node)) (a b : APISpec)
    (h : parseApi X (.map ps) = .ok a) (hs : ∀ p ∈ ps, p.1.isStr = true)
    (p : Node × Node) (hp : p ∈ ps) (ha : startsWith '(' p.1 = true) :
    parseApi X (a.toYAML X) ≠ .ok b := by
  refine C39_api_annotations_false X hX a (api_clean hX h hs) (fun he => ?_)
    (parseApi_parsed hX h).annotations b
  rcases C35_every_entry_accounted X ps a h p hp with ⟨_, h1⟩ | ⟨_, h1⟩ | ⟨h1, _⟩ | ⟨s, h1, h2⟩
  · have : ∀ k ∈ apiKeys.map Prod.fst, k.toList.head? ≠ some '(' := by decide
    simp only [startsWith, Bool.and_eq_true, beq_iff_eq] at ha
    exact this _ h1 ha.2
  · rw [he] at h1; cases h1
  · simp only [startsWith, Bool.and_eq_true, beq_iff_eq] at ha h1
    rw [ha.2] at h1
    simp at h1
  · have hk := hs p hp
    rw [toScalar_isStr hX hk] at h1
    cases h1
    obtain ⟨e, h3, h4⟩ := List.mem_map.mp h2
    have := (api_clean hX h hs).extraKeys e h3 _ h4
    simp only [startsWith, Bool.and_eq_true, beq_iff_eq] at ha
    exact this.2.1 ha.2

example : ∃ ps a, parseApi Xyml.std (.map ps) = .ok a ∧ (∀ p ∈ ps, p.1.isStr = true) ∧
    ∃ p ∈ ps, startsWith '(' p.1 = true ∧ ∀ b, parseApi Xyml.std (a.toYAML Xyml.std) ≠ .ok b := by
  let ps := [(Node.str "title", Node.str "t"), (Node.str "(a)", Node.map [])]
  obtain ⟨a, ha⟩ : ∃ a, parseApi Xyml.std (.map ps) = .ok a := ⟨_, rfl⟩
  have hs : ∀ p ∈ ps, p.1.isStr = true := by decide
  exact ⟨ps, a, ha, hs, (Node.str "(a)", .map []), by simp [ps], by decide, fun b =>
    C39_parsed_api_false _ Xyml.std_lawful ps a b ha hs (Node.str "(a)", .map []) (by simp [ps])
      (by decide)⟩

/-- C39 for documents, types: what is written after reading a type with an annotation is not read
as a type with annotations again, at most as a nil or include type. -/
theorem C39_parsed_type_false (X : Xyml) (hX : Lawful X) (n : Node) (t t' : DT)
    (h : hat X n = .ok t) (ha : annotations t ≠ []) (hr : hat X (t.toYAML X) = .ok t') :
    isBasic t'.kind = true ∧ annotations t' = [] := by
  cases hat_parsed hX h with
  | basic => exact absurd rfl ha
  | @ext g b fs qs it hh =>
    exact C39_type_annotations_false X hX g b fs qs it ha hh.annotations t' hr

example : ∃ t, hat Xyml.std (.map [(Node.str "type", Node.str "string"), (Node.str "(a)", .map [])])
    = .ok t ∧ annotations t ≠ [] := ⟨_, rfl, by decide⟩

/-- C30 for documents: what is written after reading a type with facet definitions is not read as
a type with facet definitions. -/
theorem C30_parsed_false (X : Xyml) (hX : Lawful X) (n : Node) (t t' : DT)
    (h : hat X n = .ok t) (ha : (facets t).ents ≠ []) (hr : hat X (t.toYAML X) = .ok t') :
    isBasic t'.kind = true ∧ (facets t').ents = [] := by
  cases hat_parsed hX h with
  | basic => exact absurd rfl ha
  | @ext g b fs qs it hh _ ho =>
    exact C30_facets_false X hX g b fs qs it ho ha t' hr

example : ∃ t, hat Xyml.std (.map [(Node.str "type", Node.str "string"),
    (Node.str "facets", .map [(Node.str "f", .map [(Node.str "x", Node.str "string")])])])
    = .ok t ∧ (facets t).ents ≠ [] := ⟨_, rfl, by intro h; cases h⟩

/-- A library whose keys are strings and that has no annotation types is written without
clashes. -/
theorem lib_clean {X : Xyml} (hX : Lawful X) {ps : List (Node × Node)} {l : Library}
    (h : parseLibrary X (some (.map ps)) = .ok l) (hs : ∀ p ∈ ps, p.1.isStr = true)
    (hn : ∀ p ∈ ps, p.1.value ≠ "annotationTypes") :
    CleanLib l ∧ ∀ p ∈ ps, startsWith '(' p.1 = true → l.annotations.ents ≠ [] := by
  have hp := parseLibrary_parsed hX h
  obtain ⟨es, h1, h2⟩ := C45_extra_facets X ps l h
  obtain ⟨_, as, h3, h4⟩ := C44_annotation_types_false X ps l h
  have hsrc : libAnnSources ps = ps.filter fun p => startsWith '(' p.1 := by
    clear h h1 h2 h3 hs
    induction ps with
    | nil => rfl
    | cons p ps ih =>
      have hi : ps.flatMap (fun p => if p.1.value = "annotationTypes" then mapEntries p.2
          else if startsWith '(' p.1 then [p] else []) = ps.filter fun p => startsWith '(' p.1 :=
        ih fun q hq => hn q (List.mem_cons_of_mem _ hq)
      rw [libAnnSources, List.flatMap_cons, hi, if_neg (hn p (List.mem_cons_self ..)),
        List.filter_cons]
      split <;> rfl
  rw [hsrc] at h3
  have hclean : CleanLib l := by
    refine ⟨hp.extra.2, fun e he s hes => ?_, hp.annotations.2, fun e he => ?_⟩
    · rw [h2] at he
      obtain ⟨p, hpm, hR⟩ := forall₂_mem_left h1.flip (mem_lastWins he)
      obtain ⟨hpm, hx⟩ := List.mem_filter.mp hpm
      have hk := hs p hpm
      have h5 := hR.1
      rw [toScalar_isStr hX hk, hes] at h5
      cases h5
      simp only [isLibExtra, Bool.and_eq_true, Bool.not_eq_true', startsWith, hk,
        Bool.true_and] at hx
      refine ⟨fun hm => ?_, fun hc => ?_⟩
      · have : ∀ s ∈ libWriteKeys, s ∈ libKeys.map Prod.fst := by decide
        rw [List.contains_iff_mem.mpr (this _ hm)] at hx
        cases hx.1
      · have := hx.2
        rw [hc] at this; simp at this
    · rw [h4] at he
      obtain ⟨p, hpm, hR⟩ := forall₂_mem_left h3.flip (mem_lastWins he)
      have := (List.mem_filter.mp hpm).2
      simp only [startsWith, Bool.and_eq_true, beq_iff_eq] at this
      rw [← hR.1]; exact this.2
  refine ⟨hclean, fun p hp ha he => ?_⟩
  rcases C45_every_entry_accounted X ps l h p hp with h5 | ⟨_, h5⟩ | ⟨s, h5, h6⟩
  · have : ∀ k ∈ libKeys.map Prod.fst, k.toList.head? ≠ some '(' := by decide
    simp only [startsWith, Bool.and_eq_true, beq_iff_eq] at ha
    exact this _ h5 ha.2
  · rw [he] at h5; cases h5
  · rw [toScalar_isStr hX (hs p hp)] at h5
    cases h5
    obtain ⟨e, h7, h8⟩ := List.mem_map.mp h6
    simp only [startsWith, Bool.and_eq_true, beq_iff_eq] at ha
    exact (hclean.extraKeys e h7 _ h8).2 ha.2

/-- C39 for documents, libraries: if a library with string keys and without annotation types has
an annotation, then what is written after reading it cannot be read. -/
theorem C39_parsed_library_false (X : Xyml) (hX : Lawful X) (ps : List (Node × Node))
    (l m : Library) (h : parseLibrary X (some (.map ps)) = .ok l)
    (hs : ∀ p ∈ ps, p.1.isStr = true) (hn : ∀ p ∈ ps, p.1.value ≠ "annotationTypes")
    (p : Node × Node) (hp : p ∈ ps) (ha : startsWith '(' p.1 = true) :
    parseLibrary X (some (l.toYAML X)) ≠ .ok m := by
  obtain ⟨h1, h2⟩ := lib_clean hX h hs hn
  exact C39_library_annotations_false X hX l h1 (h2 p hp ha) (parseLibrary_parsed hX h) m

example : ∃ ps l, parseLibrary Xyml.std (some (.map ps)) = .ok l ∧ ∃ p ∈ ps,
    startsWith '(' p.1 = true ∧ ∀ m, parseLibrary Xyml.std (some (l.toYAML Xyml.std)) ≠ .ok m := by
  let ps := [(Node.str "usage", Node.str "t"), (Node.str "(a)", Node.map [])]
  obtain ⟨l, hl⟩ : ∃ l, parseLibrary Xyml.std (some (.map ps)) = .ok l := ⟨_, rfl⟩
  exact ⟨ps, l, hl, (Node.str "(a)", .map []), by simp [ps], by decide, fun m =>
    C39_parsed_library_false _ Xyml.std_lawful ps l m hl (by decide) (by decide)
      (Node.str "(a)", .map []) (by simp [ps]) (by decide)⟩

end Verif.Props
