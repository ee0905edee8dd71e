import Verif.Doc.OrderTypes

/-! # Exchanging entries of API documents and libraries: proofs -/

namespace Verif.Doc.Order
open Verif Verif.Doc Verif.Doc.Spec

variable {X : Xyml}

theorem docs_near (hL : Lawful X) {v v' : Node} (h : Near v v')
    {l l' : Option (List Documentation)} (hl : l.map (·.map docView) = l'.map (·.map docView)) :
    seen (Option.map (List.map docView)) (seqForEach (pushDoc X) v l) =
      seen (Option.map (List.map docView)) (seqForEach (pushDoc X) v' l') := by
  refine seqForEach_near ?_ h l l' hl
  intro v v' s s' hv hs
  refine seen_map _ _ (doc_near hL hv) fun a a' ha => ?_
  cases s <;> cases s' <;> simp_all

/-! ### API documents -/

theorem api_near (hL : Lawful X) (hX : ReadsScalars X) (k : Node) {v v' : Node}
    (hv : Near v v') {a a' : APISpec} (h : apiView a = apiView a') :
    seen apiView (a.assign X k v) = seen apiView (a'.assign X k v') := by
  simp only [apiView, APISpecV.mk.injEq] at h
  obtain ⟨h1, h2, h3, h4, h5, h6, h7, h8, h9, h10, h11, h12, h13, h14, h15, h16, h17, h18⟩ := h
  rw [api_assign_eq, api_assign_eq, show apiSectionOf (k, v') = apiSectionOf (k, v) from rfl]
  cases apiSectionOf (k, v) <;>
    simp only [apiStep, apiGet, APISpec.setPart, hv.str, hv.strings, hv.isStr, hv.value]
  case mediaType =>
    rw [h7]
    refine seen_same _ fun x => ?_
    simp only [apiView, h1, h2, h3, h4, h5, h6, h8, h9, h10, h11, h12, h13, h14, h15, h16, h17, h18]
  case documentation =>
    refine seen_map _ _ (docs_near hL hv h8) fun x x' hx => ?_
    simp only [apiView, h1, h2, h3, h4, h5, h6, h7, h9, h10, h11, h12, h13, h14, h15, h16, h17, h18]
    simp only [APISpecV.mk.injEq, true_and, and_true]
    exact hx
  case uses =>
    refine seen_map _ _ (strings_near hv h16) fun x x' hx => ?_
    simp only [apiView, h1, h2, h3, h4, h5, h6, h7, h8, h9, h10, h11, h12, h13, h14, h15, h17, h18,
      hx]
  case securitySchemes =>
    refine seen_map _ _ (untyped_near hv h14) fun x x' hx => ?_
    simp only [apiView, h1, h2, h3, h4, h5, h6, h7, h8, h9, h10, h11, h12, h13, h15, h16, h17, h18,
      hx]
  case baseUriParameters =>
    refine seen_map _ _ (untyped_near hv h5) fun x x' hx => ?_
    simp only [apiView, h1, h2, h3, h4, h6, h7, h8, h9, h10, h11, h12, h13, h14, h15, h16, h17, h18,
      hx]
  case traits =>
    refine seen_map _ _ (untyped_near hv h10) fun x x' hx => ?_
    simp only [apiView, h1, h2, h3, h4, h5, h6, h7, h8, h9, h11, h12, h13, h14, h15, h16, h17, h18,
      hx]
  case annotationTypes =>
    refine seen_map _ _ (untyped_near hv h12) fun x x' hx => ?_
    simp only [apiView, h1, h2, h3, h4, h5, h6, h7, h8, h9, h10, h11, h13, h14, h15, h16, h17, h18,
      hx]
  case resourceTypes =>
    refine seen_map _ _ (untyped_near hv h11) fun x x' hx => ?_
    simp only [apiView, h1, h2, h3, h4, h5, h6, h7, h8, h9, h10, h12, h13, h14, h15, h16, h17, h18,
      hx]
  case types =>
    refine seen_map _ _ ((alike_near hL hX hv).types _ _ h9) fun x x' hx => ?_
    simp only [apiView, h1, h2, h3, h4, h5, h6, h7, h8, h10, h11, h12, h13, h14, h15, h16, h17, h18,
      hx]
  case annotations =>
    refine seen_map annView _ (seen_map _ _ (ann_near hv) fun x x' hx =>
      view_put_congr k.value h13 hx) fun x x' hx => ?_
    simp only [apiView, h1, h2, h3, h4, h5, h6, h7, h8, h9, h10, h11, h12, h14, h15, h16, h17, h18,
      hx]
  case resources =>
    simp only [Res.map, Res.bind, seen, apiView, h1, h2, h3, h4, h5, h6, h7, h8, h9, h10, h11, h12,
      h13, h14, h15, h16, h18, view_put_congr k.value h17 hv.un]
  case extra =>
    split_ifs
    · rfl
    · refine seen_map (mapView unordered) _ (seen_same _ fun x => view_put_congr x h18 hv.un)
        fun x x' hx => ?_
      simp only [apiView, h1, h2, h3, h4, h5, h6, h7, h8, h9, h10, h11, h12, h13, h14, h15, h16,
        h17, hx]
  all_goals
    refine seen_same _ fun x => ?_
    simp only [apiView, h1, h2, h3, h4, h5, h6, h7, h8, h9, h10, h11, h12, h13, h14, h15, h16, h17,
      h18]

theorem api_shared {p q : Node × Node} (h : apiSectionOf p = apiSectionOf q)
    (hp : p.1.isStr = true) (hq : q.1.isStr = true)
    (ht : sameTarget p.1.value q.1.value = false) :
    apiSectionOf p = .annotations ∨ apiSectionOf p = .resources ∨ apiSectionOf p = .extra := by
  have hnot : ∀ r : Node × Node, r.1.isStr = true →
      (apiSectionOf r = .annotations ∨ apiSectionOf r = .resources ∨ apiSectionOf r = .extra) ∨
      ∃ s, (r.1.value, s) ∈ apiKeys ∧ apiSectionOf r = s := by
    intro r hr
    unfold apiSectionOf
    split_ifs
    · exact .inl (.inl rfl)
    · exact .inl (.inr (.inl rfl))
    · cases hl : apiKeys.lookup r.1.value with
      | none => exact .inl (.inr (.inr rfl))
      | some s => exact .inr ⟨s, lookup_some_mem hl, rfl⟩
  rcases hnot p hp with h1 | ⟨s, hs, h1⟩
  · exact h1
  rcases hnot q hq with h2 | ⟨s', hs', h2⟩
  · rw [h]; exact h2
  exfalso
  have hall : ∀ a ∈ apiKeys, ∀ b ∈ apiKeys, a.2 = b.2 → sameTarget a.1 b.1 = true := by decide
  have := hall _ hs _ hs' (h1.symm.trans (h.trans h2))
  rw [this] at ht
  cases ht

theorem api_swap (hL : Lawful X) (p q : Node × Node) (a : APISpec) (hp : p.1.isStr = true)
    (hq : q.1.isStr = true) (ht : sameTarget p.1.value q.1.value = false) :
    seen apiView ((a.assign X p.1 p.2).bind (APISpec.assign X q.1 q.2)) =
      seen apiView ((a.assign X q.1 q.2).bind (APISpec.assign X p.1 p.2)) := by
  by_cases hc : apiSectionOf p = apiSectionOf q
  · have hne := ne_of_target ht
    have hk : Scalar.str p.1.value ≠ .str q.1.value := fun e => hne (Scalar.str.inj e)
    change seen apiView ((a.assign X p.1 p.2).bind fun b => b.assign X q.1 q.2) =
      seen apiView ((a.assign X q.1 q.2).bind fun b => b.assign X p.1 p.2)
    simp only [api_assign_eq]
    rw [show apiSectionOf (q.1, q.2) = apiSectionOf p from hc.symm,
      show apiSectionOf (p.1, p.2) = apiSectionOf p from rfl]
    rcases api_shared hc hp hq ht with he | he | he
    · rw [he]
      simp only [apiStep, apiGet, APISpec.setPart]
      cases loadAnn p.2 <;> cases loadAnn q.2 <;>
        simp only [Res.map, Res.bind, seen, apiView, annView]
      rw [view_put_comm _ _ _ hne]
    · rw [he]
      simp only [apiStep, apiGet, APISpec.setPart, Res.map, Res.bind, seen, apiView]
      rw [view_put_comm _ _ _ hne]
    · rw [he]
      simp only [apiStep, apiGet, APISpec.setPart, scalar_str hL hp, scalar_str hL hq]
      split_ifs <;> first
        | rfl
        | (simp only [Res.map, Res.bind, seen, apiView]; rw [view_put_comm _ _ _ hk])
  · exact sections_swap (api_sections X) (s := a) trivial hc (fun _ _ hR => api_ext hR) apiView

theorem api_read (hL : Lawful X) (hX : ReadsScalars X) {n n' : Node} (h : Swap n n') :
    seen apiView (parseApi X n) = seen apiView (parseApi X n') :=
  mapForEach_near (f := APISpec.assign X) (fun k _ _ _ _ hv hs => api_near hL hX k hv hs)
    (fun p q s hp hq ht => api_swap hL p q s hp hq ht) (.inr h) _ _ rfl

/-! ### Libraries -/

theorem libStep_types {k : Node} (h : k.value = "annotationTypes") (v : Node)
    (m : OM String Ann) : libStep X k v .annotations m = loadAnns m v := if_pos h

theorem libStep_ann {k : Node} (h : k.value ≠ "annotationTypes") (v : Node)
    (m : OM String Ann) : libStep X k v .annotations m =
      (loadAnn v).map fun a => OM.put m k.value a := if_neg h

theorem lib_near (hL : Lawful X) (hX : ReadsScalars X) (k : Node) {v v' : Node}
    (hv : Near v v') {a a' : Library} (h : libView a = libView a') :
    seen libView (a.assign X k v) = seen libView (a'.assign X k v') := by
  simp only [libView, LibraryV.mk.injEq] at h
  obtain ⟨h1, h2, h3, h4, h5, h6, h7, h8, h9⟩ := h
  rw [lib_assign_eq, lib_assign_eq, show libSectionOf (k, v') = libSectionOf (k, v) from rfl]
  cases libSectionOf (k, v)
  case annotations =>
    refine seen_map annView _ ?_ fun x x' hx => ?_
    · by_cases hk : k.value = "annotationTypes"
      · exact (congrArg (seen annView) (libStep_types hk v a.annotations)).trans
          ((anns_near hv h1).trans
            (congrArg (seen annView) (libStep_types hk v' a'.annotations)).symm)
      · exact (congrArg (seen annView) (libStep_ann hk v a.annotations)).trans
          ((seen_map _ _ (ann_near hv) fun x x' hx => view_put_congr k.value h1 hx).trans
            (congrArg (seen annView) (libStep_ann hk v' a'.annotations)).symm)
    · simp only [Library.setPart, libView, h2, h3, h4, h5, h6, h7, h8, h9, hx]
  all_goals simp only [libStep, libGet, Library.setPart, hv.str]
  case usage =>
    refine seen_same _ fun x => ?_
    simp only [libView, h1, h2, h3, h4, h5, h6, h7, h8]
  case uses =>
    refine seen_map _ _ (strings_near hv h4) fun x x' hx => ?_
    simp only [libView, h1, h2, h3, h5, h6, h7, h8, h9, hx]
  case types =>
    refine seen_map _ _ ((alike_near hL hX hv).types _ _ h8) fun x x' hx => ?_
    simp only [libView, h1, h2, h3, h4, h5, h6, h7, h9, hx]
  case resourceTypes =>
    refine seen_map _ _ (untyped_near hv h5) fun x x' hx => ?_
    simp only [libView, h1, h2, h3, h4, h6, h7, h8, h9, hx]
  case traits =>
    refine seen_map _ _ (untyped_near hv h7) fun x x' hx => ?_
    simp only [libView, h1, h2, h3, h4, h5, h6, h8, h9, hx]
  case securitySchemes =>
    refine seen_map _ _ (untyped_near hv h6) fun x x' hx => ?_
    simp only [libView, h1, h2, h3, h4, h5, h7, h8, h9, hx]
  case extra =>
    split_ifs
    · rfl
    · refine seen_map (mapView unordered) _ (seen_same _ fun x => view_put_congr x h3 hv.un)
        fun x x' hx => ?_
      simp only [libView, h1, h2, h4, h5, h6, h7, h8, h9, hx]

theorem lib_shared {p q : Node × Node} (h : libSectionOf p = libSectionOf q)
    (hp : p.1.isStr = true) (hq : q.1.isStr = true)
    (ht : sameTarget p.1.value q.1.value = false) :
    (libSectionOf p = .annotations ∧ p.1.value ≠ "annotationTypes" ∧
      q.1.value ≠ "annotationTypes") ∨ libSectionOf p = .extra := by
  have hnot : ∀ r : Node × Node, r.1.isStr = true →
      (libSectionOf r = .annotations ∧ r.1.value.toList.head? = some '(') ∨
      libSectionOf r = .extra ∨
      ∃ s, (r.1.value, s) ∈ libKeys ∧ libSectionOf r = s := by
    intro r hr
    unfold libSectionOf
    cases hl : libKeys.lookup r.1.value with
    | some s => exact .inr (.inr ⟨s, lookup_some_mem hl, rfl⟩)
    | none =>
      simp only
      split_ifs with hs
      · refine .inl ⟨rfl, ?_⟩
        simpa [startsWith, hr] using hs
      · exact .inr (.inl rfl)
  have hall : ∀ a ∈ libKeys, ∀ b ∈ libKeys, a.2 = b.2 → sameTarget a.1 b.1 = true := by decide
  have hann : ∀ a ∈ libKeys, a.2 = .annotations → a.1 = "annotationTypes" := by decide
  have hex : ∀ a ∈ libKeys, a.2 ≠ .extra := by decide
  rcases hnot p hp with ⟨h1, c1⟩ | h1 | ⟨s, hs, h1⟩
  · rcases hnot q hq with ⟨h2, c2⟩ | h2 | ⟨s', hs', h2⟩
    · refine .inl ⟨h1, fun e => ?_, fun e => ?_⟩
      · rw [e] at c1; exact absurd c1 (by decide)
      · rw [e] at c2; exact absurd c2 (by decide)
    · rw [h1, h2] at h; cases h
    · exfalso
      have := hann _ hs' (h2.symm.trans (h.symm.trans h1))
      simp only at this
      simp [sameTarget, this, c1] at ht
  · exact .inr h1
  · rcases hnot q hq with ⟨h2, c2⟩ | h2 | ⟨s', hs', h2⟩
    · exfalso
      have := hann _ hs (h1.symm.trans (h.trans h2))
      simp only at this
      simp [sameTarget, this, c2] at ht
    · exact .inr (h.trans h2)
    · exfalso
      have := hall _ hs _ hs' (h1.symm.trans (h.trans h2))
      rw [this] at ht
      cases ht

theorem lib_swap (hL : Lawful X) (p q : Node × Node) (a : Library) (hp : p.1.isStr = true)
    (hq : q.1.isStr = true) (ht : sameTarget p.1.value q.1.value = false) :
    seen libView ((a.assign X p.1 p.2).bind (Library.assign X q.1 q.2)) =
      seen libView ((a.assign X q.1 q.2).bind (Library.assign X p.1 p.2)) := by
  by_cases hc : libSectionOf p = libSectionOf q
  · have hne := ne_of_target ht
    have hk : Scalar.str p.1.value ≠ .str q.1.value := fun e => hne (Scalar.str.inj e)
    change seen libView ((a.assign X p.1 p.2).bind fun b => b.assign X q.1 q.2) =
      seen libView ((a.assign X q.1 q.2).bind fun b => b.assign X p.1 p.2)
    simp only [lib_assign_eq]
    rw [show libSectionOf (q.1, q.2) = libSectionOf p from hc.symm,
      show libSectionOf (p.1, p.2) = libSectionOf p from rfl]
    rcases lib_shared hc hp hq ht with ⟨he, n1, n2⟩ | he
    · rw [he]
      simp only [libStep_ann n1, libStep_ann n2, libGet, Library.setPart]
      cases loadAnn p.2 <;> cases loadAnn q.2 <;>
        simp only [Res.map, Res.bind, seen, libView, annView]
      rw [view_put_comm _ _ _ hne]
    · rw [he]
      simp only [libStep, libGet, Library.setPart, scalar_str hL hp, scalar_str hL hq]
      split_ifs <;> first
        | rfl
        | (simp only [Res.map, Res.bind, seen, libView]; rw [view_put_comm _ _ _ hk])
  · refine sections_swap (lib_sections X) (s := a) trivial hc (fun h1 h2 hR => lib_ext hR ?_) libView
    have hd := fun ps u => forPairs_inv (f := Library.assign X)
      (I := fun u => u.annotationTypes = a.annotationTypes) (fun k v s s' hI h => by
        rw [lib_assign_eq] at h
        obtain ⟨x, _, rfl⟩ := Res.map_eq_ok.mp h
        rw [lib_annotationTypes_setPart]; exact hI) ps a u rfl
    rw [hd _ _ h1, hd _ _ h2]

theorem lib_read (hL : Lawful X) (hX : ReadsScalars X) {n n' : Node} (h : Swap n n') :
    seen libView (parseLibrary X (some n)) = seen libView (parseLibrary X (some n')) :=
  mapForEach_near (f := Library.assign X) (fun k _ _ _ _ hv hs => lib_near hL hX k hv hs)
    (fun p q s hp hq ht => lib_swap hL p q s hp hq ht) (.inr h) _ _ rfl

end Verif.Doc.Order
