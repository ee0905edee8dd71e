import Verif.Doc.ApiLemmas
import Verif.Doc.Laws

/-! # C33–C38, C47: reading API documents -/

namespace Verif.Props
open Verif Verif.Doc Verif.Doc.Spec

/-- A document with every kind of entry, used in the examples below. -/
def sampleDoc : List (Node × Node) :=
  [(.str "title", .str "first"), (.str "/users", .map [(.str "get", .map [])]),
   (.str "mediaType", .str "a/b"), (.str "uses", .map [(.str "x", .str "x.raml")]),
   (.str "(note)", .map [(.str "by", .str "me")]), (.scalar "!!bool" "true", .str "odd"),
   (.str "schemas", .map [(.str "T", .str "string")]), (.str "mediaType", .str "c/d"),
   (.str "/users", .map []), (.str "types", .map [(.str "U", .str "A | B")]),
   (.str "title", .str "second"), (.str "other", .seq seqTag [])]

theorem sampleDoc_parses : ∃ a, parseApi Xyml.std (.map sampleDoc) = .ok a :=
  Res.isOk_iff.mp (by decide +kernel)

/-! ### C33 -/

/-- C33: two documents with the same entries for a part agree on that part. -/
theorem C33_part_depends_on_own_entries (X : Xyml) (ps qs : List (Node × Node)) (a b : APISpec)
    (s : ApiSection) (ha : parseApi X (.map ps) = .ok a) (hb : parseApi X (.map qs) = .ok b)
    (h : apiEntries s ps = apiEntries s qs) : apiGet s a = apiGet s b := by
  have h1 := api_part s ps _ a ha
  have h2 := api_part s qs _ b hb
  rw [h, h2] at h1
  exact (Res.ok.inj h1).symm

/-- Concrete case: two documents with the same resources and nothing else in common. -/
example (a : APISpec) (ha : parseApi Xyml.std (.map sampleDoc) = .ok a) :
    a.resources.ents = [("/users", .map [])] :=
  congrArg OM.ents (C33_part_depends_on_own_entries _ sampleDoc
    [(.str "version", .str "1"), (.str "/users", .map [(.str "get", .map [])]),
      (.str "/users", .map [])] a _ .resources ha rfl rfl)

/-- C33: deleting all entries of the other parts leaves a document that still parses, with the
same value of the part. -/
theorem C33_remove_other_entries (X : Xyml) (ps : List (Node × Node)) (a : APISpec)
    (s : ApiSection) (ha : parseApi X (.map ps) = .ok a) :
    ∃ b, parseApi X (.map (apiEntries s ps)) = .ok b ∧ apiGet s b = apiGet s a := by
  obtain ⟨b, hb, hR⟩ := (api_sections X).project s ps _ a APISpec.new trivial trivial rfl ha
  have he : apiEntries s ps = ps.filter fun p => decide (apiSectionOf p = s) :=
    List.filter_congr fun p _ => Bool.beq_eq_decide_eq _ _
  exact ⟨b, by rw [he]; exact hb, hR.symm⟩

/-- Concrete case: the media types of the sample document, alone. -/
example (a : APISpec) (ha : parseApi Xyml.std (.map sampleDoc) = .ok a) :
    ∃ b, parseApi Xyml.std (.map [(.str "mediaType", .str "a/b"), (.str "mediaType", .str "c/d")]) =
      .ok b ∧ b.mediaType = a.mediaType :=
  C33_remove_other_entries _ sampleDoc a .mediaType ha

/-- C33: reordering entries of different parts changes nothing. -/
theorem C33_order_irrelevant (X : Xyml) (ps qs : List (Node × Node)) (a : APISpec)
    (ha : parseApi X (.map ps) = .ok a) (h : ∀ s, apiEntries s ps = apiEntries s qs) :
    parseApi X (.map qs) = .ok a := by
  obtain ⟨b, hb, hR⟩ := (api_sections X).reorder (qs := qs) trivial (fun s => by
    have := h s
    simp only [apiEntries, Bool.beq_eq_decide_eq] at this
    exact this) ha
  rw [show parseApi X (.map qs) = .ok b from hb]
  congr 1
  exact (api_ext hR).symm

/-- Concrete case: a title and two resources, in another order. -/
example : ∃ a, parseApi Xyml.std (.map [(.str "title", .str "t"), (.str "/a", .str "1"),
      (.str "/a", .str "2")]) = .ok a ∧
    parseApi Xyml.std (.map [(.str "/a", .str "1"), (.str "title", .str "t"),
      (.str "/a", .str "2")]) = .ok a :=
  ⟨_, rfl, C33_order_irrelevant _ [(.str "title", .str "t"), (.str "/a", .str "1"),
    (.str "/a", .str "2")] _ _ rfl (by intro s; cases s <;> rfl)⟩

/-- C33: a document parses exactly when each part's entries parse on their own. -/
theorem C33_parses_iff_parts_parse (X : Xyml) (ps : List (Node × Node)) :
    (∃ a, parseApi X (.map ps) = .ok a) ↔
      ∀ s, ∃ a, parseApi X (.map (apiEntries s ps)) = .ok a := by
  have := (api_sections X).ok_iff (ps := ps) (s := APISpec.new) trivial
  simp only [apiEntries, Bool.beq_eq_decide_eq]
  exact this

/-- The sample document (which parses) with its `mediaType` and `title` entries moved to the
front. -/
example : ∀ s, apiEntries s sampleDoc = apiEntries s
    ((apiEntries .mediaType sampleDoc ++ apiEntries .title sampleDoc) ++
      sampleDoc.filter fun p => p.1.value != "title" && p.1.value != "mediaType") := by
  intro s; cases s <;> rfl

/-! ### C34 -/

theorem puts_part {ps : List (Node × Node)} {V : Type} {m m' : OM String V}
    (f : Node → Node → OM String V → Res (OM String V)) (R : Node → V → Prop)
    (hf : ∀ k v m m', f k v m = .ok m' → ∃ x, R v x ∧ m' = m.put k.value x)
    (h : forPairs f ps m = .ok m') :
    ∃ es : List (String × V), List.Forall₂ (fun p e => p.1.value = e.1 ∧ R p.2 e.2) ps es ∧
      m' = m.putAll es := by
  induction ps generalizing m with
  | nil => cases h; exact ⟨[], .nil, rfl⟩
  | cons p ps ih =>
    obtain ⟨m1, h1, h2⟩ := Res.bind_eq_ok.mp h
    obtain ⟨x, hx, rfl⟩ := hf _ _ _ _ h1
    obtain ⟨es, h3, h4⟩ := ih h2
    exact ⟨(p.1.value, x) :: es, .cons ⟨rfl, hx⟩ h3, h4⟩

theorem forall₂_eq {V : Type} {ps : List (Node × Node)} {es : List (String × V)}
    {g : Node → V} (h : List.Forall₂ (fun p e => p.1.value = e.1 ∧ g p.2 = e.2) ps es) :
    es = ps.map fun p => (p.1.value, g p.2) := by
  induction h with
  | nil => rfl
  | cons h1 _ ih => rw [ih]; simp [h1.1, h1.2]

/-- C34: `Resources()` holds exactly the top-level entries whose key is a string starting with a
slash, values untouched, one per key (the last), ordered by last occurrence. -/
theorem C34_resources (X : Xyml) (ps : List (Node × Node)) (a : APISpec)
    (h : parseApi X (.map ps) = .ok a) :
    a.resources.ents =
      lastWins ((ps.filter fun p => startsWith '/' p.1).map fun p => (p.1.value, p.2)) := by
  have h1 := api_part .resources ps _ a h
  obtain ⟨es, h2, h3⟩ := puts_part (fun k v x => apiStep X k v .resources x)
    (fun v x => v = x) (fun k v m m' h => ⟨v, rfl, (Res.ok.inj h).symm⟩) h1
  have h4 : a.resources = (APISpec.new.resources).putAll es := h3
  have h5 : apiEntries .resources ps = ps.filter fun p => startsWith '/' p.1 := by
    apply List.filter_congr
    intro p _
    unfold apiSectionOf
    by_cases hp : startsWith '(' p.1 = true
    · have : startsWith '/' p.1 = false := by
        simp only [startsWith, Bool.and_eq_true, beq_iff_eq] at hp
        simp [startsWith, hp.1, hp.2]
      simp [hp, this]
    · by_cases hq : startsWith '/' p.1 = true
      · simp [hp, hq]
      · simp only [hp, hq, Bool.false_eq_true, if_false]
        have : ∀ s, (apiKeys.lookup s).getD ApiSection.extra ≠ .resources := by
          intro s hs
          cases hl : apiKeys.lookup s with
          | none => rw [hl] at hs; cases hs
          | some x =>
            rw [hl] at hs
            obtain ⟨l1, l2, hl', _⟩ := List.lookup_eq_some_iff.mp hl
            have hm : (s, x) ∈ apiKeys := by rw [hl']; simp
            have : ∀ e ∈ apiKeys, e.2 ≠ .resources := by decide
            exact this _ hm hs
        split
        · rw [beq_false_of_ne (this _)]
        · rfl
  rw [h4, show APISpec.new.resources = OM.empty false from rfl, OM.empty_putAll_ents, ← h5,
    forall₂_eq (g := id) h2]
  rfl

/-- C34: what is stored under a slash key appears in no other part: with those entries deleted,
every other part is the same. -/
theorem C34_nowhere_else (X : Xyml) (ps : List (Node × Node)) (a : APISpec)
    (h : parseApi X (.map ps) = .ok a) :
    ∃ b, parseApi X (.map (ps.filter fun p => !startsWith '/' p.1)) = .ok b ∧
      ∀ s, s ≠ .resources → apiGet s b = apiGet s a := by
  generalize hqs : (ps.filter fun p => !startsWith '/' p.1) = qs
  have he : ∀ s, s ≠ .resources → apiEntries s qs = apiEntries s ps := by
    intro s hs
    rw [← hqs]
    unfold apiEntries
    rw [List.filter_filter]
    apply List.filter_congr
    intro p _
    by_cases hp : apiSectionOf p = s
    · have hq : startsWith '/' p.1 = false := by
        cases hc : startsWith '/' p.1 with
        | false => rfl
        | true =>
          exfalso; apply hs; rw [← hp]
          have : startsWith '(' p.1 = false := by
            simp only [startsWith, Bool.and_eq_true, beq_iff_eq] at hc
            simp [startsWith, hc.1, hc.2]
          simp [apiSectionOf, this, hc]
      simp [hp, hq]
    · simp [beq_false_of_ne hp]
  have hr : apiEntries .resources qs = [] := by
    rw [← hqs]
    unfold apiEntries
    rw [List.filter_filter, List.filter_eq_nil_iff]
    intro p _ hp
    simp only [Bool.and_eq_true, beq_iff_eq, Bool.not_eq_true'] at hp
    obtain ⟨hp1, hp2⟩ := hp
    unfold apiSectionOf at hp1
    rw [hp2] at hp1
    split at hp1
    · cases hp1
    · simp only [Bool.false_eq_true, if_false] at hp1
      split at hp1
      · cases hl : apiKeys.lookup p.1.value with
        | none => rw [hl] at hp1; cases hp1
        | some x =>
          rw [hl] at hp1
          obtain ⟨l1, l2, hl', _⟩ := List.lookup_eq_some_iff.mp hl
          have hm : (p.1.value, x) ∈ apiKeys := by rw [hl']; simp
          have : ∀ e ∈ apiKeys, e.2 ≠ .resources := by decide
          exact this _ hm hp1
      · cases hp1
  obtain ⟨b, hb⟩ := (C33_parses_iff_parts_parse X qs).mpr fun s => by
    by_cases hs : s = .resources
    · rw [hs, hr]; exact ⟨_, rfl⟩
    · rw [he s hs]; exact (C33_parses_iff_parts_parse X ps).mp ⟨a, h⟩ s
  exact ⟨b, hb, fun s hs => C33_part_depends_on_own_entries X qs ps b a s hb h (he s hs)⟩

example : ∃ a, parseApi Xyml.std (.map sampleDoc) = .ok a ∧
    a.resources.ents = [("/users", .map [])] :=
  sampleDoc_parses.imp fun a h => ⟨h, (C34_resources _ _ a h).trans rfl⟩

/-! ### C35 -/

/-- What an annotation value becomes: the last entry per key, in a map that is written as a list of
single entries; its keys must be strings. -/
def IsAnn (v : Node) (x : Ann) : Prop :=
  isMap v = true ∧ (∀ p ∈ mapEntries v, p.1.isStr = true) ∧
    x.ents = lastWins ((mapEntries v).map fun p => (p.1.value, p.2)) ∧ x.omap = true

private theorem loadUntyped_eq (m : OM String Node) (v : Node) :
    loadUntyped m v = mapForEach (fun k v m => (asString k).bind fun s =>
      (Res.ok v).map fun x => m.put s x) v m := rfl

theorem loadUntyped_ok {m m' : OM String Node} {v : Node} (h : loadUntyped m v = .ok m') :
    isMap v = true ∧ (∀ p ∈ mapEntries v, p.1.isStr = true) ∧
      m' = m.putAll ((mapEntries v).map fun p => (p.1.value, p.2)) := by
  cases v with
  | scalar a b => cases h
  | seq a b => cases h
  | map ps =>
    obtain ⟨h1, es, h2, h3⟩ := (loader_ok Res.ok ps m m').mp h
    refine ⟨rfl, h1, ?_⟩
    rw [h3]
    congr 1
    exact forall₂_eq (g := id) (h2.imp fun _ _ h => ⟨h.1, Res.ok.inj h.2⟩)

theorem loadAnn_ok {v : Node} {x : Ann} (h : loadAnn v = .ok x) : IsAnn v x := by
  obtain ⟨h1, h2, h3⟩ := loadUntyped_ok h
  rw [h3]
  exact ⟨h1, h2, OM.empty_putAll_ents _ _, OM.omap_putAll _ _⟩

/-- C35: the annotations are exactly the entries whose key is a string starting with a
parenthesis. -/
theorem C35_annotations (X : Xyml) (ps : List (Node × Node)) (a : APISpec)
    (h : parseApi X (.map ps) = .ok a) :
    ∃ es : List (String × Ann),
      List.Forall₂ (fun p e => p.1.value = e.1 ∧ IsAnn p.2 e.2)
        (ps.filter fun p => startsWith '(' p.1) es ∧
      a.annotations.ents = lastWins es := by
  have h1 := api_part .annotations ps _ a h
  obtain ⟨es, h2, h3⟩ := puts_part (fun k v x => apiStep X k v .annotations x)
    (fun v x => IsAnn v x) (fun k v m m' h => by
      obtain ⟨x, hx, rfl⟩ := Res.map_eq_ok.mp h
      exact ⟨x, loadAnn_ok hx, rfl⟩) h1
  have h5 : apiEntries .annotations ps = ps.filter fun p => startsWith '(' p.1 := by
    apply List.filter_congr
    intro p _
    unfold apiSectionOf
    by_cases hp : startsWith '(' p.1 = true
    · simp [hp]
    · simp only [hp, Bool.false_eq_true, if_false]
      split
      · rfl
      · split
        · cases hl : apiKeys.lookup p.1.value with
          | none => rfl
          | some x =>
            obtain ⟨l1, l2, hl', _⟩ := List.lookup_eq_some_iff.mp hl
            have hm : (p.1.value, x) ∈ apiKeys := by rw [hl']; simp
            have : ∀ e ∈ apiKeys, e.2 ≠ .annotations := by decide
            rw [Option.getD_some, beq_false_of_ne (this _ hm)]
        · rfl
  rw [h5] at h2
  refine ⟨es, h2, ?_⟩
  have h4 : a.annotations = (OM.empty false).putAll es := h3
  rw [h4, OM.empty_putAll_ents]

/-- Concrete case: the annotations of the sample document. -/
example (a : APISpec) (ha : parseApi Xyml.std (.map sampleDoc) = .ok a) :
    ∃ e : String × Ann, ("(note)" = e.1 ∧ IsAnn (.map [(.str "by", .str "me")]) e.2) ∧
      a.annotations.ents = lastWins [e] := by
  obtain ⟨es, h1, h2⟩ := C35_annotations _ _ a ha
  cases h1 with
  | cons h h' => cases h'; exact ⟨_, h, h2⟩

/-- An entry that is no known key, no annotation and no resource. -/
def isApiExtra (p : Node × Node) : Bool :=
  !p.1.isStr || (!startsWith '(' p.1 && !startsWith '/' p.1 &&
    !(apiKeys.map Prod.fst).contains p.1.value)

private theorem apiSection_extra (p : Node × Node) :
    (apiSectionOf p == .extra) = isApiExtra p := by
  unfold apiSectionOf isApiExtra
  by_cases hs : p.1.isStr = true
  · by_cases h1 : startsWith '(' p.1 = true
    · simp [h1, hs]
    · by_cases h2 : startsWith '/' p.1 = true
      · simp [h1, h2, hs]
      · simp only [h1, h2, hs, if_true, Bool.false_eq_true, if_false, Bool.not_true,
          Bool.not_false, Bool.true_and, Bool.false_or]
        cases hl : apiKeys.lookup p.1.value with
        | none =>
          have : (apiKeys.map Prod.fst).contains p.1.value = false := by
            rw [List.lookup_eq_none_iff] at hl
            simp only [List.contains_eq_mem, decide_eq_false_iff_not]
            intro hm
            obtain ⟨e, he, hek⟩ := List.mem_map.mp hm
            have := hl e he
            simp [hek] at this
          rw [this]; rfl
        | some x =>
          obtain ⟨l1, l2, hl', _⟩ := List.lookup_eq_some_iff.mp hl
          have hm : (p.1.value, x) ∈ apiKeys := by rw [hl']; simp
          have hx : ∀ e ∈ apiKeys, e.2 ≠ .extra := by decide
          have : (apiKeys.map Prod.fst).contains p.1.value = true := by
            simp only [List.contains_eq_mem, decide_eq_true_eq]
            exact List.mem_map.mpr ⟨_, hm, rfl⟩
          rw [this, Option.getD_some, beq_false_of_ne (hx _ hm)]; rfl
  · have hs : p.1.isStr = false := by simpa using hs
    simp [hs, startsWith]

/-- C35: every other entry is in `ExtraFacets()` under the scalar value of its key, with its
value untouched, the last one per key. -/
theorem C35_extra_facets (X : Xyml) (ps : List (Node × Node)) (a : APISpec)
    (h : parseApi X (.map ps) = .ok a) :
    ∃ es : List (Scalar × Node),
      List.Forall₂ (fun p e => X.toScalar p.1 = some e.1 ∧ p.2 = e.2) (ps.filter isApiExtra) es ∧
      a.extra.ents = lastWins es := by
  have h1 := api_part .extra ps _ a h
  have h5 : apiEntries .extra ps = ps.filter isApiExtra :=
    List.filter_congr fun p _ => apiSection_extra p
  rw [h5] at h1
  have key : ∀ (qs : List (Node × Node)) (m m' : OM Scalar Node),
      forPairs (fun k v x => apiStep X k v .extra x) qs m = .ok m' →
      ∃ es : List (Scalar × Node),
        List.Forall₂ (fun p e => X.toScalar p.1 = some e.1 ∧ p.2 = e.2) qs es ∧
        m' = m.putAll es := by
    intro qs
    induction qs with
    | nil => intro m m' h; cases h; exact ⟨[], .nil, rfl⟩
    | cons p qs ih =>
      intro m m' h
      obtain ⟨m1, h1, h2⟩ := Res.bind_eq_ok.mp h
      simp only [apiStep] at h1
      split at h1
      · cases h1
      · obtain ⟨s, hs, rfl⟩ := Res.map_eq_ok.mp h1
        obtain ⟨es, h3, h4⟩ := ih _ _ h2
        unfold asScalar at hs
        split at hs
        · cases hs
          rename_i hs
          exact ⟨(_, p.2) :: es, .cons ⟨hs, rfl⟩ h3, h4⟩
        · cases hs
  obtain ⟨es, h2, h3⟩ := key _ _ _ h1
  refine ⟨es, h2, ?_⟩
  have h4 : a.extra = (OM.empty false).putAll es := h3
  rw [h4, OM.empty_putAll_ents]

/-- Concrete case: the two extra facets of the sample document, one under a boolean key. -/
example (a : APISpec) (ha : parseApi Xyml.std (.map sampleDoc) = .ok a) :
    a.extra.ents = [(.bool true, .str "odd"), (.str "other", .seq seqTag [])] := by
  obtain ⟨es, h1, h2⟩ := C35_extra_facets _ _ a ha
  obtain ⟨⟨k1, v1⟩, es, ⟨hk1, hv1⟩, h3, rfl⟩ := List.forall₂_cons_left_iff.mp h1
  obtain ⟨⟨k2, v2⟩, es, ⟨hk2, hv2⟩, h4, rfl⟩ := List.forall₂_cons_left_iff.mp h3
  cases h4; cases hk1; cases hv1; cases hk2; cases hv2
  exact h2

theorem lastWins_keys {K V : Type} [DecidableEq K] (l : List (K × V)) (k : K) :
    k ∈ (lastWins l).map Prod.fst ↔ k ∈ l.map Prod.fst := by
  induction l with
  | nil => rfl
  | cons e l ih =>
    unfold lastWins
    split
    · rename_i he
      rw [ih, List.map_cons, List.mem_cons]
      constructor
      · exact .inr
      · rintro (rfl | h)
        · exact he
        · exact h
    · rw [List.map_cons, List.map_cons, List.mem_cons, List.mem_cons, ih]

theorem forall₂_mem_left {α β : Type} {R : α → β → Prop} {l : List α} {m : List β}
    (h : List.Forall₂ R l m) {a : α} (ha : a ∈ l) : ∃ b ∈ m, R a b := by
  induction h with
  | nil => cases ha
  | cons h1 _ ih =>
    rcases List.mem_cons.mp ha with rfl | ha
    · exact ⟨_, by simp, h1⟩
    · obtain ⟨b, hb, hR⟩ := ih ha
      exact ⟨b, by simp [hb], hR⟩

/-- C35: no top-level key gets lost: every entry of a document that parses is under its own key
in the annotations, the resources or the extra facets, or it has one of the known keys. -/
theorem C35_every_entry_accounted (X : Xyml) (ps : List (Node × Node)) (a : APISpec)
    (h : parseApi X (.map ps) = .ok a) (p : Node × Node) (hp : p ∈ ps) :
    (p.1.isStr = true ∧ p.1.value ∈ apiKeys.map Prod.fst) ∨
    (startsWith '(' p.1 = true ∧ p.1.value ∈ a.annotations.ents.map Prod.fst) ∨
    (startsWith '/' p.1 = true ∧ p.1.value ∈ a.resources.ents.map Prod.fst) ∨
    (∃ s, X.toScalar p.1 = some s ∧ s ∈ a.extra.ents.map Prod.fst) := by
  by_cases h1 : startsWith '(' p.1 = true
  · obtain ⟨es, h2, h3⟩ := C35_annotations X ps a h
    obtain ⟨e, he, hR⟩ := forall₂_mem_left h2 (List.mem_filter.mpr ⟨hp, h1⟩)
    refine .inr (.inl ⟨h1, ?_⟩)
    rw [h3, lastWins_keys]
    exact List.mem_map.mpr ⟨e, he, hR.1.symm⟩
  · by_cases h2 : startsWith '/' p.1 = true
    · refine .inr (.inr (.inl ⟨h2, ?_⟩))
      rw [C34_resources X ps a h, lastWins_keys, List.map_map]
      exact List.mem_map.mpr ⟨p, List.mem_filter.mpr ⟨hp, h2⟩, rfl⟩
    · cases h3 : isApiExtra p with
      | true =>
        obtain ⟨es, h4, h5⟩ := C35_extra_facets X ps a h
        obtain ⟨e, he, hR⟩ := forall₂_mem_left h4 (List.mem_filter.mpr ⟨hp, h3⟩)
        refine .inr (.inr (.inr ⟨e.1, hR.1, ?_⟩))
        rw [h5, lastWins_keys]
        exact List.mem_map.mpr ⟨e, he, rfl⟩
      | false =>
        left
        simp only [isApiExtra, h1, h2, Bool.not_false, Bool.true_and, Bool.or_eq_false_iff,
          Bool.not_eq_false'] at h3
        exact ⟨h3.1, by simpa using h3.2⟩

example : ∃ a, parseApi Xyml.std (.map [(.str "(note)", .map [(.str "by", .str "me")]),
      (.scalar "!!bool" "true", .str "odd"), (.str "other", .seq seqTag [])]) = .ok a ∧
    a.annotations.ents.map Prod.fst = ["(note)"] ∧
    a.extra.ents = [(.bool true, .str "odd"), (.str "other", .seq seqTag [])] :=
  ⟨_, rfl, rfl, rfl⟩

/-! ### C36 -/

/-- The value of the last string-keyed entry with the given key. -/
def lastNamed (k : String) (ps : List (Node × Node)) : Option Node :=
  lastBy (fun p => p.1.isStr && p.1.value == k) ps

theorem named_entries {s : ApiSection} {k : String} (ps : List (Node × Node))
    (hk : apiKeys.filter (fun e => e.2 == s) = [(k, s)]) (hk' : apiKeys.lookup k = some s)
    (hh : k.toList.head? ≠ some '(' ∧ k.toList.head? ≠ some '/')
    (hs : s ≠ .annotations ∧ s ≠ .resources ∧ s ≠ .extra) :
    apiEntries s ps = ps.filter fun p => p.1.isStr && p.1.value == k := by
  apply List.filter_congr
  intro p _
  unfold apiSectionOf
  cases hq : (p.1.isStr && p.1.value == k) with
  | true =>
    simp only [Bool.and_eq_true, beq_iff_eq] at hq
    have h1 : startsWith '(' p.1 = false := by simp [startsWith, hq.1, hq.2, hh.1]
    have h2 : startsWith '/' p.1 = false := by simp [startsWith, hq.1, hq.2, hh.2]
    simp [h1, h2, hq.1, hq.2, hk']
  | false =>
    split
    · exact beq_false_of_ne (Ne.symm hs.1)
    · split
      · exact beq_false_of_ne (Ne.symm hs.2.1)
      · split
        · rename_i hstr
          cases hl : apiKeys.lookup p.1.value with
          | none => exact beq_false_of_ne (Ne.symm hs.2.2)
          | some x =>
            obtain ⟨l1, l2, hl', _⟩ := List.lookup_eq_some_iff.mp hl
            have hm : (p.1.value, x) ∈ apiKeys := by rw [hl']; simp
            apply beq_false_of_ne
            intro hx
            have : (p.1.value, x) ∈ apiKeys.filter (fun e => e.2 == s) :=
              List.mem_filter.mpr ⟨hm, by simpa using hx⟩
            rw [hk] at this
            simp only [List.mem_singleton, Prod.mk.injEq] at this
            simp [hstr, this.1] at hq
        · exact beq_false_of_ne (Ne.symm hs.2.2)

theorem last_of_loop {σ : Type} (f : Node → Node → σ → Res σ) (g : Node → Res σ)
    (hf : ∀ k v s, f k v s = g v) (ps : List (Node × Node)) (s s' : σ)
    (h : forPairs f ps s = .ok s') :
    (∀ p ∈ ps, ∃ x, g p.2 = .ok x) ∧
    match ps.getLast? with | some p => g p.2 = .ok s' | none => s' = s := by
  induction ps generalizing s with
  | nil => cases h; exact ⟨by simp, rfl⟩
  | cons p ps ih =>
    obtain ⟨s1, h1, h2⟩ := Res.bind_eq_ok.mp h
    rw [hf] at h1
    obtain ⟨i1, i2⟩ := ih s1 h2
    refine ⟨?_, ?_⟩
    · intro q hq
      rcases List.mem_cons.mp hq with rfl | hq
      · exact ⟨s1, h1⟩
      · exact i1 q hq
    · rw [List.getLast?_cons]
      cases hl : ps.getLast? with
      | none => rw [hl] at i2; subst i2; exact h1
      | some q => rw [hl] at i2; exact i2

theorem lastBy_getLast (q : Node × Node → Bool) (ps : List (Node × Node)) :
    lastBy q ps = ((ps.filter q).getLast?).map (·.2) := by
  unfold lastBy
  rw [List.getLast?_eq_head?_reverse, ← List.filter_reverse, List.head?_filter]

theorem asString_ok {v : Node} {s : String} (h : asString v = .ok s) :
    v.isStr = true ∧ v.value = s := by
  unfold asString at h
  split at h
  · cases h; exact ⟨by assumption, rfl⟩
  · cases h

/-- C36: `title` is the text of the last `title` entry, or empty; every `title` entry is a
string. -/
theorem C36_title (X : Xyml) (ps : List (Node × Node)) (a : APISpec)
    (h : parseApi X (.map ps) = .ok a) :
    (∀ p ∈ ps, p.1.isStr = true → p.1.value = "title" → p.2.isStr = true) ∧
    a.title = ((lastNamed "title" ps).map Node.value).getD "" := by
  have h1 := api_part .title ps _ a h
  rw [named_entries (k := "title") ps (by decide) (by decide) (by decide) (by decide)] at h1
  obtain ⟨h2, h3⟩ := last_of_loop _ asString (fun _ _ _ => rfl) _ _ _ h1
  refine ⟨?_, ?_⟩
  · intro p hp hs hk
    obtain ⟨x, hx⟩ := h2 p (List.mem_filter.mpr ⟨hp, by simp [hs, hk]⟩)
    exact (asString_ok hx).1
  · rw [lastNamed, lastBy_getLast]
    generalize (ps.filter fun p => p.1.isStr && p.1.value == "title").getLast? = o at h3
    cases o with
    | none => exact h3
    | some p => exact (asString_ok h3).2.symm

/-- Concrete case: of the two titles of the sample document, the second. -/
example (a : APISpec) (ha : parseApi Xyml.std (.map sampleDoc) = .ok a) : a.title = "second" :=
  (C36_title _ _ a ha).2

/-- The optional text parts: key and getter. -/
inductive OptText : ApiSection → String → (APISpec → Option String) → Prop where
  | version : OptText .version "version" APISpec.version
  | baseUri : OptText .baseUri "baseUri" APISpec.baseURI
  | description : OptText .description "description" APISpec.description

/-- C36: `version`, `baseUri` and `description` are the text of the last entry with that key, or
unset; every such entry is a string. -/
theorem C36_optional_text (X : Xyml) (ps : List (Node × Node)) (a : APISpec) (s : ApiSection)
    (k : String) (get : APISpec → Option String) (hg : OptText s k get)
    (h : parseApi X (.map ps) = .ok a) :
    (∀ p ∈ ps, p.1.isStr = true → p.1.value = k → p.2.isStr = true) ∧
    get a = (lastNamed k ps).map Node.value := by
  have key : ∀ o : Option String,
      forPairs (fun _ v _ => (asString v).map some)
        (ps.filter fun p => p.1.isStr && p.1.value == k) none = .ok o →
      (∀ p ∈ ps, p.1.isStr = true → p.1.value = k → p.2.isStr = true) ∧
        o = (lastNamed k ps).map Node.value := by
    intro o h1
    obtain ⟨h2, h3⟩ := last_of_loop _ (fun v => (asString v).map some) (fun _ _ _ => rfl) _ _ _ h1
    refine ⟨?_, ?_⟩
    · intro p hp hs hk
      obtain ⟨x, hx⟩ := h2 p (List.mem_filter.mpr ⟨hp, by simp [hs, hk]⟩)
      obtain ⟨y, hy, _⟩ := Res.map_eq_ok.mp hx
      exact (asString_ok hy).1
    · rw [lastNamed, lastBy_getLast]
      generalize (ps.filter fun p => p.1.isStr && p.1.value == k).getLast? = o' at h3
      cases o' with
      | none => exact h3
      | some p =>
        obtain ⟨y, hy, rfl⟩ := Res.map_eq_ok.mp h3
        simp [(asString_ok hy).2]
  have h1 := api_part s ps _ a h
  cases hg with
  | version =>
    rw [named_entries (k := "version") ps (by decide) (by decide) (by decide) (by decide)] at h1
    exact key _ h1
  | baseUri =>
    rw [named_entries (k := "baseUri") ps (by decide) (by decide) (by decide) (by decide)] at h1
    exact key _ h1
  | description =>
    rw [named_entries (k := "description") ps (by decide) (by decide) (by decide) (by decide)] at h1
    exact key _ h1

/-- Concrete case: the sample document has no version. -/
example (a : APISpec) (ha : parseApi Xyml.std (.map sampleDoc) = .ok a) : a.version = none :=
  (C36_optional_text _ _ a _ _ _ .version ha).2

/-- The two list parts with replace semantics. -/
inductive OptList : ApiSection → String → (APISpec → Option (List String)) → Prop where
  | protocols : OptList .protocols "protocols" APISpec.protocols
  | securedBy : OptList .securedBy "securedBy" APISpec.securedBy

private theorem stringList_items (ns : List Node) (l l' : List String)
    (h : forItems (fun n acc => (asString n).map fun s => acc ++ [s]) ns l = .ok l') :
    (∀ n ∈ ns, n.isStr = true) ∧ l' = l ++ ns.map Node.value := by
  induction ns generalizing l with
  | nil => cases h; simp
  | cons n ns ih =>
    obtain ⟨l1, h1, h2⟩ := Res.bind_eq_ok.mp h
    obtain ⟨s, hs, rfl⟩ := Res.map_eq_ok.mp h1
    obtain ⟨hn, rfl⟩ := asString_ok hs
    obtain ⟨i1, i2⟩ := ih _ h2
    refine ⟨?_, by rw [i2]; simp⟩
    intro m hm
    rcases List.mem_cons.mp hm with rfl | hm
    · exact hn
    · exact i1 m hm

private theorem asStringList_ok {v : Node} {l : List String} (h : asStringList v = .ok l) :
    isSeq v = true ∧ (∀ n ∈ seqItems v, n.isStr = true) ∧ l = (seqItems v).map Node.value := by
  cases v with
  | scalar a b => cases h
  | map a => cases h
  | seq t ns =>
    obtain ⟨h1, h2⟩ := stringList_items ns [] l h
    rw [List.nil_append] at h2
    exact ⟨rfl, h1, h2⟩

/-- C36, lists: `protocols` and `securedBy` are the texts of the last sequence given; every such
entry is a sequence of strings. -/
theorem C36_string_lists (X : Xyml) (ps : List (Node × Node)) (a : APISpec) (s : ApiSection)
    (k : String) (get : APISpec → Option (List String)) (hg : OptList s k get)
    (h : parseApi X (.map ps) = .ok a) :
    (∀ p ∈ ps, p.1.isStr = true → p.1.value = k →
      isSeq p.2 = true ∧ ∀ n ∈ seqItems p.2, n.isStr = true) ∧
    get a = (lastNamed k ps).map fun v => (seqItems v).map Node.value := by
  have key : ∀ o : Option (List String),
      forPairs (fun _ v _ => (asStringList v).map some)
        (ps.filter fun p => p.1.isStr && p.1.value == k) none = .ok o →
      (∀ p ∈ ps, p.1.isStr = true → p.1.value = k →
        isSeq p.2 = true ∧ ∀ n ∈ seqItems p.2, n.isStr = true) ∧
        o = (lastNamed k ps).map fun v => (seqItems v).map Node.value := by
    intro o h1
    obtain ⟨h2, h3⟩ := last_of_loop _ (fun v => (asStringList v).map some) (fun _ _ _ => rfl)
      _ _ _ h1
    refine ⟨?_, ?_⟩
    · intro p hp hs hk
      obtain ⟨x, hx⟩ := h2 p (List.mem_filter.mpr ⟨hp, by simp [hs, hk]⟩)
      obtain ⟨y, hy, _⟩ := Res.map_eq_ok.mp hx
      exact ⟨(asStringList_ok hy).1, (asStringList_ok hy).2.1⟩
    · rw [lastNamed, lastBy_getLast]
      generalize (ps.filter fun p => p.1.isStr && p.1.value == k).getLast? = o' at h3
      cases o' with
      | none => exact h3
      | some p =>
        obtain ⟨y, hy, rfl⟩ := Res.map_eq_ok.mp h3
        simp [(asStringList_ok hy).2.2]
  have h1 := api_part s ps _ a h
  cases hg with
  | protocols =>
    rw [named_entries (k := "protocols") ps (by decide) (by decide) (by decide) (by decide)] at h1
    exact key _ h1
  | securedBy =>
    rw [named_entries (k := "securedBy") ps (by decide) (by decide) (by decide) (by decide)] at h1
    exact key _ h1

/-- `title` twice, a `version` under a non-string key (an extra facet), and a description. -/
example : ∃ a, parseApi Xyml.std (.map [(.str "title", .str "a"), (.str "description", .str "d"),
    (.str "title", .str "b"), (.scalar "!!null" "version", .str "v")]) = .ok a ∧ a.title = "b" ∧
    a.description = some "d" ∧ a.version = none := ⟨_, rfl, rfl, rfl, rfl⟩

/-! ### C37 -/

/-- The values of all `mediaType` entries. -/
def mediaVals (ps : List (Node × Node)) : List Node :=
  (ps.filter fun p => p.1.isStr && p.1.value == "mediaType").map (·.2)

private theorem media_loop (qs : List (Node × Node)) (l l' : Option (List String))
    (h : forPairs (fun _ v (l : Option (List String)) =>
      if v.isStr then Res.ok (some (Option.getD l [] ++ [v.value]))
      else (asStringList v).map some) qs l = .ok l') :
    (∀ v ∈ qs.map (·.2), v.isStr = true ∨
      (isSeq v = true ∧ ∀ n ∈ seqItems v, n.isStr = true)) ∧
    ((∀ v ∈ qs.map (·.2), v.isStr = true) →
      l' = if qs = [] then l else some (Option.getD l [] ++ (qs.map (·.2)).map Node.value)) ∧
    ∀ pre v post, qs.map (·.2) = pre ++ v :: post → v.isStr = false →
      (∀ w ∈ post, w.isStr = true) →
      l' = some ((seqItems v).map Node.value ++ post.map Node.value) := by
  induction qs generalizing l with
  | nil =>
    cases h
    refine ⟨by simp, fun _ => rfl, ?_⟩
    intro pre v post he
    simp at he
  | cons q qs ih =>
    obtain ⟨l1, h1, h2⟩ := Res.bind_eq_ok.mp h
    obtain ⟨i1, i2, i3⟩ := ih l1 h2
    simp only at h1
    by_cases hq : q.2.isStr = true
    · rw [if_pos hq] at h1
      cases h1
      refine ⟨?_, ?_, ?_⟩
      · intro v hv
        rcases List.mem_cons.mp hv with rfl | hv
        · exact .inl hq
        · exact i1 v hv
      · intro hall
        rw [i2 fun v hv => hall v (by simp only [List.map_cons, List.mem_cons]; exact .inr hv)]
        by_cases hqs : qs = []
        · simp [hqs]
        · simp [hqs]
      · intro pre v post he hv hpost
        cases pre with
        | nil =>
          simp only [List.map_cons, List.nil_append, List.cons.injEq] at he
          rw [← he.1, hq] at hv
          cases hv
        | cons w pre =>
          simp only [List.map_cons, List.cons_append, List.cons.injEq] at he
          exact i3 pre v post he.2 hv hpost
    · rw [if_neg hq] at h1
      obtain ⟨x, hx, rfl⟩ := Res.map_eq_ok.mp h1
      obtain ⟨hx1, hx2, hx3⟩ := asStringList_ok hx
      refine ⟨?_, ?_, ?_⟩
      · intro v hv
        rcases List.mem_cons.mp hv with rfl | hv
        · exact .inr ⟨hx1, hx2⟩
        · exact i1 v hv
      · intro hall
        exact absurd (hall q.2 (by simp)) hq
      · intro pre v post he hv hpost
        cases pre with
        | nil =>
          simp only [List.map_cons, List.nil_append, List.cons.injEq] at he
          obtain ⟨rfl, rfl⟩ := he
          rw [i2 hpost, hx3]
          by_cases hqs : qs = []
          · simp [hqs]
          · simp [hqs]
        | cons w pre =>
          simp only [List.map_cons, List.cons_append, List.cons.injEq] at he
          exact i3 pre v post he.2 hv hpost

/-- C37: a media type entry is a string or a sequence of strings; without sequences the media
types are all the strings in order; otherwise they are the elements of the last sequence followed
by the strings after it. -/
theorem C37_media_types (X : Xyml) (ps : List (Node × Node)) (a : APISpec)
    (h : parseApi X (.map ps) = .ok a) :
    (∀ v ∈ mediaVals ps, v.isStr = true ∨
      (isSeq v = true ∧ ∀ n ∈ seqItems v, n.isStr = true)) ∧
    ((∀ v ∈ mediaVals ps, v.isStr = true) → a.mediaType =
      if mediaVals ps = [] then none else some ((mediaVals ps).map Node.value)) ∧
    ∀ pre v post, mediaVals ps = pre ++ v :: post → v.isStr = false →
      (∀ w ∈ post, w.isStr = true) →
      a.mediaType = some ((seqItems v).map Node.value ++ post.map Node.value) := by
  have h1 := api_part .mediaType ps _ a h
  rw [named_entries (k := "mediaType") ps (by decide) (by decide) (by decide) (by decide)] at h1
  obtain ⟨h2, h3, h4⟩ := media_loop _ _ _ h1
  refine ⟨h2, fun hall => ?_, h4⟩
  have h5 : a.mediaType = if (ps.filter fun p => p.1.isStr && p.1.value == "mediaType") = []
      then none else some (Option.getD none [] ++ (mediaVals ps).map Node.value) := h3 hall
  rw [h5]
  by_cases he : (ps.filter fun p => p.1.isStr && p.1.value == "mediaType") = []
  · simp [mediaVals, he]
  · have : mediaVals ps ≠ [] := by simpa [mediaVals] using he
    rw [if_neg he, if_neg this]
    rfl

example : ∃ a, parseApi Xyml.std (.map [(.str "mediaType", .str "a"),
    (.str "mediaType", .seq seqTag [.str "b", .str "c"]), (.str "mediaType", .str "d")]) = .ok a ∧
    a.mediaType = some ["b", "c", "d"] := ⟨_, rfl, rfl⟩

/-! ### C38 -/

/-- What a documentation entry is read as: the texts under `title` and `content` (whatever their
tag), everything else an extra facet. -/
structure IsDoc (X : Xyml) (v : Node) (d : Documentation) : Prop where
  isMap : isMap v = true
  title : d.title = ((lastVal "title" (mapEntries v)).map Node.value).getD ""
  content : d.content = ((lastVal "content" (mapEntries v)).map Node.value).getD ""
  extra : ∃ es : List (Scalar × Node),
    List.Forall₂ (fun p e => X.toScalar p.1 = some e.1 ∧ p.2 = e.2)
      ((mapEntries v).filter fun p => p.1.value != "title" && p.1.value != "content") es ∧
    d.extra.ents = lastWins es
  plain : d.extra.omap = false

private theorem doc_field (X : Xyml) (k : String) (π : Documentation → String)
    (hin : ∀ q v s s', q.value = k → Documentation.assign X q v s = .ok s' → π s' = v.value)
    (hout : ∀ q v s s', q.value ≠ k → Documentation.assign X q v s = .ok s' → π s' = π s)
    (hnew : π Documentation.new = "")
    (ps : List (Node × Node)) (d : Documentation)
    (h : forPairs (Documentation.assign X) ps Documentation.new = .ok d) :
    π d = ((lastVal k ps).map Node.value).getD "" := by
  have := forPairs_lastBy (I := fun _ : Documentation => True) π (fun p => p.1.value == k)
    (fun v y => y = v.value) (fun _ _ _ _ _ _ => trivial)
    (fun q v s s' _ hq hs => hin q v s s' (by simpa using hq) hs)
    (fun q v s s' _ hq hs => hout q v s s' (by simpa using hq) hs)
    ps Documentation.new d trivial h
  unfold lastVal
  cases hl : lastBy (fun p => p.1.value == k) ps with
  | none => rw [hl] at this; exact this.trans hnew
  | some v => rw [hl] at this; exact this

theorem loadDocumentation_ok {X : Xyml} {v : Node} {d : Documentation}
    (h : loadDocumentation X v = .ok d) : IsDoc X v d := by
  cases v with
  | scalar a b => cases h
  | seq a b => cases h
  | map ps =>
    replace h : forPairs (Documentation.assign X) ps Documentation.new = .ok d := h
    refine ⟨rfl, ?_, ?_, ?_, ?_⟩
    · refine doc_field X "title" Documentation.title ?_ ?_ rfl ps d h <;>
      · intro q v s s' hq hs
        unfold Documentation.assign at hs
        repeat' split at hs
        all_goals first
          | contradiction
          | (cases hs; rfl)
          | (obtain ⟨_, _, rfl⟩ := Res.map_eq_ok.mp hs; rfl)
    · refine doc_field X "content" Documentation.content ?_ ?_ rfl ps d h <;>
      · intro q v s s' hq hs
        unfold Documentation.assign at hs
        repeat' split at hs
        all_goals first
          | contradiction
          | (cases hs; first | rfl | simp_all)
          | (obtain ⟨_, _, rfl⟩ := Res.map_eq_ok.mp hs; rfl)
    · have key : ∀ (ps : List (Node × Node)) (s s' : Documentation),
          forPairs (Documentation.assign X) ps s = .ok s' →
          ∃ es : List (Scalar × Node),
            List.Forall₂ (fun p e => X.toScalar p.1 = some e.1 ∧ p.2 = e.2)
              (ps.filter fun p => p.1.value != "title" && p.1.value != "content") es ∧
            s'.extra = s.extra.putAll es := by
        intro ps
        induction ps with
        | nil => intro s s' h; cases h; exact ⟨[], .nil, rfl⟩
        | cons p ps ih =>
          intro s s' h
          obtain ⟨s1, h1, h2⟩ := Res.bind_eq_ok.mp h
          obtain ⟨es, h3, h4⟩ := ih s1 s' h2
          unfold Documentation.assign at h1
          split at h1
          · rename_i ht
            cases h1
            exact ⟨es, by simpa [ht] using h3, h4⟩
          · split at h1
            · rename_i _ ht
              cases h1
              exact ⟨es, by simpa [ht] using h3, h4⟩
            · rename_i ht1 ht2
              obtain ⟨x, hx, rfl⟩ := Res.map_eq_ok.mp h1
              unfold asScalar at hx
              split at hx
              · cases hx
                rename_i hx
                refine ⟨(x, p.2) :: es, ?_, h4⟩
                have : (p.1.value != "title" && p.1.value != "content") = true := by
                  simp [ht1, ht2]
                rw [List.filter_cons, if_pos this]
                exact .cons ⟨hx, rfl⟩ h3
              · cases hx
      obtain ⟨es, h3, h4⟩ := key ps _ _ h
      refine ⟨es, h3, ?_⟩
      rw [h4]
      exact OM.empty_putAll_ents es false
    · refine forPairs_inv (I := fun d : Documentation => d.extra.omap = false) ?_ ps _ _ rfl h
      intro k v s s' hs h1
      unfold Documentation.assign at h1
      repeat' split at h1
      · cases h1; exact hs
      · cases h1; exact hs
      · obtain ⟨_, _, rfl⟩ := Res.map_eq_ok.mp h1
        exact hs

/-- C38: parsing keeps the documentation: one entry per element of the sequences under
`documentation`, in order, with title, content and extra facets. -/
theorem C38_parsed_partial (X : Xyml) (ps : List (Node × Node)) (a : APISpec)
    (h : parseApi X (.map ps) = .ok a) :
    (∀ p ∈ ps, p.1.isStr = true → p.1.value = "documentation" → isSeq p.2 = true) ∧
    List.Forall₂ (IsDoc X)
      ((ps.filter fun p => p.1.isStr && p.1.value == "documentation").flatMap
        fun p => seqItems p.2) (listOf a.documentation) := by
  have h1 := api_part .documentation ps _ a h
  rw [named_entries (k := "documentation") ps (by decide) (by decide) (by decide)
    (by decide)] at h1
  have inner : ∀ (ns : List Node) (l l' : Option (List Documentation)),
      forItems (pushDoc X) ns l = .ok l' →
      ∃ ds, List.Forall₂ (IsDoc X) ns ds ∧ listOf l' = listOf l ++ ds := by
    intro ns
    induction ns with
    | nil => intro l l' h; cases h; exact ⟨[], .nil, by simp⟩
    | cons n ns ih =>
      intro l l' h
      obtain ⟨l1, h1, h2⟩ := Res.bind_eq_ok.mp h
      obtain ⟨d, hd, rfl⟩ := Res.map_eq_ok.mp h1
      obtain ⟨ds, h3, h4⟩ := ih _ _ h2
      refine ⟨d :: ds, .cons (loadDocumentation_ok hd) h3, ?_⟩
      rw [h4]
      simp [listOf]
  have outer : ∀ (qs : List (Node × Node)) (l l' : Option (List Documentation)),
      forPairs (fun k v x => apiStep X k v .documentation x) qs l = .ok l' →
      (∀ q ∈ qs, isSeq q.2 = true) ∧
      ∃ ds, List.Forall₂ (IsDoc X) (qs.flatMap fun p => seqItems p.2) ds ∧
        listOf l' = listOf l ++ ds := by
    intro qs
    induction qs with
    | nil => intro l l' h; cases h; exact ⟨by simp, [], .nil, by simp⟩
    | cons q qs ih =>
      intro l l' h
      obtain ⟨l1, h1, h2⟩ := Res.bind_eq_ok.mp h
      replace h1 : seqForEach (pushDoc X) q.2 l = .ok l1 := h1
      obtain ⟨i1, ds, i2, i3⟩ := ih _ _ h2
      cases hq : q.2 with
      | scalar a b => rw [hq] at h1; cases h1
      | map a => rw [hq] at h1; cases h1
      | seq t ns =>
        rw [hq] at h1
        obtain ⟨es, h3, h4⟩ := inner ns l l1 h1
        refine ⟨?_, es ++ ds, ?_, ?_⟩
        · intro r hr
          rcases List.mem_cons.mp hr with rfl | hr
          · rw [hq]; rfl
          · exact i1 r hr
        · rw [List.flatMap_cons, hq]
          exact List.rel_append h3 i2
        · rw [i3, h4, List.append_assoc]
  obtain ⟨h2, ds, h3, h4⟩ := outer _ _ _ h1
  refine ⟨fun p hp hs hk => h2 p (List.mem_filter.mpr ⟨hp, by simp [hs, hk]⟩), ?_⟩
  have h5 : listOf a.documentation = ds := by
    simpa [listOf, apiGet, APISpec.new] using h4
  rw [h5]
  exact h3

/-- Concrete case: two `documentation` sections with three entries between them. -/
example (X : Xyml) (a : APISpec) (x y z : Node) (ha : parseApi X (.map [
      (.str "documentation", .seq seqTag [x, y]), (.str "title", .str "t"),
      (.str "documentation", .seq seqTag [z])]) = .ok a) :
    ∃ d e f, a.documentation = some [d, e, f] ∧ IsDoc X x d ∧ IsDoc X y e ∧ IsDoc X z f := by
  have h : List.Forall₂ (IsDoc X) [x, y, z] (listOf a.documentation) :=
    (C38_parsed_partial X _ a ha).2
  generalize a.documentation = o at h ⊢
  obtain ⟨d, l1, h1, h4, hl⟩ := List.forall₂_cons_left_iff.mp h
  obtain ⟨e, l2, h2, h5, rfl⟩ := List.forall₂_cons_left_iff.mp h4
  obtain ⟨f, l3, h3, h6, rfl⟩ := List.forall₂_cons_left_iff.mp h5
  cases h6
  cases o with
  | none => cases hl
  | some l => exact ⟨d, e, f, congrArg some hl, h1, h2, h3⟩

/-- C38 as stated is false: what is written does not depend on the title, content and extra
facets of the documentation entries at all. -/
theorem C38_written_empty_false (X : Xyml) (a : APISpec) (ds : List Documentation)
    (h : (listOf a.documentation).length = ds.length) (hd : a.documentation ≠ none) :
    APISpec.toYAML X { a with documentation := some ds } = a.toYAML X := by
  have he : ∀ l l' : List Documentation, l.length = l'.length →
      renderList Documentation.toYAML l = renderList Documentation.toYAML l' := by
    intro l l' hl
    unfold renderList
    congr 1
    induction l generalizing l' with
    | nil => cases l' with
      | nil => rfl
      | cons _ _ => simp at hl
    | cons x l ih => cases l' with
      | nil => simp at hl
      | cons y l' =>
        rw [List.map_cons, List.map_cons, ih l' (by simpa using hl)]
        rfl
  cases hc : a.documentation with
  | none => exact absurd hc hd
  | some l =>
    rw [hc] at h
    unfold APISpec.toYAML APISpec.marshal
    simp only [hc, Option.map_some, he l ds h]

example : ∃ a b, parseApi Xyml.std (.map [(.str "documentation", .seq seqTag
      [.map [(.str "title", .str "T"), (.str "content", .str "C")]])]) = .ok a ∧
    parseApi Xyml.std (a.toYAML Xyml.std) = .ok b ∧
    (listOf a.documentation).map (·.title) = ["T"] ∧
    (listOf b.documentation).map (·.title) = [""] := ⟨_, _, rfl, rfl, rfl, rfl⟩

/-! ### C47 -/

/-- C47: the loader of untyped dictionaries: it succeeds iff the node is a mapping with string
keys, and then adds the entries in order. -/
theorem C47_untyped_loader (m m' : OM String Node) (v : Node) :
    loadUntyped m v = .ok m' ↔ isMap v = true ∧ (∀ p ∈ mapEntries v, p.1.isStr = true) ∧
      m' = m.putAll ((mapEntries v).map fun p => (p.1.value, p.2)) := by
  refine ⟨loadUntyped_ok, ?_⟩
  rintro ⟨h1, h2, rfl⟩
  cases v with
  | scalar a b => cases h1
  | seq a b => cases h1
  | map ps =>
    refine (loader_ok Res.ok ps m _).mpr ⟨h2, _, ?_, rfl⟩
    rw [List.forall₂_map_right_iff]
    exact List.forall₂_same.mpr fun p _ => ⟨rfl, rfl⟩

/-- Concrete case: a key that is there already moves to the end. -/
example : loadUntyped ⟨[("a", .str "1"), ("b", .str "2")], true⟩
      (.map [(.str "a", .str "3"), (.str "c", .seq seqTag [])]) =
    .ok ⟨[("b", .str "2"), ("a", .str "3"), ("c", .seq seqTag [])], true⟩ :=
  (C47_untyped_loader _ _ _).mpr ⟨rfl, by simp [mapEntries, Node.str, Node.isStr], rfl⟩

/-- The untyped dictionaries of an API document. -/
inductive UntypedPart : ApiSection → (APISpec → OM String Node) → Prop where
  | securitySchemes : UntypedPart .securitySchemes APISpec.securitySchemes
  | baseUriParameters : UntypedPart .baseUriParameters APISpec.baseURIParameters
  | traits : UntypedPart .traits APISpec.traits
  | annotationTypes : UntypedPart .annotationTypes APISpec.annotationTypes
  | resourceTypes : UntypedPart .resourceTypes APISpec.resourceTypes

/-- C47: an untyped dictionary of an API document holds, per key, the last value in the
mappings given for it, ordered by last occurrence; all keys are strings. -/
theorem C47_untyped_parts (X : Xyml) (ps : List (Node × Node)) (a : APISpec) (s : ApiSection)
    (get : APISpec → OM String Node) (hg : UntypedPart s get)
    (h : parseApi X (.map ps) = .ok a) :
    (∀ q ∈ apiEntries s ps, isMap q.2 = true) ∧ (∀ p ∈ apiInner s ps, p.1.isStr = true) ∧
    (get a).ents = lastWins ((apiInner s ps).map fun p => (p.1.value, p.2)) := by
  have key : ∀ m : OM String Node,
      forPairs (fun _ v m => loadUntyped m v) (apiEntries s ps) (OM.empty false) = .ok m →
      (∀ q ∈ apiEntries s ps, isMap q.2 = true) ∧ (∀ p ∈ apiInner s ps, p.1.isStr = true) ∧
      m.ents = lastWins ((apiInner s ps).map fun p => (p.1.value, p.2)) := by
    intro m hm
    obtain ⟨h1, h2, es, h3, rfl⟩ := (loaders_ok Res.ok _ _ _).mp hm
    refine ⟨h1, h2, ?_⟩
    rw [OM.empty_putAll_ents, forall₂_eq (g := id) (h3.imp fun _ _ h => ⟨h.1, Res.ok.inj h.2⟩)]
    rfl
  have h1 := api_part s ps _ a h
  cases hg <;> exact key _ h1

/-- Concrete case: two `traits` sections that share a name. -/
example : ∃ a, parseApi Xyml.std (.map [(.str "traits", .map [(.str "p", .str "1"),
      (.str "q", .str "2")]), (.str "title", .str "t"),
      (.str "traits", .map [(.str "p", .str "3")])]) = .ok a ∧
    a.traits.ents = [("q", .str "2"), ("p", .str "3")] :=
  ⟨_, rfl, (C47_untyped_parts Xyml.std [(.str "traits", .map [(.str "p", .str "1"),
      (.str "q", .str "2")]), (.str "title", .str "t"),
      (.str "traits", .map [(.str "p", .str "3")])] _ _ _ .traits rfl).2.2⟩

/-- C47: `uses` likewise, the values being strings. -/
theorem C47_uses (X : Xyml) (ps : List (Node × Node)) (a : APISpec)
    (h : parseApi X (.map ps) = .ok a) :
    (∀ q ∈ apiEntries .uses ps, isMap q.2 = true) ∧
    (∀ p ∈ apiInner .uses ps, p.1.isStr = true ∧ p.2.isStr = true) ∧
    a.uses.ents = lastWins ((apiInner .uses ps).map fun p => (p.1.value, p.2.value)) := by
  have h0 := api_part .uses ps _ a h
  obtain ⟨h1, h2, es, h3, h4⟩ := (loaders_ok asString _ _ _).mp h0
  refine ⟨h1, fun p hp => ⟨h2 p hp, ?_⟩, ?_⟩
  · obtain ⟨e, _, he⟩ := forall₂_mem_left h3 hp
    exact (asString_ok he.2).1
  · have h5 : a.uses = (OM.empty false : OM String String).putAll es := h4
    rw [h5, OM.empty_putAll_ents,
      forall₂_eq (g := Node.value) (h3.imp fun _ _ h => ⟨h.1, (asString_ok h.2).2⟩)]
    rfl

/-- Concrete case: the `uses` of the sample document. -/
example (a : APISpec) (ha : parseApi Xyml.std (.map sampleDoc) = .ok a) :
    a.uses.ents = [("x", "x.raml")] := (C47_uses _ _ a ha).2.2

theorem loadType_form (X : Xyml) :
    (fun k v m => loadType X (k, v) m) =
      fun k v (m : OM String DT) => (asString k).bind fun s => (hat X v).map fun x => m.put s x := by
  funext k v m
  unfold loadType
  rfl

/-- C47: `types` and `schemas` together hold, per name, the type given last, ordered by last
occurrence; every definition parses. -/
theorem C47_types (X : Xyml) (ps : List (Node × Node)) (a : APISpec)
    (h : parseApi X (.map ps) = .ok a) :
    (∀ q ∈ apiEntries .types ps, isMap q.2 = true) ∧
    (∀ p ∈ apiInner .types ps, p.1.isStr = true) ∧
    ∃ es : List (String × DT),
      List.Forall₂ (fun p e => p.1.value = e.1 ∧ hat X p.2 = .ok e.2) (apiInner .types ps) es ∧
      a.types.ents = lastWins es := by
  have h0 := api_part .types ps _ a h
  have h0' : forPairs (fun _ v m => mapForEach (fun k v (m : OM String DT) =>
      (asString k).bind fun s => (hat X v).map fun x => m.put s x) v m)
      (apiEntries .types ps) (OM.empty false) = .ok a.types := by
    rw [← loadType_form]
    have : (fun _ v (m : OM String DT) => mapForEach (fun k v m => loadType X (k, v) m) v m) =
        fun (_ : Node) v m => loadTypes X v m := by
      funext _ v m; exact (loadTypes_eq X v m).symm
    rw [this]
    exact h0
  obtain ⟨h1, h2, es, h3, h4⟩ := (loaders_ok (hat X) _ _ _).mp h0'
  refine ⟨h1, h2, es, h3, ?_⟩
  rw [h4, OM.empty_putAll_ents]

/-- Concrete case: `schemas` and `types` of the sample document together. -/
example (a : APISpec) (ha : parseApi Xyml.std (.map sampleDoc) = .ok a) :
    a.types.ents.map (fun e => (e.1, e.2.kind)) = [("T", .string), ("U", .union)] := by
  obtain ⟨es, h1, h2⟩ := (C47_types _ _ a ha).2.2
  obtain ⟨⟨k1, v1⟩, es, ⟨hk1, hv1⟩, h3, rfl⟩ := List.forall₂_cons_left_iff.mp h1
  obtain ⟨⟨k2, v2⟩, es, ⟨hk2, hv2⟩, h4, rfl⟩ := List.forall₂_cons_left_iff.mp h3
  cases h4; cases hk1; cases hv1; cases hk2; cases hv2
  rw [h2]
  rfl

/-- C47: the properties of an object type: per name, the type given last, ordered by last
occurrence; every property parses to an extended type. -/
theorem C47_properties (X : Xyml) (ps : List (Node × Node)) (t : DT)
    (h : hat X (.map ps) = .ok t) (hk : t.kind = .object) :
    (∀ v ∈ allVals "properties" ps, isMap v = true) ∧
    (∀ p ∈ (allVals "properties" ps).flatMap mapEntries, p.1.isStr = true) ∧
    ∃ es : List (String × DT),
      List.Forall₂ (fun p e => p.1.value = e.1 ∧ hat X p.2 = .ok e.2 ∧ e.2.isProperty = true)
        ((allVals "properties" ps).flatMap mapEntries) es ∧
      (properties t).ents = lastWins es := by
  obtain ⟨t0, _, _, hbare, h1, hk0⟩ := hat_map_ok h
  rw [assignAll_eq] at h1
  have hq := facetOf_iff_name (kd := t.kind) (f := .properties) (s := "properties")
    (by rw [hk]; decide) (by decide) (by decide)
  let g : Node → Res DT := fun v => (hat X v).bind fun t =>
    if t.isProperty then .ok t else .panic .notProperty
  have hprop : ∀ v m, loadProps X v m = mapForEach (fun k v (m : OM String DT) =>
      (asString k).bind fun s => (g v).map fun x => m.put s x) v m := by
    intro v m
    rw [loadProps_eq]
    have : (fun k v m => loadProp X (k, v) m) = fun k v (m : OM String DT) =>
        (asString k).bind fun s => (g v).map fun x => m.put s x := by
      funext k v m
      unfold loadProp
      congr 1
      funext s
      simp only [g]
      cases hat X v with
      | ok t =>
        simp only [Res.bind_ok]
        split <;> rfl
      | err e => rfl
      | panic c => rfl
    rw [this]
  have key : ∀ (ps : List (Node × Node)) (s s' : DT), s.kind = t.kind →
      forPairs (fun k v t => assign X (k, v) t) ps s = .ok s' →
      forPairs (fun _ v m => mapForEach (fun k v (m : OM String DT) =>
        (asString k).bind fun s => (g v).map fun x => m.put s x) v m)
        (ps.filter fun p => p.1.value == "properties") (properties s) = .ok (properties s') := by
    intro ps
    induction ps with
    | nil => intro s s' _ h; cases h; rfl
    | cons p ps ih =>
      intro s s' hs h
      obtain ⟨s1, h1, h2⟩ := Res.bind_eq_ok.mp h
      have hi := ih s1 s' ((assign_kind h1).trans hs) h2
      obtain ⟨g1, g2⟩ := assign_ok hs h1
      have hqp : (facetOf t.kind p == Facet.properties) = (p.1.value == "properties") :=
        congrFun hq p
      cases hp : (p.1.value == "properties") with
      | true =>
        rw [hp] at hqp
        have hf : facetOf t.kind (p.1, p.2) = .properties := by simpa using hqp
        rw [hf] at g1
        replace g1 : loadProps X p.2 (properties s) = .ok (properties s1) := g1
        rw [hprop] at g1
        simp only [List.filter_cons, hp, if_true, forPairs]
        rw [g1]
        exact hi
      | false =>
        rw [hp] at hqp
        have hf : Facet.properties ≠ facetOf t.kind (p.1, p.2) := by
          intro he
          rw [show facetOf t.kind p = Facet.properties from he.symm] at hqp
          simp at hqp
        have he : properties s1 = properties s := g2 .properties hf
        simp only [List.filter_cons, hp, Bool.false_eq_true, if_false]
        rw [← he]
        exact hi
  obtain ⟨h2, h3, es, h4, h5⟩ := (loaders_ok g _ _ _).mp (key ps t0 t hk0.symm h1)
  have hflat : (allVals "properties" ps).flatMap mapEntries =
      (ps.filter fun p => p.1.value == "properties").flatMap fun q => mapEntries q.2 := by
    unfold allVals
    rw [List.flatMap_map]
  refine ⟨?_, ?_, es, ?_, ?_⟩
  · intro v hv
    obtain ⟨p, hp, rfl⟩ := List.mem_map.mp hv
    exact h2 p hp
  · rw [hflat]; exact h3
  · rw [hflat]
    refine h4.imp fun p e he => ⟨he.1, ?_⟩
    obtain ⟨u, hu, hu2⟩ := Res.bind_eq_ok.mp he.2
    split at hu2
    · cases hu2; exact ⟨hu, by assumption⟩
    · cases hu2
  · rw [h5, OM.putAll_ents, hbare.properties]
    simp

example : ∃ a, parseApi Xyml.std (.map [(.str "uses", .map [(.str "x", .str "1"),
      (.str "y", .str "2")]), (.str "uses", .map [(.str "x", .str "3")])]) = .ok a ∧
    a.uses.ents = [("y", "2"), ("x", "3")] := ⟨_, rfl, rfl⟩

end Verif.Props
