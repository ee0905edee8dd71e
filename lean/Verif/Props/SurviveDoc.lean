import Verif.Props.Survive

/-! # C93, for documents -/

namespace Verif.Props
open Verif Verif.Doc Verif.Doc.Spec

/-! ### API documents -/

/-- The types a document declares, under `types` and `schemas`. -/
def declaredTypes (ps : List (Node × Node)) : List (Node × Node) :=
  (ps.filter fun p => p.1.value == "types" || p.1.value == "schemas").flatMap
    fun p => mapEntries p.2

/-- No key and no type name is given twice. -/
structure DocPlain (ps : List (Node × Node)) : Prop where
  keys : UniqueKeys ps
  names : UniqueKeys (declaredTypes ps)
  types : ∀ q ∈ declaredTypes ps, TypePlain q.2

/-- A document that survives: no annotations, and types that survive. -/
structure DocKept (X : Xyml) (ps : List (Node × Node)) : Prop where
  annotations : ∀ p ∈ ps, startsWith '(' p.1 = false
  types : ∀ q ∈ declaredTypes ps, TypeKept X q.2

/-- The elements of its documentation. -/
def docItems (ps : List (Node × Node)) : List Node :=
  (ps.filter fun p => p.1.value == "documentation").flatMap fun p => seqItems p.2

/-- A documentation element that says nothing. -/
def DocEmpty (v : Node) : Prop :=
  ∀ p ∈ mapEntries v, (p.1.value = "title" ∨ p.1.value = "content") ∧ p.2.value = ""

instance (v : Node) : Decidable (DocEmpty v) := inferInstanceAs (Decidable (∀ p ∈ mapEntries v, _))

private theorem canonAnns_nil {m : OM String Ann} (h : m.omap = false) (hm : m.ents = []) :
    canonAnns false m = m := by
  obtain ⟨es, o⟩ := m
  simp only at h hm
  subst h hm
  rfl

private theorem api_inner_types {ps : List (Node × Node)} (hk : ∀ p ∈ ps, p.1.isStr = true) :
    apiInner .types ps = declaredTypes ps := by
  unfold apiInner declaredTypes apiEntries
  congr 1
  apply List.filter_congr
  intro p hp
  have hs := hk p hp
  unfold apiSectionOf
  by_cases h1 : p.1.value = "types"
  · simp [startsWith, h1, hs, apiKeys, List.lookup]
  by_cases h2 : p.1.value = "schemas"
  · simp [startsWith, h2, hs, apiKeys, List.lookup]
  have hne : ∀ s, apiKeys.lookup p.1.value = some s → s ≠ .types := by
    intro s hl hst
    simp only [apiKeys, List.lookup] at hl
    repeat' split at hl
    all_goals simp_all
  simp only [h1, h2, hs, if_true, Bool.or_false, beq_eq_false_iff_ne.mpr,
    ne_eq, not_false_eq_true]
  repeat' split
  · rfl
  · rfl
  · cases hl : apiKeys.lookup p.1.value with
    | none => rfl
    | some s => simpa using hne s hl

private theorem uniq_types {X : Xyml} {qs : List (Node × Node)} {es : List (String × DT)}
    (hu : UniqueKeys qs)
    (h : List.Forall₂ (fun p e => p.1.value = e.1 ∧ hat X p.2 = .ok e.2) qs es) :
    lastWins es = es := by
  apply lastWins_id
  have : es.map Prod.fst = qs.map fun p => p.1.value := forall2_keys h fun _ _ h => h.1
  rw [this]
  exact hu.2

/-- What follows for the parsed document. -/
private theorem api_tidy {X : Xyml} (hX : Lawful X) {ps : List (Node × Node)} {a : APISpec}
    (h : parseApi X (.map ps) = .ok a) (hpl : DocPlain ps) :
    TidyApi a ∧ ((∀ e ∈ a.types.ents, Writable e.2) ↔ ∀ q ∈ declaredTypes ps, TypeKept X q.2) ∧
    ((∀ e ∈ a.types.ents, Writable e.2) → ((∀ e ∈ a.types.ents, canon e.2 = e.2) ↔
      ∀ q ∈ declaredTypes ps, TypeNoXml q.2)) ∧
    (a.annotations.ents = [] ↔ ∀ p ∈ ps, startsWith '(' p.1 = false) := by
  obtain ⟨_, _, es, h1, h2⟩ := C47_types X ps a h
  rw [api_inner_types hpl.keys.1] at h1
  rw [uniq_types hpl.names h1] at h2
  have hR : ∀ e ∈ a.types.ents, ∃ q ∈ declaredTypes ps, hat X q.2 = .ok e.2 := by
    intro e he
    rw [h2] at he
    obtain ⟨q, hq, h3⟩ := forall2_right h1 e he
    exact ⟨q, hq, h3.2⟩
  have hL : ∀ q ∈ declaredTypes ps, ∃ e ∈ a.types.ents, hat X q.2 = .ok e.2 := by
    intro q hq
    rw [h2]
    obtain ⟨e, he, h3⟩ := forall2_left h1 q hq
    exact ⟨e, he, h3.2⟩
  have hS : ∀ q ∈ declaredTypes ps, ∀ t, hat X q.2 = .ok t → Tidy t ∧
      (Writable t ↔ TypeKept X q.2) ∧ (Writable t → (canon t = t ↔ TypeNoXml q.2)) :=
    fun q hq t ht => type_survives hX _ q.2 (Nat.lt_succ_self _) t ht (hpl.types q hq)
  refine ⟨⟨?_, ?_⟩, ⟨?_, ?_⟩, ?_, ?_⟩
  · intro p hp s hs
    obtain ⟨xs, h3, h4⟩ := C35_extra_facets X ps a h
    rw [h4] at hp
    obtain ⟨q, hq, h5, _⟩ := forall2_right h3 p (mem_lastWins hp)
    obtain ⟨hq1, hq2⟩ := List.mem_filter.mp hq
    have hq3 := hpl.keys.1 q hq1
    have hq4 : s = q.1.value := by
      rw [str_of_isStr hq3, ← hX.ofKey_str, hX.toScalar_ofKey, hs] at h5
      cases h5; rfl
    simp only [isApiExtra, hq3, startsWith, Bool.not_true, Bool.false_or, Bool.and_eq_true,
      Bool.true_and, Bool.not_eq_true', beq_eq_false_iff_ne] at hq2
    obtain ⟨⟨k1, k2⟩, k3⟩ := hq2
    rw [hq4]
    refine ⟨by simpa using k3, ?_, k1, k2⟩
    intro he
    have hacc := ((C55_api_accepted X _).mp ⟨a, h⟩).2 q hq1
    have hse : apiSectionOf q = .extra := by
      unfold apiSectionOf
      rw [if_neg (by simp [startsWith, he]), if_neg (by simp [startsWith, he]), if_pos hq3, he]
      rfl
    rw [hse] at hacc
    exact hacc.1 (by rw [str_of_isStr hq3, he])
  · intro e he
    obtain ⟨q, hq, h3⟩ := hR e he
    exact (hS q hq _ h3).1
  · intro hw q hq
    obtain ⟨e, he, h3⟩ := hL q hq
    exact (hS q hq _ h3).2.1.mp (hw e he)
  · intro hk e he
    obtain ⟨q, hq, h3⟩ := hR e he
    exact (hS q hq _ h3).2.1.mpr (hk q hq)
  · intro hw
    constructor
    · intro hc q hq
      obtain ⟨e, he, h3⟩ := hL q hq
      exact ((hS q hq _ h3).2.2 (hw e he)).mp (hc e he)
    · intro hk e he
      obtain ⟨q, hq, h3⟩ := hR e he
      exact ((hS q hq _ h3).2.2 (hw e he)).mpr (hk q hq)
  · obtain ⟨xs, h3, h4⟩ := C35_annotations X ps a h
    rw [h4, lastWins_nil_iff, forall2_nil_iff h3, List.filter_eq_nil_iff]
    simp

/-- C93: what is written for an API document can be read again exactly if the document has no
annotations and only types that survive. -/
theorem C93_api_survives (X : Xyml) (hX : Lawful X) (ps : List (Node × Node)) (a : APISpec)
    (h : parseApi X (.map ps) = .ok a) (hpl : DocPlain ps) :
    (∃ b, parseApi X (a.toYAML X) = .ok b) ↔ DocKept X ps := by
  obtain ⟨h1, h2, _, h4⟩ := api_tidy hX h hpl
  constructor
  · rintro ⟨b, hb⟩
    obtain ⟨hw, hann⟩ := api_writable_of_reread hX h h1 hb
    exact ⟨h4.mp hann, h2.mp hw.typesEach⟩
  · rintro ⟨k1, k2⟩
    exact ⟨_, parseApi_toYAML hX
      (api_writable (parseApi_parsed hX h) h1 (h4.mpr k1) (h2.mpr k2))⟩

/-- An API document that survives, but loses its documentation and the settings of its type. -/
def keptApi : List (Node × Node) :=
  [(.str "title", .str "T"), (.str "schemas", .map [(.str "Pet", keptDef)]),
    (.str "documentation", .seq seqTag [.map [(.str "title", .str "Home")]]),
    (.str "/pets", .map [])]

theorem keptApi_plain : DocPlain keptApi where
  keys := by decide +kernel
  names := by decide +kernel
  types q hq := by rw [List.mem_singleton.mp hq]; exact keptDef_plain

theorem keptApi_kept : DocKept Xyml.std keptApi where
  annotations := by decide +kernel
  types q hq := by rw [List.mem_singleton.mp hq]; exact keptDef_kept

example : ∃ a, parseApi Xyml.std (.map keptApi) = .ok a ∧
    ∃ b, parseApi Xyml.std (a.toYAML Xyml.std) = .ok b :=
  ⟨_, rfl, (C93_api_survives _ Xyml.std_lawful keptApi _ rfl keptApi_plain).mpr keptApi_kept⟩

/-- One with an annotation does not survive. -/
example : ∃ a, parseApi Xyml.std (.map (keptApi ++ [(.str "(note)", .map [])])) = .ok a ∧
    ¬ ∃ b, parseApi Xyml.std (a.toYAML Xyml.std) = .ok b :=
  ⟨_, rfl, fun h => absurd
    (((C93_api_survives _ Xyml.std_lawful (keptApi ++ [(.str "(note)", .map [])]) _ rfl
      ⟨by decide +kernel, by decide +kernel,
        fun q hq => by rw [List.mem_singleton.mp hq]; exact keptDef_plain⟩).mp h).annotations
      (.str "(note)", .map []) (by simp)) (by decide +kernel)⟩

private theorem doc_new_iff {X : Xyml} {v : Node} {d : Documentation} (h : IsDoc X v d)
    (hu : UniqueKeys (mapEntries v)) : Documentation.new = d ↔ DocEmpty v := by
  have hval : ∀ k, (((lastVal k (mapEntries v)).map Node.value).getD "" = "" ↔
      ∀ p ∈ mapEntries v, p.1.value = k → p.2.value = "") := by
    intro k
    cases hl : lastVal k (mapEntries v) with
    | none =>
      refine ⟨fun _ p hp hk => ?_, fun _ => rfl⟩
      rw [(uniq_lastVal hu k p.2).mpr ⟨p, hp, hk, rfl⟩] at hl
      cases hl
    | some w =>
      refine ⟨fun h p hp hk => ?_, fun h => ?_⟩
      · rw [(uniq_lastVal hu k p.2).mpr ⟨p, hp, hk, rfl⟩] at hl
        cases hl
        exact h
      · obtain ⟨p, hp, hk, rfl⟩ := (uniq_lastVal hu k w).mp hl
        exact h p hp hk
  obtain ⟨es, h1, h2⟩ := h.extra
  have hx : d.extra.ents = [] ↔
      ∀ p ∈ mapEntries v, p.1.value = "title" ∨ p.1.value = "content" := by
    rw [h2, lastWins_nil_iff, forall2_nil_iff h1, List.filter_eq_nil_iff]
    simp only [Bool.and_eq_true, bne_iff_ne, ne_eq, not_and, Decidable.not_not]
    exact forall₂_congr fun p _ => ⟨fun h => by tauto, fun h => by tauto⟩
  have hd : Documentation.new = d ↔ d.title = "" ∧ d.content = "" ∧ d.extra.ents = [] := by
    constructor
    · rintro rfl; exact ⟨rfl, rfl, rfl⟩
    · rintro ⟨k1, k2, k3⟩
      have k4 := h.plain
      obtain ⟨t, c, ⟨e, o⟩⟩ := d
      simp only at k1 k2 k3 k4
      subst k1 k2 k3 k4
      rfl
  rw [hd, h.title, h.content, hval, hval, hx]
  constructor
  · rintro ⟨k1, k2, k3⟩ p hp
    refine ⟨k3 p hp, ?_⟩
    rcases k3 p hp with hk | hk
    · exact k1 p hp hk
    · exact k2 p hp hk
  · intro hk
    exact ⟨fun p hp _ => (hk p hp).2, fun p hp _ => (hk p hp).2, fun p hp => (hk p hp).1⟩

/-- C93: it is read as the same document exactly if in addition its types have no XML settings and
its documentation says nothing. -/
theorem C93_api_lossless (X : Xyml) (hX : Lawful X) (ps : List (Node × Node)) (a : APISpec)
    (h : parseApi X (.map ps) = .ok a) (hpl : DocPlain ps)
    (hdoc : ∀ v ∈ docItems ps, UniqueKeys (mapEntries v)) :
    parseApi X (a.toYAML X) = .ok a ↔ DocKept X ps ∧
      (∀ q ∈ declaredTypes ps, TypeNoXml q.2) ∧ ∀ v ∈ docItems ps, DocEmpty v := by
  obtain ⟨h1, h2, h3, h4⟩ := api_tidy hX h hpl
  have hp := parseApi_parsed hX h
  have hd : (canonApi a).documentation = a.documentation ↔ ∀ v ∈ docItems ps, DocEmpty v := by
    obtain ⟨_, hds⟩ := C38_parsed_partial X ps a h
    have hit : ((ps.filter fun p => p.1.isStr && p.1.value == "documentation").flatMap
        fun p => seqItems p.2) = docItems ps := by
      unfold docItems
      congr 1
      apply List.filter_congr
      intro p hp
      rw [hpl.keys.1 p hp]; rfl
    rw [hit] at hds
    have key : ∀ {ns : List Node} {ds : List Documentation}, List.Forall₂ (IsDoc X) ns ds →
        (∀ v ∈ ns, UniqueKeys (mapEntries v)) →
        ((ds.map fun _ => Documentation.new) = ds ↔ ∀ v ∈ ns, DocEmpty v) := by
      intro ns ds hf
      induction hf with
      | nil => intro _; simp
      | cons k1 _ ih =>
        intro hu
        rw [List.map_cons, List.cons.injEq, doc_new_iff k1 (hu _ (by simp)),
          ih fun v hv => hu v (by simp [hv])]
        simp
    rw [← key hds hdoc]
    unfold canonApi
    cases hdo : a.documentation with
    | none => simp [listOf]
    | some l =>
      cases l with
      | nil => exact absurd hdo hp.documentation
      | cons d ds => simp [listOf]
  have hc : a.annotations.ents = [] → (∀ e ∈ a.types.ents, Writable e.2) →
      (canonApi a = a ↔ (∀ q ∈ declaredTypes ps, TypeNoXml q.2) ∧ ∀ v ∈ docItems ps, DocEmpty v) := by
    intro hann hty
    rw [← h3 hty, ← canonTypes_id hp.types.1, ← hd]
    constructor
    · intro he
      exact ⟨congrArg APISpec.types he, congrArg APISpec.documentation he⟩
    · rintro ⟨k1, k2⟩
      have ha := canonAnns_nil hp.annotations.omap hann
      have e1 := plainMap_of_flag hp.uses.1
      have e2 := plainMap_of_flag hp.securitySchemes.1
      have e3 := plainMap_of_flag hp.baseURIParameters.1
      have e4 := plainMap_of_flag hp.traits.1
      have e5 := plainMap_of_flag hp.annotationTypes.1
      have e6 := plainMap_of_flag hp.resourceTypes.1
      have e7 := plainMap_of_flag hp.resources.1
      have e8 := plainMap_of_flag hp.extra.1
      unfold canonApi at k2 ⊢
      rw [k1, ha, e1, e2, e3, e4, e5, e6, e7, e8]
      simp only at k2
      rw [k2]
  constructor
  · intro hb
    obtain ⟨hw, hann⟩ := api_writable_of_reread hX h h1 hb
    refine ⟨⟨h4.mp hann, h2.mp hw.typesEach⟩, (hc hann hw.typesEach).mp ?_⟩
    rw [parseApi_toYAML hX hw] at hb
    exact Res.ok.inj hb
  · rintro ⟨⟨k1, k2⟩, k3⟩
    have hw := api_writable hp h1 (h4.mpr k1) (h2.mpr k2)
    rw [parseApi_toYAML hX hw, (hc (h4.mpr k1) (h2.mpr k2)).mpr k3]

/-- The document that survives is not the same afterwards; without the documentation text and with
a type without XML settings it is. -/
example : ∃ a, parseApi Xyml.std (.map keptApi) = .ok a ∧
    parseApi Xyml.std (a.toYAML Xyml.std) ≠ .ok a :=
  ⟨_, rfl, fun h => absurd
    (((C93_api_lossless _ Xyml.std_lawful keptApi _ rfl keptApi_plain (by decide +kernel)).mp
      h).2.2 _ (.head _) _ (.head _)).2 (by decide +kernel)⟩

example : ∃ a, parseApi Xyml.std (.map [(.str "version", .str "1"),
      (.str "types", .map [(.str "Pet", .str "string")]),
      (.str "documentation", .seq seqTag [.map [(.str "title", .str "")], .map []])]) = .ok a ∧
    parseApi Xyml.std (a.toYAML Xyml.std) = .ok a :=
  ⟨_, rfl, (C93_api_lossless _ Xyml.std_lawful [(.str "version", .str "1"),
      (.str "types", .map [(.str "Pet", .str "string")]),
      (.str "documentation", .seq seqTag [.map [(.str "title", .str "")], .map []])] _ rfl
    ⟨by decide +kernel, by decide +kernel, fun q hq => by
      rw [List.mem_singleton.mp hq]
      exact allDefs_sound (p := fun n => decide (DefPlain n)) (fun _ h => of_decide_eq_true h) 1 _
        (by decide +kernel)⟩ (by decide +kernel)).mpr
    ⟨⟨by decide +kernel, fun q hq => by
      rw [List.mem_singleton.mp hq]
      exact allDefs_sound (p := fun n => decide (DefKept Xyml.std n))
        (fun _ h => of_decide_eq_true h) 1 _ (by decide +kernel)⟩, fun q hq => by
      rw [List.mem_singleton.mp hq]
      exact allDefs_sound (p := fun n => decide (DefNoXml n))
        (fun _ h => of_decide_eq_true h) 1 _ (by decide +kernel), by decide +kernel⟩⟩

/-! ### Libraries -/

private theorem lib_inner_types (ps : List (Node × Node)) :
    libInner .types ps = declaredTypes ps := by
  unfold libInner declaredTypes libEntries
  congr 1
  apply List.filter_congr
  intro p hp
  unfold libSectionOf
  by_cases h1 : p.1.value = "types"
  · simp [h1, libKeys, List.lookup]
  by_cases h2 : p.1.value = "schemas"
  · simp [h2, libKeys, List.lookup]
  have hne : ∀ s, libKeys.lookup p.1.value = some s → s ≠ .types := by
    intro s hl hst
    simp only [libKeys, List.lookup] at hl
    repeat' split at hl
    all_goals simp_all
  simp only [h1, h2, Bool.or_false, beq_eq_false_iff_ne.mpr, ne_eq, not_false_eq_true]
  split
  · rename_i s hl; simpa using hne s hl
  · split <;> rfl

private theorem lib_tidy {X : Xyml} (hX : Lawful X) {ps : List (Node × Node)} {a : Library}
    (h : parseLibrary X (some (.map ps)) = .ok a) (hpl : DocPlain ps)
    (hat : ∀ p ∈ ps, p.1.value = "annotationTypes" → mapEntries p.2 = []) :
    TidyLib a ∧ ((∀ e ∈ a.types.ents, Writable e.2) ↔ ∀ q ∈ declaredTypes ps, TypeKept X q.2) ∧
    ((∀ e ∈ a.types.ents, Writable e.2) → ((∀ e ∈ a.types.ents, canon e.2 = e.2) ↔
      ∀ q ∈ declaredTypes ps, TypeNoXml q.2)) ∧
    (a.annotations.ents = [] ↔ ∀ p ∈ ps, startsWith '(' p.1 = false) := by
  obtain ⟨_, _, es, h1, h2⟩ := C45_types X ps a h
  rw [lib_inner_types] at h1
  rw [uniq_types hpl.names h1] at h2
  obtain ⟨_, as, ha1, ha2⟩ := C44_annotation_types_false X ps a h
  have hsrc : ∀ q, q ∈ libAnnSources ps ↔ q ∈ ps ∧ startsWith '(' q.1 = true := by
    intro q
    unfold libAnnSources
    rw [List.mem_flatMap]
    constructor
    · rintro ⟨p, hp, hq⟩
      split at hq
      · rename_i hv; rw [hat p hp hv] at hq; cases hq
      · split at hq
        · rw [List.mem_singleton.mp hq]; exact ⟨hp, by assumption⟩
        · cases hq
    · rintro ⟨hq, hs⟩
      refine ⟨q, hq, ?_⟩
      rw [if_neg, if_pos hs]
      · simp
      · intro hv; simp [startsWith, hv] at hs
  have hR : ∀ e ∈ a.types.ents, ∃ q ∈ declaredTypes ps, Doc.hat X q.2 = .ok e.2 := by
    intro e he
    rw [h2] at he
    obtain ⟨q, hq, h3⟩ := forall2_right h1 e he
    exact ⟨q, hq, h3.2⟩
  have hL : ∀ q ∈ declaredTypes ps, ∃ e ∈ a.types.ents, Doc.hat X q.2 = .ok e.2 := by
    intro q hq
    rw [h2]
    obtain ⟨e, he, h3⟩ := forall2_left h1 q hq
    exact ⟨e, he, h3.2⟩
  have hS : ∀ q ∈ declaredTypes ps, ∀ t, Doc.hat X q.2 = .ok t → Tidy t ∧
      (Writable t ↔ TypeKept X q.2) ∧ (Writable t → (canon t = t ↔ TypeNoXml q.2)) :=
    fun q hq t ht => type_survives hX _ q.2 (Nat.lt_succ_self _) t ht (hpl.types q hq)
  refine ⟨⟨?_, ?_, ?_⟩, ⟨?_, ?_⟩, ?_, ?_⟩
  · intro p hp s hs
    obtain ⟨xs, h3, h4⟩ := C45_extra_facets X ps a h
    rw [h4] at hp
    obtain ⟨q, hq, h5, _⟩ := forall2_right h3 p (mem_lastWins hp)
    obtain ⟨hq1, hq2⟩ := List.mem_filter.mp hq
    have hq3 := hpl.keys.1 q hq1
    have hq4 : s = q.1.value := by
      rw [str_of_isStr hq3, ← hX.ofKey_str, hX.toScalar_ofKey, hs] at h5
      cases h5; rfl
    simp only [isLibExtra, hq3, startsWith, Bool.and_eq_true,
      Bool.true_and, Bool.not_eq_true', beq_eq_false_iff_ne] at hq2
    obtain ⟨k1, k2⟩ := hq2
    rw [hq4]
    refine ⟨by simpa using k1, ?_, k2⟩
    intro he
    have hacc := ((C56_library_accepted X _).mp ⟨a, h⟩ _ rfl).2 q hq1
    have hse : libSectionOf q = .extra := by
      unfold libSectionOf
      rw [he]
      simp [libKeys, List.lookup, startsWith, he]
    rw [hse] at hacc
    exact hacc.1 (by rw [str_of_isStr hq3, he])
  · intro e he
    rw [ha2] at he
    obtain ⟨q, hq, h3, _⟩ := forall2_right ha1 e (mem_lastWins he)
    have := ((hsrc q).mp hq).2
    simp only [startsWith, Bool.and_eq_true, beq_iff_eq] at this
    rw [← h3, this.2]
  · intro e he
    obtain ⟨q, hq, h3⟩ := hR e he
    exact (hS q hq _ h3).1
  · intro hw q hq
    obtain ⟨e, he, h3⟩ := hL q hq
    exact (hS q hq _ h3).2.1.mp (hw e he)
  · intro hk e he
    obtain ⟨q, hq, h3⟩ := hR e he
    exact (hS q hq _ h3).2.1.mpr (hk q hq)
  · intro hw
    constructor
    · intro hc q hq
      obtain ⟨e, he, h3⟩ := hL q hq
      exact ((hS q hq _ h3).2.2 (hw e he)).mp (hc e he)
    · intro hk e he
      obtain ⟨q, hq, h3⟩ := hR e he
      exact ((hS q hq _ h3).2.2 (hw e he)).mpr (hk q hq)
  · rw [ha2, lastWins_nil_iff, forall2_nil_iff ha1, List.eq_nil_iff_forall_not_mem]
    simp only [hsrc, not_and, Bool.not_eq_true]

/-- C93, for libraries without annotation types (those are read as annotations, C44). -/
theorem C93_library_survives (X : Xyml) (hX : Lawful X) (ps : List (Node × Node)) (a : Library)
    (h : parseLibrary X (some (.map ps)) = .ok a) (hpl : DocPlain ps)
    (hat : ∀ p ∈ ps, p.1.value = "annotationTypes" → mapEntries p.2 = []) :
    (∃ b, parseLibrary X (some (a.toYAML X)) = .ok b) ↔ DocKept X ps := by
  obtain ⟨h1, h2, _, h4⟩ := lib_tidy hX h hpl hat
  constructor
  · rintro ⟨b, hb⟩
    obtain ⟨hw, hann⟩ := lib_writable_of_reread hX h h1 hb
    exact ⟨h4.mp hann, h2.mp hw.typesEach⟩
  · rintro ⟨k1, k2⟩
    exact ⟨_, parseLibrary_toYAML hX
      (lib_writable (parseLibrary_parsed hX h) h1 (h4.mpr k1) (h2.mpr k2))⟩

example : ∃ a, parseLibrary Xyml.std (some (.map [(.str "usage", .str "u"),
      (.str "types", .map [(.str "Pet", keptDef)])])) = .ok a ∧
    ∃ b, parseLibrary Xyml.std (some (a.toYAML Xyml.std)) = .ok b :=
  ⟨_, rfl, (C93_library_survives _ Xyml.std_lawful [(.str "usage", .str "u"),
      (.str "types", .map [(.str "Pet", keptDef)])] _ rfl
    ⟨by decide +kernel, by decide +kernel, fun q hq => by
      rw [List.mem_singleton.mp hq]; exact keptDef_plain⟩ (by simp [Node.str, Node.value])).mpr
    ⟨by decide +kernel, fun q hq => by rw [List.mem_singleton.mp hq]; exact keptDef_kept⟩⟩

/-- C93: it is read as the same library exactly if in addition its types have no XML settings. -/
theorem C93_library_lossless (X : Xyml) (hX : Lawful X) (ps : List (Node × Node)) (a : Library)
    (h : parseLibrary X (some (.map ps)) = .ok a) (hpl : DocPlain ps)
    (hat : ∀ p ∈ ps, p.1.value = "annotationTypes" → mapEntries p.2 = []) :
    parseLibrary X (some (a.toYAML X)) = .ok a ↔
      DocKept X ps ∧ ∀ q ∈ declaredTypes ps, TypeNoXml q.2 := by
  obtain ⟨h1, h2, h3, h4⟩ := lib_tidy hX h hpl hat
  have hp := parseLibrary_parsed hX h
  have hc : a.annotations.ents = [] → (∀ e ∈ a.types.ents, Writable e.2) →
      (canonLib a = a ↔ ∀ q ∈ declaredTypes ps, TypeNoXml q.2) := by
    intro hann hty
    rw [← h3 hty, ← canonTypes_id hp.types.1]
    constructor
    · intro he
      exact congrArg Library.types he
    · intro k1
      have ha := canonAnns_nil hp.annotations.1 hann
      have e1 := plainMap_of_flag hp.uses.1
      have e2 := plainMap_of_flag hp.securitySchemes.1
      have e4 := plainMap_of_flag hp.traits.1
      have e6 := plainMap_of_flag hp.resourceTypes.1
      have e8 := plainMap_of_flag hp.extra.1
      unfold canonLib
      rw [k1, ha, e1, e2, e4, e6, e8, ← hp.annotationTypes]
  constructor
  · intro hb
    obtain ⟨hw, hann⟩ := lib_writable_of_reread hX h h1 hb
    refine ⟨⟨h4.mp hann, h2.mp hw.typesEach⟩, (hc hann hw.typesEach).mp ?_⟩
    rw [parseLibrary_toYAML hX hw] at hb
    exact Res.ok.inj hb
  · rintro ⟨⟨k1, k2⟩, k3⟩
    have hw := lib_writable hp h1 (h4.mpr k1) (h2.mpr k2)
    rw [parseLibrary_toYAML hX hw, (hc (h4.mpr k1) (h2.mpr k2)).mpr k3]

example : ∃ a, parseLibrary Xyml.std (some (.map [(.str "usage", .str "u"),
      (.str "types", .map [(.str "Pet", keptDef)])])) = .ok a ∧
    parseLibrary Xyml.std (some (a.toYAML Xyml.std)) ≠ .ok a :=
  ⟨_, rfl, fun h => keptDef_xml (((C93_library_lossless _ Xyml.std_lawful [(.str "usage", .str "u"),
      (.str "types", .map [(.str "Pet", keptDef)])] _ rfl
    ⟨by decide +kernel, by decide +kernel, fun q hq => by
      rw [List.mem_singleton.mp hq]; exact keptDef_plain⟩ (by simp [Node.str, Node.value])).mp h).2
      (.str "Pet", keptDef) (.head _))⟩

end Verif.Props
