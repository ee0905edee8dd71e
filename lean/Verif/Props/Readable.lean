import Verif.Doc.ReadableApi

/-!
# C95: exactly which values parsing produces

The parser maps YAML documents to data types, API documents and libraries.  These theorems say
what its image is: `Readable`, `ReadableApi` and `ReadableLib` (`Verif/Doc/ReadableSpec.lean`) are
conditions on the value alone.
-/

namespace Verif.Props
open Verif Verif.Doc Verif.Doc.Spec

/-- A data type comes out of `TypeSortingHat` for some YAML node exactly if it is readable. -/
theorem C95_types {X : Xyml} (hX : Lawful X) (t : DT) :
    (∃ n, hat X n = .ok t) ↔ Readable X t :=
  ⟨fun ⟨_, h⟩ => hat_readable hX h, readable_hat hX⟩

/-- A string type of another name, not required, with an extra facet under the empty key and a
minimum length of 2^64-1: it is read from some document. -/
example : ∃ n, hat Xyml.std n = .ok (.ext
    { Hdr.new .string with schema := "Name", required := false, extra := ⟨[(.str "", .str "x")], true⟩ }
    (.string ⟨some "a*", 18446744073709551615, none⟩) ⟨[], true⟩ ⟨[], false⟩ none) := by
  refine (C95_types Xyml.std_lawful _).mpr (.ext ?_ ?_ rfl List.nodup_nil (fun _ h => (nomatch h))
    (fun _ h => (nomatch h)) rfl List.nodup_nil (fun h => absurd rfl h) (fun _ h => (nomatch h))
    (fun _ h => (nomatch h)) (fun h => absurd rfl h) (fun _ h => (nomatch h)))
  · refine ⟨⟨rfl, by simp [Distinct], ?_⟩, ⟨rfl, List.nodup_nil, fun _ h => (nomatch h),
      fun _ h => (nomatch h)⟩, rfl, fun _ h => (nomatch h), fun _ h => (nomatch h), rfl,
      List.nodup_nil, fun _ h => (nomatch h), fun _ h => (nomatch h)⟩
    intro p hp
    rw [List.mem_singleton] at hp
    subst hp
    exact ⟨"", rfl, by decide⟩
  · refine ⟨?_, fun n h => (nomatch h)⟩
    show 18446744073709551615 < 18446744073709551616
    decide

/-- No document is read as a string type with an extra facet called `pattern`. -/
example (h : Hdr) (f : StringF) (v : Node) :
    ¬ ∃ n, hat Xyml.std n = .ok (.ext { h with extra := ⟨[(.str "pattern", v)], true⟩ } (.string f)
      ⟨[], true⟩ ⟨[], false⟩ none) := by
  rw [C95_types Xyml.std_lawful]
  rintro (_ | ⟨hh, -⟩)
  obtain ⟨s, hs, hn⟩ := hh.extra.keys (.str "pattern", v) (by simp)
  cases hs
  exact hn (show "pattern" ∈ facetNames .string by decide)

/-- No document is read as an integer type with minimum 2^63, or as a type with a default. -/
example (h : Hdr) (fs : OM String (OM String DT)) (ps : OM String DT) (it : Option DT) :
    ¬ ∃ n, hat Xyml.std n =
      .ok (.ext h (.integer ⟨none, some 9223372036854775808, none, none⟩) fs ps it) := by
  rw [C95_types Xyml.std_lawful]
  rintro (_ | ⟨_, hb, -⟩)
  exact absurd (hb.1 _ rfl).2 (by decide)

example (h : Hdr) (v : Node) (b : Body) (fs : OM String (OM String DT)) (ps : OM String DT)
    (it : Option DT) : ¬ ∃ n, hat Xyml.std n = .ok (.ext { h with dflt := some v } b fs ps it) := by
  rw [C95_types Xyml.std_lawful]
  rintro (_ | ⟨hh, -⟩)
  cases hh.dflt

/-- An API document comes out of `ParseApiDoc` for some YAML document exactly if it is
readable. -/
theorem C95_apis {X : Xyml} (hX : Lawful X) (a : APISpec) :
    (∃ n, parseApi X n = .ok a) ↔ ReadableApi X a :=
  ⟨fun ⟨_, h⟩ => parseApi_readable hX h, readable_parseApi hX⟩

/-- A title, two documentation entries of which one is empty, and an extra facet under the number
5. -/
example : ∃ n, parseApi Xyml.std n = .ok { APISpec.new with
    title := "t", documentation := some [⟨"a", "b", OM.empty false⟩, Documentation.new],
    extra := ⟨[(.int 5, .str "x")], false⟩ } := by
  refine (C95_apis Xyml.std_lawful _).mpr ⟨⟨⟨rfl, by simp [Distinct]⟩, ⟨rfl, List.nodup_nil⟩,
    fun _ h => (nomatch h), ⟨rfl, List.nodup_nil⟩, ⟨rfl, List.nodup_nil⟩, ⟨rfl, List.nodup_nil⟩,
    ⟨rfl, List.nodup_nil⟩, ⟨rfl, List.nodup_nil⟩, ⟨rfl, List.nodup_nil⟩, ⟨rfl, List.nodup_nil⟩,
    fun _ h => (nomatch h), ⟨rfl, List.nodup_nil, fun _ h => (nomatch h), fun _ h => (nomatch h)⟩,
    by simp⟩, fun _ h => (nomatch h), ?_, ?_⟩
  · intro l hl d hd
    cases hl
    simp only [List.mem_cons, List.not_mem_nil, or_false] at hd
    rcases hd with rfl | rfl <;> exact ⟨rfl, List.nodup_nil, fun _ h => (nomatch h)⟩
  · intro p hp
    rw [List.mem_singleton] at hp
    subst hp
    exact ⟨Xyml.std.ofKey (.int 5), Xyml.std_lawful.toScalar_ofKey _, fun h => (nomatch h)⟩

/-- No API document has an empty, non-nil list of documentation entries. -/
example : ¬ ∃ n, parseApi Xyml.std n = .ok { APISpec.new with documentation := some [] } := by
  rw [C95_apis Xyml.std_lawful]
  intro h
  exact h.parsed.documentation rfl

/-- A library comes out of `ParseLibrary` for some input exactly if it is readable. -/
theorem C95_libraries {X : Xyml} (hX : Lawful X) (l : Library) :
    (∃ o, parseLibrary X o = .ok l) ↔ ReadableLib X l :=
  ⟨fun ⟨_, h⟩ => parseLibrary_readable hX h,
    fun h => (readable_parseLibrary hX h).elim fun n hn => ⟨some n, hn⟩⟩

/-- Libraries never have annotation types: what stands under that key becomes annotations. -/
example (m : OM String Node) (h : m.ents ≠ []) :
    ¬ ∃ o, parseLibrary Xyml.std o = .ok { Library.new with annotationTypes := m } := by
  rw [C95_libraries Xyml.std_lawful]
  intro hl
  have : m = OM.empty false := hl.parsed.annotationTypes
  exact h (by rw [this]; rfl)

example : ∃ o, parseLibrary Xyml.std o = .ok { Library.new with
    annotations := ⟨[("x", ⟨[("a", .str "b")], true⟩)], false⟩ } := by
  refine (C95_libraries Xyml.std_lawful _).mpr ⟨⟨⟨rfl, List.nodup_nil⟩, ⟨rfl, List.nodup_nil⟩,
    ⟨rfl, List.nodup_nil⟩, ⟨rfl, List.nodup_nil⟩, rfl, ⟨rfl, List.nodup_nil⟩,
    ⟨rfl, List.nodup_nil⟩, fun _ h => (nomatch h), ⟨rfl, by simp [Distinct]⟩, ?_⟩,
    fun _ h => (nomatch h), fun _ h => (nomatch h)⟩
  intro e he
  rw [List.mem_singleton] at he
  subst he
  exact ⟨rfl, by simp [Distinct]⟩

/-- Expanded definitions suffice: whatever a definition is read as, some mapping is read as. -/
theorem C95_long_form {X : Xyml} {n : Node} {t : DT} (h : hat X n = .ok t) :
    ∃ ps, hat X (.map ps) = .ok t := by
  cases n with
  | map ps => exact ⟨ps, h⟩
  | seq tag ns => unfold hat at h; cases h
  | scalar tag v =>
    have hform : ∃ s, t = (DT.new t.kind).setSchema s := by
      unfold hat at h
      split at h
      · cases h
        refine ⟨v, ?_⟩
        rw [(typeToKind_spec v).1]
        exact typeToKind_eq v
      · split at h
        · cases h; exact ⟨v, rfl⟩
        · cases h
    obtain ⟨s, hs⟩ := hform
    refine ⟨[(.str "type", .str (kindText t.kind)), (.str "schema", .str s)], ?_⟩
    have hsift : siftType [(Node.str "type", Node.str (kindText t.kind)),
        (.str "schema", .str s)] = .ok (typeToKind (kindText t.kind)) := rfl
    have htype : ∀ (s : String) (k : String) (t : DT), k = "type" ∨ k = "schema" →
        assign X (.str k, .str s) t = .ok (t.setSchema s) := by
      intro s k t hk
      rw [assign_eq, facetOf_type (by rcases hk with rfl | rfl <;> rfl)]
      rfl
    unfold hat
    rw [hsift]
    show assignAll X _ _ = _
    unfold assignAll
    rw [htype _ "type" _ (.inl rfl)]
    show assignAll X _ _ = _
    unfold assignAll
    rw [htype _ "schema" _ (.inr rfl)]
    show assignAll X [] _ = _
    unfold assignAll
    rw [typeToKind_eq, classify_kindText]
    conv => rhs; rw [hs]
    cases t.kind <;> rfl

example : ∃ ps, hat Xyml.std (.map ps) = .ok ((DT.new .include).setSchema "a.raml") :=
  C95_long_form (n := .scalar "!include" "a.raml") rfl

/-- When only strings are read as strings, the extra facets of an example may have any key but an
empty string, a string in parentheses, and the four known ones. -/
theorem C95_example_keys {X : Xyml} (hX : Lawful X)
    (hs : ∀ n s, X.toScalar n = some (.str s) → n = .str s) (k : Scalar) :
    ExampleKey X k ↔ ∀ s, k = .str s →
      s ≠ "" ∧ s.toList.head? ≠ some '(' ∧
        s ∉ ["displayName", "description", "strict", "value"] := by
  constructor
  · rintro ⟨n, hn, h⟩ s rfl
    have := hs n s hn
    subst this
    obtain ⟨⟨h1, h2⟩, h3⟩ := h rfl
    exact ⟨h1, h2, h3⟩
  · intro h
    refine ⟨X.ofKey k, hX.toScalar_ofKey k, fun hk => ?_⟩
    by_cases hstr : ∃ s, k = .str s
    · obtain ⟨s, rfl⟩ := hstr
      obtain ⟨h1, h2, h3⟩ := h s rfl
      rw [hX.ofKey_str]
      exact ⟨⟨h1, h2⟩, h3⟩
    · rw [hX.ofKey_isStr (fun s hk => hstr ⟨s, hk⟩)] at hk
      cases hk

/-- With the standard conversions only strings are read as strings. -/
private theorem std_str_only : ∀ n s, Xyml.std.toScalar n = some (.str s) → n = .str s := by
  intro n s h
  simp only [Xyml.std] at h
  split at h
  · cases h; rfl
  · rename_i v
    cases hv : v.toInt? with
    | none => rw [hv] at h; cases h
    | some i => rw [hv] at h; cases h
  all_goals cases h

example : ¬ ExampleKey Xyml.std (.str "value") ∧ ExampleKey Xyml.std (.str "values") ∧
    ExampleKey Xyml.std .null := by
  refine ⟨fun h => ?_, ?_, ?_⟩
  · exact absurd ((C95_example_keys Xyml.std_lawful std_str_only _).mp h "value" rfl).2.2 (by decide)
  · refine (C95_example_keys Xyml.std_lawful std_str_only _).mpr fun s hs => ?_
    cases hs
    decide
  · exact (C95_example_keys Xyml.std_lawful std_str_only _).mpr fun s hs => (nomatch hs)

/-- Likewise at the top level of an API document. -/
theorem C95_api_keys {X : Xyml} (hX : Lawful X)
    (hs : ∀ n s, X.toScalar n = some (.str s) → n = .str s) (k : Scalar) :
    ApiKey X k ↔ ∀ s, k = .str s →
      s ≠ "" ∧ s.toList.head? ≠ some '(' ∧ s.toList.head? ≠ some '/' ∧
        s ∉ ["title", "version", "baseUri", "description", "protocols", "mediaType",
          "documentation", "securedBy", "uses", "securitySchemes", "baseUriParameters", "traits",
          "annotationTypes", "resourceTypes", "types", "schemas"] := by
  constructor
  · rintro ⟨n, hn, h⟩ s rfl
    have := hs n s hn
    subst this
    obtain ⟨⟨h1, h2⟩, h3, h4⟩ := h rfl
    exact ⟨h1, h2, h3, h4⟩
  · intro h
    refine ⟨X.ofKey k, hX.toScalar_ofKey k, fun hk => ?_⟩
    by_cases hstr : ∃ s, k = .str s
    · obtain ⟨s, rfl⟩ := hstr
      obtain ⟨h1, h2, h3, h4⟩ := h s rfl
      rw [hX.ofKey_str]
      exact ⟨⟨h1, h2⟩, h3, h4⟩
    · rw [hX.ofKey_isStr (fun s hk => hstr ⟨s, hk⟩)] at hk
      cases hk

example : ¬ ApiKey Xyml.std (.str "/users") ∧ ApiKey Xyml.std (.str "usage") := by
  refine ⟨fun h => ?_, ?_⟩
  · exact absurd ((C95_api_keys Xyml.std_lawful std_str_only _).mp h "/users" rfl).2.2.1 (by decide)
  · refine (C95_api_keys Xyml.std_lawful std_str_only _).mpr fun s hs => ?_
    cases hs
    decide

/-- Likewise at the top level of a library. -/
theorem C95_library_keys {X : Xyml} (hX : Lawful X)
    (hs : ∀ n s, X.toScalar n = some (.str s) → n = .str s) (k : Scalar) :
    LibKey X k ↔ ∀ s, k = .str s →
      s ≠ "" ∧ s.toList.head? ≠ some '(' ∧
        s ∉ ["annotationTypes", "resourceTypes", "types", "schemas", "traits", "uses", "usage",
          "securitySchemes"] := by
  constructor
  · rintro ⟨n, hn, h1, h2⟩ s rfl
    have := hs n s hn
    subst this
    obtain ⟨h3, h4⟩ := h2 rfl
    exact ⟨h3, h4, h1⟩
  · intro h
    refine ⟨X.ofKey k, hX.toScalar_ofKey k, ?_, fun hk => ?_⟩
    · by_cases hstr : ∃ s, k = .str s
      · obtain ⟨s, rfl⟩ := hstr
        rw [hX.ofKey_str]
        exact (h s rfl).2.2
      · exact hX.ofKey_value (fun s hk => hstr ⟨s, hk⟩)
    · by_cases hstr : ∃ s, k = .str s
      · obtain ⟨s, rfl⟩ := hstr
        rw [hX.ofKey_str]
        exact ⟨(h s rfl).1, (h s rfl).2.1⟩
      · rw [hX.ofKey_isStr (fun s hk => hstr ⟨s, hk⟩)] at hk
        cases hk

example : LibKey Xyml.std (.str "/users") ∧ ¬ LibKey Xyml.std (.str "usage") := by
  refine ⟨?_, fun h => ?_⟩
  · refine (C95_library_keys Xyml.std_lawful std_str_only _).mpr fun s hs => ?_
    cases hs
    decide
  · exact absurd ((C95_library_keys Xyml.std_lawful std_str_only _).mp h "usage" rfl).2.2 (by decide)

end Verif.Props
