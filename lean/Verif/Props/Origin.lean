import Verif.Doc.OriginWrite

/-!
# C102: nothing is invented

Everything an object holds after reading was in the input or in the object before; everything that
is written is in the object or is one of the fixed words.
-/

namespace Verif.Props
open Verif Verif.Doc Verif.Doc.Spec

/-! ### Reading -/

/-- C102: everything in a parsed type was in the input. -/
theorem C102_type_read (X : Xyml) (n : Node) (t : DT) (h : hat X n = .ok t) :
    typeFrom (sourceOf X n) t := from_hat (input_sourceOf X n) h

/-- C102: loading into a type in use adds nothing that is not in the input. -/
theorem C102_type_load {X : Xyml} {S : Source} {n : Node} {t t' : DT} (hn : inputFrom X S n)
    (ht : typeFrom S t) (h : t.unmarshal X n = .ok t') : typeFrom S t' := from_type_load hn ht h

/-- Concrete case: a display name and a pattern loaded into a string type. -/
example : ∃ t', (DT.new .string).unmarshal Xyml.std
      (.map [(.str "displayName", .str "d"), (.str "pattern", .str "p")]) = .ok t' ∧
    typeFrom (sourceOf Xyml.std (.map [(.str "displayName", .str "d"), (.str "pattern", .str "p")]))
      t' := by
  refine ⟨_, rfl, C102_type_load (input_sourceOf _ _) (t := DT.new .string) (from_bare ?_ ?_) rfl⟩
  · exact bare_new _
  · exact .inr (by decide)

/-- C102: loading into an example in use. -/
theorem C102_example_load {X : Xyml} {S : Source} {n : Node} {e e' : Example}
    (hn : inputFrom X S n) (he : ExampleFrom S e) (h : e.unmarshal X n = .ok e') :
    ExampleFrom S e' := from_example_load hn he h

/-- Concrete case: a value and an annotation. -/
example : ∃ e, (Example.new .string).unmarshal Xyml.std
    (.map [(.str "value", .str "a"), (.str "(n)", .map [(.str "k", .str "v")])]) = .ok e ∧
    ExampleFrom (sourceOf Xyml.std (.map [(.str "value", .str "a"),
      (.str "(n)", .map [(.str "k", .str "v")])])) e :=
  ⟨_, rfl, C102_example_load (input_sourceOf _ _) (exampleFrom_new .string) rfl⟩

/-- C102: loading into XML settings in use. -/
theorem C102_xml_load {X : Xyml} {S : Source} {n : Node} {x x' : XML} (hn : inputFrom X S n)
    (hx : XMLFrom S x) (h : x.unmarshal X n = .ok x') : XMLFrom S x' := from_xml_load hn hx h

/-- Concrete case: a name and an extra key. -/
example : ∃ x, XML.new.unmarshal Xyml.std
    (.map [(.str "name", .str "a"), (.str "x", .str "y")]) = .ok x ∧
    XMLFrom (sourceOf Xyml.std (.map [(.str "name", .str "a"), (.str "x", .str "y")])) x :=
  ⟨_, rfl, C102_xml_load (input_sourceOf _ _) xmlFrom_new rfl⟩

/-- C102: loading into a documentation entry in use. -/
theorem C102_documentation_load {X : Xyml} {S : Source} {n : Node} {d d' : Documentation}
    (hn : inputFrom X S n) (hd : DocFrom S d) (h : d.unmarshal X n = .ok d') : DocFrom S d' :=
  from_doc_load hn hd h

/-- Concrete case: a title and an extra key. -/
example : ∃ d, Documentation.new.unmarshal Xyml.std
    (.map [(.str "title", .str "t"), (.str "x", .str "y")]) = .ok d ∧
    DocFrom (sourceOf Xyml.std (.map [(.str "title", .str "t"), (.str "x", .str "y")])) d :=
  ⟨_, rfl, C102_documentation_load (input_sourceOf _ _) docFrom_new rfl⟩

/-- C102: loading into an API document in use. -/
theorem C102_api_load {X : Xyml} {S : Source} {n : Node} {a a' : APISpec} (hn : inputFrom X S n)
    (ha : ApiFrom S a) (h : a.unmarshal X n = .ok a') : ApiFrom S a' := from_api_load hn ha h

/-- C102: loading several inputs, one after the other, into an API document in use. -/
theorem C102_api_loads {X : Xyml} {S : Source} (ns : List Node) {a a' : APISpec}
    (hn : ∀ n ∈ ns, inputFrom X S n) (ha : ApiFrom S a)
    (h : forItems (fun n b => b.unmarshal X n) ns a = .ok a') : ApiFrom S a' := by
  induction ns generalizing a with
  | nil => cases h; exact ha
  | cons n ns ih =>
    obtain ⟨b, h1, h2⟩ := Res.bind_eq_ok.mp h
    exact ih (fun m hm => hn m (by simp [hm])) (from_api_load (hn n (by simp)) ha h1) h2

/-- Concrete case: two inputs, with the texts of both. -/
example : let n : Node := .map [(.str "title", .str "t")]
    let m : Node := .map [(.str "types", .map [(.str "A", .str "string")]), (.str "/r", .map [])]
    ∃ a, forItems (fun n b => b.unmarshal Xyml.std n) [n, m] APISpec.new = .ok a ∧
      ApiFrom (sourceOf Xyml.std (.seq "!!seq" [n, m])) a := by
  intro n m
  refine ⟨_, rfl, C102_api_loads (X := Xyml.std) [n, m] (fun k hk => ?_) apiFrom_new rfl⟩
  exact input_seq (input_sourceOf _ _) hk

/-- C102: loading into a library in use. -/
theorem C102_library_load {X : Xyml} {S : Source} {n : Node} {l l' : Library}
    (hn : inputFrom X S n) (hl : LibFrom S l) (h : l.unmarshal X n = .ok l') : LibFrom S l' :=
  from_lib_load hn hl h

/-- Concrete case: an annotation type, which is held as an annotation. -/
example : let n : Node := .map [(.str "annotationTypes", .map [(.str "a", .map [])]),
      (.str "usage", .str "u")]
    ∃ l, Library.new.unmarshal Xyml.std n = .ok l ∧ LibFrom (sourceOf Xyml.std n) l :=
  ⟨_, rfl, C102_library_load (input_sourceOf _ _) libFrom_new rfl⟩

/-! ### Writing -/

/-- C102: what is written for a type. -/
theorem C102_type_write {X : Xyml} (hX : Lawful X) {S : Source} {t : DT} (h : typeFrom S t) :
    textsAll (Written X typeWords S) (t.toYAML X) := write_type (covers_written hX _ _) t h

/-- C102: what is written for an example. -/
theorem C102_example_write {X : Xyml} (hX : Lawful X) {S : Source} {e : Example}
    (h : ExampleFrom S e) : textsAll (Written X typeWords S) (e.toYAML X) :=
  write_example (covers_written hX _ _) e h

/-- C102: what is written for an API document. -/
theorem C102_api_write {X : Xyml} (hX : Lawful X) {S : Source} {a : APISpec} (h : ApiFrom S a) :
    textsAll (Written X apiWords S) (a.toYAML X) := write_api (covers_written hX _ _) h

/-- C102: what is written for a library. -/
theorem C102_library_write {X : Xyml} (hX : Lawful X) {S : Source} {l : Library}
    (h : LibFrom S l) : textsAll (Written X libWords S) (l.toYAML X) :=
  write_lib (covers_written hX _ _) h

/-- Concrete case: the texts written for an example with a display name. -/
example : let e : Example := { Example.new .string with displayName := some "d", strict := false }
    texts (e.toYAML Xyml.std) = ["displayName", "d", "strict", "false"] := by decide +kernel

/-! ### Reading and writing -/

/-- C102: every text written for a type that was read is a fixed word or comes from the input. -/
theorem C102_type {X : Xyml} (hX : Lawful X) {n : Node} {t : DT} (h : hat X n = .ok t) :
    ∀ s ∈ texts (t.toYAML X), Written X typeWords (sourceOf X n) s :=
  C102_type_write hX (C102_type_read X n t h)

/-- C102: every text written for an API document that was read is a fixed word or comes from the
input. -/
theorem C102_api {X : Xyml} (hX : Lawful X) {n : Node} {a : APISpec} (h : parseApi X n = .ok a) :
    ∀ s ∈ texts (a.toYAML X), Written X apiWords (sourceOf X n) s :=
  C102_api_write hX (C102_api_load (input_sourceOf X n) apiFrom_new h)

/-- C102: every text written for a library that was read is a fixed word or comes from the
input. -/
theorem C102_library {X : Xyml} (hX : Lawful X) {n : Node} {l : Library}
    (h : parseLibrary X (some n) = .ok l) :
    ∀ s ∈ texts (l.toYAML X), Written X libWords (sourceOf X n) s :=
  C102_library_write hX (C102_library_load (input_sourceOf X n) libFrom_new h)

/-- C102: an input without a library is written without any text. -/
theorem C102_library_none {X : Xyml} {l : Library} (h : parseLibrary X none = .ok l) :
    texts (l.toYAML X) = [] := by
  cases h
  rfl

/-! ### Inputs without numbers -/

theorem written_plain {X : Xyml} (hX : Lawful X) {n : Node} (hn : TextOnly X n)
    {words : List String} (hw : "" ∈ words) {s : String}
    (h : Written X words (sourceOf X n) s) :
    s ∈ words ∨ s ∈ texts n ∨ ∃ b, s ∈ texts (X.ofBool b) := by
  have hm : ∀ {m s}, m ∈ nodesOf n → scalarText m = some s → s ∈ texts n :=
    fun h1 h2 => List.mem_filterMap.mpr ⟨_, h1, h2⟩
  have hs : ∀ {t s : String}, s ∈ texts (X.ofKey (.str t)) → s = t := by
    intro t s h
    rw [hX.ofKey_str] at h
    simpa [texts, Node.str, nodesOf, scalarText] using h
  rcases h with h | (h | ⟨m, h1, h2⟩) | ⟨k, ⟨m, h1, h2⟩, h3⟩ | ⟨i, ⟨m, h1, h2⟩, _⟩ |
    ⟨f, ⟨m, h1, h2⟩, _⟩ | h
  · exact .inl h
  · exact .inr (.inl h)
  · exact .inr (.inl (hm h1 ((hn m h1).2.2.1 s h2)))
  · rcases h2 with h2 | rfl
    · obtain ⟨t, rfl, ht⟩ := (hn m h1).2.2.2 k h2
      rw [hs h3]
      exact .inr (.inl (hm h1 ht))
    · rw [hs h3]
      cases m with
      | scalar a b => exact .inr (.inl (hm h1 rfl))
      | seq a b => exact .inl hw
      | map a => exact .inl hw
  · rw [(hn m h1).1] at h2; cases h2
  · rw [(hn m h1).2.1] at h2; cases h2
  · exact .inr (.inr h)

/-- C102: for a type read from an input without numbers, every written text is a fixed word, a text
of the input or a boolean. -/
theorem C102_type_texts {X : Xyml} (hX : Lawful X) {n : Node} (hn : TextOnly X n) {t : DT}
    (h : hat X n = .ok t) :
    ∀ s ∈ texts (t.toYAML X), s ∈ typeWords ∨ s ∈ texts n ∨ ∃ b, s ∈ texts (X.ofBool b) :=
  fun s hs => written_plain hX hn (by decide) (C102_type hX h s hs)

/-- C102: the same for an API document. -/
theorem C102_api_texts {X : Xyml} (hX : Lawful X) {n : Node} (hn : TextOnly X n) {a : APISpec}
    (h : parseApi X n = .ok a) :
    ∀ s ∈ texts (a.toYAML X), s ∈ apiWords ∨ s ∈ texts n ∨ ∃ b, s ∈ texts (X.ofBool b) :=
  fun s hs => written_plain hX hn (by decide) (C102_api hX h s hs)

/-- C102: the same for a library. -/
theorem C102_library_texts {X : Xyml} (hX : Lawful X) {n : Node} (hn : TextOnly X n) {l : Library}
    (h : parseLibrary X (some n) = .ok l) :
    ∀ s ∈ texts (l.toYAML X), s ∈ libWords ∨ s ∈ texts n ∨ ∃ b, s ∈ texts (X.ofBool b) :=
  fun s hs => written_plain hX hn (by decide) (C102_library hX h s hs)

/-- With the standard conversions, an input all of whose scalars are strings is one. -/
theorem textOnly_std {n : Node} (h : ∀ m ∈ nodesOf n, ∀ t s, m = .scalar t s → t = "!!str") :
    TextOnly Xyml.std n := by
  intro m hm
  cases m with
  | scalar t s =>
    obtain rfl := h _ hm t s rfl
    refine ⟨rfl, rfl, fun u hu => by cases hu; rfl, fun k hk => ?_⟩
    cases hk
    exact ⟨s, rfl, rfl⟩
  | seq a b => exact ⟨rfl, rfl, fun _ hu => (by cases hu), fun _ hk => (by cases hk)⟩
  | map a => exact ⟨rfl, rfl, fun _ hu => (by cases hu), fun _ hk => (by cases hk)⟩

/-- Concrete case: the texts written for a document with a type without a type name; only the words
`type` and `string` were not in the input. -/
example : let n : Node := .map [(.str "title", .str "t"), (.str "types",
      .map [(.str "A", .map [(.str "displayName", .str "d")])]), (.str "/r", .map [])]
    TextOnly Xyml.std n ∧ ∃ a, parseApi Xyml.std n = .ok a ∧
      texts (a.toYAML Xyml.std) =
        ["title", "t", "/r", "types", "A", "displayName", "d", "type", "string"] := by
  intro n
  refine ⟨textOnly_std ?_, _, rfl, by decide +kernel⟩
  intro m hm t s hs
  subst hs
  simp [n, nodesOf, nodesInPairs, nodesInPair, Node.str] at hm
  tauto

end Verif.Props
