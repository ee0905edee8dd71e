import Verif.Doc.FacetLemmas
import Verif.Doc.Laws

/-! # C14–C17: which kind of type a definition denotes -/

namespace Verif.Props
open Verif Verif.Doc Verif.Doc.Spec

/-! ### C14 -/

/-- C14: every string is accepted as a type definition; its kind is its classification, its text
is kept, and nothing else is set. -/
theorem C14_type_expression (X : Xyml) (s : String) :
    ∃ t, hat X (Node.str s) = .ok t ∧ t.kind = classify s ∧ t.type = s ∧ Bare t :=
  ⟨typeToKind s, by simp [hat, Node.str], typeToKind_spec s⟩

example (X : Xyml) : ∃ t, hat X (.str "Cat | Dog[]") = .ok t ∧ t.kind = .union ∧ t.type = "Cat | Dog[]" :=
  (C14_type_expression X _).imp fun _ h => ⟨h.1, h.2.1.trans (by decide), h.2.2.1⟩

/-- C14: the classification, spelled out. -/
theorem C14_classify (s : String) :
    (∀ p ∈ builtins, s = p.1 → classify s = p.2) ∧
    (s ∉ builtins.map Prod.fst → "!include ".toList <+: s.toList → classify s = .include) ∧
    (s ∉ builtins.map Prod.fst → ¬ "!include ".toList <+: s.toList → '|' ∈ s.toList →
      classify s = .union) ∧
    (s ∉ builtins.map Prod.fst → ¬ "!include ".toList <+: s.toList → '|' ∉ s.toList →
      classify s = .custom) := by
  have hn : s ∉ builtins.map Prod.fst → builtins.lookup s = none := by
    intro h
    rw [List.lookup_eq_none_iff]
    intro p hp
    have : s ≠ p.1 := fun he => h (he ▸ List.mem_map_of_mem hp)
    simpa using this
  refine ⟨?_, ?_, ?_, ?_⟩
  · rintro p hp rfl
    revert p hp
    decide
  · intro h h1; simp only [classify, hn h]; rw [if_pos h1]
  · intro h h1 h2; simp only [classify, hn h]; rw [if_neg h1, if_pos h2]
  · intro h h1 h2; simp only [classify, hn h]; rw [if_neg h1, if_neg h2]

example : builtins.length = 13 ∧ classify "date-only" = .dateOnly ∧
    classify "!include a|b" = .include ∧ classify "Cat | Dog" = .union ∧
    classify "Strings" = .custom := by decide

/-! ### C15 -/

/-- C15: the kind of a mapping that parses is decided by its first `type`/`schema` entry, or
implied by the presence of `properties` or `items`; by nothing else. -/
theorem C15_kind_of_mapping (X : Xyml) (ps : List (Node × Node)) (t : DT)
    (h : hat X (.map ps) = .ok t) : kindOf ps = some t.kind := by
  obtain ⟨t0, _, h1, _, _, h2⟩ := hat_map_ok h
  rw [h2]; exact h1

example (X : Xyml) (t : DT) (h : hat X (.map [(.str "items", .str "string"),
    (.str "properties", .map [])]) = .ok t) : t.kind = .object :=
  Option.some.inj ((C15_kind_of_mapping X _ t h).symm.trans (by decide))

/-- C15: a sequence as first type entry is an error. -/
theorem C15_sequence_type_rejected (X : Xyml) (ps : List (Node × Node)) (k : Node) (tag : String)
    (ns : List Node) (h : ps.find? isTypeEntry = some (k, .seq tag ns)) :
    hat X (.map ps) = .err .multiType := by
  unfold hat
  rw [(siftType_spec ps).1 _ h]
  rfl

example (X : Xyml) (ns : List Node) : hat X (.map [(.str "properties", .map []),
    (.str "schema", .seq seqTag ns), (.str "type", .str "string")]) = .err .multiType :=
  C15_sequence_type_rejected X _ (.str "schema") seqTag ns rfl

/-- C15: so is anything that is neither a sequence, a string nor an include. -/
theorem C15_other_type_rejected (X : Xyml) (ps : List (Node × Node)) (k v : Node)
    (h : ps.find? isTypeEntry = some (k, v))
    (hv : (∃ qs, v = .map qs) ∨ ∃ tag s, v = .scalar tag s ∧ tag ≠ "!!str" ∧ tag ≠ "!include") :
    hat X (.map ps) = .err .badTypeKey := by
  unfold hat
  rw [(siftType_spec ps).1 _ h]
  rcases hv with ⟨qs, rfl⟩ | ⟨tag, s, rfl, h1, h2⟩
  · rfl
  · simp [Node.isStr, h1, h2]

example (X : Xyml) : hat X (.map [(.str "pattern", .str "x"), (.str "type", .scalar "!!int" "3")]) =
    .err .badTypeKey :=
  C15_other_type_rejected X _ (.str "type") _ rfl (.inr ⟨_, _, rfl, by decide, by decide⟩)

/-- C15: an include as first type entry passes the first look but is then rejected when the entry
is applied, so no mapping ever gives an include type this way. -/
theorem C15_include_type_rejected (X : Xyml) (ps : List (Node × Node)) (k : Node) (s : String)
    (h : ps.find? isTypeEntry = some (k, .scalar "!include" s)) :
    hat X (.map ps) = .err .notString := by
  have h0 : siftType ps = .ok (DT.new .include) := by
    rw [(siftType_spec ps).1 _ h]; rfl
  have : ∀ (ps : List (Node × Node)) (x : String) (e : OM Scalar Node),
      ps.find? isTypeEntry = some (k, .scalar "!include" s) →
      assignAll X ps (.basic true x e) = .err .notString := by
    intro ps
    induction ps with
    | nil => intro _ _ h; cases h
    | cons p ps ih =>
      intro x e h
      obtain ⟨k', v'⟩ := p
      unfold assignAll assign assignBase
      by_cases hp : isTypeEntry (k', v') = true
      · rw [List.find?_cons, hp] at h
        cases h
        rw [if_pos (by simpa [isTypeEntry] using hp)]
        rfl
      · have hp' : isTypeEntry (k', v') = false := by simpa using hp
        rw [List.find?_cons, hp'] at h
        rw [if_neg (by simpa [isTypeEntry] using hp)]
        exact ih _ _ h
  unfold hat
  rw [h0]
  exact this ps _ _ h

/-- `type` after a `properties` entry still decides; without one, `properties` beats `items`. -/
example : kindOf [(.str "properties", .map []), (.str "type", .str "A | B")] = some .union ∧
    kindOf [(.str "items", .str "string"), (.str "properties", .map [])] = some .object ∧
    kindOf [(.str "x", .map []), (.str "items", .str "string")] = some .array ∧
    kindOf [(.str "pattern", .str ".*")] = some .string := by decide

/-- A mapping with nested entries that parses. -/
example : (hat Xyml.std (.map [(.str "x", .map []), (.str "properties", .map
    [(.str "a", .str "integer"), (.str "b", .map [(.str "items", .str "Cat | Dog")])])])).isOk
    = true := by rfl

/-! ### C16 -/

/-- C16: a sequence is not a type definition. -/
theorem C16_sequence_rejected (X : Xyml) (tag : String) (ns : List Node) :
    hat X (.seq tag ns) = .err .multiType := by unfold hat; rfl

example (X : Xyml) : hat X (.seq seqTag [.str "string", .str "nil"]) = .err .multiType :=
  C16_sequence_rejected X _ _

/-- C16: a scalar that is neither a string nor an include is not a type definition; this includes
the empty (null) definition. -/
theorem C16_scalar_rejected (X : Xyml) (tag s : String) (h1 : tag ≠ "!!str")
    (h2 : tag ≠ "!include") : hat X (.scalar tag s) = .err .badTypeDef := by
  unfold hat; rw [if_neg h1, if_neg h2]

/-- The null definition is rejected. -/
example (X : Xyml) : hat X (.scalar "!!null" "") = .err .badTypeDef :=
  C16_scalar_rejected X _ _ (by decide) (by decide)

/-- `sub` stands in a place of `n` where a type definition is expected: item type, property, or
facet definition, at any depth. -/
inductive TypePos : Node → Node → Prop where
  | items {ps : List (Node × Node)} {k v : Node} : kindOf ps = some .array → (k, v) ∈ ps →
      k.value = "items" → TypePos (.map ps) v
  | property {ps qs : List (Node × Node)} {k k' v : Node} : kindOf ps = some .object →
      (k, .map qs) ∈ ps → k.value = "properties" → (k', v) ∈ qs → TypePos (.map ps) v
  | facet {ps qs rs : List (Node × Node)} {kd : Kind} {k k' k'' v : Node} :
      kindOf ps = some kd → isBasic kd = false → (k, .map qs) ∈ ps → k.value = "facets" →
      (k', .map rs) ∈ qs → (k'', v) ∈ rs → TypePos (.map ps) v
  | trans {n m sub : Node} : TypePos n m → TypePos m sub → TypePos n sub

/-- C16: in a definition that parses, every nested definition parses. -/
theorem C16_nested (X : Xyml) (n sub : Node) (hp : TypePos n sub) :
    ∀ t, hat X n = .ok t → ∃ u, hat X sub = .ok u := by
  induction hp with
  | @items ps k v hk hm hv =>
    intro t ht
    obtain ⟨s, x, _, hx⟩ := hat_map_step (f := .items) ht hk hm
      (facetOf_eq hv (by decide) (by decide))
    obtain ⟨u, hu, _⟩ := Res.map_eq_ok.mp hx
    exact ⟨u, hu⟩
  | @property ps qs k k' v hk hm hv hm' =>
    intro t ht
    obtain ⟨s, x, _, hx⟩ := hat_map_step (f := .properties) ht hk hm
      (facetOf_eq hv (by decide) (by decide))
    have hx := (loadProps_eq X _ _).symm.trans hx
    obtain ⟨_, _, h2⟩ := mapForEach_ok_mem hx _ hm'
    obtain ⟨u, hu, _⟩ := loadProp_ok h2
    exact ⟨u, hu⟩
  | @facet ps qs rs kd k k' k'' v hk hb hm hv hm' hm'' =>
    intro t ht
    obtain ⟨s, x, _, hx⟩ := hat_map_step (f := .facets) ht hk hm
      (facetOf_eq hv (by cases kd <;> first | rfl | (exact absurd hb (by decide))) (by decide))
    have hx := (loadFacets_eq X _ _).symm.trans hx
    obtain ⟨_, _, h2⟩ := mapForEach_ok_mem hx _ hm'
    obtain ⟨_, h3, _⟩ := loadFacet_ok h2
    rw [loadTypes_eq] at h3
    obtain ⟨_, _, h4⟩ := mapForEach_ok_mem h3 _ hm''
    obtain ⟨u, hu, _⟩ := loadType_ok h4
    exact ⟨u, hu⟩
  | trans _ _ ih1 ih2 =>
    intro t ht
    obtain ⟨u, hu⟩ := ih1 t ht
    exact ih2 u hu

example (X : Xyml) (t : DT) : hat X (.map [(.str "items", .scalar "!!null" "")]) ≠ .ok t := fun h =>
  absurd (C16_nested X _ _ (.items (k := .str "items") (by decide) (List.mem_singleton.mpr rfl) rfl) t h)
    (by rw [C16_scalar_rejected X _ _ (by decide) (by decide)]; nofun)

/-- C16: a sequence, or a scalar that is neither a string nor an include, at any depth where a
type is expected makes the whole definition fail. -/
theorem C16_nested_rejected (X : Xyml) (n sub : Node) (hp : TypePos n sub)
    (hs : (∃ tag ns, sub = .seq tag ns) ∨
      ∃ tag s, sub = .scalar tag s ∧ tag ≠ "!!str" ∧ tag ≠ "!include") :
    ∀ t, hat X n ≠ .ok t := by
  intro t ht
  obtain ⟨u, hu⟩ := C16_nested X n sub hp t ht
  rcases hs with ⟨tag, ns, rfl⟩ | ⟨tag, s, rfl, h1, h2⟩
  · rw [C16_sequence_rejected] at hu; cases hu
  · rw [C16_scalar_rejected X tag s h1 h2] at hu; cases hu

/-- A null two levels down: the item type of a property. -/
example : TypePos
    (.map [(.str "properties", .map [(.str "a", .map [(.str "items", .scalar "!!null" "")])])])
    (.scalar "!!null" "") :=
  .trans (.property (k := .str "properties") (k' := .str "a") (by decide) (List.mem_singleton.mpr rfl)
      rfl (List.mem_singleton.mpr rfl))
    (.items (k := .str "items") (by decide) (List.mem_singleton.mpr rfl) rfl)

/-! ### C17 -/

/-- C17: `Type()` is the text of the last `type`/`schema` entry, which is a string, or the name of
the kind when there is none. -/
theorem C17_type_text (X : Xyml) (ps : List (Node × Node)) (t : DT)
    (h : hat X (.map ps) = .ok t) :
    (∀ p ∈ ps, isTypeEntry p = true → p.2.isStr = true) ∧
    t.type = match lastBy isTypeEntry ps with
      | some v => v.value
      | none => t.kind.name := by
  obtain ⟨t0, h0, _, _, h1, h2⟩ := hat_map_ok h
  have hstr := assignAll_type_str h1
  refine ⟨hstr, ?_⟩
  have hl := hat_map_last .type (fun _ _ _ _ => rfl) (fun _ _ _ _ => rfl) h
  have hq : (fun p => facetOf t.kind p == Facet.type) = isTypeEntry := by
    funext p
    cases hp : isTypeEntry p with
    | true => simp [facetOf_type hp]
    | false => simpa using facetOf_ne_type hp
  rw [hq] at hl
  cases hlb : lastBy isTypeEntry ps with
  | some v =>
    rw [hlb] at hl
    have := hl v (DT.type t)
    simp only [facetStep, asString] at this
    split at this
    · exact (Res.ok.inj this).symm
    · cases this
  | none =>
    rw [hlb] at hl
    obtain ⟨t0', h0', hty⟩ := hl
    rw [h0] at h0'
    cases h0'
    have hno : ps.find? isTypeEntry = none := by
      have : ps.reverse.find? isTypeEntry = none := by simpa [lastBy] using hlb
      simpa using this
    rw [(siftType_spec ps).2 hno] at h0
    cases h0
    show DT.type t = _
    have : DT.type t = DT.type (DT.new (impliedKind ps)) := hty
    rw [this, h2, kind_new]
    rcases impliedKind_ne ps with h | h | h <;> rw [h] <;> rfl

example (X : Xyml) (t : DT) (h : hat X (.map [(.str "type", .str "string"), (.str "pattern", .str "x"),
    (.str "schema", .str "integer")]) = .ok t) : t.type = "integer" :=
  (C17_type_text X _ t h).2

/-- C17: with exactly one `type`/`schema` entry, `Type()` is its text and `Kind()` is the
classification of `Type()`. -/
theorem C17_one_entry (X : Xyml) (ps : List (Node × Node)) (t : DT) (e : Node × Node)
    (h : hat X (.map ps) = .ok t) (h1 : ps.filter isTypeEntry = [e]) :
    t.type = e.2.value ∧ t.kind = classify t.type := by
  have hf : ps.find? isTypeEntry = some e := by
    rw [← List.head?_filter, h1]; rfl
  have hl : lastBy isTypeEntry ps = some e.2 := by
    unfold lastBy
    rw [← List.head?_filter, List.filter_reverse, h1]; rfl
  obtain ⟨hstr, hty⟩ := C17_type_text X ps t h
  rw [hl] at hty
  have hk := C15_kind_of_mapping X ps t h
  have he := hstr e (List.mem_of_find?_eq_some hf) (List.find?_some hf)
  simp only [kindOf, hf, he, if_true, Option.some.injEq] at hk
  exact ⟨hty, by rw [hty, hk]⟩

example (X : Xyml) (t : DT) (h : hat X (.map [(.str "items", .str "string"), (.str "schema", .str "A[]")]) =
    .ok t) : t.type = "A[]" ∧ t.kind = classify t.type :=
  C17_one_entry X _ t _ h rfl

/-- C17: without one, `Type()` is the name of the kind, which is object, array or string. -/
theorem C17_no_entry (X : Xyml) (ps : List (Node × Node)) (t : DT)
    (h : hat X (.map ps) = .ok t) (h1 : ps.filter isTypeEntry = []) :
    t.type = t.kind.name ∧ t.kind = classify t.type := by
  have hf : ps.find? isTypeEntry = none := by
    rw [← List.head?_filter, h1]; rfl
  have hl : lastBy isTypeEntry ps = none := by
    unfold lastBy
    rw [← List.head?_filter, List.filter_reverse, h1]; rfl
  obtain ⟨_, hty⟩ := C17_type_text X ps t h
  rw [hl] at hty
  have hk := C15_kind_of_mapping X ps t h
  simp only [kindOf, hf, Option.some.injEq] at hk
  refine ⟨hty, ?_⟩
  rw [hty, ← hk]
  rcases impliedKind_ne ps with h | h | h <;> rw [h] <;> decide

example (X : Xyml) (t : DT) (h : hat X (.map [(.str "items", .str "string")]) = .ok t) :
    t.type = t.kind.name ∧ t.kind = classify t.type :=
  C17_no_entry X _ t h rfl

/-- C17: with two entries, `Kind()` follows the first and `Type()` the last, whatever they are. -/
theorem C17_two_entries (X : Xyml) (a b : String) (k k' : Node)
    (hk : isTypeEntry (k, .str a) = true) (hk' : isTypeEntry (k', .str b) = true) :
    ∃ t, hat X (.map [(k, .str a), (k', .str b)]) = .ok t ∧ t.kind = classify a ∧ t.type = b := by
  have h0 : siftType [(k, Node.str a), (k', .str b)] = .ok (typeToKind a) := by
    rw [(siftType_spec _).1 (k, .str a) (by simp [hk])]
    rfl
  obtain ⟨h1, _, _⟩ := typeToKind_spec a
  have hs : ∀ (k : Node) (s : String) (t : DT), isTypeEntry (k, .str s) = true →
      assign X (k, .str s) t = .ok (t.setSchema s) := by
    intro k s t h
    rw [assign_eq, facetOf_type h]
    rfl
  refine ⟨((typeToKind a).setSchema a).setSchema b, ?_, ?_, ?_⟩
  · unfold hat
    rw [h0]
    simp only [Res.bind_ok, assignAll, hs k a _ hk, hs k' b _ hk']
  · rw [← h1]; cases typeToKind a <;> rfl
  · cases typeToKind a <;> rfl

/-- Kind and type that disagree: kind string, `Type()` is `integer`. -/
example : ∃ t, hat Xyml.std (.map [(.str "type", .str "string"), (.str "schema", .str "integer")])
    = .ok t ∧ t.kind = .string ∧ t.type = "integer" ∧ t.kind ≠ classify t.type := by
  obtain ⟨t, h1, h2, h3⟩ := C17_two_entries Xyml.std "string" "integer" (.str "type")
    (.str "schema") (by decide) (by decide)
  exact ⟨t, h1, h2, h3, by rw [h2, h3]; decide⟩

/-- One entry, at the end. -/
example : ([(Node.str "pattern", Node.str "a"), (.str "schema", .str "string")].filter
    isTypeEntry).length = 1 := by rfl

end Verif.Props
