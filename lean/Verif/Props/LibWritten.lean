import Verif.Props.ApiRoundTrip

/-! # C50: what is written for a library, and C39, C40 for libraries -/

namespace Verif.Props
open Verif Verif.Doc Verif.Doc.Spec

/-- What has to be written under each key; `none` when the part is not set. -/
def writtenLib (X : Xyml) (l : Library) (k : String) : Option Node :=
  match k with
  | "usage" => l.usage.map .str
  | "uses" => dictNode .str l.uses
  | "securitySchemes" => dictNode id l.securitySchemes
  | "traits" => dictNode id l.traits
  | "annotationTypes" => dictNode id l.annotationTypes
  | "resourceTypes" => dictNode id l.resourceTypes
  | "types" => dictNode (DT.toYAML X) l.types
  | _ => none

private theorem ifNonEmpty_dict {V : Type} (f : V → Node) (m : OM String V) :
    ifNonEmpty m (renderStrMap f m) = dictNode f m := by
  unfold ifNonEmpty dictNode renderStrMap
  obtain ⟨es, o⟩ := m
  cases es <;> simp [OM.len]

private theorem ifNonEmpty_types (X : Xyml) (m : OM String DT) :
    ifNonEmpty m (typeMapNode X m) = dictNode (DT.toYAML X) m := by
  rw [← ifNonEmpty_dict]
  obtain ⟨es, o⟩ := m
  unfold typeMapNode renderStrMap
  rw [typeEnts_eq]

private theorem lib_ents_parts (X : Xyml) (l : Library) : l.ents X =
    ["usage", "uses", "securitySchemes", "traits", "annotationTypes"].flatMap
      (fun k => OM.optEnt (.str k) (writtenLib X l k)) ++
    (annEnts l.annotations ++
    (OM.optEnt (.str "resourceTypes") (writtenLib X l "resourceTypes") ++
    (l.extra.ents ++ OM.optEnt (.str "types") (writtenLib X l "types")))) := by
  simp only [Library.ents, List.flatMap_cons, List.flatMap_nil, List.append_nil, writtenLib,
    ifNonEmpty_dict, ifNonEmpty_types, List.append_assoc]

/-- C50: what is written is a mapping without duplicate keys, whatever the library. -/
theorem C50_no_duplicate_keys (X : Xyml) (hX : Lawful X) (l : Library) :
    ∃ ps, l.toYAML X = .map ps ∧ (ps.map Prod.fst).Nodup := by
  refine ⟨_, lib_toYAML_eq X l, ?_⟩
  have hinj : ∀ k k', X.ofKey k = X.ofKey k' → k = k' := by
    intro k k' h
    have h1 := hX.toScalar_ofKey k
    rw [h, hX.toScalar_ofKey k'] at h1
    exact (Option.some.inj h1).symm
  have hn : ((lastWins (l.ents X)).map Prod.fst).Nodup := by
    have h1 : ((OM.empty false : OM Scalar Node).putAll (l.ents X)).keys.Nodup :=
      OM.nodup_putAll _ List.nodup_nil
    have h2 : ((OM.empty false : OM Scalar Node).putAll (l.ents X)).keys =
        (lastWins (l.ents X)).map Prod.fst := by
      rw [OM.keys, OM.empty_putAll_ents]
    rwa [h2] at h1
  unfold asPairs
  rw [List.map_map, show (Prod.fst ∘ fun e : Scalar × Node => (X.ofKey e.1, e.2)) =
    X.ofKey ∘ Prod.fst from rfl, ← List.map_map]
  exact List.pairwise_map.mpr (hn.imp fun hne heq => hne (hinj _ _ heq))

/-- C50: the entries in order. -/
theorem C50_entries_in_order (X : Xyml) (hX : Lawful X) (l : Library) (hc : CleanLib l) :
    mapEntries (l.toYAML X) =
      (["usage", "uses", "securitySchemes", "traits", "annotationTypes"].flatMap
        fun k => (writtenLib X l k).toList.map fun v => (Node.str k, v)) ++
      (l.annotations.ents.map (fun e => (Node.str e.1, renderPairs e.2.omap
        (e.2.ents.map fun x => (Node.str x.1, x.2)))) ++
      ((writtenLib X l "resourceTypes").toList.map (fun v => (Node.str "resourceTypes", v)) ++
      (l.extra.ents.map (fun e => (X.ofKey e.1, e.2)) ++
      (writtenLib X l "types").toList.map fun v => (Node.str "types", v)))) := by
  have opt : ∀ (k : String) (o : Option Node), asPairs X (OM.optEnt (Scalar.str k) o) =
      o.toList.map fun v => (Node.str k, v) := by
    intro k o
    cases o with
    | none => rfl
    | some v => simp [asPairs, OM.optEnt, hX.ofKey_str]
  rw [lib_toYAML_clean hc, lib_ents_parts]
  simp only [mapEntries, asPairs_append, opt]
  congr 1
  · unfold asPairs
    rw [List.map_flatMap]
    congr 1
    funext e
    exact opt _ _
  · congr 1
    simp [asPairs, annEnts, hX.ofKey_str, renderStrMap]

/-- C50: every entry is a part, an annotation or an extra facet of the library. -/
theorem C50_nothing_else (X : Xyml) (hX : Lawful X) (l : Library) (p : Node × Node)
    (hp : p ∈ mapEntries (l.toYAML X)) :
    (∃ k ∈ libWriteKeys, p.1 = Node.str k ∧ writtenLib X l k = some p.2) ∨
    (∃ e ∈ l.annotations.ents, p = (Node.str e.1, renderPairs e.2.omap
      (e.2.ents.map fun x => (Node.str x.1, x.2)))) ∨
    (∃ e ∈ l.extra.ents, p = (X.ofKey e.1, e.2)) := by
  rw [lib_toYAML_eq] at hp
  obtain ⟨e, he, rfl⟩ := List.mem_map.mp hp
  have he := mem_lastWins he
  have opt : ∀ {k : String} {o : Option Node}, e ∈ OM.optEnt (Scalar.str k) o →
      X.ofKey e.1 = Node.str k ∧ o = some e.2 := by
    intro k o h
    cases o with
    | none => cases h
    | some v =>
      rw [List.mem_singleton.mp h]
      exact ⟨hX.ofKey_str _, rfl⟩
  rw [lib_ents_parts] at he
  simp only [List.mem_append] at he
  rcases he with he | he | he | he | he
  · obtain ⟨x, hx, h1⟩ := List.mem_flatMap.mp he
    obtain ⟨h2, h3⟩ := opt h1
    have hsub : ∀ x ∈ ["usage", "uses", "securitySchemes", "traits", "annotationTypes"],
      x ∈ libWriteKeys := by decide
    exact .inl ⟨x, hsub x hx, h2, h3⟩
  · obtain ⟨x, hx, rfl⟩ := List.mem_map.mp he
    exact .inr (.inl ⟨x, hx, by rw [hX.ofKey_str]; rfl⟩)
  · obtain ⟨h2, h3⟩ := opt he
    exact .inl ⟨_, by decide, h2, h3⟩
  · exact .inr (.inr ⟨e, he, rfl⟩)
  · obtain ⟨h2, h3⟩ := opt he
    exact .inl ⟨_, by decide, h2, h3⟩

/-- C50: under the key of each part there is exactly the entry that `writtenLib` says. -/
theorem C50_section_entry (X : Xyml) (hX : Lawful X) (l : Library) (hc : CleanLib l) (k : String)
    (hk : k ∈ libWriteKeys) :
    (mapEntries (l.toYAML X)).filter (fun p => p.1.isStr && p.1.value == k) =
      (writtenLib X l k).toList.map fun v => (Node.str k, v) := by
  have hh : k.toList.head? ≠ some '(' := by
    have : ∀ k ∈ libWriteKeys, k.toList.head? ≠ some '(' := by decide
    exact this k hk
  have n1 : under k (annEnts l.annotations) = [] := under_nil fun hm => by
    rw [annEnts_keys] at hm
    obtain ⟨e, he, h1⟩ := List.mem_map.mp hm
    cases h1
    exact hh (hc.annotationKeys e he)
  have n2 : under k l.extra.ents = [] := under_nil fun hm => by
    obtain ⟨e, he, h1⟩ := List.mem_map.mp hm
    exact (hc.extraKeys e he k h1).1 hk
  have hu : under k (l.ents X) = OM.optEnt (.str k) (writtenLib X l k) := by
    rw [lib_ents_parts]
    simp only [List.flatMap_cons, List.flatMap_nil, List.append_nil, under_append, under_opt, n1,
      n2]
    simp only [libWriteKeys, List.mem_cons, List.not_mem_nil, or_false] at hk
    rcases hk with rfl | rfl | rfl | rfl | rfl | rfl | rfl <;> simp
  rw [lib_toYAML_clean hc]
  show (asPairs X (l.ents X)).filter _ = _
  rw [filter_asPairs hX, hu]
  cases writtenLib X l k with
  | none => rfl
  | some v => simp [OM.optEnt, asPairs, hX.ofKey_str]

/-- C50: annotations and extra facets are all written. -/
theorem C50_rest_written (X : Xyml) (hX : Lawful X) (l : Library) (hc : CleanLib l) :
    (∀ e ∈ l.annotations.ents, (Node.str e.1, renderPairs e.2.omap
      (e.2.ents.map fun x => (Node.str x.1, x.2))) ∈ mapEntries (l.toYAML X)) ∧
    (∀ e ∈ l.extra.ents, (X.ofKey e.1, e.2) ∈ mapEntries (l.toYAML X)) := by
  rw [C50_entries_in_order X hX l hc]
  simp only [List.mem_append]
  exact ⟨fun e he => .inr (.inl (List.mem_map_of_mem (f := fun e : String × Ann => _) he)),
    fun e he => .inr (.inr (.inr (.inl
      (List.mem_map_of_mem (f := fun e : Scalar × Node => _) he))))⟩

example : CleanLib plainLib ∧ (mapEntries (plainLib.toYAML Xyml.std)).map Prod.fst =
    [.str "usage", .str "traits", .scalar "!!bool" "true", .str "color", .str "types"] := by
  refine ⟨plainLib_plain.writable.clean, ?_⟩
  rw [C50_entries_in_order _ Xyml.std_lawful _ plainLib_plain.writable.clean]
  rfl

/-! ### C40 for libraries -/

/-- The dictionary parts of a library that have an `Unset` method. -/
inductive LibRefill where
  | types (es : List (String × DT))
  | traits (es : List (String × Node))
  | resourceTypes (es : List (String × Node))
  | uses (es : List (String × String))

/-- How many entries are added. -/
def LibRefill.size : LibRefill → Nat
  | .types es => es.length
  | .traits es | .resourceTypes es => es.length
  | .uses es => es.length

/-- The call that unsets the part. -/
def LibRefill.unset : LibRefill → LibOp
  | .types _ => .unsetTypes
  | .traits _ => .unsetTraits
  | .resourceTypes _ => .unsetResourceTypes
  | .uses _ => .unsetUses

/-- The key of the part. -/
def LibRefill.key : LibRefill → String
  | .types _ => "types"
  | .traits _ => "traits"
  | .resourceTypes _ => "resourceTypes"
  | .uses _ => "uses"

/-- Putting the entries, one after the other, into the map that the getter returns. -/
def LibRefill.add : LibRefill → Library → Library
  | .types es, a => { a with types := a.types.putAll es }
  | .traits es, a => { a with traits := a.traits.putAll es }
  | .resourceTypes es, a => { a with resourceTypes := a.resourceTypes.putAll es }
  | .uses es, a => { a with uses := a.uses.putAll es }

/-- The same part as in a new library. -/
def LibRefill.clear : LibRefill → Library → Library
  | .types _, a => { a with types := Library.new.types }
  | .traits _, a => { a with traits := Library.new.traits }
  | .resourceTypes _, a => { a with resourceTypes := Library.new.resourceTypes }
  | .uses _, a => { a with uses := Library.new.uses }

private theorem dict_refilled {V : Type} (f : V → Node) (es : List (String × V)) (b : Bool)
    (h : 0 < es.length) : ∃ ps, dictNode f ((OM.empty b).putAll es) = some (renderPairs b ps) := by
  have hne : ((OM.empty b).putAll es).ents ≠ [] := by
    rw [OM.empty_putAll_ents]
    cases es with
    | nil => cases h
    | cons e es =>
      obtain ⟨v, _, h1⟩ := lastWins_suffix (A := []) (B := e :: es) (k := e.1) (by simp)
      exact List.ne_nil_of_mem h1
  unfold dictNode
  rw [if_neg hne, OM.omap_putAll]
  exact ⟨_, rfl⟩

private theorem refill_part {X : Xyml} (r : LibRefill) (l : Library) (hr : 0 < r.size) :
    (∃ ps, writtenLib X (r.add (l.apply r.unset)) r.key = some (renderPairs true ps)) ∧
    ∃ ps, writtenLib X (r.add (r.clear l)) r.key = some (renderPairs false ps) := by
  cases r with
  | types es => exact ⟨dict_refilled _ es true hr, dict_refilled _ es false hr⟩
  | traits es => exact ⟨dict_refilled _ es true hr, dict_refilled _ es false hr⟩
  | resourceTypes es => exact ⟨dict_refilled _ es true hr, dict_refilled _ es false hr⟩
  | uses es => exact ⟨dict_refilled _ es true hr, dict_refilled _ es false hr⟩

private theorem refill_key (r : LibRefill) : r.key ∈ libWriteKeys ∧
    ∃ s, (r.key, s) ∈ libKeys ∧ s ∈ [LibSection.uses, .securitySchemes, .traits,
      .resourceTypes, .types, .annotations] := by
  cases r <;> simp only [LibRefill.key]
  · exact ⟨by decide, .types, by decide, by decide⟩
  · exact ⟨by decide, .traits, by decide, by decide⟩
  · exact ⟨by decide, .resourceTypes, by decide, by decide⟩
  · exact ⟨by decide, .uses, by decide, by decide⟩

private theorem refill_clean (r : LibRefill) (l : Library) (hc : CleanLib l) :
    CleanLib (r.add (l.apply r.unset)) ∧ CleanLib (r.add (r.clear l)) := by
  cases r <;> exact ⟨⟨hc.1, hc.2, hc.3, hc.4⟩, ⟨hc.1, hc.2, hc.3, hc.4⟩⟩

/-- An entry that is a sequence where a mapping is needed makes the library unreadable. -/
theorem lib_seq_rejected {X : Xyml} {ps : List (Node × Node)} {p : Node × Node} (hp : p ∈ ps)
    {tag : String} {ns : List Node} (hv : p.2 = .seq tag ns)
    (hs : libSectionOf p ∈ [LibSection.uses, .securitySchemes, .traits, .resourceTypes, .types,
      .annotations]) (b : Library) :
    parseLibrary X (some (.map ps)) ≠ .ok b := by
  intro h
  obtain ⟨x, y, hstep⟩ := lib_part_mem (a := Library.new) h hp
  rw [hv] at hstep
  revert x y
  generalize libSectionOf p = s at hs
  simp only [List.mem_cons, List.not_mem_nil, or_false] at hs
  rcases hs with rfl | rfl | rfl | rfl | rfl | rfl <;> intro x y h
  case inr.inr.inr.inr.inl =>
    have h : loadTypes X (.seq tag ns) x = .ok y := h
    cases h
  case inr.inr.inr.inr.inr =>
    have h : (if p.1.value = "annotationTypes" then loadAnns x (Node.seq tag ns)
      else (loadAnn (Node.seq tag ns)).map fun a => OM.put x p.1.value a) = Res.ok y := h
    by_cases hk : p.1.value = "annotationTypes"
    · rw [if_pos hk] at h; cases h
    · rw [if_neg hk] at h; cases h
  all_goals cases h

/-- C40: false for libraries too: after `Unset`, whatever entries are added, the library cannot
be read back. -/
theorem C40_library_unset_then_add_false (X : Xyml) (hX : Lawful X) (l : Library) (hc : CleanLib l)
    (r : LibRefill) (hr : 0 < r.size) (b : Library) :
    parseLibrary X (some ((r.add (l.apply r.unset)).toYAML X)) ≠ .ok b := by
  obtain ⟨⟨ps, h1⟩, _⟩ := refill_part (X := X) r l hr
  obtain ⟨h2, _⟩ := refill_clean r l hc
  obtain ⟨k1, s, k2, k3⟩ := refill_key r
  have h3 := C50_section_entry X hX _ h2 r.key k1
  rw [h1, show (some (renderPairs true ps)).toList.map (fun v => (Node.str r.key, v)) =
    [(Node.str r.key, renderPairs true ps)] from rfl] at h3
  have h4 := List.mem_of_mem_filter (h3 ▸ List.mem_singleton_self (Node.str r.key, renderPairs true ps))
  rw [lib_toYAML_eq] at h4 ⊢
  refine lib_seq_rejected h4 (tag := omapTag) rfl ?_ b
  rw [libSectionOf_known k2]
  exact k3

/-- C40: false for libraries: what is written differs from what is written when the same entries
are added to the part of a new library. -/
theorem C40_library_written_differently_false (X : Xyml) (hX : Lawful X) (l : Library)
    (hc : CleanLib l) (r : LibRefill) (hr : 0 < r.size) :
    (r.add (l.apply r.unset)).toYAML X ≠ (r.add (r.clear l)).toYAML X := by
  intro h
  obtain ⟨⟨ps, h1⟩, ⟨qs, h1'⟩⟩ := refill_part (X := X) r l hr
  obtain ⟨h2, h2'⟩ := refill_clean r l hc
  obtain ⟨k1, _⟩ := refill_key r
  have h3 := C50_section_entry X hX _ h2 r.key k1
  rw [h, C50_section_entry X hX _ h2' r.key k1, h1, h1'] at h3
  simp [renderPairs] at h3

example : CleanLib plainLib ∧ 0 < (LibRefill.traits [("a", .str "x")]).size :=
  ⟨plainLib_plain.writable.clean, by decide⟩

/-! ### C39 for libraries -/

/-- C39: false for libraries: a library with a parsed annotation cannot be read back. -/
theorem C39_library_annotations_false (X : Xyml) (hX : Lawful X) (l : Library) (hc : CleanLib l)
    (hne : l.annotations.ents ≠ []) (hp : ParsedLib l) (b : Library) :
    parseLibrary X (some (l.toYAML X)) ≠ .ok b := by
  obtain ⟨e, he⟩ := List.exists_mem_of_ne_nil _ hne
  have h1 := (C50_rest_written X hX l hc).1 e he
  rw [(hp.annotationValues e he).1] at h1
  rw [lib_toYAML_eq] at h1 ⊢
  refine lib_seq_rejected h1 (tag := omapTag) rfl ?_ b
  have hk := hc.annotationKeys e he
  have h2 : startsWith '(' (Node.str e.1) = true := by
    simp [startsWith, Node.str, Node.isStr, Node.value, hk]
  have h3 : libKeys.lookup e.1 = none := by
    rw [List.lookup_eq_none_iff]
    intro x hx
    have : ∀ x ∈ libKeys, x.1.toList.head? ≠ some '(' := by decide
    have h4 := this x hx
    simp only [bne_iff_ne]
    intro h5
    rw [← h5] at h4
    exact h4 hk
  simp only [libSectionOf, show (Node.str e.1).value = e.1 from rfl, h3, h2, if_true]
  decide

/-- Such a library, as parsed; its written form is rejected. -/
example : ∃ l, parseLibrary Xyml.std (some (.map [(.str "usage", .str "t"),
      (.str "(note)", .map [(.str "a", .str "b")])])) = .ok l ∧ l.annotations.ents ≠ [] ∧
    ParsedLib l ∧ parseLibrary Xyml.std (some (l.toYAML Xyml.std)) = .err .notMap :=
  ⟨_, rfl, List.cons_ne_nil _ _, parseLibrary_parsed Xyml.std_lawful (o := some (.map
    [(.str "usage", .str "t"), (.str "(note)", .map [(.str "a", .str "b")])])) rfl, rfl⟩

end Verif.Props
