import Verif.Doc.SpellSpec
import Verif.Doc.WriteLemmas
import Verif.Props.ApiParse

/-! # C108: different spellings of the same definition are read alike -/

namespace Verif.Props
open Verif Verif.Doc Verif.Doc.Spec

/-! ### Loops -/

/-- Entries that do the same can take each other's place. -/
theorem forPairs_swap {σ : Type} {f : Node → Node → σ → Res σ} {I : σ → Prop}
    {p q : Node × Node} (h : ∀ s, I s → f p.1 p.2 s = f q.1 q.2 s)
    (pre post : List (Node × Node))
    (hI : ∀ r ∈ pre, ∀ s s', I s → f r.1 r.2 s = .ok s' → I s') (s : σ) (hs : I s) : forPairs f (pre ++ p :: post) s = forPairs f (pre ++ q :: post) s := by
  induction pre generalizing s with
  | nil => simp only [List.nil_append, forPairs, h s hs]
  | cons r pre ih =>
    simp only [List.cons_append, forPairs]
    cases hr : f r.1 r.2 s with
    | ok a => exact ih (fun r h => hI r (by simp [h])) a (hI r (by simp) _ _ hs hr)
    | err e => rfl
    | panic c => rfl

private theorem forPairs_same {σ : Type} {f : Node → Node → σ → Res σ} {p q : Node × Node}
    (h : ∀ s, f p.1 p.2 s = f q.1 q.2 s) (pre post : List (Node × Node)) (s : σ) :
    forPairs f (pre ++ p :: post) s = forPairs f (pre ++ q :: post) s :=
  forPairs_swap (I := fun _ => True) (fun s _ => h s) pre post (fun _ _ _ _ _ _ => trivial) s
    trivial

/-! ### The kind -/

private theorem scan_same {k k' v v' : Node} {post : List (Node × Node)}
    (h : k.value = k'.value ∧ (GivesType k → v = v') ∨ GivesType k ∧ GivesType k' ∧ v = v')
    (pre : List (Node × Node)) (a b : Bool) :
    siftScan (pre ++ (k, v) :: post) a b = siftScan (pre ++ (k', v') :: post) a b := by
  induction pre generalizing a b with
  | nil =>
    simp only [List.nil_append, siftScan]
    rcases h with ⟨h1, h2⟩ | ⟨h1, h2, rfl⟩
    · rw [← h1]
      by_cases hk : k.value = "type" ∨ k.value = "schema"
      · rw [if_pos hk, if_pos hk, h2 hk]
      · rw [if_neg hk, if_neg hk]
    · rw [if_pos (show k.value = "type" ∨ k.value = "schema" from h1),
        if_pos (show k'.value = "type" ∨ k'.value = "schema" from h2)]
  | cons p pre ih =>
    obtain ⟨x, y⟩ := p
    simp only [List.cons_append, siftScan, ih]

theorem sift_same {k k' v v' : Node} {pre post : List (Node × Node)}
    (h : k.value = k'.value ∧ (GivesType k → v = v') ∨ GivesType k ∧ GivesType k' ∧ v = v') :
    siftType (pre ++ (k, v) :: post) = siftType (pre ++ (k', v') :: post) := by
  unfold siftType
  rw [scan_same h]

theorem sift_kind {ps : List (Node × Node)} {t : DT} {kd : Kind}
    (h : siftType ps = .ok t) (hk : kindOf ps = some kd) : t.kind = kd := by
  obtain ⟨h1, h2⟩ := siftType_spec ps
  cases hf : ps.find? isTypeEntry with
  | none =>
    rw [h2 hf] at h
    cases h
    rw [kind_new]
    simpa [kindOf, hf] using hk
  | some e =>
    simp only [kindOf, hf] at hk
    split at hk
    · rename_i he
      rw [h1 e hf, if_pos he] at h
      cases h
      rw [(typeToKind_spec _).1]
      exact Option.some.inj hk
    · cases hk

/-- An entry of a definition can be replaced by one that does the same to types of its kind. -/
private theorem hat_swap {X : Xyml} {k k' v v' : Node} {pre post : List (Node × Node)}
    (h : k.value = k'.value ∧ (GivesType k → v = v') ∨ GivesType k ∧ GivesType k' ∧ v = v')
    (ha : ∀ t : DT, (∀ kd, kindOf (pre ++ (k, v) :: post) = some kd → t.kind = kd) →
      assign X (k, v) t = assign X (k', v') t) :
    hat X (.map (pre ++ (k, v) :: post)) = hat X (.map (pre ++ (k', v') :: post)) := by
  unfold hat
  rw [← sift_same (pre := pre) (post := post) h]
  cases h0 : siftType (pre ++ (k, v) :: post) with
  | err e => rfl
  | panic c => rfl
  | ok t0 =>
    simp only [Res.bind_ok, assignAll_eq]
    exact forPairs_swap (f := fun k v t => assign X (k, v) t)
      (I := fun t : DT => t.kind = t0.kind) (p := (k, v)) (q := (k', v'))
      (fun t ht => ha t fun kd hk => ht.trans (sift_kind h0 hk)) pre post
      (fun _ _ _ _ hI h => (assign_kind h).trans hI) t0 rfl

/-! ### Entries -/

theorem gives_facet {k v : Node} (h : GivesType k) (kd : Kind) :
    facetOf kd (k, v) = .type := by
  rcases h with h | h
  · exact facetOf_eq h (by cases kd <;> decide) (by decide)
  · exact facetOf_eq h (by cases kd <;> decide) (by decide)

theorem not_gives {k : Node} {s : String} (h : k.value = s) (h1 : s ≠ "type")
    (h2 : s ≠ "schema") : ¬ GivesType k := by
  rintro (h' | h') <;> rw [h] at h'
  · exact h1 h'
  · exact h2 h'

private theorem type_entry {X : Xyml} {s : String} {t : DT} (h : t.type = s) :
    assign X (.str "type", .str s) t = .ok t := by
  rw [assign_eq, gives_facet (.inl rfl), step_type]
  show (Res.ok (t.setSchema s) : Res DT) = _
  congr 1
  subst h
  cases t <;> rfl

private theorem example_short {X : Xyml} {kd : Kind} {v : Node} (h : ∀ qs, v ≠ .map qs) :
    (Example.new kd).unmarshal X (.map [(.str "value", v)]) =
      (Example.new kd).unmarshal X v := by
  have h1 : (Example.new kd).unmarshal X v =
      (exampleVal X kd v).map fun x => { Example.new kd with value := some x } := by
    cases v with
    | map qs => exact absurd rfl (h qs)
    | scalar a b => rfl
    | seq a b => rfl
  have h2 : (Example.new kd).assign X (.str "value") v =
      (exampleVal X kd v).map fun x => { Example.new kd with value := some x } := rfl
  rw [h1]
  show ((Example.new kd).assign X (.str "value") v).bind Res.ok = _
  rw [h2]
  cases exampleVal X kd v <;> rfl

private theorem loadTypes_swap {X : Xyml} {n v w : Node} (h : hat X v = hat X w)
    (qs rs : List (Node × Node)) (m : OM String DT) :
    loadTypes X (.map (qs ++ (n, v) :: rs)) m = loadTypes X (.map (qs ++ (n, w) :: rs)) m := by
  rw [loadTypes_eq, loadTypes_eq]
  refine forPairs_same (f := fun k v m => loadType X (k, v) m) (p := (n, v)) (q := (n, w))
    (fun s => ?_) qs rs m
  simp only [loadType, h]

private theorem loadProps_swap {X : Xyml} {n v w : Node} (h : hat X v = hat X w)
    (qs rs : List (Node × Node)) (m : OM String DT) :
    loadProps X (.map (qs ++ (n, v) :: rs)) m = loadProps X (.map (qs ++ (n, w) :: rs)) m := by
  rw [loadProps_eq, loadProps_eq]
  refine forPairs_same (f := fun k v m => loadProp X (k, v) m) (p := (n, v)) (q := (n, w))
    (fun s => ?_) qs rs m
  simp only [loadProp, h]

private theorem loadFacets_swap {X : Xyml} {g n v w : Node} (h : hat X v = hat X w)
    (gs hs qs rs : List (Node × Node)) (m : OM String (OM String DT)) :
    loadFacets X (.map (gs ++ (g, .map (qs ++ (n, v) :: rs)) :: hs)) m =
      loadFacets X (.map (gs ++ (g, .map (qs ++ (n, w) :: rs)) :: hs)) m := by
  rw [loadFacets_eq, loadFacets_eq]
  refine forPairs_same (f := fun k v m => loadFacet X (k, v) m)
    (p := (g, .map (qs ++ (n, v) :: rs))) (q := (g, .map (qs ++ (n, w) :: rs)))
    (fun s => ?_) gs hs m
  simp only [loadFacet, loadTypes_swap h]

theorem nonbasic_facet {kd : Kind} {k v : Node} {s : String} {f : Facet}
    (hb : isBasic kd = false) (hk : k.value = s)
    (hs : ∀ kd, isBasic kd = false → (facetNames kd).contains s = true)
    (hl : facetNamed.lookup s = some f) : facetOf kd (k, v) = f :=
  facetOf_eq hk (hs kd hb) hl

/-- C108: spellings of the same type definition are read alike. -/
theorem C108_type (X : Xyml) {n m : Node} (h : Respelled n m) : hat X n = hat X m := by
  induction h with
  | refl n => rfl
  | symm _ ih => exact ih.symm
  | trans _ _ ih ih' => exact ih.trans ih'
  | short s =>
    have hs : siftType [(.str "type", .str s)] = .ok (typeToKind s) := rfl
    have h1 : hat X (.str s) = .ok (typeToKind s) := by
      unfold Node.str hat
      rw [if_pos rfl]
    have h2 : hat X (.map [(.str "type", .str s)]) = .ok (typeToKind s) := by
      unfold hat
      rw [hs, Res.bind_ok]
      unfold assignAll
      rw [type_entry (typeToKind_spec s).2.1, Res.bind_ok]
      unfold assignAll
      rfl
    rw [h1, h2]
  | @implied ps hp =>
    have hf : ps.find? isTypeEntry = none := by
      rw [List.find?_eq_none]
      intro p h h'
      refine hp p h ?_
      simpa [isTypeEntry, GivesType] using h'
    have h0 : siftType ps = .ok (typeToKind (impliedName ps)) := by
      rw [(siftType_spec ps).2 hf]
      unfold impliedKind impliedName
      congr 1
      by_cases h1 : ∃ p ∈ ps, p.1.value = "properties"
      · rw [if_pos h1, if_pos (by simpa using h1)]; rfl
      · rw [if_neg h1, if_neg (by simpa using h1)]
        by_cases h2 : ∃ p ∈ ps, p.1.value = "items"
        · rw [if_pos h2, if_pos (by simpa using h2)]; rfl
        · rw [if_neg h2, if_neg (by simpa using h2)]; rfl
    have h1 : siftType ((.str "type", .str (impliedName ps)) :: ps) =
        .ok (typeToKind (impliedName ps)) := rfl
    unfold hat
    rw [h0, h1, Res.bind_ok, Res.bind_ok]
    conv => rhs; unfold assignAll
    rw [type_entry (typeToKind_spec _).2.1, Res.bind_ok]
  | @typeKey pre post k k' v hk hk' =>
    refine hat_swap (.inr ⟨hk, hk', rfl⟩) fun t _ => ?_
    rw [assign_eq, assign_eq, gives_facet hk, gives_facet hk']
    rfl
  | @keyTag pre post k k' v h1 h2 h3 =>
    refine hat_swap (.inl ⟨h1, fun _ => rfl⟩) fun t _ => ?_
    have hf : facetOf t.kind (k, v) = facetOf t.kind (k', v) := by
      have e1 : startsWith '(' k = false := by simp [startsWith, h3]
      have e2 : startsWith '(' k' = false := by simp [startsWith, ← h1, h3]
      simp only [facetOf, h1, e1, e2]
    rw [assign_eq, assign_eq, hf]
    unfold DT.step
    congr 1
    cases facetOf t.kind (k', v) <;> try rfl
    case annotations => simp only [facetStep, h1]
    case extra =>
      simp only [facetStep]
      have e1 : (k.value == "") = false := by simpa using h2
      have e2 : (k'.value == "") = false := by rw [← h1]; exact e1
      rw [h1]
      simp only [e2, Bool.and_false, Bool.false_eq_true, if_false]
  | @«example» pre post kd k v hk hb hv hm =>
    refine hat_swap (.inl ⟨rfl, fun h => absurd h (not_gives hv (by decide) (by decide))⟩)
      fun t ht => ?_
    rw [assign_eq, assign_eq, ht kd hk, nonbasic_facet (f := .example) hb hv (by intro kd; cases kd <;> decide) (by decide),
      nonbasic_facet (f := .example) hb hv (by intro kd; cases kd <;> decide) (by decide)]
    unfold DT.step
    rw [ht kd hk]
    congr 1
    show (loadExample X kd v).map some = (loadExample X kd _).map some
    unfold loadExample
    cases kd <;> simp only [exampleSortingHat, Res.bind_ok, Res.bind_err, example_short hm]
  | @examples pre post kd k qs rs n v hk hb hv hm =>
    refine hat_swap (.inl ⟨rfl, fun h => absurd h (not_gives hv (by decide) (by decide))⟩)
      fun t ht => ?_
    rw [assign_eq, assign_eq, ht kd hk, nonbasic_facet (f := .examples) hb hv (by intro kd; cases kd <;> decide) (by decide),
      nonbasic_facet (f := .examples) hb hv (by intro kd; cases kd <;> decide) (by decide)]
    unfold DT.step
    rw [ht kd hk]
    congr 1
    show forPairs _ _ _ = forPairs _ _ _
    exact forPairs_same (p := (n, v)) (q := (n, .map [(.str "value", v)]))
      (fun s => by simp only [example_short hm]) qs rs _
  | @items pre post k v w hk hv _ ih =>
    refine hat_swap (.inl ⟨rfl, fun h => absurd h (not_gives hv (by decide) (by decide))⟩)
      fun t ht => ?_
    rw [assign_eq, assign_eq, ht _ hk, facetOf_eq (f := .items) hv (by decide) (by decide),
      facetOf_eq (f := .items) hv (by decide) (by decide)]
    unfold DT.step
    congr 1
    show (hat X v).map some = (hat X w).map some
    rw [ih]
  | @property pre post k qs rs n v w hk hv _ ih =>
    refine hat_swap (.inl ⟨rfl, fun h => absurd h (not_gives hv (by decide) (by decide))⟩)
      fun t ht => ?_
    rw [assign_eq, assign_eq, ht _ hk, facetOf_eq (f := .properties) hv (by decide) (by decide),
      facetOf_eq (f := .properties) hv (by decide) (by decide)]
    unfold DT.step
    congr 1
    exact loadProps_swap ih qs rs _
  | @facet pre post kd k gs hs g qs rs n v w hk hb hv _ ih =>
    refine hat_swap (.inl ⟨rfl, fun h => absurd h (not_gives hv (by decide) (by decide))⟩)
      fun t ht => ?_
    rw [assign_eq, assign_eq, ht kd hk, nonbasic_facet (f := .facets) hb hv (by intro kd; cases kd <;> decide) (by decide),
      nonbasic_facet (f := .facets) hb hv (by intro kd; cases kd <;> decide) (by decide)]
    unfold DT.step
    congr 1
    exact loadFacets_swap ih gs hs qs rs _

/-! ### Documents -/

private theorem loadTypes_append {X : Xyml} {qs rs : List (Node × Node)} {m : OM String DT} :
    loadTypes X (.map (qs ++ rs)) m =
      (loadTypes X (.map qs) m).bind fun m' => loadTypes X (.map rs) m' := by
  simp only [loadTypes_eq]
  exact forPairs_append _ qs rs m

private theorem api_types {X : Xyml} {s : String} (hs : s = "types" ∨ s = "schemas") (v : Node)
    (a : APISpec) : a.assign X (.str s) v =
      (loadTypes X v a.types).map fun m => { a with types := m } := by
  rcases hs with rfl | rfl <;> rfl

private theorem lib_types {X : Xyml} {k : Node} (hk : k.value = "types" ∨ k.value = "schemas")
    (v : Node) (l : Library) : l.assign X k v =
      (loadTypes X v l.types).map fun m => { l with types := m } := by
  unfold Library.assign
  rw [if_neg, if_neg, if_pos hk]
  all_goals rcases hk with h | h <;> rw [h] <;> decide

private theorem merge_types {X : Xyml} {qs rs post : List (Node × Node)} {a : APISpec} :
    forPairs (fun k v a => APISpec.assign X k v a)
      ((.str "types", .map qs) :: (.str "types", .map rs) :: post) a =
    forPairs (fun k v a => APISpec.assign X k v a)
      ((.str "types", .map (qs ++ rs)) :: post) a := by
  simp only [forPairs, api_types (.inl rfl), loadTypes_append]
  cases loadTypes X (.map qs) a.types with
  | err e => rfl
  | panic c => rfl
  | ok m => cases h : loadTypes X (.map rs) m <;> simp [Res.map, Res.bind, h]

private theorem merge_lib_types {X : Xyml} {qs rs post : List (Node × Node)} {a : Library} :
    forPairs (fun k v a => Library.assign X k v a)
      ((.str "types", .map qs) :: (.str "types", .map rs) :: post) a =
    forPairs (fun k v a => Library.assign X k v a)
      ((.str "types", .map (qs ++ rs)) :: post) a := by
  simp only [forPairs, lib_types (k := .str "types") (.inl rfl), loadTypes_append]
  cases loadTypes X (.map qs) a.types with
  | err e => rfl
  | panic c => rfl
  | ok m => cases h : loadTypes X (.map rs) m <;> simp [Res.map, Res.bind, h]

/-- C108: spellings of the same API document are read alike. -/
theorem C108_api (X : Xyml) {n m : Node} (h : ApiRespelled n m) :
    parseApi X n = parseApi X m := by
  induction h with
  | refl n => rfl
  | symm _ ih => exact ih.symm
  | trans _ _ ih ih' => exact ih.trans ih'
  | @typesKey pre post v =>
    exact forPairs_same (p := (.str "schemas", v)) (q := (.str "types", v))
      (fun a => (api_types (.inr rfl) v a).trans (api_types (.inl rfl) v a).symm) pre post _
  | @type pre post qs rs n v w s hs hr =>
    exact forPairs_same (p := (.str s, .map (qs ++ (n, v) :: rs)))
      (q := (.str s, .map (qs ++ (n, w) :: rs)))
      (fun a => by
        show a.assign X (.str s) _ = a.assign X (.str s) _
        rw [api_types hs, api_types hs, loadTypes_swap (C108_type X hr)]) pre post _
  | @types pre post qs rs =>
    show forPairs _ _ _ = forPairs _ _ _
    rw [forPairs_append, forPairs_append]
    congr 1
    funext a
    exact merge_types
  | @mediaType pre post s t hp =>
    refine forPairs_swap (I := fun a : APISpec => a.mediaType = none)
      (p := (.str "mediaType", .str s)) (q := (.str "mediaType", .seq t [.str s]))
      (fun a ha => ?_) pre post (fun r hr a b ha h => ?_) _ rfl
    · have h1 : a.assign X (.str "mediaType") (.str s) =
          .ok { a with mediaType := some (a.mediaType.getD [] ++ [s]) } := rfl
      have h2 : a.assign X (.str "mediaType") (.seq t [.str s]) =
          .ok { a with mediaType := some [s] } := rfl
      show a.assign X (.str "mediaType") _ = a.assign X (.str "mediaType") _
      rw [h1, h2, ha]
      rfl
    · obtain ⟨k, v⟩ := r
      have hne : apiSectionOf (k, v) ≠ .mediaType := by
        intro hc
        refine hp (k, v) hr ?_
        unfold apiSectionOf at hc
        split at hc
        · cases hc
        · split at hc
          · cases hc
          · split at hc
            · cases hl : apiKeys.lookup k.value with
              | none => rw [hl] at hc; cases hc
              | some x =>
                rw [hl] at hc
                have hc : x = .mediaType := hc
                subst hc
                have : ∀ p ∈ apiKeys, p.2 = .mediaType → p.1 = "mediaType" := by decide
                exact this _ (lookup_some_mem hl) rfl
            · cases hc
      have h : a.assign X k v = .ok b := h
      rw [api_assign_eq] at h
      obtain ⟨x, _, rfl⟩ := Res.map_eq_ok.mp h
      exact (apiGet_setPart_ne (s' := .mediaType) (Ne.symm hne) x a).trans ha

/-- C108: spellings of the same library are read alike. -/
theorem C108_library (X : Xyml) {n m : Node} (h : LibRespelled n m) :
    parseLibrary X (some n) = parseLibrary X (some m) := by
  induction h with
  | refl n => rfl
  | symm _ ih => exact ih.symm
  | trans _ _ ih ih' => exact ih.trans ih'
  | @typesKey pre post k k' v hk hk' =>
    exact forPairs_same (p := (k, v)) (q := (k', v))
      (fun a => (lib_types hk v a).trans (lib_types hk' v a).symm) pre post _
  | @type pre post k qs rs n v w hk hr =>
    exact forPairs_same (p := (k, .map (qs ++ (n, v) :: rs)))
      (q := (k, .map (qs ++ (n, w) :: rs)))
      (fun a => by
        show a.assign X k _ = a.assign X k _
        rw [lib_types hk, lib_types hk, loadTypes_swap (C108_type X hr)]) pre post _
  | @types pre post qs rs =>
    show forPairs _ _ _ = forPairs _ _ _
    rw [forPairs_append, forPairs_append]
    congr 1
    funext a
    exact merge_lib_types

/-! ### Concrete cases -/

/-- A property without a type in a type without a type, and the same with every type given. -/
example : Respelled
    (.map [(.str "properties", .map [(.str "a", .str "integer"),
      (.str "b", .map [(.str "minLength", .scalar "!!int" "1")])])])
    (.map [(.str "type", .str "object"), (.str "properties", .map [
      (.str "a", .map [(.str "type", .str "integer")]),
      (.str "b", .map [(.str "schema", .str "string"),
        (.str "minLength", .scalar "!!int" "1")])])]) := by
  refine .trans (.implied (by simp [GivesType, Node.value, Node.str])) ?_
  refine .trans (.property (pre := [_]) (qs := []) rfl rfl (.short "integer")) ?_
  refine .property (pre := [_]) (qs := [_]) (rs := []) rfl rfl ?_
  refine .trans (.implied (by simp [GivesType, Node.value, Node.str])) ?_
  exact .typeKey (pre := []) (.inl rfl) (.inr rfl)

/-- In a string definition `items` is a facet of the user's, so its value is kept as it is
written. -/
example : (hat Xyml.std (.map [(.str "type", .str "string"), (.str "items", .str "integer")]) ≠
      hat Xyml.std (.map [(.str "type", .str "string"),
        (.str "items", .map [(.str "type", .str "integer")])])) ∧
    kindOf [(.str "type", .str "string"), (.str "items", .str "integer")] ≠ some .array := by
  refine ⟨fun h => ?_, by decide⟩
  have := congrArg (fun r : Res DT => match r with
    | .ok (.ext h _ _ _ _) => h.extra.ents.map fun e : Scalar × Node => e.2.value
    | _ => []) h
  exact absurd this (by decide +kernel)

/-- A document with its types under two keys, in short forms, and with one media type. -/
example : ApiRespelled
    (.map [(.str "title", .str "t"), (.str "mediaType", .str "m"),
      (.str "schemas", .map [(.str "A", .map [])]), (.str "types", .map [(.str "B", .str "A")])])
    (.map [(.str "title", .str "t"), (.str "mediaType", .seq "!!seq" [.str "m"]),
      (.str "types", .map [(.str "A", .map [(.str "type", .str "string")]),
        (.str "B", .str "A")])]) := by
  refine .trans (.mediaType (pre := [_]) (t := "!!seq") (by simp [Node.value, Node.str])) ?_
  refine .trans (.typesKey (pre := [_, _])) ?_
  refine .trans (.types (pre := [_, _]) (qs := [_])) ?_
  exact .type (pre := [_, _]) (qs := []) (.inl rfl) (.implied (by simp))

/-- A media type that is not the first is added to the others, unlike a list. -/
example : (parseApi Xyml.std (.map [(.str "mediaType", .str "a"), (.str "mediaType", .str "b")]))
      = (parseApi Xyml.std (.map [(.str "mediaType", .seq "!!seq" [.str "a", .str "b"])])) ∧
    (match parseApi Xyml.std (.map [(.str "mediaType", .str "a"),
      (.str "mediaType", .seq "!!seq" [.str "b"])]) with
      | .ok a => a.mediaType | _ => none) = some ["b"] := ⟨rfl, rfl⟩

end Verif.Props
