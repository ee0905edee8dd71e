import Verif.Props.TypeLoad
import Verif.Props.TypeValues

/-! # C84: loading a definition again

A caller may call `UnmarshalYAML` twice with the same node, for instance after a retry or when a
file is loaded again.  Almost everything is overwritten with what it already is; three things
grow. -/

namespace Verif.Props
open Verif Verif.Doc Verif.Doc.Spec

/-! ### Merging the same thing twice -/

theorem mergedMap_again {K V : Type} [DecidableEq K] (old new : OM K V) :
    mergedMap (mergedMap old new) new = mergedMap old new := by
  have h : new.ents.filter (fun e => new.ents.all fun n => n.1 ≠ e.1) = [] := by
    rw [List.filter_eq_nil_iff]
    intro e he h
    exact of_decide_eq_true (List.all_eq_true.mp h e he) rfl
  simp only [mergedMap, List.filter_append, List.filter_filter, Bool.and_self, h, List.append_nil]

theorem mergedList_eq {α : Type} (l m : Option (List α)) :
    listOf (mergedList l m) = listOf l ++ listOf m := by
  cases m <;> simp [mergedList, listOf]

theorem or_again {α : Type} (a b : Option α) : a.or (a.or b) = a.or b := by
  cases a <;> rfl

theorem ite_again {α : Type} (c : Prop) [Decidable c] (a b : α) :
    (if c then (if c then a else b) else b) = if c then a else b := by
  split <;> rfl

/-! ### Libraries, examples, XML settings and documentation entries -/

/-- C84: a library that was loaded can be loaded again from the same node; nothing changes. -/
theorem C84_library (X : Xyml) (v : Node) (l m : Library) (h : l.unmarshal X v = .ok m) :
    m.unmarshal X v = .ok m := by
  rw [C61_library_merge] at h ⊢
  obtain ⟨new, hn, rfl⟩ := Res.map_eq_ok.mp h
  rw [hn, Res.map_ok, Res.ok.injEq]
  simp only [mergedLib, mergedMap_again, or_again]

/-- C84: the same for examples. -/
theorem C84_example (X : Xyml) (v : Node) (e f : Example) (h : e.unmarshal X v = .ok f) :
    f.unmarshal X v = .ok f := by
  rw [C77_example_merge] at h ⊢
  obtain ⟨new, hn, rfl⟩ := Res.map_eq_ok.mp h
  have hk : (mergedExample (mapEntries v) e new).kind = e.kind := rfl
  rw [hk, hn, Res.map_ok, Res.ok.injEq]
  simp only [mergedExample, mergedMap_again, or_again]
  congr 1
  split <;> rfl

/-- C84: the same for XML settings. -/
theorem C84_xml (X : Xyml) (v : Node) (x y : XML) (h : x.unmarshal X v = .ok y) :
    y.unmarshal X v = .ok y := by
  rw [C77_xml_merge] at h ⊢
  obtain ⟨new, hn, rfl⟩ := Res.map_eq_ok.mp h
  rw [hn, Res.map_ok, Res.ok.injEq]
  simp only [mergedXML, mergedMap_again, or_again]

/-- C84: the same for documentation entries. -/
theorem C84_documentation (X : Xyml) (v : Node) (d e : Documentation)
    (h : d.unmarshal X v = .ok e) : e.unmarshal X v = .ok e := by
  rw [C77_documentation_merge] at h ⊢
  obtain ⟨new, hn, rfl⟩ := Res.map_eq_ok.mp h
  rw [hn, Res.map_ok, Res.ok.injEq]
  simp only [mergedDocumentation, mergedMap_again]
  congr 1 <;> split <;> rfl

/-! ### API documents -/

/-- The elements of all `documentation` entries. -/
def docNodes (ps : List (Node × Node)) : List Node :=
  (ps.filter fun p => p.1.isStr && p.1.value == "documentation").flatMap fun p => seqItems p.2

private theorem media_cond (ps : List (Node × Node)) :
    (apiEntries .mediaType ps).all (fun p => p.2.isStr) = true ↔
      ∀ v ∈ mediaVals ps, v.isStr = true := by
  rw [named_entries (k := "mediaType") ps (by decide) (by decide) (by decide) (by decide)]
  simp only [List.all_eq_true, mediaVals, List.mem_map]
  exact ⟨fun h v ⟨p, hp, e⟩ => e ▸ h p hp, fun h p hp => h p.2 ⟨p, hp, rfl⟩⟩

/-- C84: loading an API document again succeeds.  Only `documentation` and `mediaType` may
change: the documentation entries are there twice, and so are the media types if all of them
were given as plain strings. -/
theorem C84_api (X : Xyml) (ps : List (Node × Node)) (a b : APISpec)
    (h : a.unmarshal X (.map ps) = .ok b) :
    ∃ c, b.unmarshal X (.map ps) = .ok c ∧
      (∀ s, s ≠ .documentation → s ≠ .mediaType → apiGet s c = apiGet s b) ∧
      (∃ ds, List.Forall₂ (IsDoc X) (docNodes ps) ds ∧
        listOf b.documentation = listOf a.documentation ++ ds ∧
        listOf c.documentation = listOf a.documentation ++ ds ++ ds) ∧
      ((∀ v ∈ mediaVals ps, v.isStr = true) →
        listOf b.mediaType = listOf a.mediaType ++ (mediaVals ps).map Node.value ∧
        listOf c.mediaType = listOf a.mediaType ++ (mediaVals ps).map Node.value ++
          (mediaVals ps).map Node.value) ∧
      ((∃ v ∈ mediaVals ps, v.isStr = false) → c.mediaType = b.mediaType) := by
  rw [C61_api_merge] at h
  obtain ⟨new, hn, rfl⟩ := Res.map_eq_ok.mp h
  refine ⟨_, by rw [C61_api_merge, hn, Res.map_ok], ?_, ?_, ?_, ?_⟩
  · intro s h1 h2
    cases s <;> first
      | exact absurd rfl h1
      | exact absurd rfl h2
      | exact or_again _ _
      | exact mergedMap_again _ _
      | (by_cases ht : apiEntries .title ps = [] <;>
          simp only [apiGet, mergedApi, mapEntries, ht, if_true, if_false] <;> rfl)
  · refine ⟨listOf new.documentation, (C38_parsed_partial X ps new hn).2, ?_, ?_⟩
    · exact mergedList_eq _ _
    · simp only [mergedApi, mergedList_eq]
  · intro hall
    have hc := (media_cond ps).mpr hall
    have hm : listOf new.mediaType = (mediaVals ps).map Node.value := by
      rw [(C37_media_types X ps new hn).2.1 hall]
      by_cases he : mediaVals ps = [] <;> simp [he, listOf]
    simp only [mergedApi, mapEntries, hc, if_true, mergedList_eq, hm, and_self]
  · rintro ⟨v, hv, hs⟩
    have hc : ¬ (apiEntries .mediaType ps).all (fun p => p.2.isStr) = true := by
      rw [media_cond]
      intro hall
      rw [hall v hv] at hs
      cases hs
    simp only [mergedApi, mapEntries, hc, Bool.false_eq_true, if_false]

private theorem docs_none {X : Xyml} {ps : List (Node × Node)} {l : Option (List Documentation)}
    (h : forPairs (fun _ v l => seqForEach (pushDoc X) v l) ps none = .ok l)
    (hl : listOf l = []) : l = none := by
  obtain ⟨r, hr⟩ := docs_pairs X ps
  rw [hr] at h
  obtain ⟨ds, rfl, rfl⟩ := Res.map_eq_ok.mp h
  by_cases hd : ds = []
  · simp [hd]
  · simp [hd, listOf] at hl

/-- C84: loading an API document again changes nothing exactly when it has no documentation
entries and either no media type or one that is given as a list. -/
theorem C84_api_same (X : Xyml) (ps : List (Node × Node)) (a b : APISpec)
    (h : a.unmarshal X (.map ps) = .ok b) :
    b.unmarshal X (.map ps) = .ok b ↔
      docNodes ps = [] ∧ (mediaVals ps = [] ∨ ∃ v ∈ mediaVals ps, v.isStr = false) := by
  have h0 := h
  obtain ⟨c, hc, h1, ⟨ds, hd, hb, hcd⟩, h3, h4⟩ := C84_api X ps a b h
  rw [hc, Res.ok.injEq]
  constructor
  · rintro rfl
    refine ⟨?_, ?_⟩
    · have : ds = [] := by rw [hb] at hcd; simpa using hcd
      subst this
      exact List.forall₂_nil_right_iff.mp hd
    · by_cases hall : ∀ v ∈ mediaVals ps, v.isStr = true
      · left
        obtain ⟨i1, i2⟩ := h3 hall
        rw [i1] at i2
        simpa using i2
      · right; simpa using hall
  · rintro ⟨hdn, hm⟩
    rw [C61_api_merge] at h hc
    obtain ⟨new, hn, rfl⟩ := Res.map_eq_ok.mp h
    rw [hn, Res.map_ok, Res.ok.injEq] at hc
    apply api_ext
    intro s
    by_cases e1 : s = .documentation
    · subst e1
      have hp := api_part .documentation ps _ new hn
      have hf := (C38_parsed_partial X ps new hn).2
      rw [show (List.flatMap _ _ : List Node) = [] from hdn] at hf
      have hnone := docs_none hp (List.forall₂_nil_left_iff.mp hf)
      replace hnone : new.documentation = none := hnone
      subst hc
      simp only [apiGet, mergedApi, hnone, mergedList]
      rfl
    · by_cases e2 : s = .mediaType
      · subst e2
        rcases hm with hm | hm
        · have hnone : new.mediaType = none := by
            rw [(C37_media_types X ps new hn).2.1 (by simp [hm]), if_pos hm]
          have hcnd := (media_cond ps).mpr (by simp [hm])
          subst hc
          simp only [apiGet, mergedApi, mapEntries, hcnd, if_true, hnone, mergedList]
          rfl
        · exact h4 hm
      · exact h1 s e1 e2

/-! ### Data types -/

/-- The elements of all `enum` entries of a definition, for the kinds that have an enum. -/
def enumNodes (kd : Kind) (ps : List (Node × Node)) : List Node :=
  if isBasic kd then [] else (allVals "enum" ps).flatMap seqItems

private theorem enum_pairs (X : Xyml) (kd : Kind) (qs : List (Node × Node))
    (l l' : Option (List Val))
    (h : forPairs (fun _ v l => loadEnum X kd l v) qs l = .ok l') :
    ∃ vs, ((qs.map Prod.snd).flatMap seqItems).mapM (enumElem X kd) = some vs ∧
      listOf l' = listOf l ++ vs ∧ ((qs.map Prod.snd).flatMap seqItems = [] → l' = l) := by
  induction qs generalizing l with
  | nil => cases h; exact ⟨[], by simp, by simp, fun _ => rfl⟩
  | cons q qs ih =>
    obtain ⟨l1, h1, h2⟩ := Res.bind_eq_ok.mp h
    obtain ⟨vs, i1, i2, i3⟩ := ih l1 h2
    cases hq : q.2 with
    | scalar a b => rw [hq] at h1; cases h1
    | map a => rw [hq] at h1; cases h1
    | seq tag ns =>
      rw [hq] at h1
      obtain ⟨ws, w1, w2, _⟩ := loadEnum_items X kd ns _ _ h1
      refine ⟨ws ++ vs, ?_, by rw [i2, w2, List.append_assoc], fun he => ?_⟩
      · simp [hq, seqItems, List.mapM_append, w1, i1]
      · rw [List.map_cons, List.flatMap_cons, List.append_eq_nil_iff, hq] at he
        obtain ⟨rfl, he⟩ : ns = [] ∧ _ := he
        rw [i3 he]
        cases h1
        rfl

private theorem enum_entries (kd : Kind) (ps : List (Node × Node)) :
    ((ps.filter fun p => facetOf kd p = .enum).map Prod.snd).flatMap seqItems =
      enumNodes kd ps := by
  unfold enumNodes
  split
  · rename_i hb
    have : ps.filter (fun p => facetOf kd p = .enum) = [] := by
      rw [List.filter_eq_nil_iff]
      intro p _ hp
      replace hp := of_decide_eq_true hp
      have hn : facetNames kd = ["type", "schema"] := by
        cases kd <;> first | rfl | (exact absurd hb (by decide))
      unfold facetOf at hp
      rw [hn, hb] at hp
      split at hp
      · rename_i hc
        have : p.1.value = "type" ∨ p.1.value = "schema" := by simpa using hc
        rcases this with h | h <;> rw [h] at hp <;> exact absurd hp (by decide)
      · cases hp
    rw [this]; rfl
  · rename_i hb
    have hcont : (facetNames kd).contains "enum" = true := by
      cases kd <;> first | rfl | (exact absurd rfl hb)
    have hq := facetOf_iff_name (f := .enum) hcont (by decide) (by decide)
    rw [allVals, ← hq]
    congr 3

private theorem type_again (X : Xyml) (v : Node) (t u : DT) (h : t.unmarshal X v = .ok u) :
    ∃ w, u.unmarshal X v = .ok w ∧ w.kind = u.kind ∧ dflt w = dflt u ∧
      (∀ f, f ≠ .enum → look f w = look f u) ∧
      (∃ vs, (enumNodes t.kind (mapEntries v)).mapM (enumElem X t.kind) = some vs ∧
        listOf (enum u) = listOf (enum t) ++ vs ∧
        listOf (enum w) = listOf (enum t) ++ vs ++ vs) ∧
      (enumNodes t.kind (mapEntries v) = [] → enum w = enum u) := by
  cases v with
  | seq a b => cases h
  | scalar a b =>
    have hs : (Node.scalar a b).isStr = true := by
      cases hs : (Node.scalar a b).isStr with
      | true => rfl
      | false =>
        rw [C77_type_rejected X _ t hs rfl] at h
        cases h
    have hx : ∀ t : DT, t.unmarshal X (.scalar a b) = .ok (t.setSchema b) := by
      intro t; simp [DT.unmarshal, hs, Node.value]
    rw [hx, Res.ok.injEq] at h
    subst h
    have hss : (t.setSchema b).setSchema b = t.setSchema b := by cases t <;> rfl
    have he : enum (t.setSchema b) = enum t := by cases t <;> rfl
    have hn : enumNodes t.kind (mapEntries (.scalar a b)) = [] := by
      unfold enumNodes; split <;> rfl
    refine ⟨_, hx _, by rw [hss], by rw [hss], fun f _ => by rw [hss], ⟨[], ?_, ?_, ?_⟩, ?_⟩
    · rw [hn]; rfl
    · rw [he, List.append_nil]
    · rw [hss, he, List.append_nil, List.append_nil]
    · intro _; rw [hss]
  | map ps =>
    have ht := C77_ends X (.map ps) t
    have hu := C77_ends X (.map ps) u
    have hk : u.kind = t.kind := assignAll_kind (X := X) (ps := ps) h
    obtain ⟨new, hn⟩ := ended_ok ht h
    rw [hk] at hu
    obtain ⟨w, hw⟩ := ended_ok hu.symm hn
    obtain ⟨a1, a2, a3⟩ := C77_type_merge X ps t u new h hn
    obtain ⟨b1, b2, b3⟩ := C77_type_merge X ps u w new hw (hk ▸ hn)
    obtain ⟨vs, c1, c2, _⟩ :=
      enum_pairs X t.kind _ _ _ (dt_part (kd := t.kind) .enum ps t u rfl h)
    obtain ⟨vs', d1, d2, d3⟩ :=
      enum_pairs X t.kind _ _ _ (dt_part (kd := t.kind) .enum ps u w hk hw)
    rw [enum_entries] at c1 d1 d3
    rw [c1] at d1
    cases d1
    refine ⟨w, hw, b1, b2, ?_, ⟨vs, c1, c2, ?_⟩, d3⟩
    · intro f hf
      rw [b3 f, a3 f, hk]
      cases f <;> first
        | exact absurd rfl hf
        | exact mergedMap_again _ _
        | (cases ps.any fun p => facetOf t.kind p = _ <;> rfl)
    · rw [show listOf (enum w) = _ from d2]
      exact congrArg (· ++ vs) c2

/-- C84: loading a type definition again succeeds and leaves every facet but the enum as it is;
the enum has the values of the definition twice. -/
theorem C84_type (X : Xyml) (v : Node) (t u : DT) (h : t.unmarshal X v = .ok u) :
    ∃ w, u.unmarshal X v = .ok w ∧ w.kind = u.kind ∧ dflt w = dflt u ∧
      (∀ f, f ≠ .enum → look f w = look f u) ∧
      ∃ vs, (enumNodes t.kind (mapEntries v)).mapM (enumElem X t.kind) = some vs ∧
        listOf (enum u) = listOf (enum t) ++ vs ∧
        listOf (enum w) = listOf (enum t) ++ vs ++ vs := by
  obtain ⟨w, h1, h2, h3, h4, h5, _⟩ := type_again X v t u h
  exact ⟨w, h1, h2, h3, h4, h5⟩

/-- C84: so it changes nothing exactly when the definition has no enum values. -/
theorem C84_type_same (X : Xyml) (v : Node) (t u : DT) (h : t.unmarshal X v = .ok u) :
    u.unmarshal X v = .ok u ↔ enumNodes t.kind (mapEntries v) = [] := by
  obtain ⟨w, h1, h2, h3, h4, ⟨vs, h5, h6, h7⟩, h8⟩ := type_again X v t u h
  rw [h1, Res.ok.injEq]
  constructor
  · rintro rfl
    have : vs = [] := by rw [h6] at h7; simpa using h7
    subst this
    cases hn : enumNodes t.kind (mapEntries v) with
    | nil => rfl
    | cons n ns =>
      rw [hn, List.mapM_cons] at h5
      cases hx : enumElem X t.kind n with
      | none => rw [hx] at h5; cases h5
      | some x => cases hy : ns.mapM (enumElem X t.kind) <;> rw [hx, hy] at h5 <;> cases h5
  · intro hn
    refine eq_of_look h2 h3 fun f => ?_
    by_cases hf : f = .enum
    · subst hf; exact h8 hn
    · exact h4 f hf

/-- C84: what `TypeSortingHat` reads can be loaded again into the type it made; the enum is then
there twice. -/
theorem C84_read_then_load (X : Xyml) (ps : List (Node × Node)) (t : DT)
    (h : hat X (.map ps) = .ok t) :
    ∃ w, t.unmarshal X (.map ps) = .ok w ∧ w.kind = t.kind ∧ dflt w = dflt t ∧
      (∀ f, f ≠ .enum → look f w = look f t) ∧
      listOf (enum w) = listOf (enum t) ++ listOf (enum t) := by
  obtain ⟨_, h1⟩ := (C77_parse X ps t).mp h
  obtain ⟨w, a1, a2, a3, a4, vs, a5, a6, a7⟩ := C84_type X _ _ _ h1
  have h0 : listOf (enum (DT.new t.kind)) = [] := by
    generalize t.kind = k
    cases k <;> rfl
  rw [h0, List.nil_append] at a6 a7
  exact ⟨w, a1, a2, a3, a4, by rw [a7, a6]⟩

/-! ### Concrete cases -/

/-- A document loaded twice: documentation and the media type are there twice, the rest once. -/
def reloadDoc : List (Node × Node) :=
  [(.str "title", .str "T"), (.str "version", .str "v1"), (.str "mediaType", .str "a/b"),
   (.str "protocols", .seq seqTag [.str "HTTP"]),
   (.str "documentation", .seq seqTag [.map [(.str "title", .str "D"), (.str "content", .str "C")]]),
   (.str "types", .map [(.str "A", .str "string"), (.str "B", .str "integer")]),
   (.str "/users", .map []), (.str "x", .str "y")]

example : ((parseApi Xyml.std (.map reloadDoc)).bind fun a =>
      (a.unmarshal Xyml.std (.map reloadDoc)).map fun b =>
        (b.title, b.mediaType, b.protocols, (listOf b.documentation).map (·.title))) =
    .ok ("T", some ["a/b", "a/b"], some ["HTTP"], ["D", "D"]) := by decide +kernel

example : ((parseApi Xyml.std (.map reloadDoc)).bind fun a =>
      (a.unmarshal Xyml.std (.map reloadDoc)).map fun b =>
        (b.types.keys, b.resources.keys, b.extra.ents.map Prod.fst, b.version)) =
    .ok (["A", "B"], ["/users"], [.str "x"], some "v1") := by decide +kernel

/-- A media type given as a list, and no documentation: nothing changes. -/
example : ∃ a, parseApi Xyml.std (.map [(.str "title", .str "T"),
      (.str "mediaType", .seq seqTag [.str "a/b"]), (.str "types", .map [])]) = .ok a ∧
    a.unmarshal Xyml.std (.map [(.str "title", .str "T"),
      (.str "mediaType", .seq seqTag [.str "a/b"]), (.str "types", .map [])]) = .ok a ∧
    a.mediaType = some ["a/b"] := by
  have hp : ∃ a, parseApi Xyml.std (.map [(.str "title", .str "T"),
      (.str "mediaType", .seq seqTag [.str "a/b"]), (.str "types", .map [])]) = .ok a ∧
      a.mediaType = some ["a/b"] := ⟨_, rfl, rfl⟩
  obtain ⟨a, ha, hm⟩ := hp
  exact ⟨a, ha, (C84_api_same Xyml.std _ APISpec.new a ha).mpr ⟨rfl, .inr ⟨_, .head _, rfl⟩⟩, hm⟩

/-- A string type with an enum, a pattern and an extra facet. -/
def reloadType : List (Node × Node) :=
  [(.str "type", .str "string"), (.str "enum", .seq seqTag [.str "a", .str "b"]),
   (.str "pattern", .str "x*"), (.str "other", .str "o")]

example : ∃ t u, hat Xyml.std (.map reloadType) = .ok t ∧
    t.unmarshal Xyml.std (.map reloadType) = .ok u ∧
    enum t = some [.str "a", .str "b"] ∧ enum u = some [.str "a", .str "b", .str "a", .str "b"] ∧
    u.extra.ents = [(.str "other", .str "o")] :=
  ⟨_, _, rfl, rfl, rfl, rfl, rfl⟩

/-- The `nil` type has no enum: the entry is an extra facet, and loading again changes nothing. -/
example : ∃ t, hat Xyml.std (.map [(.str "type", .str "nil"),
      (.str "enum", .seq seqTag [.str "a"])]) = .ok t ∧
    t.unmarshal Xyml.std (.map [(.str "type", .str "nil"),
      (.str "enum", .seq seqTag [.str "a"])]) = .ok t ∧
    t.extra.ents = [(.str "enum", .seq seqTag [.str "a"])] := ⟨_, rfl, rfl, rfl⟩

/-- The parts that never grow, loaded into objects in use. -/
example : ∃ l m, parseLibrary Xyml.std (some (.map [(.str "usage", .str "old"),
      (.str "traits", .map [(.str "t", .str "1"), (.str "u", .str "2")])])) = .ok l ∧
    l.unmarshal Xyml.std (.map [(.str "traits", .map [(.str "t", .str "3")])]) = .ok m ∧
    m.traits.ents = [("u", .str "2"), ("t", .str "3")] ∧ m.usage = some "old" ∧
    m.unmarshal Xyml.std (.map [(.str "traits", .map [(.str "t", .str "3")])]) = .ok m :=
  ⟨_, _, rfl, rfl, rfl, rfl, rfl⟩

example : ∃ e, (Example.new .string).unmarshal Xyml.std (.map [(.str "value", .str "a"),
      (.str "strict", .scalar "!!bool" "false"), (.str "q", .str "x")]) = .ok e ∧
    e.strict = false ∧ e.value = some (.str "a") ∧
    e.unmarshal Xyml.std (.map [(.str "value", .str "a"),
      (.str "strict", .scalar "!!bool" "false"), (.str "q", .str "x")]) = .ok e :=
  ⟨_, rfl, rfl, rfl, rfl⟩

example : ∃ x, XML.new.unmarshal Xyml.std (.map [(.str "name", .str "a"),
      (.str "q", .str "b")]) = .ok x ∧ x.name = some "a" ∧ x.extra.ents.length = 1 ∧
    x.unmarshal Xyml.std (.map [(.str "name", .str "a"), (.str "q", .str "b")]) = .ok x :=
  ⟨_, rfl, rfl, rfl, rfl⟩

example : ∃ d, Documentation.new.unmarshal Xyml.std (.map [(.str "title", .str "a"),
      (.str "q", .str "b")]) = .ok d ∧ d.title = "a" ∧ d.extra.ents.length = 1 ∧
    d.unmarshal Xyml.std (.map [(.str "title", .str "a"), (.str "q", .str "b")]) = .ok d :=
  ⟨_, rfl, rfl, rfl, rfl⟩

end Verif.Props
