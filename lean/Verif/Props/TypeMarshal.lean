import Verif.Props.TypeLoad

/-! # C79: writing a definition into a map of the caller

`MarshalRAML` of data types, examples, XML settings and documentation entries writes into a map
that may hold something already. -/

namespace Verif.Props
open Verif Verif.Doc Verif.Doc.Spec

/-! ### Functions that only put -/

/-- The function puts a fixed list of entries. -/
def OnlyPuts (F : OM Scalar Node → OM Scalar Node) : Prop := ∃ es, ∀ out, F out = out.putAll es

namespace OnlyPuts

theorem id : OnlyPuts fun out => out := ⟨[], fun _ => rfl⟩

variable {F : OM Scalar Node → OM Scalar Node}

theorem putAll (h : OnlyPuts F) (es : List (Scalar × Node)) : OnlyPuts fun o => (F o).putAll es := by
  obtain ⟨fs, hf⟩ := h
  exact ⟨fs ++ es, fun o => by
    show (F o).putAll es = _
    rw [hf, OM.putAll_append]⟩

theorem put (h : OnlyPuts F) (k : Scalar) (v : Node) : OnlyPuts fun o => (F o).put k v :=
  h.putAll [(k, v)]

theorem putOpt (h : OnlyPuts F) (k : Scalar) (v : Option Node) :
    OnlyPuts fun o => (F o).putOpt k v := by
  cases v with
  | none => exact h
  | some v => exact h.put k v

theorem ite (h : OnlyPuts F) {G : OM Scalar Node → OM Scalar Node} (g : OnlyPuts G) (p : Prop)
    [Decidable p] : OnlyPuts fun o => if p then F o else G o := by
  by_cases hp : p <;> simp only [hp, if_true, if_false] <;> assumption

theorem merged (h : OnlyPuts F) (b : Bool) (out : OM Scalar Node) :
    F out = mergedMap out (F (OM.empty b)) := by
  obtain ⟨es, he⟩ := h
  rw [he, he, putAll_merged out b]

end OnlyPuts

theorem onlyPuts_body (X : Xyml) (props items : Option Node) (b : Body)
    {F : OM Scalar Node → OM Scalar Node} (h : OnlyPuts F) :
    OnlyPuts fun o => b.marshal X props items (F o) := by
  cases b with
  | string f => exact ((h.putOpt _ _).putOpt _ _).putOpt _ _
  | file f => exact ((h.putOpt _ _).putOpt _ _).putOpt _ _
  | array f => exact (((h.putOpt _ _).putOpt _ _).putOpt _ _).putOpt _ _
  | object f => exact (((((h.putOpt _ _).putOpt _ _).putOpt _ _).putOpt _ _).putOpt _ _).putOpt _ _
  | number f => exact (((h.putOpt _ _).putOpt _ _).putOpt _ _).putOpt _ _
  | integer f => exact (((h.putOpt _ _).putOpt _ _).putOpt _ _).putOpt _ _
  | datetime f => exact h.putOpt _ _
  | _ => exact h

theorem onlyPuts_ext (X : Xyml) (facets : Option Node) (h : Hdr)
    {F : OM Scalar Node → OM Scalar Node} (g : OnlyPuts F) :
    OnlyPuts fun o => h.marshalExt X facets (F o) := by
  have g1 := ((((g.putOpt (.str "displayName") (h.displayName.map .str)).putOpt
    (.str "description") (h.description.map .str)).put (.str "type") (.str h.schema)).putAll
    h.extra.ents)
  have g2 := ((g1.ite (g1.put (.str "required") (X.ofBool h.required)) (h.required = true)).putAll
    (annEnts h.annotations)).putOpt (.str "facets") facets
  exact g2.putOpt (.str "xml") (h.xml.map XML.toYAML)

theorem onlyPuts_type (X : Xyml) (t : DT) : OnlyPuts fun o => (t.marshalRAML X o).1 := by
  rcases t with ⟨i, s, x⟩ | ⟨h, b, fs, ps, it⟩
  · exact (OnlyPuts.id.put _ _).putAll _
  · exact (((onlyPuts_body X (propsNode X ps) (itemsNode X it) b (onlyPuts_ext X (facetsNode X fs) h
      (OnlyPuts.id.putOpt _ _))).putOpt _ _).putOpt _ _).putOpt _ _

theorem onlyPuts_example (X : Xyml) (e : Example) : OnlyPuts fun o => (e.marshalRAML X o).1 := by
  have g1 := ((OnlyPuts.id.putOpt (.str "displayName") (e.displayName.map .str)).putOpt
    (.str "description") (e.description.map .str)).putOpt (.str "value")
    (e.value.map (Val.render X))
  have g2 := ((g1.ite (g1.put (.str "strict") (X.ofBool e.strict)) (e.strict = true)).putAll
    (annEnts e.annotations)).putAll e.extra.ents
  by_cases h : e.expand = true
  · simpa only [Example.marshalRAML, h, if_true] using g2
  · simpa [Example.marshalRAML, h] using OnlyPuts.id.put _ _

theorem mergedMap_get {K V : Type} [DecidableEq K] (old new : OM K V) (k : K) :
    (mergedMap old new).get k = (new.get k).or (old.get k) := by
  unfold OM.get mergedMap
  rw [List.find?_append]
  cases hn : new.ents.find? fun e => e.1 == k with
  | none =>
    simp only [Option.or_none, Option.map_none, Option.none_or]
    congr 1
    rw [List.find?_filter]
    have h1 := List.find?_eq_none.mp hn
    congr 1
    funext a
    by_cases ha : a.1 = k
    · have : (new.ents.all fun n => decide (n.1 ≠ a.1)) = true := by
        rw [List.all_eq_true]
        intro n hm
        have := h1 n hm
        rw [ha]
        simpa using this
      rw [ha] at this
      simp only [this, ha, beq_self_eq_true, and_self, decide_true]
    · simp [ha]
  | some e =>
    have : (old.ents.filter fun e => new.ents.all fun n => decide (n.1 ≠ e.1)).find?
        (fun e => e.1 == k) = none := by
      rw [List.find?_eq_none]
      intro a ha hk
      rw [List.mem_filter, List.all_eq_true] at ha
      have h1 := ha.2 e (List.mem_of_find?_eq_some hn)
      have h2 := List.find?_some hn
      simp only [beq_iff_eq] at h2 hk
      simp [h2, hk] at h1
    rw [this]
    rfl

theorem has_putAll {m : OM Scalar Node} {k : Scalar} (h : m.has k = true)
    (es : List (Scalar × Node)) : (m.putAll es).has k = true := by
  induction es generalizing m with
  | nil => exact h
  | cons e es ih =>
    rw [OM.putAll_cons]
    apply ih
    simp only [OM.has, OM.put, List.any_append, List.any_filter, List.any_cons, List.any_nil,
      Bool.or_false, Bool.or_eq_true]
    by_cases hk : e.1 = k
    · exact .inr (by simp [hk])
    · left
      simp only [OM.has, List.any_eq_true, beq_iff_eq] at h ⊢
      obtain ⟨x, hx, rfl⟩ := h
      exact ⟨x, hx, by simpa using Ne.symm hk⟩

/-! ### Data types -/

/-- C79: a data type writes into a map what it writes into a new one, over what is there; other
entries of the map stay, before the written ones and in their order. -/
theorem C79_type_into (X : Xyml) (t : DT) (out : OM Scalar Node) (b : Bool) :
    (t.marshalRAML X out).1 = mergedMap out (t.marshalRAML X (OM.empty b)).1 :=
  (onlyPuts_type X t).merged b out

/-- C79: entry by entry. -/
theorem C79_type_entry (X : Xyml) (t : DT) (out : OM Scalar Node) (b : Bool) (k : Scalar) :
    (t.marshalRAML X out).1.get k =
      ((t.marshalRAML X (OM.empty b)).1.get k).or (out.get k) := by
  rw [C79_type_into X t out b, mergedMap_get]

/-- C79: a `type` entry is always written. -/
theorem C79_type_has_type (X : Xyml) (t : DT) (out : OM Scalar Node) :
    ((t.marshalRAML X out).1.get (.str "type")).isSome := by
  have hput : ∀ (m : OM Scalar Node) v, (m.put (.str "type") v).has (.str "type") = true := by
    intro m v; simp [OM.has, OM.put]
  have hh : (t.marshalRAML X out).1.has (.str "type") = true := by
    rcases t with ⟨i, s, x⟩ | ⟨h, b, fs, ps, it⟩
    · exact has_putAll (hput _ _) _
    · have g1 : OnlyPuts fun o : OM Scalar Node => o.putAll h.extra.ents := OnlyPuts.id.putAll _
      have g2 := ((g1.ite (g1.put (.str "required") (X.ofBool h.required))
        (h.required = true)).putAll (annEnts h.annotations)).putOpt (.str "facets")
        (facetsNode X fs)
      have g3 := (((onlyPuts_body X (propsNode X ps) (itemsNode X it) b
        (g2.putOpt (.str "xml") (h.xml.map XML.toYAML))).putOpt (.str "enum")
        (h.enum.map (renderList (Val.render X)))).putOpt (.str "example")
        (h.example.map (Example.toYAML X))).putOpt (.str "examples")
        (if h.examples.len > 0 then some (renderStrMap (Example.toYAML X) h.examples) else none)
      obtain ⟨es, he⟩ := g3
      have := he ((((out.putOpt (.str "default") h.dflt).putOpt (.str "displayName")
        (h.displayName.map .str)).putOpt (.str "description") (h.description.map .str)).put
        (.str "type") (.str h.schema))
      show OM.has _ _ = true
      refine Eq.trans (congrArg (OM.has · _) this) ?_
      exact has_putAll (hput _ _) _
  simp only [OM.has, List.any_eq_true] at hh
  simp only [OM.get, Option.isSome_map, List.find?_isSome]
  exact hh

/-- C79: the returned flag says that the map now has the `type` entry and nothing else, whoever
put the other entries. -/
theorem C79_type_flag (X : Xyml) (t : DT) (out : OM Scalar Node) :
    (t.marshalRAML X out).2 = true ↔ ∃ v, (t.marshalRAML X out).1.ents = [(.str "type", v)] := by
  have h : (t.marshalRAML X out).2 = (decide ((t.marshalRAML X out).1.len = 1) &&
    (t.marshalRAML X out).1.has (.str "type")) := rfl
  rw [h]
  generalize (t.marshalRAML X out).1 = m
  rw [Bool.and_eq_true, decide_eq_true_eq]
  unfold OM.len OM.has
  constructor
  · rintro ⟨h1, h2⟩
    obtain ⟨⟨k, v⟩, he⟩ := List.length_eq_one_iff.mp h1
    rw [he] at h2 ⊢
    simp only [List.any_cons, List.any_nil, Bool.or_false, beq_iff_eq] at h2
    exact ⟨v, by rw [h2]⟩
  · rintro ⟨v, he⟩
    rw [he]
    exact ⟨rfl, by simp⟩

/-- C79: so a map that holds anything but a `type` entry never gets the short form. -/
theorem C79_type_flag_used (X : Xyml) (t : DT) (out : OM Scalar Node) (k : Scalar)
    (hk : k ≠ .str "type") (h : (out.get k).isSome) : (t.marshalRAML X out).2 = false := by
  by_contra hf
  obtain ⟨v, he⟩ := (C79_type_flag X t out).mp (by simpa using hf)
  have h1 := C79_type_entry X t out false k
  have h2 : (t.marshalRAML X out).1.get k = none := by
    simp [OM.get, he, Ne.symm hk]
  rw [h2] at h1
  have h3 := (Option.or_eq_none_iff.mp h1.symm).2
  rw [h3] at h
  cases h

/-- C79: `ToYAML` is `MarshalRAML` into a new map: the value of `type` alone when the flag is
set, else the map. -/
theorem C79_type_yaml (X : Xyml) (t : DT) (v : Node) :
    ((t.marshalRAML X (OM.empty false)).2 = true →
      (t.marshalRAML X (OM.empty false)).1.get (.str "type") = some v → t.toYAML X = v) ∧
    ((t.marshalRAML X (OM.empty false)).2 = false →
      t.toYAML X = renderAny X (t.marshalRAML X (OM.empty false)).1) := by
  have h : t.toYAML X = finish X (t.marshalRAML X (OM.empty false)).1 := by
    cases t with
    | basic i s x => rw [DT.toYAML]; rfl
    | ext h b fs ps it => rw [DT.toYAML]; rfl
  have h2 : (t.marshalRAML X (OM.empty false)).2 =
    (decide ((t.marshalRAML X (OM.empty false)).1.len = 1) &&
      (t.marshalRAML X (OM.empty false)).1.has (.str "type")) := rfl
  rw [h, h2]
  generalize (t.marshalRAML X (OM.empty false)).1 = m
  unfold finish
  constructor
  · intro h1 h3
    rw [Bool.and_eq_true, decide_eq_true_eq] at h1
    rw [if_pos h1, h3]
    rfl
  · intro h1
    rw [if_neg]
    rintro ⟨h3, h4⟩
    simp [h3, h4] at h1

/-! ### Examples -/

/-- C79: the same for examples. -/
theorem C79_example_into (X : Xyml) (e : Example) (out : OM Scalar Node) (b : Bool) :
    (e.marshalRAML X out).1 = mergedMap out (e.marshalRAML X (OM.empty b)).1 :=
  (onlyPuts_example X e).merged b out

/-- C79: an example announces the short form when it has nothing but a value, whatever the map
holds; the short form is one entry with the empty key. -/
theorem C79_example_flag (X : Xyml) (e : Example) (out : OM Scalar Node) :
    ((e.marshalRAML X out).2 = true ↔ e.displayName = none ∧ e.description = none ∧
      e.annotations.ents = [] ∧ e.extra.ents = [] ∧ e.strict = true) ∧
    ((e.marshalRAML X out).2 = true → (e.marshalRAML X (OM.empty false)).1.ents =
      [(.str "", (e.value.map (Val.render X)).getD nullNode)]) := by
  have hx : e.expand = false ↔ e.displayName = none ∧ e.description = none ∧
      e.annotations.ents = [] ∧ e.extra.ents = [] ∧ e.strict = true := by
    simp [Example.expand, OM.len, and_assoc]
  by_cases h : e.expand = true
  · have h2 : (e.marshalRAML X out).2 = false := by simp [Example.marshalRAML, h]
    refine ⟨?_, fun h3 => by rw [h2] at h3; cases h3⟩
    rw [h2, ← hx, h]
    simp
  · have h2 : (e.marshalRAML X out).2 = true := by simp [Example.marshalRAML, h]
    refine ⟨?_, fun _ => ?_⟩
    · rw [h2, ← hx]; simpa using h
    · simp [Example.marshalRAML, h, OM.put, OM.empty]

/-- C79: `ToYAML` of an example renders that map, with or without the flag. -/
theorem C79_example_yaml (X : Xyml) (e : Example) :
    e.toYAML X = renderAny X (e.marshalRAML X (OM.empty false)).1 := by
  unfold Example.toYAML Example.marshal Example.marshalRAML
  split <;> rfl

/-! ### XML settings -/

/-- C79: the same for XML settings; the flag is never set. -/
theorem C79_xml_into (X : Xyml) (x : XML) (out : OM Scalar Node) (b : Bool) :
    (x.marshalRAML X out).1 = mergedMap out (x.marshalRAML X (OM.empty b)).1 ∧
      (x.marshalRAML X out).2 = false :=
  ⟨OnlyPuts.merged (((((OnlyPuts.id.putOpt _ _).putOpt _ _).putOpt _ _).putOpt _ _).putOpt _ _)
    b out, rfl⟩

/-- C79: what XML settings write reads back, into settings in use, as those five settings over
what is there; extra entries are not written. -/
theorem C79_xml_read_back {X : Xyml} (hX : Lawful X) (x y : XML) :
    y.unmarshal X (renderAny X (x.marshalRAML X (OM.empty false)).1) =
      .ok { isAttr := x.isAttr.or y.isAttr, isWrap := x.isWrap.or y.isWrap
            name := x.name.or y.name, ns := x.ns.or y.ns, pref := x.pref.or y.pref
            extra := y.extra } := by
  rcases x with ⟨a, w, n, s, p, ex⟩
  have hb : ∀ b, asBool X (X.ofBool b) = .ok b := by intro b; simp [asBool, hX.toBool_ofBool]
  have hs : ∀ s, asString (Node.str s) = .ok s := fun _ => rfl
  have value_str : ∀ s, (Node.str s).value = s := fun _ => rfl
  cases a <;> cases w <;> cases n <;> cases s <;> cases p <;>
    simp [XML.marshalRAML, XML.unmarshal, renderAny, renderPairs, OM.empty, OM.put, OM.putOpt,
      mapForEach, forPairs, XML.assign, hX.ofKey_str, value_str, hb, hs]

/-- C79: XML settings that differ in their extra entries only are written alike. -/
theorem C79_xml_extra_lost (X : Xyml) (x : XML) (m : OM Scalar Node) (out : OM Scalar Node) :
    { x with extra := m }.marshalRAML X out = x.marshalRAML X out := rfl

/-! ### Documentation entries -/

/-- C79: the same for documentation entries; the flag is never set. -/
theorem C79_documentation_into (d : Documentation) (out : OM Scalar Node) (b : Bool) :
    (d.marshalRAML out).1 = mergedMap out (d.marshalRAML (OM.empty b)).1 ∧
      (d.marshalRAML out).2 = false :=
  ⟨OnlyPuts.merged (((OnlyPuts.id.put _ _).put _ _).putAll _) b out, rfl⟩

/-- C79: every entry of the map afterwards: an extra entry wins over title and content, and those
over what was there. -/
theorem C79_documentation_entry (d : Documentation) (out : OM Scalar Node) (k : Scalar)
    (hd : (d.extra.ents.map Prod.fst).Nodup) :
    (d.marshalRAML out).1.get k = (d.extra.get k).or
      (if k = .str "content" then some (.str d.content)
        else if k = .str "title" then some (.str d.title) else out.get k) := by
  have h : (OM.empty false).putAll d.extra.ents = ⟨d.extra.ents, false⟩ := by
    rw [OM.putAll_eq_append (by simpa [OM.keys, OM.empty] using hd)]
    rfl
  show OM.get (OM.putAll _ d.extra.ents) k = _
  rw [putAll_merged _ false, mergedMap_get, h, OM.get_put, OM.get_put]
  simp only [eq_comm (a := k)]
  rfl

theorem documentation_extras {X : Xyml} (hX : Lawful X) (es : List (Scalar × Node))
    (hk : ∀ e ∈ es, (X.ofKey e.1).value ≠ "title" ∧ (X.ofKey e.1).value ≠ "content")
    (d : Documentation) :
    forPairs (Documentation.assign X) (es.map fun e => (X.ofKey e.1, e.2)) d =
      .ok { d with extra := d.extra.putAll es } := by
  induction es generalizing d with
  | nil => rfl
  | cons e es ih =>
    have h1 := hk e (by simp)
    have h2 : Documentation.assign X (X.ofKey e.1) e.2 d =
        .ok { d with extra := d.extra.put e.1 e.2 } := by
      simp [Documentation.assign, h1.1, h1.2, asScalar, hX.toScalar_ofKey]
    simp only [List.map_cons, forPairs, h2, Res.bind_ok]
    rw [ih fun e he => hk e (by simp [he])]
    rfl

/-- C79: what a documentation entry writes reads back, into an entry in use: title and content
replace, extra entries are merged.  No extra entry may have a key with the text of `title` or
`content`. -/
theorem C79_documentation_read_back {X : Xyml} (hX : Lawful X) (d d' : Documentation)
    (hd : (d.extra.ents.map Prod.fst).Nodup)
    (hk : ∀ e ∈ d.extra.ents, (X.ofKey e.1).value ≠ "title" ∧ (X.ofKey e.1).value ≠ "content") :
    d'.unmarshal X (renderAny X (d.marshalRAML (OM.empty false)).1) =
      .ok { title := d.title, content := d.content, extra := mergedMap d'.extra d.extra } := by
  have hne : ∀ e ∈ d.extra.ents, e.1 ≠ .str "title" ∧ e.1 ≠ .str "content" := by
    intro e he
    have := hk e he
    refine ⟨fun h => this.1 ?_, fun h => this.2 ?_⟩ <;> rw [h, hX.ofKey_str] <;> rfl
  have hents : (d.marshalRAML (OM.empty false)).1 =
      ⟨(.str "title", .str d.title) :: (.str "content", .str d.content) :: d.extra.ents,
        false⟩ := by
    have h0 : (d.marshalRAML (OM.empty false)).1 =
      (⟨[(.str "title", .str d.title), (.str "content", .str d.content)], false⟩ :
        OM Scalar Node).putAll d.extra.ents := rfl
    rw [h0, OM.putAll_eq_append]
    · rfl
    · simp only [OM.keys, List.map_cons, List.map_nil, List.cons_append, List.nil_append,
        List.nodup_cons, List.mem_cons, List.mem_map, not_or, not_exists, not_and]
      exact ⟨⟨by simp, fun e he => (hne e he).1⟩, fun e he => (hne e he).2, hd⟩
  have hmerge : d'.extra.putAll d.extra.ents = mergedMap d'.extra d.extra := by
    rw [putAll_merged _ false, OM.putAll_eq_append]
    · rfl
    · simpa [OM.keys, OM.empty] using hd
  rw [hents]
  simp only [renderAny, renderPairs, Bool.false_eq_true, if_false, Documentation.unmarshal,
    mapForEach, List.map_cons, forPairs, hX.ofKey_str]
  have e1 : ∀ s d, Documentation.assign X (.str "title") (.str s) d = .ok { d with title := s } :=
    fun _ _ => rfl
  have e2 : ∀ s d, Documentation.assign X (.str "content") (.str s) d =
    .ok { d with content := s } := fun _ _ => rfl
  rw [e1, Res.bind_ok, e2, Res.bind_ok, documentation_extras hX _ hk]
  simp only [hmerge]

/-- C79: the restriction is needed: an extra entry named `title` replaces the title. -/
theorem C79_documentation_read_back_needs_names {X : Xyml} (hX : Lawful X) :
    ∃ d : Documentation, (d.extra.ents.map Prod.fst).Nodup ∧ d.title = "a" ∧
      ((Documentation.new.unmarshal X (renderAny X (d.marshalRAML (OM.empty false)).1)).map
        fun d' => d'.title) = .ok "b" := by
  refine ⟨⟨"a", "c", ⟨[(.str "title", .str "b")], true⟩⟩, by simp, rfl, ?_⟩
  simp [Documentation.marshalRAML, Documentation.unmarshal, renderAny, renderPairs, OM.empty,
    OM.put, OM.putAll, mapForEach, forPairs, Documentation.assign, hX.ofKey_str, Node.value,
    Node.str]

/-! ### Concrete cases -/

/-- A caller's map with a `type` entry and one of its own: the first is replaced and moves behind
the second, and no short form is announced for a type that has one. -/
example : (let out : OM Scalar Node := ⟨[(.str "type", .str "old"), (.str "mine", .str "x")], false⟩
    let r := (DT.new .string).marshalRAML Xyml.std out
    (r.1.ents.map fun (e : Scalar × Node) => (e.1, e.2.value), r.2)) =
    ([(.str "mine", "x"), (.str "type", "string")], false) := by
  decide +kernel

example : (let r := (DT.new .string).marshalRAML Xyml.std ⟨[(.str "type", .str "old")], false⟩
    (r.1.ents.map fun (e : Scalar × Node) => (e.1, e.2.value), r.2)) =
    ([(.str "type", "string")], true) := by
  decide +kernel

/-- An example with a value only, into a map in use. -/
example : (((Example.new .string).unmarshal Xyml.std (.str "v")).map
      fun (e : Example) => let r := e.marshalRAML Xyml.std ⟨[(.str "mine", .str "x")], false⟩
      (r.1.ents.map fun (e : Scalar × Node) => (e.1, e.2.value), r.2)) =
    .ok ([(.str "mine", "x"), (.str "", "v")], true) := by
  decide +kernel

/-- XML settings, into a map in use. -/
example : (let x : XML := ⟨some true, none, some "n", none, none, OM.empty false⟩
    ((x.marshalRAML Xyml.std ⟨[(.str "name", .str "m"), (.int 3, .str "y")], false⟩).1.ents.map
      fun (e : Scalar × Node) => (e.1, e.2.value))) =
    [(.int 3, "y"), (.str "attribute", "true"), (.str "name", "n")] := by
  decide +kernel

/-- A documentation entry with an extra entry under an integer key meets the hypotheses of
`C79_documentation_read_back`. -/
example : let d : Documentation := ⟨"t", "c", ⟨[(.int 3, .str "y"), (.str "z", .str "w")], true⟩⟩
    (d.extra.ents.map Prod.fst).Nodup ∧ ∀ e ∈ d.extra.ents,
      (Xyml.std.ofKey e.1).value ≠ "title" ∧ (Xyml.std.ofKey e.1).value ≠ "content" := by
  decide +kernel

end Verif.Props
