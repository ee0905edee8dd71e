import Verif.Doc.Written

/-! # C27, C28: what is written for a data type -/

namespace Verif.Props
open Verif Verif.Doc Verif.Doc.Spec
open scoped List

/-! ### C27 -/

/-- Properties belong to object types, items to array types (no API can violate this). -/
def Shaped (t : DT) : Prop :=
  ((properties t).ents ≠ [] → t.kind = .object) ∧ (items t ≠ none → t.kind = .array)

/-- No extra facet or annotation is called `type`. -/
def NoTypeKey (t : DT) : Prop :=
  Scalar.str "type" ∉ t.extra.ents.map Prod.fst ∧ "type" ∉ (annotations t).map Prod.fst

/-- The node that carries `Type()`: a string, or an `!include` for include types. -/
def typeScalar (t : DT) : Node :=
  .scalar (if t.kind = .include then "!include" else "!!str") t.type

theorem typeScalar_eq (t : DT) : typeScalar t = t.typeNode := by
  cases t with
  | basic i s x => cases i <;> rfl
  | ext h b fs ps it => cases b <;> rfl

private theorem optEnt_type {s : String} {o : Option Node} (hs : s ≠ "type")
    (h : ∀ e ∈ OM.optEnt (Scalar.str s) o, e.1 = Scalar.str "type") : o = none := by
  cases o with
  | none => rfl
  | some v =>
    have := h (Scalar.str s, v) (by simp [OM.optEnt])
    simp only [Scalar.str.injEq] at this
    exact absurd this hs

private theorem nil_of_type {m : List (Scalar × Node)}
    (hn : Scalar.str "type" ∉ m.map Prod.fst)
    (h : ∀ e ∈ m, e.1 = Scalar.str "type") : m = [] := by
  cases m with
  | nil => rfl
  | cons e m => exact absurd (h e (by simp)) (fun h' => hn (by simp [← h']))

private theorem props_none {X : Xyml} {ps : OM String DT} (h : propsNode X ps = none) :
    ps.ents = [] := by
  obtain ⟨es, o⟩ := ps
  cases es with
  | nil => rfl
  | cons e es => unfold propsNode at h; simp at h

private theorem facets_none {X : Xyml} {fs : OM String (OM String DT)} (h : facetsNode X fs = none) :
    fs.ents = [] := by
  obtain ⟨es, o⟩ := fs
  cases es with
  | nil => rfl
  | cons e es => unfold facetsNode at h; simp at h

private theorem items_none {X : Xyml} {it : Option DT} (h : itemsNode X it = none) : it = none := by
  cases it with
  | none => rfl
  | some t => unfold itemsNode at h; cases h

private theorem body_bare {X : Xyml} {b : Body} {props items : Option Node}
    (h : ∀ e ∈ b.ents X props items, e.1 = Scalar.str "type") :
    isDefaultBody b ∧ (b.kind = .object → props = none) ∧ (b.kind = .array → items = none) := by
  have ite_none : ∀ {c : Prop} [Decidable c] {v : Node}, (if c then some v else none) = none → ¬ c := by
    intro c _ v h hc; rw [if_pos hc] at h; cases h
  cases b <;> simp only [Body.ents, List.mem_append, or_imp, forall_and] at h <;>
    simp only [isDefaultBody, Body.kind, reduceCtorEq, false_implies, and_self, and_true, true_and,
      forall_true_left, true_implies]
  case datetime f => exact Option.map_eq_none_iff.mp (optEnt_type (by decide) h)
  case string f =>
    obtain ⟨h1, h2, h3⟩ := h
    have h2 := ite_none (optEnt_type (by decide) h2)
    exact ⟨Option.map_eq_none_iff.mp (optEnt_type (by decide) h1), by omega,
      Option.map_eq_none_iff.mp (optEnt_type (by decide) h3)⟩
  case file f =>
    obtain ⟨h1, h2, h3⟩ := h
    have h2 := ite_none (optEnt_type (by decide) h2)
    have h3 := ite_none (optEnt_type (by decide) h3)
    exact ⟨Option.map_eq_none_iff.mp (optEnt_type (by decide) h1), by omega, by omega⟩
  case array f =>
    obtain ⟨h1, h2, h3, h4⟩ := h
    have h1 := ite_none (optEnt_type (by decide) h1)
    have h2 := ite_none (optEnt_type (by decide) h2)
    have h3 := ite_none (optEnt_type (by decide) h3)
    have h4 := optEnt_type (by decide) h4
    exact ⟨⟨by simpa using h1, by omega, by omega⟩, h4⟩
  case object f =>
    obtain ⟨h1, h2, h3, h4, h5, h6⟩ := h
    have h1 := optEnt_type (by decide) h1
    refine ⟨⟨Option.map_eq_none_iff.mp (optEnt_type (by decide) h2),
      Option.map_eq_none_iff.mp (optEnt_type (by decide) h3), ?_,
      Option.map_eq_none_iff.mp (optEnt_type (by decide) h4), optEnt_type (by decide) h5⟩,
      optEnt_type (by decide) h6⟩
    revert h1
    cases f.addtlProps <;> simp
  case number f =>
    obtain ⟨h1, h2, h3, h4⟩ := h
    exact ⟨Option.map_eq_none_iff.mp (optEnt_type (by decide) h1),
      Option.map_eq_none_iff.mp (optEnt_type (by decide) h2),
      Option.map_eq_none_iff.mp (optEnt_type (by decide) h3),
      Option.map_eq_none_iff.mp (optEnt_type (by decide) h4)⟩
  case integer f =>
    obtain ⟨h1, h2, h3, h4⟩ := h
    exact ⟨Option.map_eq_none_iff.mp (optEnt_type (by decide) h1),
      Option.map_eq_none_iff.mp (optEnt_type (by decide) h2),
      Option.map_eq_none_iff.mp (optEnt_type (by decide) h3),
      Option.map_eq_none_iff.mp (optEnt_type (by decide) h4)⟩

private theorem bare_of_only_type {X : Xyml} {t : DT} (hs : Shaped t) (hn : NoTypeKey t)
    (h : ∀ e ∈ t.ents X, e.1 = Scalar.str "type") : Bare t := by
  cases t with
  | basic i s x =>
    have : x.ents = [] := nil_of_type hn.1 (fun e he => h e (List.mem_cons_of_mem _ he))
    exact ⟨this, rfl, rfl, rfl, rfl, rfl, rfl, rfl, rfl, rfl, rfl, rfl, rfl, fun _ hb => nomatch hb⟩
  | ext g b fs ps it =>
    simp only [DT.ents, dtEnts, Hdr.headEnts, Hdr.reqEnts, Hdr.tailEnts, List.mem_append, or_imp,
      forall_and] at h
    obtain ⟨h1, ⟨h2, h3, _⟩, h4, h5, h6, h7, h8, h9, h10, h11, h12⟩ := h
    obtain ⟨hb1, hb2, hb3⟩ := body_bare h9
    have hex : g.examples.ents = [] := by
      have := optEnt_type (by decide) h12
      split at this
      · cases this
      · rename_i hl
        simp only [OM.len, gt_iff_lt, Nat.not_lt, Nat.le_zero_eq, List.length_eq_zero_iff] at hl
        exact hl
    have hann : annEnts g.annotations = [] := by
      refine nil_of_type ?_ h6
      rw [annEnts_keys]
      intro hm
      obtain ⟨a, ha, he⟩ := List.mem_map.mp hm
      exact hn.2 (by
        have he : a.1 = "type" := by simpa using he
        rw [← he]; exact List.mem_map_of_mem (f := Prod.fst) ha)
    refine ⟨nil_of_type hn.1 h4, Option.map_eq_none_iff.mp (optEnt_type (by decide) h2),
      Option.map_eq_none_iff.mp (optEnt_type (by decide) h3), ?_,
      Option.map_eq_none_iff.mp (optEnt_type (by decide) h10), optEnt_type (by decide) h1,
      Option.map_eq_none_iff.mp (optEnt_type (by decide) h11), hex, List.map_eq_nil_iff.mp hann,
      Option.map_eq_none_iff.mp (optEnt_type (by decide) h8),
      facets_none (optEnt_type (by decide) h7), ?_, ?_, fun b' hb' => by cases hb'; exact hb1⟩
    · have := optEnt_type (by decide) h5
      show g.required = true
      revert this
      cases g.required <;> simp
    · by_contra hne
      exact hne (props_none (hb2 (hs.1 hne)))
    · by_contra hne
      exact hne (items_none (hb3 (hs.2 hne)))

private theorem body_default {X : Xyml} {b : Body} (h : isDefaultBody b) : b.ents X none none = [] := by
  cases b <;> simp_all [isDefaultBody, Body.ents, OM.optEnt]

private theorem ents_of_bare {X : Xyml} {t : DT} (h : Bare t) :
    t.ents X = [(Scalar.str "type", t.typeNode)] := by
  cases t with
  | basic i s x =>
    have : x.ents = [] := h.extra
    simp only [DT.ents, this]
    cases i <;> rfl
  | ext g b fs ps it =>
    have h1 : g.extra.ents = [] := h.extra
    have h2 : g.displayName = none := h.displayName
    have h3 : g.description = none := h.description
    have h4 : g.required = true := h.required
    have h5 : g.enum = none := h.enum
    have h6 : g.dflt = none := h.dflt
    have h7 : g.example = none := h.exampleOf
    have h8 : g.examples.ents = [] := h.examples
    have h9 : g.annotations.ents = [] := h.annotations
    have h10 : g.xml = none := h.xml
    have h11 : facetsNode X fs = none := by
      have : fs.ents = [] := h.facets
      cases fs; cases this; unfold facetsNode; rfl
    have h12 : propsNode X ps = none := by
      have : ps.ents = [] := h.properties
      cases ps; cases this; unfold propsNode; rfl
    have h13 : itemsNode X it = none := by
      have : it = none := h.items
      rw [this]; unfold itemsNode; rfl
    have h14 := body_default (X := X) (h.body b rfl)
    simp only [DT.ents, dtEnts, Hdr.headEnts, Hdr.reqEnts, Hdr.tailEnts, annEnts, h1, h2, h3, h4,
      h5, h6, h7, h8, h9, h10, h11, h12, h13, h14, OM.len, OM.optEnt]
    simp [DT.typeNode, DT.type]

/-- C27: a type with nothing but its type set is written as a scalar carrying `Type()`. -/
theorem C27_short_form (X : Xyml) (t : DT) (h : Bare t) : t.toYAML X = typeScalar t := by
  rw [toYAML_eq, ents_of_bare h, typeScalar_eq]
  rfl

example (X : Xyml) (t : DT) (h : Bare t) (hk : t.kind = .union) (ht : t.type = "Cat | Dog") :
    t.toYAML X = .str "Cat | Dog" := by
  rw [C27_short_form X t h, typeScalar, ht, hk]
  rfl

/-- C27: every other type is written as a mapping that contains its `type` entry. -/
theorem C27_long_form (X : Xyml) (hX : Lawful X) (t : DT) (hs : Shaped t) (hn : NoTypeKey t)
    (h : ¬ Bare t) : ∃ ps, t.toYAML X = .map ps ∧ (Node.str "type", typeScalar t) ∈ ps := by
  have : ∃ e ∈ t.ents X, e.1 ≠ Scalar.str "type" := by
    by_contra hc
    refine h (bare_of_only_type hs hn (X := X) fun e he => ?_)
    by_contra hne
    exact hc ⟨e, he, hne⟩
  obtain ⟨e, he, hne⟩ := this
  refine ⟨_, by rw [toYAML_eq, finish_map (List.mem_map_of_mem he) (type_key X t) hne], ?_⟩
  obtain ⟨v, hv, hm⟩ := lastWins_suffix (A := []) (type_key X t)
  have hu : v = t.typeNode := by
    cases t with
    | basic i s x =>
      rcases List.mem_cons.mp hv with hv | hv
      · cases hv; cases i <;> rfl
      · exact absurd (List.mem_map_of_mem (f := Prod.fst) hv) hn.1
    | ext g b fs ps it =>
      simp only [DT.ents, dtEnts, Hdr.headEnts, List.mem_append] at hv
      have hopt : ∀ {s : String} {o : Option Node}, s ≠ "type" →
          (Scalar.str "type", v) ∉ OM.optEnt (Scalar.str s) o := by
        intro s o hs hm
        have := (optEnt_keys _ _).subset (List.mem_map_of_mem (f := Prod.fst) hm)
        simp only [List.mem_singleton, Scalar.str.injEq] at this
        exact hs this.symm
      rcases hv with hv | (hv | hv | hv) | hv | hv | hv | hv
      · exact absurd hv (hopt (by decide))
      · exact absurd hv (hopt (by decide))
      · exact absurd hv (hopt (by decide))
      · cases List.mem_singleton.mp hv; rfl
      · exact absurd (List.mem_map_of_mem (f := Prod.fst) hv) hn.1
      · exact absurd hv (hopt (by decide))
      · have := List.mem_map_of_mem (f := Prod.fst) hv
        rw [annEnts_keys] at this
        obtain ⟨a, ha, he⟩ := List.mem_map.mp this
        have he : a.1 = "type" := by simpa using he
        exact absurd (by rw [← he]; exact List.mem_map_of_mem (f := Prod.fst) ha) hn.2
      · simp only [Hdr.tailEnts, List.mem_append] at hv
        rcases hv with hv | hv | hv | hv | hv | hv
        · exact absurd hv (hopt (by decide))
        · exact absurd hv (hopt (by decide))
        · have := (Body.ents_keys X _ _ b).subset (List.mem_map_of_mem (f := Prod.fst) hv)
          exact absurd this (by cases b <;> (simp only [Body.kind]; decide))
        · exact absurd hv (hopt (by decide))
        · exact absurd hv (hopt (by decide))
        · exact absurd hv (hopt (by decide))
  rw [typeScalar_eq, ← hX.ofKey_str, ← hu]
  exact List.mem_map_of_mem (f := fun e : Scalar × Node => (X.ofKey e.1, e.2)) hm

example : ∃ ps, (DT.ext (Hdr.new .string) (.string ⟨none, 3, none⟩) (OM.empty true) (OM.empty false)
      none).toYAML Xyml.std = .map ps ∧ (Node.str "type", Node.str "string") ∈ ps :=
  C27_long_form _ Xyml.std_lawful _ ⟨fun h => absurd rfl h, fun h => absurd rfl h⟩
    ⟨by decide, by decide⟩ fun h => absurd (h.body _ rfl).2.1 (by decide)

/-- C27: together: the written form is a single scalar exactly for bare types. -/
theorem C27_scalar_iff_bare (X : Xyml) (hX : Lawful X) (t : DT) (hs : Shaped t)
    (hn : NoTypeKey t) : (∃ tag v, t.toYAML X = .scalar tag v) ↔ Bare t := by
  constructor
  · rintro ⟨tag, v, h⟩
    by_contra hb
    obtain ⟨ps, hp, _⟩ := C27_long_form X hX t hs hn hb
    rw [h] at hp
    cases hp
  · intro h
    exact ⟨_, _, C27_short_form X t h⟩

example (tag v : String) : (DT.ext (Hdr.new .string) (.string ⟨none, 3, none⟩) (OM.empty true)
      (OM.empty false) none).toYAML Xyml.std ≠ .scalar tag v := fun h =>
  absurd ((((C27_scalar_iff_bare _ Xyml.std_lawful _ ⟨fun h => absurd rfl h, fun h => absurd rfl h⟩
    ⟨by decide, by decide⟩).mp ⟨tag, v, h⟩).body _ rfl).2.1) (by decide)

/-- C27: every parsed type meets the hypotheses. -/
theorem C27_parsed (X : Xyml) (hX : Lawful X) (n : Node) (t : DT) (h : hat X n = .ok t) :
    Shaped t ∧ NoTypeKey t := by
  have hx : ∀ {kd : Kind} {m : OM Scalar Node}, ParsedExtra kd m →
      Scalar.str "type" ∉ m.ents.map Prod.fst := by
    intro kd m hm hmem
    obtain ⟨e, he, hk⟩ := List.mem_map.mp hmem
    obtain ⟨s, h1, h2⟩ := hm.keys e he
    rw [h1] at hk
    cases hk
    revert h2
    cases kd <;> decide
  cases hat_parsed hX h with
  | basic hb => exact ⟨⟨fun h => absurd rfl h, fun h => absurd rfl h⟩, hx hb, by simp [annotations]⟩
  | ext h1 _ _ _ _ _ _ _ h9 _ _ h12 _ =>
    refine ⟨⟨h9, h12⟩, hx h1.extra, fun hm => ?_⟩
    obtain ⟨a, ha, he⟩ := List.mem_map.mp hm
    have := h1.annotations.keys a ha
    rw [he] at this
    exact absurd this (by decide)

/-- Bare: a parsed `integer`; not bare: a string type with a minimum length. -/
example : Bare (DT.new .integer) ∧ (DT.new .integer).toYAML Xyml.std = .str "integer" := by
  refine ⟨⟨rfl, rfl, rfl, rfl, rfl, rfl, rfl, rfl, rfl, rfl, rfl, rfl, rfl, ?_⟩, rfl⟩
  intro b hb
  cases hb
  exact ⟨rfl, rfl, rfl, rfl⟩

example : let t := DT.ext (Hdr.new .string) (.string ⟨none, 3, none⟩) (OM.empty true) (OM.empty false) none
    Shaped t ∧ NoTypeKey t ∧ ¬ Bare t := by
  refine ⟨⟨fun h => absurd rfl h, fun h => absurd rfl h⟩, ⟨by decide, by decide⟩, fun h => ?_⟩
  have := h.body _ rfl
  exact absurd this.2.1 (by decide)

/-! ### C28 -/

/-- The entries of a written type; the short form stands for a `type` entry. -/
def entriesOf : Node → List (Node × Node)
  | .map ps => ps
  | n => [(Node.str "type", n)]

/-- The value written for a number unless it is the default. -/
def nonDefault (X : Xyml) (d : Nat) (n : Option Nat) : Option Node :=
  match n with
  | some n => if n = d then none else some (X.ofInt n)
  | none => none

/-- The value written for a float or integer bound. -/
def boundNode (X : Xyml) : Bound → Option Node
  | .flt f => f.map X.ofFlt
  | .int i => i.map X.ofInt
  | .none => none

/-- A dictionary of types as written. -/
def typesNode (X : Xyml) (m : OM String DT) : Option Node :=
  if m.ents = [] then none
  else some (renderPairs m.omap (m.ents.map fun e => (Node.str e.1, e.2.toYAML X)))

/-- What the entry of each facet has to be; `none` at the default. -/
def writtenFacet (X : Xyml) (t : DT) : Facet → Option Node
  | .type => some (typeScalar t)
  | .displayName => (displayName t).map .str
  | .description => (description t).map .str
  | .required => if required t then none else some (X.ofBool false)
  | .enum => (enum t).map fun l => .seq seqTag (l.map (Val.render X))
  | .example => (exampleOf t).map (Example.toYAML X)
  | .examples => if examples t = [] then none else some (renderStrMap (Example.toYAML X) (examplesMap t))
  | .xml => (xml t).map fun _ => .map []
  | .facets =>
    if (facets t).ents = [] then none
    else some (renderPairs (facets t).omap ((facets t).ents.map fun f =>
      (Node.str f.1, renderPairs f.2.omap (f.2.ents.map fun e => (Node.str e.1, e.2.toYAML X)))))
  | .annotations | .extra => none
  | .properties => typesNode X (properties t)
  | .items => (items t).map (DT.toYAML X)
  | .pattern => (pattern t).map .str
  | .minLength => nonDefault X 0 (minLength t)
  | .maxLength =>
    if t.kind = .file then nonDefault X 2147483647 (maxLength t)
    else (maxLength t).map fun n : Nat => X.ofInt n
  | .fileTypes => (fileTypes t).map fun l => .seq seqTag (l.map .str)
  | .uniqueItems => if uniqueItems t = some true then some (X.ofBool true) else none
  | .minItems => nonDefault X 0 (minItems t)
  | .maxItems => nonDefault X 2147483647 (maxItems t)
  | .minProperties => (minProperties t).map fun n : Nat => X.ofInt n
  | .maxProperties => (maxProperties t).map fun n : Nat => X.ofInt n
  | .additionalProperties =>
    if additionalProperties t = some false then some (X.ofBool false) else none
  | .discriminator => (discriminator t).map .str
  | .discriminatorValue => discriminatorValue t
  | .minimum => boundNode X (minimum t)
  | .maximum => boundNode X (maximum t)
  | .format => (format t).map .str
  | .multipleOf => (multipleOf t).map X.ofFlt

/-- Extended types without key clashes; basic types whose extra facets have other names. -/
def Clean : DT → Prop
  | .basic _ _ x => Distinct x.ents ∧ Scalar.str "type" ∉ x.ents.map Prod.fst
  | .ext h b _ _ _ => CleanHdr b.kind h

theorem Clean.distinct {X : Xyml} {t : DT} (h : Clean t) : Distinct (t.ents X) := by
  cases t with
  | basic i s x => exact List.nodup_cons.mpr ⟨h.2, h.1⟩
  | ext g b fs ps it => exact dtEnts_distinct _ _ _ h

theorem entries_toYAML {X : Xyml} (hX : Lawful X) {t : DT} (h : Clean t) :
    entriesOf (t.toYAML X) = asPairs X (t.ents X) := by
  rw [toYAML_eq, putAll_distinct _ h.distinct]
  unfold finish
  split
  · rename_i hc
    have hm := type_mem X t
    have hl : (t.ents X).length = 1 := hc.1
    obtain ⟨e, he⟩ := List.length_eq_one_iff.mp hl
    rw [he] at hm ⊢
    rw [List.mem_singleton] at hm
    subst hm
    have : (⟨[(Scalar.str "type", t.typeNode)], false⟩ : OM Scalar Node).get (.str "type") =
        some t.typeNode := rfl
    rw [this]
    show entriesOf t.typeNode = [(X.ofKey (.str "type"), t.typeNode)]
    rw [hX.ofKey_str, ← typeScalar_eq]
    rfl
  · rfl

/-- The puts under one key (auxiliary). -/
def under (name : String) (es : List (Scalar × Node)) : List (Scalar × Node) :=
  es.filter fun e => e.1 == Scalar.str name

theorem under_append (name : String) (a b : List (Scalar × Node)) :
    under name (a ++ b) = under name a ++ under name b := List.filter_append ..

theorem under_opt (name s : String) (o : Option Node) :
    under name (OM.optEnt (.str s) o) = if s = name then OM.optEnt (.str s) o else [] := by
  cases o <;> by_cases h : s = name <;> simp [under, OM.optEnt, h]

theorem under_single (name s : String) (v : Node) :
    under name [(.str s, v)] = if s = name then [(.str s, v)] else [] := by
  by_cases h : s = name <;> simp [under, h]

theorem under_nil {name : String} {es : List (Scalar × Node)}
    (h : Scalar.str name ∉ es.map Prod.fst) : under name es = [] := by
  refine List.filter_eq_nil_iff.mpr fun e he hk => h ?_
  simp only [beq_iff_eq] at hk
  exact hk ▸ List.mem_map_of_mem he

theorem filter_asPairs {X : Xyml} (hX : Lawful X) (name : String) (es : List (Scalar × Node)) :
    (asPairs X es).filter (fun p => p.1.isStr && p.1.value == name) = asPairs X (under name es) := by
  unfold asPairs under
  rw [List.filter_map]
  congr 1
  refine List.filter_congr fun e _ => ?_
  show ((X.ofKey e.1).isStr && (X.ofKey e.1).value == name) = (e.1 == Scalar.str name)
  cases hk : e.1 with
  | str s =>
    rw [hX.ofKey_str, Bool.eq_iff_iff]
    simp [Node.str, Node.isStr, Node.value]
  | _ =>
    rw [hX.ofKey_isStr (by intro s h; cases h)]
    rfl

theorem propsNode_eq (X : Xyml) (m : OM String DT) : propsNode X m = typesNode X m := by
  obtain ⟨es, o⟩ := m
  unfold propsNode typesNode
  rw [typeEnts_eq]
  cases es <;> rfl

theorem itemsNode_eq (X : Xyml) (o : Option DT) : itemsNode X o = o.map (DT.toYAML X) := by
  cases o <;> (unfold itemsNode; rfl)

theorem facetsNode_eq (X : Xyml) (m : OM String (OM String DT)) : facetsNode X m =
    if m.ents = [] then none
    else some (renderPairs m.omap (m.ents.map fun f =>
      (Node.str f.1, renderPairs f.2.omap (f.2.ents.map fun e => (Node.str e.1, e.2.toYAML X))))) := by
  obtain ⟨es, o⟩ := m
  unfold facetsNode
  rw [facetEnts_eq]
  have : ∀ f : String × OM String DT, (Node.str f.1, typeMapNode X f.2) =
      (Node.str f.1, renderPairs f.2.omap (f.2.ents.map fun e => (Node.str e.1, e.2.toYAML X))) := by
    rintro ⟨k, es, b⟩
    unfold typeMapNode
    rw [typeEnts_eq]
  simp only [this]
  cases es <;> rfl

private theorem opt_toList (name : String) (o : Option Node) :
    OM.optEnt (Scalar.str name) o = o.toList.map fun v => (Scalar.str name, v) := by
  cases o <;> rfl

private theorem opt_some (k : Scalar) (v : Node) : OM.optEnt k (some v) = [(k, v)] := rfl

private theorem xml_toYAML : XML.toYAML = fun _ => .map [] := rfl

private theorem typeScalar_ext (h : Hdr) (b : Body) (fs : OM String (OM String DT))
    (ps : OM String DT) (it : Option DT) :
    typeScalar (.ext h b fs ps it) = Node.str h.schema := typeScalar_eq _

private theorem exNode_eq (m : OM String Example) (n : Node) :
    (if 0 < m.len then some n else none) = if m.ents = [] then none else some n := by
  obtain ⟨es, o⟩ := m
  cases es <;> simp [OM.len]

private theorem ents_under (X : Xyml) (h : Hdr) (b : Body) (fs : OM String (OM String DT))
    (ps : OM String DT) (it : Option DT) (hc : CleanHdr b.kind h) :
    ∀ name ∈ facetNames b.kind, name ≠ "schema" → ∀ f, facetNamed.lookup name = some f →
      under name ((DT.ext h b fs ps it).ents X) =
        OM.optEnt (.str name) (writtenFacet X (.ext h b fs ps it) f) := by
  have hx : ∀ name ∈ facetNames b.kind, under name h.extra.ents = [] ∧
      under name (OM.optEnt (.str "default") h.dflt) = [] := by
    intro name hn
    have : under name (extraWithDefault h) = [] := by
      refine under_nil fun hm => ?_
      obtain ⟨e, he, hk⟩ := List.mem_map.mp hm
      exact (hc.extraKeys e he name hk).1 hn
    rw [extraWithDefault_eq, under_append, List.append_eq_nil_iff] at this
    exact ⟨this.2, this.1⟩
  have ha : ∀ name ∈ facetNames b.kind, under name (annEnts h.annotations) = [] := by
    intro name hn
    refine under_nil fun hm => ?_
    rw [annEnts_keys] at hm
    obtain ⟨a, ha, hk⟩ := List.mem_map.mp hm
    have h1 := hc.annotationKeys a ha
    have h2 : ∀ s ∈ facetNames b.kind, s.toList.head? ≠ some '(' := by
      cases b <;> (simp only [Body.kind]; decide)
    have hk : a.1 = name := by simpa using hk
    exact h2 _ hn (hk ▸ h1)
  intro name hn hs f hf
  simp only [DT.ents, dtEnts, under_append, (hx name hn).1, (hx name hn).2, ha name hn,
    List.nil_append]
  clear hx ha
  revert hf
  revert hs
  revert hn
  revert name
  cases b <;> simp only [Body.kind, facetNames, facetNames.common, List.cons_append,
    List.nil_append, List.forall_mem_cons, List.not_mem_nil, false_implies, implies_true,
    and_true] <;> and_intros <;> intro hs hf <;>
    first
      | exact absurd rfl hs
      | (cases hf
         simp [Hdr.headEnts, Hdr.reqEnts, Hdr.tailEnts, Body.ents, under_append, under_opt,
           under_single, writtenFacet, displayName, description, required, enum, exampleOf,
           examples, examplesMap, xml, facets, properties, items, pattern, minLength, body,
           maxLength, fileTypes, uniqueItems, minItems, maxItems, minProperties, maxProperties,
           additionalProperties, discriminator, discriminatorValue, minimum, maximum, format,
           multipleOf, boundNode, nonDefault, DT.kind, Body.kind, propsNode_eq, itemsNode_eq,
           facetsNode_eq, renderList, typeScalar_ext, opt_some, xml_toYAML, exNode_eq] <;>
         first
           | rfl
           | (congr 1; split <;> simp_all; done)
           | (congr 1; split <;> split <;> first | rfl | omega))

/-- C28: under the name of each facet of its kind, a written type has exactly the entry that
`writtenFacet` says: none when the facet is at its default, one with its value otherwise. -/
theorem C28_facet_entry (X : Xyml) (hX : Lawful X) (t : DT) (hc : Clean t) (name : String)
    (f : Facet) (hn : name ∈ facetNames t.kind) (hs : name ≠ "schema")
    (hf : facetNamed.lookup name = some f) :
    (entriesOf (t.toYAML X)).filter (fun p => p.1.isStr && p.1.value == name) =
      (writtenFacet X t f).toList.map fun v => (Node.str name, v) := by
  rw [entries_toYAML hX hc, filter_asPairs hX]
  have key : under name (t.ents X) = OM.optEnt (.str name) (writtenFacet X t f) := by
    cases t with
    | basic i s x =>
      have hn' : name = "type" := by
        have : name = "type" ∨ name = "schema" := by
          cases i <;> simpa [DT.kind, facetNames] using hn
        exact this.resolve_right hs
      subst hn'
      cases hf
      have : under "type" x.ents = [] := under_nil hc.2
      rw [writtenFacet, typeScalar_eq]
      show under "type" ([(_, _)] ++ x.ents) = _
      rw [under_append, this, under_single]
      cases i <;> rfl
    | ext h b fs ps it => exact ents_under X h b fs ps it hc name hn hs f hf
  rw [key]
  cases writtenFacet X t f with
  | none => rfl
  | some v => simp [OM.optEnt, asPairs, hX.ofKey_str]

/-- C28: nothing else is written: every entry is a facet, the default, an extra facet or an
annotation of the type. -/
theorem C28_nothing_else (X : Xyml) (hX : Lawful X) (t : DT) (hc : Clean t) (p : Node × Node)
    (hp : p ∈ entriesOf (t.toYAML X)) :
    (∃ name ∈ facetNames t.kind, p.1 = Node.str name) ∨
    (∃ d, dflt t = some d ∧ p = (Node.str "default", d)) ∨
    (∃ e ∈ t.extra.ents, p = (X.ofKey e.1, e.2)) ∨
    (∃ a ∈ annotations t, p = (Node.str a.1, renderStrMap id a.2)) := by
  rw [entries_toYAML hX hc] at hp
  obtain ⟨e, he, rfl⟩ := List.mem_map.mp hp
  cases t with
  | basic i s x =>
    rcases List.mem_cons.mp he with rfl | he
    · refine .inl ⟨"type", ?_, hX.ofKey_str _⟩
      cases i <;> simp [DT.kind, facetNames]
    · exact .inr (.inr (.inl ⟨e, he, rfl⟩))
  | ext h b fs ps it =>
    have hkey : ∀ (es : List (Scalar × Node)) (ks : List String), es.map Prod.fst <+ ks.map .str →
        (∀ s ∈ ks, s ∈ facetNames b.kind) → e ∈ es →
        ∃ name ∈ facetNames b.kind, X.ofKey e.1 = Node.str name := by
      intro es ks h1 h2 h3
      obtain ⟨s, hs, he⟩ := List.mem_map.mp (h1.subset (List.mem_map_of_mem (f := Prod.fst) h3))
      exact ⟨s, h2 s hs, by rw [← he, hX.ofKey_str]⟩
    simp only [DT.ents, dtEnts, List.mem_append] at he
    rcases he with he | he | he | he | he | he
    · cases hd : h.dflt with
      | none => rw [hd] at he; cases he
      | some d =>
        rw [hd] at he
        rw [List.mem_singleton.mp he]
        exact .inr (.inl ⟨d, hd, by rw [hX.ofKey_str]⟩)
    · refine .inl (hkey h.headEnts ["displayName", "description", "type"] ?_ ?_ he)
      · simp only [Hdr.headEnts, List.map_append]
        exact (optEnt_keys _ _).append ((optEnt_keys _ _).append (List.Sublist.refl _))
      · cases b <;> (simp only [Body.kind]; decide)
    · exact .inr (.inr (.inl ⟨e, he, rfl⟩))
    · refine .inl (hkey _ ["required"] (optEnt_keys _ _) ?_ he)
      cases b <;> (simp only [Body.kind]; decide)
    · obtain ⟨a, ha, rfl⟩ := List.mem_map.mp he
      exact .inr (.inr (.inr ⟨a, ha, by rw [hX.ofKey_str]⟩))
    · exact .inl (hkey _ _ (tailEnts_keys X h b _ _ _) (fun s hs => (writeKeys_names b s hs).1) he)

/-- C28: and extra facets, annotations and the default are all written. -/
theorem C28_extras_written (X : Xyml) (hX : Lawful X) (t : DT) (hc : Clean t) :
    (∀ e ∈ t.extra.ents, (X.ofKey e.1, e.2) ∈ entriesOf (t.toYAML X)) ∧
    (∀ a ∈ annotations t, (Node.str a.1, renderStrMap id a.2) ∈ entriesOf (t.toYAML X)) ∧
    (∀ d, dflt t = some d → (Node.str "default", d) ∈ entriesOf (t.toYAML X)) := by
  rw [entries_toYAML hX hc]
  have hm : ∀ e ∈ t.ents X, (X.ofKey e.1, e.2) ∈ asPairs X (t.ents X) := fun e he =>
    List.mem_map_of_mem (f := fun e : Scalar × Node => (X.ofKey e.1, e.2)) he
  cases t with
  | basic i s x =>
    exact ⟨fun e he => hm e (List.mem_cons_of_mem _ he), fun _ h => (nomatch h),
      fun _ h => (nomatch h)⟩
  | ext h b fs ps it =>
    refine ⟨fun e he => hm e ?_, fun a ha => ?_, fun d hd => ?_⟩
    · simp only [DT.ents, dtEnts, List.mem_append]
      exact .inr (.inr (.inl he))
    · rw [← hX.ofKey_str]
      refine hm (Scalar.str a.1, renderStrMap id a.2) ?_
      simp only [DT.ents, dtEnts, List.mem_append]
      exact .inr (.inr (.inr (.inr (.inl (List.mem_map_of_mem
        (f := fun e : String × Ann => (Scalar.str e.1, renderStrMap id e.2)) ha)))))
    · rw [← hX.ofKey_str]
      refine hm (Scalar.str "default", d) ?_
      have hd : h.dflt = some d := hd
      simp only [DT.ents, dtEnts, List.mem_append, hd]
      exact .inl (List.mem_singleton.mpr rfl)

/-- C28: facets at their defaults have no entry. -/
theorem C28_defaults_not_written (X : Xyml) (hX : Lawful X) (t : DT) (hc : Clean t)
    (p : Node × Node) (hp : p ∈ entriesOf (t.toYAML X)) (hk : p.1.isStr = true) :
    (required t = true → t.kind ≠ .nil → t.kind ≠ .include → p.1.value ≠ "required") ∧
    (t.kind = .string → minLength t = some 0 → p.1.value ≠ "minLength") ∧
    (t.kind = .file → maxLength t = some 2147483647 → p.1.value ≠ "maxLength") ∧
    (t.kind = .array → maxItems t = some 2147483647 → p.1.value ≠ "maxItems") ∧
    (t.kind = .array → uniqueItems t = some false → p.1.value ≠ "uniqueItems") ∧
    (t.kind = .object → additionalProperties t = some true →
      p.1.value ≠ "additionalProperties") := by
  have key : ∀ (name : String) (f : Facet), name ∈ facetNames t.kind → name ≠ "schema" →
      facetNamed.lookup name = some f → writtenFacet X t f = none → p.1.value ≠ name := by
    intro name f h1 h2 h3 h4 h5
    have := C28_facet_entry X hX t hc name f h1 h2 h3
    rw [h4] at this
    have hm : p ∈ (entriesOf (t.toYAML X)).filter fun p => p.1.isStr && p.1.value == name :=
      List.mem_filter.mpr ⟨hp, by simp [hk, h5]⟩
    rw [this] at hm
    cases hm
  refine ⟨fun h1 h2 h3 => ?_, fun h1 h2 => ?_, fun h1 h2 => ?_, fun h1 h2 => ?_, fun h1 h2 => ?_,
    fun h1 h2 => ?_⟩
  · refine key "required" .required ?_ (by decide) (by decide) (by simp [writtenFacet, h1])
    revert h2 h3
    cases t.kind <;> decide
  · exact key "minLength" .minLength (by rw [h1]; decide) (by decide) (by decide)
      (by simp [writtenFacet, h2, nonDefault])
  · exact key "maxLength" .maxLength (by rw [h1]; decide) (by decide) (by decide)
      (by simp [writtenFacet, h1, h2, nonDefault])
  · exact key "maxItems" .maxItems (by rw [h1]; decide) (by decide) (by decide)
      (by simp [writtenFacet, h2, nonDefault])
  · exact key "uniqueItems" .uniqueItems (by rw [h1]; decide) (by decide) (by decide)
      (by simp [writtenFacet, h2])
  · exact key "additionalProperties" .additionalProperties (by rw [h1]; decide) (by decide)
      (by decide) (by simp [writtenFacet, h2])

/-- An array type with an extra facet and a non-default `minItems`. -/
def sampleArray : DT :=
  .ext { Hdr.new .array with extra := ⟨[(.str "color", .str "red")], true⟩ }
    (.array ⟨false, 2, 2147483647⟩) (OM.empty true) (OM.empty false) none

private theorem sampleArray_clean : Clean sampleArray := by
  refine ⟨?_, ?_, ?_, ?_⟩
  · simp [Distinct, extraWithDefault, Hdr.new]
  · intro p hp s hs
    rw [List.mem_singleton.mp hp] at hs
    cases hs
    decide
  · exact List.nodup_nil
  · exact fun _ h => nomatch h

/-- The entry `minItems` is written once. -/
example : (entriesOf (sampleArray.toYAML Xyml.std)).filter
      (fun p => p.1.isStr && p.1.value == "minItems") = [(Node.str "minItems", Xyml.std.ofInt 2)] :=
  C28_facet_entry _ Xyml.std_lawful _ sampleArray_clean "minItems" .minItems (by decide) (by decide)
    (by decide)

/-- There is no entry `maxLength`. -/
example (v : Node) : (Node.str "maxLength", v) ∉ entriesOf (sampleArray.toYAML Xyml.std) := fun h => by
  rcases C28_nothing_else _ Xyml.std_lawful _ sampleArray_clean _ h with
    ⟨name, hn, he⟩ | ⟨d, hd, -⟩ | ⟨e, he, h⟩ | ⟨a, ha, -⟩
  · obtain rfl : "maxLength" = name := by simpa [Node.str] using he
    exact absurd hn (by decide)
  · cases hd
  · rw [List.mem_singleton.mp he] at h
    exact absurd (show "maxLength" = "color" from congrArg (fun p => p.1.value) h) (by decide)
  · cases ha

/-- The extra facet is written. -/
example : (Node.str "color", Node.str "red") ∈ entriesOf (sampleArray.toYAML Xyml.std) :=
  (C28_extras_written _ Xyml.std_lawful _ sampleArray_clean).1 (.str "color", .str "red") (.head _)

end Verif.Props
