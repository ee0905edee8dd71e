import Verif.Doc.Build
import Verif.Doc.RoundTrip
import Verif.Doc.Laws

/-! # C57, C58, C59: building data types with setters -/

namespace Verif.Props
open Verif Verif.Doc Verif.Doc.Spec

/-! ## C57: setters and getters of data types -/

/-- The map that a map setter installs: nil means the fresh map of `New*Map(…)`, whose output flag
is set. -/
def given {K V : Type} (m : Option (OM K V)) : OM K V := m.getD ⟨[], true⟩

/-- The value that a setter call on a type of the given kind asks for in a facet; `none` if the
call is not about that facet. -/
def typeAsked (kd : Kind) : (f : Facet) → TypeOp → Option f.Ty
  | .type, .overrideType s => some s
  | .type, .setType s => some s
  | .displayName, .setDisplayName s => some (some s)
  | .displayName, .unsetDisplayName => some none
  | .description, .setDescription s => some (some s)
  | .description, .unsetDescription => some none
  | .required, .setRequired b => some b
  | .enum, .setEnum l => some l
  | .enum, .unsetEnum => some none
  | .example, .setExample e => some e
  | .example, .unsetExample => some none
  | .examples, .setExamples m => some (given m)
  | .examples, .unsetExamples => some (given none)
  | .xml, .setXML x => some x
  | .xml, .unsetXML => some none
  | .facets, .setFacetDefinitions m => some (given m)
  | .facets, .unsetFacetDefinitions => some (given none)
  | .annotations, .setAnnotations m => some (given m)
  | .annotations, .unsetAnnotations => some (given none)
  | .extra, .setExtraFacets m => some (given m)
  | .extra, .unsetExtraFacets => some (given none)
  | .properties, .setProperties m => some (given m)
  | .properties, .unsetProperties => some (given none)
  | .items, .setItems t => some t
  | .items, .unsetItems => some none
  | .pattern, .setPattern s => some (some s)
  | .pattern, .unsetPattern => some none
  | .minLength, .setMinLength n => some (some n)
  | .maxLength, .setMaxLength n => some (some n)
  | .maxLength, .unsetMaxLength => some none
  | .fileTypes, .setFileTypes l => some l
  | .fileTypes, .unsetFileTypes => some none
  | .uniqueItems, .setUniqueItems b => some (some b)
  | .minItems, .setMinItems n => some (some n)
  | .maxItems, .setMaxItems n => some (some n)
  | .minProperties, .setMinProperties n => some (some n)
  | .minProperties, .unsetMinProperties => some none
  | .maxProperties, .setMaxProperties n => some (some n)
  | .maxProperties, .unsetMaxProperties => some none
  | .additionalProperties, .setAdditionalProperties b => some (some b)
  | .discriminator, .setDiscriminator s => some (some s)
  | .discriminator, .unsetDiscriminator => some none
  | .discriminatorValue, .setDiscriminatorValue n => some (some n)
  | .discriminatorValue, .unsetDiscriminatorValue => some none
  | .minimum, .setNumMinimum x => some (.flt (some x))
  | .minimum, .setIntMinimum x => some (.int (some x))
  | .minimum, .unsetMinimum => some (if kd = .integer then .int none else .flt none)
  | .maximum, .setNumMaximum x => some (.flt (some x))
  | .maximum, .setIntMaximum x => some (.int (some x))
  | .maximum, .unsetMaximum => some (if kd = .integer then .int none else .flt none)
  | .format, .setFormat s => some s
  | .format, .unsetFormat => some none
  | .multipleOf, .setMultipleOf x => some (some x)
  | .multipleOf, .unsetMultipleOf => some none
  | _, _ => none

/-- The change that a call makes to a map facet through the map the getter returns. -/
def typeEdited : (f : Facet) → TypeOp → Option (f.Ty → f.Ty)
  | .examples, .editExamples g => some g
  | .annotations, .editAnnotations g => some g
  | .facets, .editFacets g => some g
  | .extra, .editExtra g => some g
  | .properties, .editProperties g => some g
  | _, _ => none

/-- What a call does to a facet. -/
def typeEffect (kd : Kind) (f : Facet) (x : f.Ty) (op : TypeOp) : f.Ty :=
  match typeAsked kd f op with
  | some v => v
  | none =>
    match typeEdited f op with
    | some g => g x
    | none => x

/-- What a call does to the default. -/
def defaultAsked : TypeOp → Option (Option Node)
  | .setDefault n => some (some n)
  | .unsetDefault => some none
  | _ => none

theorem orFresh_given {K V : Type} (m : Option (OM K V)) : orFresh m = given m := by
  cases m <;> rfl

theorem apply_kind {t u : DT} {op : TypeOp} (h : t.apply op = some u) : u.kind = t.kind := by
  cases t with
  | basic i s x => cases op <;> simp [DT.apply] at h <;> subst h <;> rfl
  | ext hd b fs ps it =>
    cases op <;> cases b <;> simp [DT.apply, Hdr.apply, Body.apply] at h <;> subst h <;> rfl

set_option maxHeartbeats 1000000 in
theorem apply_look {t u : DT} {op : TypeOp} (h : t.apply op = some u) (f : Facet) :
    look f u = typeEffect t.kind f (look f t) op := by
  cases t with
  | basic i s x =>
    cases op <;> simp [DT.apply] at h <;> subst h <;> cases f <;> rfl
  | ext hd b fs ps it =>
    cases op <;> cases b <;> simp [DT.apply, Hdr.apply, Body.apply] at h <;> subst h <;>
      cases f <;> first | rfl | exact orFresh_given _

theorem apply_dflt {t u : DT} {op : TypeOp} (h : t.apply op = some u) :
    dflt u = (defaultAsked op).getD (dflt t) := by
  cases t with
  | basic i s x => cases op <;> simp [DT.apply] at h <;> subst h <;> rfl
  | ext hd b fs ps it =>
    cases op <;> cases b <;> simp [DT.apply, Hdr.apply, Body.apply] at h <;> subst h <;> rfl

theorem applyAll_nil {t u : DT} : t.applyAll [] = some u ↔ t = u := by
  simp [DT.applyAll]

theorem applyAll_cons {t u : DT} {op : TypeOp} {ops : List TypeOp} :
    t.applyAll (op :: ops) = some u ↔ ∃ v, t.apply op = some v ∧ v.applyAll ops = some u := by
  simp [DT.applyAll, Option.bind_eq_some_iff]

theorem applyAll_append {t u : DT} {as bs : List TypeOp} :
    t.applyAll (as ++ bs) = some u ↔ ∃ v, t.applyAll as = some v ∧ v.applyAll bs = some u := by
  induction as generalizing t with
  | nil => simp [applyAll_nil]
  | cons op as ih =>
    simp only [List.cons_append, applyAll_cons, ih]
    exact ⟨fun ⟨v, h1, w, h2, h3⟩ => ⟨w, ⟨v, h1, h2⟩, h3⟩,
      fun ⟨w, ⟨v, h1, h2⟩, h3⟩ => ⟨v, h1, w, h2, h3⟩⟩

/-- C57: no call changes the kind of a type. -/
theorem C57_kind (t u : DT) (ops : List TypeOp) (h : t.applyAll ops = some u) :
    u.kind = t.kind := by
  induction ops generalizing t with
  | nil => rw [applyAll_nil.mp h]
  | cons op ops ih =>
    obtain ⟨v, h1, h2⟩ := applyAll_cons.mp h
    rw [ih v h2, apply_kind h1]

/-- C57: what each getter reports after any history of calls is the effect, one after the other, of
the calls about that facet on what it reported before. -/
theorem C57_history (t u : DT) (ops : List TypeOp) (h : t.applyAll ops = some u) (f : Facet) :
    look f u = ops.foldl (typeEffect t.kind f) (look f t) := by
  induction ops generalizing t with
  | nil => rw [applyAll_nil.mp h]; rfl
  | cons op ops ih =>
    obtain ⟨v, h1, h2⟩ := applyAll_cons.mp h
    rw [ih v h2, apply_kind h1, apply_look h1]; rfl

/-- A call that neither sets nor edits the facet. -/
def NotAbout (kd : Kind) (f : Facet) (op : TypeOp) : Prop :=
  typeAsked kd f op = none ∧ typeEdited f op = none

theorem foldl_notAbout {kd : Kind} {f : Facet} {ops : List TypeOp}
    (h : ∀ op ∈ ops, NotAbout kd f op) (x : f.Ty) : ops.foldl (typeEffect kd f) x = x := by
  induction ops generalizing x with
  | nil => rfl
  | cons op ops ih =>
    have ho := h op (by simp)
    rw [List.foldl_cons, ih (fun o hm => h o (by simp [hm]))]
    simp [typeEffect, ho.1, ho.2]

/-- C57: a getter reports what the last call about its facet asked for, whatever happened before and
whatever calls about other facets follow. -/
theorem C57_last_call_wins (t u : DT) (as bs : List TypeOp) (op : TypeOp)
    (h : t.applyAll (as ++ op :: bs) = some u) (f : Facet) (v : f.Ty)
    (hv : typeAsked t.kind f op = some v) (hb : ∀ o ∈ bs, NotAbout t.kind f o) :
    look f u = v := by
  rw [C57_history t u _ h f, List.foldl_append, List.foldl_cons, foldl_notAbout hb]
  simp [typeEffect, hv]

/-- C57: calls about other facets, and calls about the default, change nothing. -/
theorem C57_other_facets (t u : DT) (ops : List TypeOp) (h : t.applyAll ops = some u) (f : Facet)
    (hn : ∀ o ∈ ops, NotAbout t.kind f o) : look f u = look f t := by
  rw [C57_history t u _ h f, foldl_notAbout hn]

/-- C57: the default is the last one set. -/
theorem C57_default (t u : DT) (ops : List TypeOp) (h : t.applyAll ops = some u) :
    dflt u = (ops.reverse.findSome? defaultAsked).getD (dflt t) := by
  induction ops generalizing t with
  | nil => rw [applyAll_nil.mp h]; rfl
  | cons op ops ih =>
    obtain ⟨v, h1, h2⟩ := applyAll_cons.mp h
    rw [ih v h2, List.reverse_cons, List.findSome?_append, apply_dflt h1]
    cases ops.reverse.findSome? defaultAsked with
    | some x => rfl
    | none => cases h : defaultAsked op <;> simp [h]

/-- The kinds whose types have the method. -/
def offeredBy : TypeOp → Kind → Bool
  | .overrideType _, _ => true
  | .editExtra _, _ => true
  | .setPattern _, kd | .unsetPattern, kd | .unsetMaxLength, kd => kd == .string
  | .setMinLength _, kd | .setMaxLength _, kd => kd == .string || kd == .file
  | .setFileTypes _, kd | .unsetFileTypes, kd => kd == .file
  | .setUniqueItems _, kd | .setMinItems _, kd | .setMaxItems _, kd | .setItems _, kd
  | .unsetItems, kd => kd == .array
  | .setProperties _, kd | .unsetProperties, kd | .editProperties _, kd
  | .setMinProperties _, kd | .unsetMinProperties, kd
  | .setMaxProperties _, kd | .unsetMaxProperties, kd
  | .setAdditionalProperties _, kd
  | .setDiscriminator _, kd | .unsetDiscriminator, kd
  | .setDiscriminatorValue _, kd | .unsetDiscriminatorValue, kd => kd == .object
  | .setNumMinimum _, kd | .setNumMaximum _, kd => kd == .number
  | .setIntMinimum _, kd | .setIntMaximum _, kd => kd == .integer
  | .unsetMinimum, kd | .unsetMaximum, kd | .setMultipleOf _, kd | .unsetMultipleOf, kd =>
    kd == .number || kd == .integer
  | .setFormat _, kd | .unsetFormat, kd => kd == .number || kd == .integer || kd == .datetime
  | _, kd => !isBasic kd

/-- C57: which calls a type offers depends on its kind only. -/
theorem C57_offered (t : DT) (op : TypeOp) : (t.apply op).isSome = offeredBy op t.kind := by
  cases t with
  | basic i s x => cases op <;> cases i <;> rfl
  | ext hd b fs ps it => cases op <;> cases b <;> rfl

/-- C57: with the constructors and setters alone, types of exactly six kinds can be made.  Object
types, so all types with properties, files, dates and unions come from documents only. -/
theorem C57_constructed_kinds (k : Kind) :
    (∃ c ∈ rbuildKinds, ∃ ops u, (DT.new c).applyAll ops = some u ∧ u.kind = k) ↔
      k = .any ∨ k = .array ∨ k = .boolean ∨ k = .integer ∨ k = .number ∨ k = .string := by
  have hnew : ∀ c, (DT.new c).kind = c := by intro c; cases c <;> rfl
  constructor
  · rintro ⟨c, hc, ops, u, hu, rfl⟩
    rw [C57_kind _ _ _ hu, hnew]
    revert hc
    cases c <;> decide
  · intro h
    refine ⟨k, ?_, [], _, rfl, hnew k⟩
    rcases h with rfl | rfl | rfl | rfl | rfl | rfl <;> decide

/-- A history on a string type: the pattern set twice, the display name set and unset, annotations
edited through the live map. -/
def sampleOps : List TypeOp :=
  [.setPattern "a", .setDisplayName "x", .setMaxLength 7, .setPattern "b",
   .editAnnotations (fun m => m.put "(n)" ⟨[], false⟩), .unsetDisplayName, .setDefault (.str "d")]

example : ∃ u, (DT.new .string).applyAll sampleOps = some u ∧ look .pattern u = some "b" ∧
    look .displayName u = none ∧ look .maxLength u = some 7 ∧
    (look .annotations u).keys = ["(n)"] ∧ dflt u = some (.str "d") :=
  ⟨_, rfl, rfl, rfl, rfl, rfl, rfl⟩

/-- The hypotheses of `C57_last_call_wins` are met by it, with calls about the facet before and
other calls after. -/
example : ∃ u, (DT.new .string).applyAll
      ([.setPattern "a", .setDisplayName "x", .setMaxLength 7] ++ .setPattern "b" ::
        [.unsetDisplayName, .setDefault (.str "d")]) = some u ∧
    typeAsked .string .pattern (.setPattern "b") = some (some "b") ∧
    ∀ o ∈ [TypeOp.unsetDisplayName, .setDefault (.str "d")], NotAbout .string .pattern o := by
  refine ⟨_, rfl, rfl, ?_⟩
  intro o ho
  simp only [List.mem_cons, List.not_mem_nil, or_false] at ho
  rcases ho with rfl | rfl <;> exact ⟨rfl, rfl⟩

/-- A method that the type does not have. -/
example : (DT.new .string).apply (.setMinItems 3) = none ∧
    (DT.new .nil).apply (.setDescription "x") = none := ⟨rfl, rfl⟩

/-! ### Examples, XML settings, documentation entries -/

/-- The properties of an example. -/
inductive ExampleProp where
  | displayName | description | annotations | value | strict | extra
deriving DecidableEq

/-- The type of the property's value. -/
def ExampleProp.Ty : ExampleProp → Type
  | .displayName | .description => Option String
  | .annotations => OM String Ann
  | .value => Option Val
  | .strict => Bool
  | .extra => OM Scalar Node

/-- What the getter of the property reports. -/
def exampleGet : (p : ExampleProp) → Example → p.Ty
  | .displayName, e => e.displayName
  | .description, e => e.description
  | .annotations, e => e.annotations
  | .value, e => e.value
  | .strict, e => e.strict
  | .extra, e => e.extra

/-- What a call does to a property. -/
def exampleEffect : (p : ExampleProp) → p.Ty → ExampleOp → p.Ty
  | .displayName, _, .setDisplayName s => some s
  | .displayName, _, .unsetDisplayName => none
  | .description, _, .setDescription s => some s
  | .description, _, .unsetDescription => none
  | .annotations, _, .setAnnotations m => given m
  | .annotations, _, .unsetAnnotations => given none
  | .annotations, m, .editAnnotations f => f m
  | .value, _, .setValue v => some v
  | .value, _, .unsetValue => none
  | .strict, _, .setStrict b => b
  | .extra, m, .editExtra f => f m
  | _, x, _ => x

/-- C57: the same for examples; their kind never changes. -/
theorem C57_examples (e : Example) (ops : List ExampleOp) (p : ExampleProp) :
    exampleGet p (ops.foldl Example.apply e) = ops.foldl (exampleEffect p) (exampleGet p e) ∧
      (ops.foldl Example.apply e).kind = e.kind := by
  induction ops generalizing e with
  | nil => exact ⟨rfl, rfl⟩
  | cons op ops ih =>
    have h : exampleGet p (e.apply op) = exampleEffect p (exampleGet p e) op := by
      cases op <;> cases p <;> first | rfl | exact orFresh_given _
    have hk : (e.apply op).kind = e.kind := by cases op <;> rfl
    rw [List.foldl_cons, List.foldl_cons, (ih _).1, (ih _).2, h, hk]
    exact ⟨rfl, rfl⟩

/-- The last XML call about a setting wins; each setting has its own calls. -/
def xmlAsked : XMLOp → (Option (Option Bool) × Option (Option Bool)) ×
    (Option (Option String) × Option (Option String) × Option (Option String))
  | .setIsAttribute b => ((some (some b), none), (none, none, none))
  | .unsetIsAttribute => ((some none, none), (none, none, none))
  | .setIsWrapped b => ((none, some (some b)), (none, none, none))
  | .unsetIsWrapped => ((none, some none), (none, none, none))
  | .setName s => ((none, none), (some (some s), none, none))
  | .unsetName => ((none, none), (some none, none, none))
  | .setNamespace s => ((none, none), (none, some (some s), none))
  | .unsetNamespace => ((none, none), (none, some none, none))
  | .setPrefix s => ((none, none), (none, none, some (some s)))
  | .unsetPrefix => ((none, none), (none, none, some none))

/-- A getter `g` of an object whose calls change it as `asked` says reports the last value
asked for. -/
theorem last_wins {S O A : Type} (step : S → O → S) (g : S → A) (asked : O → Option A)
    (h : ∀ s o, g (step s o) = (asked o).getD (g s)) (s : S) (ops : List O) :
    g (ops.foldl step s) = (ops.reverse.findSome? asked).getD (g s) := by
  induction ops generalizing s with
  | nil => rfl
  | cons op ops ih =>
    rw [List.foldl_cons, ih, List.reverse_cons, List.findSome?_append, h]
    cases ops.reverse.findSome? asked with
    | some x => rfl
    | none => cases h : asked op <;> simp [h]

/-- C57: the same for XML settings. -/
theorem C57_xml (x : XML) (ops : List XMLOp) :
    let y := ops.foldl XML.apply x
    y.isAttr = (ops.reverse.findSome? fun o => (xmlAsked o).1.1).getD x.isAttr ∧
    y.isWrap = (ops.reverse.findSome? fun o => (xmlAsked o).1.2).getD x.isWrap ∧
    y.name = (ops.reverse.findSome? fun o => (xmlAsked o).2.1).getD x.name ∧
    y.ns = (ops.reverse.findSome? fun o => (xmlAsked o).2.2.1).getD x.ns ∧
    y.pref = (ops.reverse.findSome? fun o => (xmlAsked o).2.2.2).getD x.pref ∧
    y.extra = x.extra := by
  refine ⟨?_, ?_, ?_, ?_, ?_, ?_⟩
  · exact last_wins XML.apply XML.isAttr _ (fun s o => by cases o <;> rfl) x ops
  · exact last_wins XML.apply XML.isWrap _ (fun s o => by cases o <;> rfl) x ops
  · exact last_wins XML.apply XML.name _ (fun s o => by cases o <;> rfl) x ops
  · exact last_wins XML.apply XML.ns _ (fun s o => by cases o <;> rfl) x ops
  · exact last_wins XML.apply XML.pref _ (fun s o => by cases o <;> rfl) x ops
  · induction ops generalizing x with
    | nil => rfl
    | cons op ops ih => rw [List.foldl_cons, ih]; cases op <;> rfl

/-- C57: the same for documentation entries. -/
theorem C57_documentation (d : Documentation) (ops : List DocOp) :
    let e := ops.foldl Documentation.apply d
    e.title = (ops.reverse.findSome? fun o => match o with
      | .setTitle s => some s | _ => none).getD d.title ∧
    e.content = (ops.reverse.findSome? fun o => match o with
      | .setContent s => some s | _ => none).getD d.content := by
  refine ⟨?_, ?_⟩
  · exact last_wins Documentation.apply Documentation.title _ (fun s o => by cases o <;> rfl) d ops
  · exact last_wins Documentation.apply Documentation.content _
      (fun s o => by cases o <;> rfl) d ops

example : ([XMLOp.setName "a", .setIsAttribute true, .setName "b", .unsetIsAttribute].foldl
      XML.apply XML.new).name = some "b" := rfl

example : let e := [ExampleOp.setStrict false, .setValue (.str "a"), .unsetValue,
      .setDisplayName "x", .setStrict true].foldl Example.apply (Example.new .string)
    e.strict = true ∧ e.value = none ∧ e.displayName = some "x" := ⟨rfl, rfl, rfl⟩

example : let d := ([DocOp.setTitle "a", .setContent "c", .setTitle "b"].foldl
      Documentation.apply ⟨"", "", ⟨[], false⟩⟩)
    d.title = "b" ∧ d.content = "c" := ⟨rfl, rfl⟩

end Verif.Props
