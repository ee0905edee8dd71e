import Verif.Props.ApiParse
import Verif.Props.TypeValues

/-! # C51–C53: the value of every facet of a type definition -/

namespace Verif.Props
open Verif Verif.Doc Verif.Doc.Spec

/-! ### C51 -/

/-- The text of a string node. -/
def textOf (v : Node) : Option String := if v.isStr then some v.value else none

/-- The texts of a sequence of string nodes. -/
def textsOf (v : Node) : Option (List String) :=
  if isSeq v then (seqItems v).mapM textOf else none

/-- The plain facets: type of the value, kind, key, conversion of an entry, getter, and the value
when there is no entry.  The unsigned facets are in `Unsigned` (C22). -/
inductive PlainFacet (X : Xyml) :
    (α : Type) → Kind → String → (Node → Option α) → (DT → α) → α → Prop where
  | displayName {kd} (h : isBasic kd = false) :
      PlainFacet X _ kd "displayName" (fun v => (textOf v).map some) displayName none
  | description {kd} (h : isBasic kd = false) :
      PlainFacet X _ kd "description" (fun v => (textOf v).map some) description none
  | required {kd} (h : isBasic kd = false) :
      PlainFacet X _ kd "required" X.toBool required true
  | pattern : PlainFacet X _ .string "pattern" (fun v => (textOf v).map some) pattern none
  | fileTypes : PlainFacet X _ .file "fileTypes" (fun v => (textsOf v).map some) fileTypes none
  | uniqueItems :
      PlainFacet X _ .array "uniqueItems" (fun v => (X.toBool v).map some) uniqueItems (some false)
  | additionalProperties : PlainFacet X _ .object "additionalProperties"
      (fun v => (X.toBool v).map some) additionalProperties (some true)
  | discriminator :
      PlainFacet X _ .object "discriminator" (fun v => (textOf v).map some) discriminator none
  | discriminatorValue :
      PlainFacet X _ .object "discriminatorValue" (fun v => some (some v)) discriminatorValue none
  | datetimeFormat : PlainFacet X _ .datetime "format" (fun v => (textOf v).map some) format none
  | numberFormat : PlainFacet X _ .number "format" (fun v => (textOf v).map some) format none
  | integerFormat : PlainFacet X _ .integer "format" (fun v => (textOf v).map some) format none
  | numberMinimum :
      PlainFacet X _ .number "minimum" (fun v => (X.toFlt v).map fun x => .flt (some x)) minimum
        (.flt none)
  | numberMaximum :
      PlainFacet X _ .number "maximum" (fun v => (X.toFlt v).map fun x => .flt (some x)) maximum
        (.flt none)
  | integerMinimum :
      PlainFacet X _ .integer "minimum" (fun v => (X.toInt v).map fun x => .int (some x)) minimum
        (.int none)
  | integerMaximum :
      PlainFacet X _ .integer "maximum" (fun v => (X.toInt v).map fun x => .int (some x)) maximum
        (.int none)
  | numberMultipleOf :
      PlainFacet X _ .number "multipleOf" (fun v => (X.toFlt v).map some) multipleOf none
  | integerMultipleOf :
      PlainFacet X _ .integer "multipleOf" (fun v => (X.toFlt v).map some) multipleOf none

theorem look_new_of_sift {ps : List (Node × Node)} {t0 : DT} (h : siftType ps = .ok t0)
    {f : Facet} (hf : f ≠ .type) : look f t0 = look f (DT.new t0.kind) := by
  obtain ⟨s, hs⟩ := siftType_form h
  exact (congrArg (look f) hs).trans (setSchema_look hf s _)

private theorem plain_value {X : Xyml} {ps : List (Node × Node)} {t : DT} {kd : Kind} (f : Facet)
    {s : String} (h : hat X (.map ps) = .ok t) (hkd : t.kind = kd)
    (h1 : (facetNames kd).contains s = true) (h2 : facetNamed.lookup s = some f)
    (ht : f ≠ .type) (conv : Node → Option f.Ty) (d : f.Ty)
    (hl : ∀ k v x y, facetStep X kd k v f x = facetStep X kd k v f y)
    (hk : ∀ k k' v x, facetStep X kd k v f x = facetStep X kd k' v f x)
    (hconv : ∀ k v x y, facetStep X kd k v f x = .ok y → conv v = some y)
    (hd : look f (DT.new kd) = d) :
    (∀ v ∈ allVals s ps, conv v ≠ none) ∧ look f t = ((lastVal s ps).bind conv).getD d := by
  constructor
  · intro v hv
    obtain ⟨p, hp, rfl⟩ := List.mem_map.mp hv
    obtain ⟨hp1, hp2⟩ := List.mem_filter.mp hp
    have hkf : kindOf ps = some kd := by rw [← hkd]; exact C15_kind_of_mapping X ps t h
    obtain ⟨u, y, _, hy⟩ := hat_map_step h hkf hp1 (facetOf_eq (by simpa using hp2) h1 h2)
    rw [hconv _ _ _ _ hy]
    simp
  · have := hat_map_lastVal h hkd h1 h2 ht hl hk
    cases hv : lastVal s ps with
    | some v =>
      rw [hv] at this
      have := hconv _ _ _ _ (this v d)
      simp [this]
    | none =>
      rw [hv] at this
      obtain ⟨t0, h0, hx⟩ := this
      obtain ⟨t0', h0', _, _, _, hk0⟩ := hat_map_ok h
      rw [h0] at h0'
      cases h0'
      refine hx.trans ((look_new_of_sift h0 ht).trans ?_)
      rw [← hk0, hkd]
      exact hd

private theorem text_conv {v : Node} {y : Option String} (h : (asString v).map some = .ok y) :
    (textOf v).map some = some y := by
  unfold asString at h
  unfold textOf
  split at h
  · rename_i hs; rw [if_pos hs]; exact congrArg some (Res.ok.inj h)
  · cases h

private theorem date_conv {v : Node} {y : Option String} (h : (loadDateFormat v).map some = .ok y) :
    (textOf v).map some = some y := by
  unfold loadDateFormat at h
  unfold textOf
  split at h
  · rename_i hs; rw [if_pos hs]; exact congrArg some (Res.ok.inj h)
  · cases h

private theorem bool_conv {X : Xyml} {v : Node} {y : Bool} (h : asBool X v = .ok y) :
    X.toBool v = some y := by
  unfold asBool at h
  split at h <;> simp_all

private theorem bool_conv' {X : Xyml} {v : Node} {y : Option Bool}
    (h : (asBool X v).map some = .ok y) : (X.toBool v).map some = some y := by
  obtain ⟨b, hb, rfl⟩ := Res.map_eq_ok.mp h
  rw [bool_conv hb]; rfl

private theorem flt_conv {X : Xyml} {v : Node} {α : Type} {g : Flt → α} {y : α}
    (h : (asFlt X v).map g = .ok y) : (X.toFlt v).map g = some y := by
  unfold asFlt at h
  split at h <;> simp_all

private theorem int_conv {X : Xyml} {v : Node} {α : Type} {g : Int → α} {y : α}
    (h : (asInt X v).map g = .ok y) : (X.toInt v).map g = some y := by
  unfold asInt at h
  split at h <;> simp_all

private theorem texts_items (ns : List Node) (l l' : List String)
    (h : forItems (fun n acc => (asString n).map fun s => acc ++ [s]) ns l = .ok l') :
    ∃ r, ns.mapM textOf = some r ∧ l' = l ++ r := by
  induction ns generalizing l with
  | nil => cases h; exact ⟨[], rfl, by simp⟩
  | cons n ns ih =>
    obtain ⟨l1, h1, h2⟩ := Res.bind_eq_ok.mp h
    obtain ⟨s, hs, rfl⟩ := Res.map_eq_ok.mp h1
    obtain ⟨hs1, rfl⟩ := asString_ok hs
    obtain ⟨r, hr, rfl⟩ := ih _ h2
    exact ⟨n.value :: r, by simp [textOf, hs1, hr], by simp⟩

private theorem texts_conv {v : Node} {y : Option (List String)}
    (h : (asStringList v).map some = .ok y) : (textsOf v).map some = some y := by
  obtain ⟨l, hl, rfl⟩ := Res.map_eq_ok.mp h
  cases v with
  | scalar a b => cases hl
  | map a => cases hl
  | seq a ns =>
    obtain ⟨r, hr, rfl⟩ := texts_items ns [] l hl
    simp [textsOf, isSeq, seqItems, hr]

/-- C51: a plain facet holds the conversion of its last entry, and the default of the kind when
there is none; and no entry of it fails to convert. -/
theorem C51_plain_facet (X : Xyml) (ps : List (Node × Node)) (t : DT) (α : Type) (kd : Kind)
    (key : String) (conv : Node → Option α) (get : DT → α) (d : α)
    (hp : PlainFacet X α kd key conv get d) (h : hat X (.map ps) = .ok t) (hk : t.kind = kd) :
    (∀ v ∈ allVals key ps, conv v ≠ none) ∧ get t = ((lastVal key ps).bind conv).getD d := by
  have hc : ∀ s, isBasic kd = false → s ∈ facetNames.common →
      (facetNames kd).contains s = true := by
    intro s hb hs
    cases kd <;> first
      | (exact absurd hb (by decide))
      | (simp only [facetNames, List.contains_eq_mem, decide_eq_true_eq]
         first | exact hs | exact List.mem_append_left _ hs)
  cases hp with
  | displayName hb =>
    exact plain_value .displayName h hk (hc _ hb (by decide)) (by decide) (by decide) _ _
      (fun _ _ _ _ => rfl) (fun _ _ _ _ => rfl) (fun _ _ _ _ h => text_conv h)
      (by cases kd <;> rfl)
  | description hb =>
    exact plain_value .description h hk (hc _ hb (by decide)) (by decide) (by decide) _ _
      (fun _ _ _ _ => rfl) (fun _ _ _ _ => rfl) (fun _ _ _ _ h => text_conv h)
      (by cases kd <;> rfl)
  | required hb =>
    exact plain_value .required h hk (hc _ hb (by decide)) (by decide) (by decide) _ _
      (fun _ _ _ _ => rfl) (fun _ _ _ _ => rfl) (fun _ _ _ _ h => bool_conv h)
      (by cases kd <;> rfl)
  | pattern =>
    exact plain_value .pattern h hk (by decide) (by decide) (by decide) _ _
      (fun _ _ _ _ => rfl) (fun _ _ _ _ => rfl) (fun _ _ _ _ h => text_conv h) rfl
  | fileTypes =>
    exact plain_value .fileTypes h hk (by decide) (by decide) (by decide) _ _
      (fun _ _ _ _ => rfl) (fun _ _ _ _ => rfl) (fun _ _ _ _ h => texts_conv h) rfl
  | uniqueItems =>
    exact plain_value .uniqueItems h hk (by decide) (by decide) (by decide) _ _
      (fun _ _ _ _ => rfl) (fun _ _ _ _ => rfl) (fun _ _ _ _ h => bool_conv' h) rfl
  | additionalProperties =>
    exact plain_value .additionalProperties h hk (by decide) (by decide) (by decide) _ _
      (fun _ _ _ _ => rfl) (fun _ _ _ _ => rfl) (fun _ _ _ _ h => bool_conv' h) rfl
  | discriminator =>
    exact plain_value .discriminator h hk (by decide) (by decide) (by decide) _ _
      (fun _ _ _ _ => rfl) (fun _ _ _ _ => rfl) (fun _ _ _ _ h => text_conv h) rfl
  | discriminatorValue =>
    exact plain_value .discriminatorValue h hk (by decide) (by decide) (by decide) _ _
      (fun _ _ _ _ => rfl) (fun _ _ _ _ => rfl)
      (fun _ _ _ _ h => congrArg some (Res.ok.inj h)) rfl
  | datetimeFormat =>
    exact plain_value .format h hk (by decide) (by decide) (by decide) _ _
      (fun _ _ _ _ => rfl) (fun _ _ _ _ => rfl) (fun _ _ _ _ h => date_conv h) rfl
  | numberFormat =>
    exact plain_value .format h hk (by decide) (by decide) (by decide) _ _
      (fun _ _ _ _ => rfl) (fun _ _ _ _ => rfl) (fun _ _ _ _ h => text_conv h) rfl
  | integerFormat =>
    exact plain_value .format h hk (by decide) (by decide) (by decide) _ _
      (fun _ _ _ _ => rfl) (fun _ _ _ _ => rfl) (fun _ _ _ _ h => text_conv h) rfl
  | numberMinimum =>
    exact plain_value .minimum h hk (by decide) (by decide) (by decide) _ _
      (fun _ _ _ _ => rfl) (fun _ _ _ _ => rfl) (fun _ _ _ _ h => flt_conv h) rfl
  | numberMaximum =>
    exact plain_value .maximum h hk (by decide) (by decide) (by decide) _ _
      (fun _ _ _ _ => rfl) (fun _ _ _ _ => rfl) (fun _ _ _ _ h => flt_conv h) rfl
  | integerMinimum =>
    exact plain_value .minimum h hk (by decide) (by decide) (by decide) _ _
      (fun _ _ _ _ => rfl) (fun _ _ _ _ => rfl) (fun _ _ _ _ h => int_conv h) rfl
  | integerMaximum =>
    exact plain_value .maximum h hk (by decide) (by decide) (by decide) _ _
      (fun _ _ _ _ => rfl) (fun _ _ _ _ => rfl) (fun _ _ _ _ h => int_conv h) rfl
  | numberMultipleOf =>
    exact plain_value .multipleOf h hk (by decide) (by decide) (by decide) _ _
      (fun _ _ _ _ => rfl) (fun _ _ _ _ => rfl) (fun _ _ _ _ h => flt_conv h) rfl
  | integerMultipleOf =>
    exact plain_value .multipleOf h hk (by decide) (by decide) (by decide) _ _
      (fun _ _ _ _ => rfl) (fun _ _ _ _ => rfl) (fun _ _ _ _ h => flt_conv h) rfl

/-- The unsigned facets when there is no entry: `0` for the lower bounds of string, file and array
types, 2^31 - 1 for the upper bounds of file and array types, unset otherwise. -/
def unsignedDefault (kd : Kind) (key : String) : Option Nat :=
  if key = "minLength" ∨ key = "minItems" then some 0
  else if key = "maxItems" ∨ (key = "maxLength" ∧ kd = .file) then some (2 ^ 31 - 1)
  else none

/-- C51: an unsigned facet without an entry has the default of the kind. -/
theorem C51_unsigned_default (X : Xyml) (ps : List (Node × Node)) (t : DT) (kd : Kind)
    (key : String) (get : DT → Option Nat) (hu : Unsigned kd key get)
    (h : hat X (.map ps) = .ok t) (hk : t.kind = kd) (hn : allVals key ps = []) :
    get t = unsignedDefault kd key := by
  have hl : lastVal key ps = none := by
    simp only [allVals, List.map_eq_nil_iff, List.filter_eq_nil_iff] at hn
    simp only [lastVal, lastBy, Option.map_eq_none_iff, List.find?_eq_none, List.mem_reverse]
    exact hn
  have key' : ∀ (f : Facet) (d : f.Ty), (facetNames kd).contains key = true →
      facetNamed.lookup key = some f → f ≠ .type →
      (∀ k v x y, facetStep X kd k v f x = facetStep X kd k v f y) →
      (∀ k k' v x, facetStep X kd k v f x = facetStep X kd k' v f x) →
      look f (DT.new kd) = d → look f t = d := by
    intro f d h1 h2 h3 h4 h5 hd
    have := hat_map_lastVal h hk h1 h2 h3 h4 h5
    rw [hl] at this
    obtain ⟨t0, h0, hx⟩ := this
    obtain ⟨t0', h0', _, _, _, hk0⟩ := hat_map_ok h
    rw [h0] at h0'
    cases h0'
    refine hx.trans ((look_new_of_sift h0 h3).trans ?_)
    rw [← hk0, hk]
    exact hd
  cases hu
  case stringMinLength | fileMinLength =>
    exact key' .minLength (some 0) (by decide) (by decide) (by decide) (fun _ _ _ _ => rfl)
      (fun _ _ _ _ => rfl) rfl
  case stringMaxLength =>
    exact key' .maxLength none (by decide) (by decide) (by decide) (fun _ _ _ _ => rfl)
      (fun _ _ _ _ => rfl) rfl
  case fileMaxLength =>
    exact key' .maxLength (some 2147483647) (by decide) (by decide) (by decide)
      (fun _ _ _ _ => rfl) (fun _ _ _ _ => rfl) rfl
  case minItems =>
    exact key' .minItems (some 0) (by decide) (by decide) (by decide) (fun _ _ _ _ => rfl)
      (fun _ _ _ _ => rfl) rfl
  case maxItems =>
    exact key' .maxItems (some 2147483647) (by decide) (by decide) (by decide)
      (fun _ _ _ _ => rfl) (fun _ _ _ _ => rfl) rfl
  case minProperties =>
    exact key' .minProperties none (by decide) (by decide) (by decide) (fun _ _ _ _ => rfl)
      (fun _ _ _ _ => rfl) rfl
  case maxProperties =>
    exact key' .maxProperties none (by decide) (by decide) (by decide) (fun _ _ _ _ => rfl)
      (fun _ _ _ _ => rfl) rfl

/-- A definition with two patterns, a description and `required`; no display name, no bounds. -/
example : ∃ t, hat Xyml.std (.map [(.str "pattern", .str "a"), (.str "required",
      .scalar "!!bool" "false"), (.str "description", .str "d"), (.str "pattern", .str "b")]) =
        .ok t ∧ pattern t = some "b" ∧ required t = false ∧ description t = some "d" ∧
      displayName t = none ∧ minLength t = some 0 ∧ maxLength t = none :=
  ⟨_, rfl, rfl, rfl, rfl, rfl, rfl, rfl⟩

example : ∃ t, hat Xyml.std (.map [(.str "type", .str "file"), (.str "fileTypes",
      .seq seqTag [.str "a/b", .str "c/d"])]) = .ok t ∧
      fileTypes t = some ["a/b", "c/d"] ∧ maxLength t = some 2147483647 := ⟨_, rfl, rfl, rfl⟩

example : ∃ t, hat Xyml.std (.map [(.str "type", .str "number"),
      (.str "minimum", .scalar "!!float" "0.5"), (.str "format", .str "float")]) = .ok t ∧
      minimum t = .flt (some ⟨"5"⟩) ∧ maximum t = .flt none ∧ format t = some "float" :=
  ⟨_, rfl, rfl, rfl, rfl⟩

/-! ### C53: examples and XML settings -/

/-- The keys of an expanded example. -/
def exampleKeys : List String := ["displayName", "description", "strict", "value"]

/-- An entry of an expanded example that is no known key and no annotation. -/
def isExampleExtra (p : Node × Node) : Bool :=
  !p.1.isStr || (!startsWith '(' p.1 && !exampleKeys.contains p.1.value)

/-- What an expanded example is read as. -/
structure IsExpanded (X : Xyml) (kd : Kind) (ps : List (Node × Node)) (e : Example) : Prop where
  displayName : e.displayName = (lastNamed "displayName" ps).bind textOf
  description : e.description = (lastNamed "description" ps).bind textOf
  strict : e.strict = ((lastNamed "strict" ps).bind X.toBool).getD true
  value : e.value = (lastNamed "value" ps).bind (exampleElem X kd)
  annotations : ∃ es : List (String × Ann),
    List.Forall₂ (fun p e => p.1.value = e.1 ∧ IsAnn p.2 e.2)
      (ps.filter fun p => startsWith '(' p.1) es ∧ e.annotations.ents = lastWins es
  extra : ∃ es : List (Scalar × Node),
    List.Forall₂ (fun p e => X.toScalar p.1 = some e.1 ∧ p.2 = e.2)
      (ps.filter isExampleExtra) es ∧ e.extra.ents = lastWins es

/-- What an example node is read as: a mapping is an expanded example, anything else the value
itself, with no other facets. -/
def IsExample (X : Xyml) (kd : Kind) (v : Node) (e : Example) : Prop :=
  e.kind = kd ∧ if isMap v then IsExpanded X kd (mapEntries v) e
  else exampleElem X kd v = e.value ∧ e.value ≠ none ∧ e.displayName = none ∧
    e.description = none ∧ e.strict = true ∧ e.annotations.ents = [] ∧ e.extra.ents = []

theorem puts_where {σ K V : Type} [DecidableEq K] {f : Node → Node → σ → Res σ} {I : σ → Prop}
    (π : σ → OM K V) (q : Node × Node → Bool) (R : Node × Node → K × V → Prop)
    (hI : ∀ k v s s', I s → f k v s = .ok s' → I s')
    (hin : ∀ k v s s', I s → q (k, v) = true → f k v s = .ok s' →
      ∃ e, R (k, v) e ∧ π s' = (π s).put e.1 e.2)
    (hout : ∀ k v s s', I s → q (k, v) = false → f k v s = .ok s' → π s' = π s) :
    ∀ ps s s', I s → forPairs f ps s = .ok s' →
      ∃ es, List.Forall₂ R (ps.filter q) es ∧ π s' = (π s).putAll es := by
  intro ps
  induction ps with
  | nil => intro s s' _ h; cases h; exact ⟨[], .nil, rfl⟩
  | cons p ps ih =>
    intro s s' hs h
    obtain ⟨s1, h1, h2⟩ := Res.bind_eq_ok.mp h
    obtain ⟨es, he, hp⟩ := ih s1 s' (hI _ _ _ _ hs h1) h2
    cases hq : q p with
    | true =>
      obtain ⟨e, hR, h3⟩ := hin p.1 p.2 _ _ hs hq h1
      refine ⟨e :: es, ?_, ?_⟩
      · rw [List.filter_cons, if_pos hq]; exact .cons hR he
      · rw [hp, h3]; rfl
    | false =>
      refine ⟨es, ?_, ?_⟩
      · rw [List.filter_cons, if_neg (by simp [hq])]; exact he
      · rw [hp, hout p.1 p.2 _ _ hs hq h1]

/-- The entries of an expanded example, case by case. -/
theorem example_assign {X : Xyml} {k v : Node} {s s' : Example}
    (h : Example.assign X k v s = .ok s') :
    (isExampleExtra (k, v) = true ∧ ∃ x, X.toScalar k = some x ∧
      s' = { s with extra := s.extra.put x v }) ∨
    (startsWith '(' k = true ∧ ∃ a, loadAnn v = .ok a ∧
      s' = { s with annotations := s.annotations.put k.value a }) ∨
    (k.isStr = true ∧ k.value = "displayName" ∧ v.isStr = true ∧
      s' = { s with displayName := some v.value }) ∨
    (k.isStr = true ∧ k.value = "description" ∧ v.isStr = true ∧
      s' = { s with description := some v.value }) ∨
    (k.isStr = true ∧ k.value = "strict" ∧ ∃ b, X.toBool v = some b ∧
      s' = { s with strict := b }) ∨
    (k.isStr = true ∧ k.value = "value" ∧ ∃ x, exampleElem X s.kind v = some x ∧
      s' = { s with value := some x }) := by
  have hextra : ∀ {s s' : Example}, s.putExtra X k v = .ok s' → ∃ x, X.toScalar k = some x ∧
      s' = { s with extra := s.extra.put x v } := by
    intro s s' h
    obtain ⟨x, hx, rfl⟩ := Res.map_eq_ok.mp h
    unfold asScalar at hx
    split at hx
    · cases hx; exact ⟨x, by assumption, rfl⟩
    · cases hx
  unfold Example.assign at h
  by_cases hs : k.isStr = true
  · rw [if_neg (by simp [hs])] at h
    cases hf : firstChar k.value with
    | none => rw [hf] at h; cases h
    | some c =>
      rw [hf] at h
      simp only at h
      split at h
      · rename_i hc
        obtain ⟨a, ha, rfl⟩ := Res.map_eq_ok.mp h
        refine .inr (.inl ⟨?_, a, ha, rfl⟩)
        rw [firstChar_eq] at hf
        simp [startsWith, hs, hf, hc]
      · rename_i hc
        split at h
        · rename_i hk
          obtain ⟨a, ha, rfl⟩ := Res.map_eq_ok.mp h
          obtain ⟨h1, rfl⟩ := asString_ok ha
          exact .inr (.inr (.inl ⟨hs, hk, h1, rfl⟩))
        · rename_i hk1
          split at h
          · rename_i hk
            obtain ⟨a, ha, rfl⟩ := Res.map_eq_ok.mp h
            obtain ⟨h1, rfl⟩ := asString_ok ha
            exact .inr (.inr (.inr (.inl ⟨hs, hk, h1, rfl⟩)))
          · rename_i hk2
            split at h
            · rename_i hk
              obtain ⟨a, ha, rfl⟩ := Res.map_eq_ok.mp h
              exact .inr (.inr (.inr (.inr (.inl ⟨hs, hk, a, bool_conv ha, rfl⟩))))
            · rename_i hk3
              split at h
              · rename_i hk
                obtain ⟨a, ha, rfl⟩ := Res.map_eq_ok.mp h
                exact .inr (.inr (.inr (.inr (.inr
                  ⟨hs, hk, a, (exampleVal_eq X _ v a).mp ha, rfl⟩))))
              · rename_i hk4
                refine .inl ⟨?_, hextra h⟩
                rw [firstChar_eq] at hf
                simp [isExampleExtra, startsWith, hf, hc, exampleKeys, hk1, hk2, hk3, hk4]
  · rw [if_pos (by simp [hs])] at h
    exact .inl ⟨by simp [isExampleExtra, hs], hextra h⟩

private theorem starts_named {k : Node} {s : String} (h : startsWith '(' k = true)
    (hk : k.value = s) (hs : s.toList.head? ≠ some '(') : False := by
  simp only [startsWith, Bool.and_eq_true, beq_iff_eq] at h
  exact hs (hk ▸ h.2)

private theorem extra_named {k v : Node} {s : String} (h : isExampleExtra (k, v) = true)
    (h1 : k.isStr = true) (hk : k.value = s) (hs : s ∈ exampleKeys) : False := by
  simp [isExampleExtra, h1, hk, hs] at h

private theorem extra_starts {k v : Node} (h : isExampleExtra (k, v) = true)
    (h1 : startsWith '(' k = true) : False := by
  have h2 : k.isStr = true := by
    simp only [startsWith, Bool.and_eq_true] at h1; exact h1.1
  simp [isExampleExtra, h1, h2] at h

private theorem example_last {X : Xyml} {kd : Kind} {ps : List (Node × Node)} {e : Example}
    {τ : Type} (key : String) (π : Example → τ) (conv : Node → Option τ)
    (hin : ∀ k v s s', s.kind = kd → k.isStr = true → k.value = key →
      Example.assign X k v s = .ok s' → conv v = some (π s'))
    (hout : ∀ k v s s', ¬ (k.isStr = true ∧ k.value = key) →
      Example.assign X k v s = .ok s' → π s' = π s)
    (h : forPairs (Example.assign X) ps (Example.new kd) = .ok e) :
    π e = ((lastNamed key ps).bind conv).getD (π (Example.new kd)) := by
  have := forPairs_lastBy (I := fun u : Example => u.kind = kd) π
    (fun p => p.1.isStr && p.1.value == key) (fun v y => conv v = some y)
    (fun k v s s' hI h => by
      rcases example_assign h with ⟨_, _, _, rfl⟩ | ⟨_, _, _, rfl⟩ | ⟨_, _, _, rfl⟩ |
        ⟨_, _, _, rfl⟩ | ⟨_, _, _, _, rfl⟩ | ⟨_, _, _, _, rfl⟩ <;> exact hI)
    (fun k v s s' hI hq hs => by
      simp only [Bool.and_eq_true, beq_iff_eq] at hq
      exact hin k v s s' hI hq.1 hq.2 hs)
    (fun k v s s' _ hq hs => hout k v s s' (by
      intro hc
      simp [hc.1, hc.2] at hq) hs) ps (Example.new kd) e rfl h
  unfold lastNamed
  cases hl : lastBy (fun p => p.1.isStr && p.1.value == key) ps with
  | none => rw [hl] at this; exact this
  | some v => rw [hl] at this; simp [this]

/-- C53: what an example node is read as. -/
theorem C53_example_read (X : Xyml) (kd : Kind) (v : Node) (e : Example)
    (h : (Example.new kd).unmarshal X v = .ok e) : IsExample X kd v e := by
  by_cases hm : isMap v = true
  · cases v with
    | scalar a b => cases hm
    | seq a b => cases hm
    | map ps =>
      replace h : forPairs (Example.assign X) ps (Example.new kd) = .ok e := h
      have hkind : e.kind = kd := forPairs_inv (I := fun u : Example => u.kind = kd)
        (fun k v s s' hI h => by
          rcases example_assign h with ⟨_, _, _, rfl⟩ | ⟨_, _, _, rfl⟩ | ⟨_, _, _, rfl⟩ |
            ⟨_, _, _, rfl⟩ | ⟨_, _, _, _, rfl⟩ | ⟨_, _, _, _, rfl⟩ <;> exact hI) ps _ e rfl h
      refine ⟨hkind, ?_⟩
      rw [if_pos hm]
      have hflat : ∀ {α : Type} (o : Option Node) (g : Node → Option α),
          (o.bind fun v => (g v).map some).getD none = o.bind g := by
        intro α o g
        cases o with
        | none => rfl
        | some v => cases hg : g v <;> simp [hg]
      refine ⟨?_, ?_, ?_, ?_, ?_, ?_⟩
      · rw [← hflat]
        refine example_last "displayName" Example.displayName (fun v => (textOf v).map some)
          ?_ ?_ h
        · intro k v s s' _ hs hk ha
          rcases example_assign ha with ⟨hx, _⟩ | ⟨hx, _⟩ | ⟨_, _, h1, rfl⟩ | ⟨_, hk', _⟩ |
            ⟨_, hk', _⟩ | ⟨_, hk', _⟩
          · exact (extra_named hx hs hk (by decide)).elim
          · exact (starts_named hx hk (by decide)).elim
          · simp [textOf, h1]
          all_goals (rw [hk] at hk'; exact absurd hk' (by decide))
        · intro k v s s' hn ha
          rcases example_assign ha with ⟨_, _, _, rfl⟩ | ⟨_, _, _, rfl⟩ | ⟨h1, h2, _⟩ |
            ⟨_, _, _, rfl⟩ | ⟨_, _, _, _, rfl⟩ | ⟨_, _, _, _, rfl⟩ <;>
            first | rfl | exact absurd ⟨h1, h2⟩ hn
      · rw [← hflat]
        refine example_last "description" Example.description (fun v => (textOf v).map some)
          ?_ ?_ h
        · intro k v s s' _ hs hk ha
          rcases example_assign ha with ⟨hx, _⟩ | ⟨hx, _⟩ | ⟨_, hk', _⟩ | ⟨_, _, h1, rfl⟩ |
            ⟨_, hk', _⟩ | ⟨_, hk', _⟩
          · exact (extra_named hx hs hk (by decide)).elim
          · exact (starts_named hx hk (by decide)).elim
          · rw [hk] at hk'; exact absurd hk' (by decide)
          · simp [textOf, h1]
          all_goals (rw [hk] at hk'; exact absurd hk' (by decide))
        · intro k v s s' hn ha
          rcases example_assign ha with ⟨_, _, _, rfl⟩ | ⟨_, _, _, rfl⟩ | ⟨_, _, _, rfl⟩ |
            ⟨h1, h2, _⟩ | ⟨_, _, _, _, rfl⟩ | ⟨_, _, _, _, rfl⟩ <;>
            first | rfl | exact absurd ⟨h1, h2⟩ hn
      · refine example_last "strict" Example.strict X.toBool ?_ ?_ h
        · intro k v s s' _ hs hk ha
          rcases example_assign ha with ⟨hx, _⟩ | ⟨hx, _⟩ | ⟨_, hk', _⟩ | ⟨_, hk', _⟩ |
            ⟨_, _, b, hb, rfl⟩ | ⟨_, hk', _⟩
          · exact (extra_named hx hs hk (by decide)).elim
          · exact (starts_named hx hk (by decide)).elim
          · rw [hk] at hk'; exact absurd hk' (by decide)
          · rw [hk] at hk'; exact absurd hk' (by decide)
          · exact hb
          · rw [hk] at hk'; exact absurd hk' (by decide)
        · intro k v s s' hn ha
          rcases example_assign ha with ⟨_, _, _, rfl⟩ | ⟨_, _, _, rfl⟩ | ⟨_, _, _, rfl⟩ |
            ⟨_, _, _, rfl⟩ | ⟨h1, h2, _⟩ | ⟨_, _, _, _, rfl⟩ <;>
            first | rfl | exact absurd ⟨h1, h2⟩ hn
      · rw [← hflat]
        refine example_last "value" Example.value (fun v => (exampleElem X kd v).map some)
          ?_ ?_ h
        · intro k v s s' hI hs hk ha
          rcases example_assign ha with ⟨hx, _⟩ | ⟨hx, _⟩ | ⟨_, hk', _⟩ | ⟨_, hk', _⟩ |
            ⟨_, hk', _⟩ | ⟨_, _, x, hx, rfl⟩
          · exact (extra_named hx hs hk (by decide)).elim
          · exact (starts_named hx hk (by decide)).elim
          · rw [hk] at hk'; exact absurd hk' (by decide)
          · rw [hk] at hk'; exact absurd hk' (by decide)
          · rw [hk] at hk'; exact absurd hk' (by decide)
          · rw [hI] at hx; rw [hx]; rfl
        · intro k v s s' hn ha
          rcases example_assign ha with ⟨_, _, _, rfl⟩ | ⟨_, _, _, rfl⟩ | ⟨_, _, _, rfl⟩ |
            ⟨_, _, _, rfl⟩ | ⟨_, _, _, _, rfl⟩ | ⟨h1, h2, _⟩ <;>
            first | rfl | exact absurd ⟨h1, h2⟩ hn
      · obtain ⟨es, h1, h2⟩ := puts_where (I := fun _ : Example => True) Example.annotations
          (fun p => startsWith '(' p.1) (fun p e => p.1.value = e.1 ∧ IsAnn p.2 e.2)
          (fun _ _ _ _ _ _ => trivial)
          (fun k v s s' _ hq ha => by
            rcases example_assign ha with ⟨hx, _⟩ | ⟨_, a, hl, rfl⟩ | ⟨_, hk, _⟩ | ⟨_, hk, _⟩ |
              ⟨_, hk, _⟩ | ⟨_, hk, _⟩
            · exact (extra_starts hx hq).elim
            · exact ⟨(k.value, a), ⟨rfl, loadAnn_ok hl⟩, rfl⟩
            all_goals exact (starts_named hq hk (by decide)).elim)
          (fun k v s s' _ hq ha => by
            rcases example_assign ha with ⟨_, _, _, rfl⟩ | ⟨h1, _⟩ | ⟨_, _, _, rfl⟩ |
              ⟨_, _, _, rfl⟩ | ⟨_, _, _, _, rfl⟩ | ⟨_, _, _, _, rfl⟩
            case inr.inl => rw [show startsWith '(' k = false from hq] at h1; cases h1
            all_goals rfl) ps _ e trivial h
        refine ⟨es, h1, ?_⟩
        rw [h2]
        exact OM.empty_putAll_ents es false
      · obtain ⟨es, h1, h2⟩ := puts_where (I := fun _ : Example => True) Example.extra
          isExampleExtra (fun p e => X.toScalar p.1 = some e.1 ∧ p.2 = e.2)
          (fun _ _ _ _ _ _ => trivial)
          (fun k v s s' _ hq ha => by
            rcases example_assign ha with ⟨_, x, hx, rfl⟩ | ⟨hx, _⟩ | ⟨h1, hk, _⟩ | ⟨h1, hk, _⟩ |
              ⟨h1, hk, _⟩ | ⟨h1, hk, _⟩
            · exact ⟨(x, v), ⟨hx, rfl⟩, rfl⟩
            · exact (extra_starts hq hx).elim
            all_goals exact (extra_named hq h1 hk (by decide)).elim)
          (fun k v s s' _ hq ha => by
            rcases example_assign ha with ⟨hx, _⟩ | ⟨_, _, _, rfl⟩ | ⟨_, _, _, rfl⟩ |
              ⟨_, _, _, rfl⟩ | ⟨_, _, _, _, rfl⟩ | ⟨_, _, _, _, rfl⟩
            case inl => rw [hx] at hq; cases hq
            all_goals rfl) ps _ e trivial h
        refine ⟨es, h1, ?_⟩
        rw [h2]
        exact OM.empty_putAll_ents es false
  · have hm : isMap v = false := by simpa using hm
    obtain ⟨x, hx, rfl⟩ := unmarshal_scalar hm h
    refine ⟨rfl, ?_⟩
    rw [if_neg (by simp [hm])]
    exact ⟨hx, by simp, rfl, rfl, rfl, rfl, rfl⟩

/-- An expanded example with a display name given twice, an annotation, a value and an unknown
entry with an integer key. -/
example : ∃ e, (Example.new .string).unmarshal Xyml.std (.map [(.str "displayName", .str "a"),
      (.str "(note)", .map [(.str "by", .str "me")]), (.str "value", .str "v"),
      (.scalar "!!bool" "true", .str "x"), (.str "displayName", .str "b")]) = .ok e ∧
    e.displayName = some "b" ∧ e.strict = true ∧ e.annotations.ents.map Prod.fst = ["(note)"] ∧
    e.extra.ents = [(.bool true, .str "x")] := ⟨_, rfl, rfl, rfl, rfl, rfl⟩

/-- The keys of XML settings. -/
def xmlKeys : List String := ["attribute", "wrapped", "name", "namespace", "prefix"]

/-- C53: the entries of XML settings that are none of the five settings are kept as extra facets,
under the scalar value of the key. -/
theorem C53_xml_extra (X : Xyml) (ps : List (Node × Node)) (x : XML)
    (h : loadXML X (.map ps) = .ok x) :
    ∃ es : List (Scalar × Node),
      List.Forall₂ (fun p e => X.toScalar p.1 = some e.1 ∧ p.2 = e.2)
        (ps.filter fun p => !xmlKeys.contains p.1.value) es ∧ x.extra.ents = lastWins es := by
  obtain ⟨es, h1, h2⟩ := puts_where (f := XML.assign X) (I := fun _ : XML => True) XML.extra
    (fun p => !xmlKeys.contains p.1.value) (fun p e => X.toScalar p.1 = some e.1 ∧ p.2 = e.2)
    (fun _ _ _ _ _ _ => trivial)
    (fun k v s s' _ hq ha => by
      simp only [xmlKeys, List.contains_eq_mem, List.mem_cons, List.not_mem_nil, or_false,
        Bool.not_eq_true', decide_eq_false_iff_not, not_or] at hq
      unfold XML.assign at ha
      simp only [hq.1, hq.2.1, hq.2.2.1, hq.2.2.2.1, hq.2.2.2.2, if_false] at ha
      obtain ⟨y, hy, rfl⟩ := Res.map_eq_ok.mp ha
      unfold asScalar at hy
      split at hy
      · cases hy; exact ⟨(y, v), ⟨by assumption, rfl⟩, rfl⟩
      · cases hy)
    (fun k v s s' _ hq ha => by
      unfold XML.assign at ha
      repeat' split at ha
      all_goals first
        | (obtain ⟨y, hy, rfl⟩ := Res.map_eq_ok.mp ha; rfl)
        | (exfalso; simp_all [xmlKeys])) ps XML.new x trivial h
  refine ⟨es, h1, ?_⟩
  rw [h2]
  exact OM.empty_putAll_ents es false

example : ∃ x, loadXML Xyml.std (.map [(.str "a", .str "1"), (.str "name", .str "n"),
    (.str "a", .map [])]) = .ok x ∧ x.extra.ents = [(.str "a", .map [])] := ⟨_, rfl, rfl⟩

/-! ### C52 -/

/-- The value of a facet is obtained by applying its entries, in order, to the value a fresh type
of the kind has (auxiliary). -/
theorem hat_map_fold {X : Xyml} {ps : List (Node × Node)} {t : DT}
    (h : hat X (.map ps) = .ok t) {f : Facet} (hf : f ≠ .type) :
    forPairs (fun k v x => facetStep X t.kind k v f x)
      (ps.filter fun p => facetOf t.kind p == f) (look f (DT.new t.kind)) = .ok (look f t) := by
  obtain ⟨t0, h0, _, _, h1, hk0⟩ := hat_map_ok h
  rw [assignAll_eq] at h1
  rw [hk0, ← look_new_of_sift h0 hf, ← hk0]
  have key : ∀ (ps : List (Node × Node)) (s s' : DT), s.kind = t.kind →
      forPairs (fun k v t => assign X (k, v) t) ps s = .ok s' →
      forPairs (fun k v x => facetStep X t.kind k v f x)
        (ps.filter fun p => facetOf t.kind p == f) (look f s) = .ok (look f s') := by
    intro ps
    induction ps with
    | nil => intro s s' _ h; cases h; rfl
    | cons p ps ih =>
      intro s s' hs h
      obtain ⟨s1, h1, h2⟩ := Res.bind_eq_ok.mp h
      have hi := ih s1 s' ((assign_kind h1).trans hs) h2
      obtain ⟨g1, g2⟩ := assign_ok hs h1
      by_cases hp : facetOf t.kind p = f
      · subst hp
        rw [List.filter_cons, if_pos (by simp)]
        simp only [forPairs]
        rw [show facetStep X t.kind p.1 p.2 (facetOf t.kind p) (look (facetOf t.kind p) s) =
          .ok (look (facetOf t.kind p) s1) from g1]
        exact hi
      · rw [List.filter_cons, if_neg (by simpa using hp), ← g2 f (fun he => hp he.symm)]
        exact hi
  exact key ps t0 t hk0.symm h1

theorem common_contains {kd : Kind} (hb : isBasic kd = false) {s : String}
    (hs : s ∈ facetNames.common) : (facetNames kd).contains s = true := by
  cases kd <;> first
    | (exact absurd hb (by decide))
    | (simp only [facetNames, List.contains_eq_mem, decide_eq_true_eq]
       first | exact hs | exact List.mem_append_left _ hs)

/-- C52: the item type of an array type is the type of the last `items` entry, unset without
one. -/
theorem C52_items (X : Xyml) (ps : List (Node × Node)) (t : DT)
    (h : hat X (.map ps) = .ok t) (hk : t.kind = .array) :
    (∀ v ∈ allVals "items" ps, ∃ u, hat X v = .ok u) ∧
    match lastVal "items" ps with
    | some v => ∃ u, hat X v = .ok u ∧ items t = some u
    | none => items t = none := by
  refine ⟨?_, ?_⟩
  · intro v hv
    obtain ⟨p, hp, rfl⟩ := List.mem_map.mp hv
    obtain ⟨hp1, hp2⟩ := List.mem_filter.mp hp
    have hkf : kindOf ps = some .array := by rw [← hk]; exact C15_kind_of_mapping X ps t h
    obtain ⟨s, y, _, hy⟩ := hat_map_step (f := .items) h hkf hp1
      (facetOf_eq (s := "items") (by simpa using hp2) (by decide) (by decide))
    obtain ⟨u, hu, _⟩ := Res.map_eq_ok.mp hy
    exact ⟨u, hu⟩
  · have := hat_map_lastVal (f := .items) (s := "items") h hk (by decide) (by decide) (by decide)
      (fun _ _ _ _ => rfl) (fun _ _ _ _ => rfl)
    cases hl : lastVal "items" ps with
    | some v =>
      rw [hl] at this
      have h1 : (hat X v).map some = .ok (items t) := this v none
      obtain ⟨u, hu, h2⟩ := Res.map_eq_ok.mp h1
      exact ⟨u, hu, h2.symm⟩
    | none =>
      rw [hl] at this
      obtain ⟨t0, h0, hx⟩ := this
      obtain ⟨t0', h0', _, hb', _⟩ := hat_map_ok h
      rw [h0] at h0'
      cases h0'
      exact (show items t = items t0 from hx).trans hb'.items

private theorem flat_vals (s : String) (ps : List (Node × Node)) :
    (allVals s ps).flatMap mapEntries =
      (ps.filter fun p => p.1.value == s).flatMap fun q => mapEntries q.2 := by
  unfold allVals
  rw [List.flatMap_map]

/-- C52: `Example()` is read from the last `example` entry. -/
theorem C52_example (X : Xyml) (ps : List (Node × Node)) (t : DT)
    (h : hat X (.map ps) = .ok t) (hb : isBasic t.kind = false) :
    match lastVal "example" ps with
    | some v => ∃ e, exampleOf t = some e ∧ IsExample X t.kind v e
    | none => exampleOf t = none := by
  have := hat_map_lastVal (f := .example) (s := "example") h rfl
    (common_contains hb (by decide)) (by decide) (by decide)
    (fun _ _ _ _ => rfl) (fun _ _ _ _ => rfl)
  cases hl : lastVal "example" ps with
  | some v =>
    rw [hl] at this
    have h1 : (loadExample X t.kind v).map some = .ok (exampleOf t) := this v none
    obtain ⟨e, he, h2⟩ := Res.map_eq_ok.mp h1
    exact ⟨e, h2.symm, C53_example_read X _ v e (loadExample_ok he).2⟩
  | none =>
    rw [hl] at this
    obtain ⟨t0, h0, hx⟩ := this
    obtain ⟨t0', h0', _, hb', _⟩ := hat_map_ok h
    rw [h0] at h0'
    cases h0'
    exact (show exampleOf t = exampleOf t0 from hx).trans hb'.exampleOf

/-- C52: `Examples()` holds, per name, the example given last in the `examples` mappings, ordered
by last occurrence. -/
theorem C52_examples (X : Xyml) (ps : List (Node × Node)) (t : DT)
    (h : hat X (.map ps) = .ok t) (hb : isBasic t.kind = false) :
    (∀ v ∈ allVals "examples" ps, isMap v = true) ∧
    (∀ p ∈ (allVals "examples" ps).flatMap mapEntries, p.1.isStr = true) ∧
    ∃ es : List (String × Example),
      List.Forall₂ (fun p e => p.1.value = e.1 ∧ IsExample X t.kind p.2 e.2)
        ((allVals "examples" ps).flatMap mapEntries) es ∧
      examples t = lastWins es := by
  have h1 := hat_map_fold h (f := .examples) (by decide)
  rw [facetOf_iff_name (common_contains hb (by decide)) (s := "examples") (by decide)
    (by decide)] at h1
  obtain ⟨h2, h3, es, h4, h5⟩ :=
    (loaders_ok ((Example.new t.kind).unmarshal X) _ _ _).mp h1
  refine ⟨?_, ?_, es, ?_, ?_⟩
  · intro v hv
    obtain ⟨p, hp, rfl⟩ := List.mem_map.mp hv
    exact h2 p hp
  · rw [flat_vals]; exact h3
  · rw [flat_vals]
    exact h4.imp fun p e he => ⟨he.1, C53_example_read X _ _ _ he.2⟩
  · have h6 : look .examples (DT.new t.kind) = (OM.empty false : OM String Example) := by
      cases t.kind <;> rfl
    have h7 : look .examples t = (OM.empty false : OM String Example).putAll es := h5.trans
      (congrArg (fun m : OM String Example => m.putAll es) h6)
    have h8 : examples t = (look .examples t : OM String Example).ents := by cases t <;> rfl
    rw [h8, h7, OM.empty_putAll_ents]

/-- C52: `Annotations()` of an extended type holds exactly the entries whose key is a string
starting with a parenthesis. -/
theorem C52_annotations (X : Xyml) (ps : List (Node × Node)) (t : DT)
    (h : hat X (.map ps) = .ok t) (hb : isBasic t.kind = false) :
    ∃ es : List (String × Ann),
      List.Forall₂ (fun p e => p.1.value = e.1 ∧ IsAnn p.2 e.2)
        (ps.filter fun p => startsWith '(' p.1) es ∧
      annotations t = lastWins es := by
  have h1 := hat_map_fold h (f := .annotations) (by decide)
  have hq : (fun p => facetOf t.kind p == Facet.annotations) =
      fun p : Node × Node => startsWith '(' p.1 := by
    funext p
    cases hp : startsWith '(' p.1 with
    | true => exact beq_iff_eq.mpr (facetOf_annotations_iff.mpr ⟨hb, hp⟩)
    | false =>
      refine beq_false_of_ne fun he => ?_
      rw [(facetOf_annotations_iff.mp he).2] at hp
      cases hp
  rw [hq] at h1
  obtain ⟨es, h2, h3⟩ := puts_part (fun k v x => facetStep X t.kind k v .annotations x)
    (fun v x => IsAnn v x) (fun k v m m' h => by
      obtain ⟨x, hx, rfl⟩ := Res.map_eq_ok.mp h
      exact ⟨x, loadAnn_ok hx, rfl⟩) h1
  refine ⟨es, h2, ?_⟩
  have h6 : ∃ b, look .annotations (DT.new t.kind) = (OM.empty b : OM String Ann) := by
    cases t.kind <;> exact ⟨_, rfl⟩
  obtain ⟨b, h6⟩ := h6
  have h7 : look .annotations t = (OM.empty b : OM String Ann).putAll es := h3.trans
    (congrArg (fun m : OM String Ann => m.putAll es) h6)
  have h8 : annotations t = (look .annotations t : OM String Ann).ents := by cases t <;> rfl
  rw [h8, h7, OM.empty_putAll_ents]

/-- What one facet definition is read as: a map that is written as a list, with per name the type
given last, ordered by last
occurrence. -/
def IsFacet (X : Xyml) (v : Node) (m : OM String DT) : Prop :=
  isMap v = true ∧ (∀ p ∈ mapEntries v, p.1.isStr = true) ∧
  ∃ es : List (String × DT),
    List.Forall₂ (fun p e => p.1.value = e.1 ∧ hat X p.2 = .ok e.2) (mapEntries v) es ∧
    m = ⟨lastWins es, true⟩

theorem loadTypes_isFacet {X : Xyml} {v : Node} {m : OM String DT}
    (h : loadTypes X v (OM.empty true) = .ok m) : IsFacet X v m := by
  rw [loadTypes_eq, loadType_form] at h
  cases v with
  | scalar a b => cases h
  | seq a b => cases h
  | map ps =>
    obtain ⟨h1, es, h2, rfl⟩ := (loader_ok (hat X) ps _ _).mp h
    exact ⟨rfl, h1, es, h2,
      congrArg₂ OM.mk (OM.empty_putAll_ents es true) (OM.omap_putAll _ _)⟩

/-- C52: `FacetDefinitions()` holds, per name, the definition given last in the `facets` mappings,
ordered by last occurrence, in a map that is written as a list. -/
theorem C52_facets (X : Xyml) (ps : List (Node × Node)) (t : DT)
    (h : hat X (.map ps) = .ok t) (hb : isBasic t.kind = false) :
    (∀ v ∈ allVals "facets" ps, isMap v = true) ∧
    (∀ p ∈ (allVals "facets" ps).flatMap mapEntries, p.1.isStr = true) ∧
    ∃ es : List (String × OM String DT),
      List.Forall₂ (fun p e => p.1.value = e.1 ∧ IsFacet X p.2 e.2)
        ((allVals "facets" ps).flatMap mapEntries) es ∧
      facets t = ⟨lastWins es, true⟩ := by
  have h1 := hat_map_fold h (f := .facets) (by decide)
  rw [facetOf_iff_name (common_contains hb (by decide)) (s := "facets") (by decide)
    (by decide)] at h1
  have hform : (fun (_ : Node) v (m : OM String (OM String DT)) => loadFacets X v m) =
      fun _ v m => mapForEach (fun k v (m : OM String (OM String DT)) => (asString k).bind fun s =>
        (loadTypes X v (OM.empty true)).map fun x => m.put s x) v m := by
    funext _ v m
    rw [loadFacets_eq]
    have : (fun k v m => loadFacet X (k, v) m) = fun k v (m : OM String (OM String DT)) =>
        (asString k).bind fun s => (loadTypes X v (OM.empty true)).map fun x => m.put s x := by
      funext k v m
      unfold loadFacet
      rfl
    rw [this]
  have h1' : forPairs (fun (_ : Node) v (m : OM String (OM String DT)) => loadFacets X v m)
      (ps.filter fun p => p.1.value == "facets") (look .facets (DT.new t.kind)) =
        .ok (look .facets t) := h1
  rw [hform] at h1'
  obtain ⟨h2, h3, es, h4, h5⟩ :=
    (loaders_ok (fun v => loadTypes X v (OM.empty true)) _ _ _).mp h1'
  refine ⟨?_, ?_, es, ?_, ?_⟩
  · intro v hv
    obtain ⟨p, hp, rfl⟩ := List.mem_map.mp hv
    exact h2 p hp
  · rw [flat_vals]; exact h3
  · rw [flat_vals]
    exact h4.imp fun p e he => ⟨he.1, loadTypes_isFacet he.2⟩
  · have h6 : look .facets (DT.new t.kind) = (OM.empty true : OM String (OM String DT)) := by
      cases t.kind <;> rfl
    have h7 : facets t = (OM.empty true : OM String (OM String DT)).putAll es := h5.trans
      (congrArg (fun m : OM String (OM String DT) => m.putAll es) h6)
    rw [h7]
    exact congrArg₂ OM.mk (OM.empty_putAll_ents es true) (OM.omap_putAll _ _)

example : ∃ t u, hat Xyml.std (.map [(.str "type", .str "array"), (.str "items", .str "string"),
      (.str "(note)", .map []), (.str "items", .str "nil"),
      (.str "examples", .map [(.str "a", .seq seqTag [.str "x"]), (.str "b", .seq seqTag [])]),
      (.str "facets", .map [(.str "f", .map [(.str "g", .str "integer")])])]) = .ok t ∧
    items t = some u ∧ u.kind = .nil ∧ (annotations t).map Prod.fst = ["(note)"] ∧
    (examples t).map Prod.fst = ["a", "b"] ∧ (facets t).ents.map Prod.fst = ["f"] :=
  ⟨_, _, rfl, rfl, rfl, rfl, rfl, rfl⟩

end Verif.Props
