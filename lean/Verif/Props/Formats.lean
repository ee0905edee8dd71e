import Verif.Doc.Formats
import Verif.Doc.FacetLemmas
import Verif.Props.Library

/-! # C67–C69: formats, headers and the property parser -/

namespace Verif.Props
open Verif Verif.Doc Verif.Doc.Spec

/-! ### C67: formats -/

/-- The three format types. -/
inductive Format where
  | date | integer | number

/-- `UnmarshalYAML` of each. -/
def Format.unmarshal : Format → Node → String → Res Unit × String
  | .date => dateUnmarshal
  | .integer => integerUnmarshal
  | .number => numberUnmarshal

/-- The parser of each that the data types use. -/
def Format.hat : Format → Node → Res String
  | .date => loadDateFormat
  | .integer => integerFormatHat
  | .number => numberFormatHat

/-- The formats that RAML defines for each. -/
def Format.known : Format → List String
  | .date => ["rfc3339", "rfc2616"]
  | .integer => ["int", "int8", "int16", "int32", "int64", "long"]
  | .number => ["int", "int8", "int16", "int32", "int64", "long", "float", "double"]

/-- C67: a string becomes the format with that text, whatever was there before. -/
theorem C67_string_accepted (f : Format) (v : Node) (d : String) (h : v.isStr = true) :
    f.unmarshal v d = (.ok (), v.value) ∧ f.hat v = .ok v.value := by
  have hs : asString v = .ok v.value := if_pos h
  cases f with
  | date =>
    refine ⟨?_, if_pos h⟩
    simp only [Format.unmarshal, dateUnmarshal, hs]
    split
    · rename_i h1; rw [h1]
    · split
      · rename_i h1; rw [h1]
      · rfl
  | integer =>
    refine ⟨?_, ?_⟩
    · simp only [Format.unmarshal, integerUnmarshal, hs]
      cases hf : integerFormats.find? fun w => w == v.value with
      | none => rfl
      | some w =>
        have := List.find?_some hf
        rw [beq_iff_eq] at this
        rw [this]
    · simp only [Format.hat, integerFormatHat, hs, Res.bind_ok, ite_self]
  | number =>
    refine ⟨?_, ?_⟩
    · simp only [Format.unmarshal, numberUnmarshal, hs]
    · simp only [Format.hat, numberFormatHat, hs, Res.bind_ok, ite_self]

/-- C67: anything else is an error, and what was there stays. -/
theorem C67_other_rejected (f : Format) (v : Node) (d : String) (h : v.isStr = false) :
    (∃ e, f.unmarshal v d = (.err e, d)) ∧ ∃ e, f.hat v = .err e := by
  have hs : asString v = .err .notString := if_neg (by simp [h])
  cases f with
  | date =>
    exact ⟨⟨.notString, by simp only [Format.unmarshal, dateUnmarshal, hs]⟩,
      ⟨.badFormat, by simp [Format.hat, loadDateFormat, h]⟩⟩
  | integer =>
    exact ⟨⟨.notString, by simp only [Format.unmarshal, integerUnmarshal, hs]⟩,
      ⟨.notString, by simp only [Format.hat, integerFormatHat, hs]; rfl⟩⟩
  | number =>
    exact ⟨⟨.notString, by simp only [Format.unmarshal, numberUnmarshal, hs]⟩,
      ⟨.notString, by simp only [Format.hat, numberFormatHat, hs]; rfl⟩⟩

/-- C67: reading a written format gives it back, by either way of reading. -/
theorem C67_round_trip (f : Format) (s d : String) :
    f.unmarshal (formatToYAML s) d = (.ok (), s) ∧ f.hat (formatToYAML s) = .ok s :=
  C67_string_accepted f (.str s) d rfl

/-- C67: formats are written differently iff they are different, and `String` is what is
written. -/
theorem C67_written (s s' : String) :
    (formatToYAML s = formatToYAML s' ↔ s = s') ∧ (formatToYAML s).value = formatString s :=
  ⟨⟨fun h => congrArg Node.value h, fun h => h ▸ rfl⟩, rfl⟩

/-- C67: the listed formats are not checked: an unlisted one is accepted by either way of reading,
for each of the three types. -/
theorem C67_checked_false (f : Format) (d : String) : ∃ s, s ∉ f.known ∧
    f.unmarshal (.str s) d = (.ok (), s) ∧ f.hat (.str s) = .ok s := by
  refine ⟨"no such format", ?_, C67_string_accepted f (.str "no such format") d rfl⟩
  cases f <;> decide

/-- C67: the named formats: the integer formats are the number formats other than `float` and
`double`; the two date formats are neither; none is named twice. -/
theorem C67_named_formats :
    (∀ s, s ∈ integerFormats ↔ s ∈ numberFormats ∧ s ≠ "float" ∧ s ≠ "double") ∧
    "float" ∈ numberFormats ∧ "double" ∈ numberFormats ∧
    (∀ s ∈ dateFormats, s ∉ numberFormats) ∧ (∀ s, s ∈ dateFormats ↔ s ∈ Format.date.known) ∧
    dateFormats.Nodup ∧ numberFormats.Nodup ∧ integerFormats.Nodup := by
  refine ⟨fun s => ?_, by decide, by decide, by decide, fun s => Iff.rfl, by decide, by decide,
    by decide⟩
  have h1 : ∀ s ∈ integerFormats, s ∈ numberFormats ∧ s ≠ "float" ∧ s ≠ "double" := by decide
  have h2 : ∀ s ∈ numberFormats, s ≠ "float" ∧ s ≠ "double" → s ∈ integerFormats := by decide
  exact ⟨h1 s, fun h => h2 s h.1 h.2⟩

/-- C67: the parser of number and integer types reads formats as these functions do. -/
theorem C67_in_types (X : Xyml) (k v : Node) :
    (∀ x, facetStep X .number k v .format x = (numberFormatHat v).map some) ∧
    (∀ x, facetStep X .integer k v .format x = (integerFormatHat v).map some) ∧
    (∀ x, facetStep X .datetime k v .format x = (loadDateFormat v).map some) := by
  have h : ∀ r : Res String, (r.bind fun s => .ok s) = r := by intro r; cases r <;> rfl
  refine ⟨fun x => ?_, fun x => ?_, fun x => rfl⟩
  · show (asString v).map some = _
    rw [numberFormatHat]
    simp only [ite_self, h]
  · show (asString v).map some = _
    rw [integerFormatHat]
    simp only [ite_self, h]

/-- A known format, an unknown one and a number, read into an integer format that is `long`. -/
example : integerUnmarshal (.str "int8") "long" = (.ok (), "int8") ∧
    integerUnmarshal (.str "int7") "long" = (.ok (), "int7") ∧
    integerUnmarshal (.scalar "!!int" "8") "long" = (.err .notString, "long") := by
  decide +kernel

/-! ### C68: headers -/

/-- C68: different module types have different headers, for all strings. -/
theorem C68_header_injective (m m' : String) (h : toHeader m = toHeader m') : m = m' := by
  unfold toHeader at h
  split at h <;> split at h
  · rename_i h1 h2; rw [h1, h2]
  · exfalso
    have := congrArg (fun s : String => s.toList.length) h
    simp [headerBase] at this
  · exfalso
    have := congrArg (fun s : String => s.toList.length) h
    simp [headerBase] at this
  · have := congrArg String.toList h
    simp only [String.toList_append, List.append_assoc] at this
    exact String.toList_injective (List.append_cancel_left (List.append_cancel_left this))

/-- No line break. -/
def OneLine (s : String) : Prop := '\n' ∉ s.toList

private theorem header_oneLine {m : String} (h : OneLine m) : OneLine (toHeader m) := by
  unfold OneLine toHeader at *
  split
  · decide
  · simp only [String.toList_append, List.mem_append, not_or]
    exact ⟨⟨by decide, by decide⟩, h⟩

private theorem first_line {a b r r' : List Char} (ha : '\n' ∉ a) (hb : '\n' ∉ b)
    (h : a ++ '\n' :: r = b ++ '\n' :: r') : a = b := by
  induction a generalizing b with
  | nil =>
    cases b with
    | nil => rfl
    | cons y b =>
      simp only [List.nil_append, List.cons_append, List.cons.injEq] at h
      exact absurd (h.1 ▸ List.mem_cons_self) hb
  | cons x a ih =>
    cases b with
    | nil =>
      simp only [List.nil_append, List.cons_append, List.cons.injEq] at h
      exact absurd (by simp [h.1]) ha
    | cons y b =>
      simp only [List.cons_append, List.cons.injEq] at h
      simp only [List.mem_cons, not_or] at ha hb
      rw [h.1, ih ha.2 hb.2 h.2]

/-- C68: the first line of a text tells the module type: texts that start with the header lines
of two one-line module types are different when these are. -/
theorem C68_first_line_decides (m m' r r' : String) (h1 : OneLine m) (h2 : OneLine m')
    (h : toHeader m ++ "\n" ++ r = toHeader m' ++ "\n" ++ r') : m = m' := by
  apply C68_header_injective
  apply String.toList_injective
  have := congrArg String.toList h
  simp only [String.toList_append, List.append_assoc] at this
  exact first_line (header_oneLine h1) (header_oneLine h2) this

/-- C68: not for module types with a line break. -/
theorem C68_line_break_false : ∃ m m' r r', m ≠ m' ∧
    toHeader m ++ "\n" ++ r = toHeader m' ++ "\n" ++ r' :=
  ⟨"a", "a\nb", "b\n", "", by decide, by decide⟩

/-- C68: the header constants are header lines followed by a document start; `Overlay` is one of
them without being a declared module type, `ResourceType` is declared and has no constant. -/
theorem C68_constants :
    (∀ e ∈ headers, e.2 = toHeader (if e.1 = "Root" then "root" else e.1) ++ "\n---\n") ∧
    (∀ m ∈ moduleTypes, m ≠ "ResourceType" → ∃ e ∈ headers, e.2 = toHeader m ++ "\n---\n") ∧
    (∀ e ∈ headers, e.2 ≠ toHeader "ResourceType" ++ "\n---\n") ∧
    "Overlay" ∉ moduleTypes ∧ (headers.map Prod.snd).Nodup ∧ (moduleTypes.map toHeader).Nodup := by
  decide

/-- C68: a library is written under the header of the module type `Library`, an API document under
that of `root`. -/
theorem C68_written_headers (X : Xyml) (enc : Node → List String)
    (enc' : String → Node → List String) (w : Writer String) (l : Library) (a : APISpec)
    (hw : ∀ s c, (w.write s c).1 = true → (w.write s c).2 = s ++ c) (he : HeadFirst enc') :
    ((l.writeRAML X enc w "").1 = true →
      ∃ r, (l.writeRAML X enc w "").2 = toHeader "Library" ++ "\n" ++ r) ∧
    ((a.writeRAML X enc' w "").1 = true →
      ∃ r, (a.writeRAML X enc' w "").2 = toHeader "root" ++ "\n" ++ r) := by
  refine ⟨fun h => ?_, fun h => ?_⟩
  · refine ⟨"---\n" ++ String.join (enc (l.toYAML X)), ?_⟩
    rw [C46_output X enc w l "" hw h]
    apply String.toList_injective
    simp [toHeader, headerBase]
  · obtain ⟨r, hr⟩ := C63_header X enc' w a hw he h
    refine ⟨r, hr.trans ?_⟩
    apply String.toList_injective
    simp [toHeader, headerBase]

example : toHeader "root" = "#%RAML 1.0" ∧ toHeader "Trait" = "#%RAML 1.0 Trait" ∧
    OneLine "root" ∧ OneLine "Trait" := by
  refine ⟨by decide, by decide, ?_, ?_⟩ <;> unfold OneLine <;> decide

/-! ### C69: the property parser -/

/-- C69: `PropertySortingHat` gives a type with property facets or fails; it panics on every
nil and include type. -/
theorem C69_property (X : Xyml) (v : Node) :
    (∀ t, propertyHat X v = .ok t ↔ hat X v = .ok t ∧ isBasic t.kind = false) ∧
    (∀ t, hat X v = .ok t → isBasic t.kind = true → propertyHat X v = .panic .notProperty) ∧
    (∀ e, propertyHat X v = .err e ↔ hat X v = .err e) := by
  have hp : ∀ t : DT, t.isProperty = !isBasic t.kind := by
    intro t
    cases t with
    | basic i s x => cases i <;> rfl
    | ext h b fs ps it => cases b <;> rfl
  unfold propertyHat
  cases hat X v with
  | ok u =>
    simp only [Res.bind_ok, hp]
    cases hb : isBasic u.kind with
    | false =>
      simp only [Bool.not_false, if_true, Res.ok.injEq]
      refine ⟨fun t => ⟨fun h => ⟨h, h ▸ hb⟩, fun h => h.1⟩, fun t h1 h2 => ?_, fun e => ?_⟩
      · rw [h1, h2] at hb; cases hb
      · trivial
    | true =>
      simp only [Bool.not_true, Bool.false_eq_true, if_false]
      refine ⟨fun t => ⟨fun h => (nomatch h), fun h => ?_⟩, fun t _ _ => trivial,
        fun e => ⟨nofun, nofun⟩⟩
      · rw [← Res.ok.inj h.1, hb] at h; cases h.2
  | err e =>
    refine ⟨fun t => ⟨fun h => (nomatch h), fun h => (nomatch h.1)⟩, fun t h => (nomatch h),
      fun e' => ?_⟩
    exact ⟨fun h => by cases h; rfl, fun h => by cases h; rfl⟩
  | panic c =>
    refine ⟨fun t => ⟨fun h => (nomatch h), fun h => (nomatch h.1)⟩, fun t h => (nomatch h),
      fun e' => ?_⟩
    constructor <;> intro h <;> cases h

example : (propertyHat Xyml.std (.str "nil")) = .panic .notProperty ∧
    (propertyHat Xyml.std (.str "string")).isOk = true := by
  constructor
  · rfl
  · rfl

end Verif.Props
