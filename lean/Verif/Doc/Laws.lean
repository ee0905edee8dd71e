import Verif.Doc.Lemmas
import Std.Data.String.ToInt

/-!
# Assumptions about the scalar conversions

`Lawful X` lists everything the theorems assume about the third-party conversions: what is
written reads back as itself.  Theorems that need it take it as a hypothesis; `Xyml.std` shows
that the hypothesis can be met.
-/

namespace Verif.Doc

/-- The top-level keys of a library (Library.go:213-228), which `assign` matches on the text of
the key alone. -/
def libraryKeys : List String :=
  ["annotationTypes", "resourceTypes", "types", "schemas", "traits", "uses", "usage",
   "securitySchemes"]

/-- Assumed behaviour of `xyml` (third party): written values read back as themselves, and
`ToInt` gives 64-bit integers. -/
structure Lawful (X : Xyml) : Prop where
  toInt_range : ∀ {n i}, X.toInt n = some i → -9223372036854775808 ≤ i ∧ i < 9223372036854775808
  toInt_ofInt : ∀ {i}, -9223372036854775808 ≤ i → i < 9223372036854775808 →
    X.toInt (X.ofInt i) = some i
  toInt_big : ∀ {i}, 9223372036854775808 ≤ i → X.toInt (X.ofInt i) = none
  toFlt_ofFlt : ∀ f, X.toFlt (X.ofFlt f) = some f
  toBool_ofBool : ∀ b, X.toBool (X.ofBool b) = some b
  toStr_str : ∀ s, X.toStr (Node.str s) = some s
  ofKey_str : ∀ s, X.ofKey (.str s) = Node.str s
  toScalar_ofKey : ∀ k, X.toScalar (X.ofKey k) = some k
  /-- a key that is no string is not written as a string, nor with the text of a section name -/
  ofKey_isStr : ∀ {k}, (∀ s, k ≠ .str s) → (X.ofKey k).isStr = false
  ofKey_value : ∀ {k}, (∀ s, k ≠ .str s) → (X.ofKey k).value ∉ libraryKeys

/-- A concrete set of conversions: YAML core-schema tags and decimal integers.  Floats carry
their literal behind `0.`. -/
def Xyml.std : Xyml where
  toInt
    | .scalar "!!int" v => match v.toInt? with
      | some i => if -9223372036854775808 ≤ i ∧ i < 9223372036854775808 then some i else none
      | none => none
    | _ => none
  toFlt
    | .scalar "!!float" v => some ⟨String.ofList (v.toList.drop 2)⟩
    | _ => none
  toBool
    | .scalar "!!bool" "true" => some true
    | .scalar "!!bool" "false" => some false
    | _ => none
  toStr
    | .scalar "!!str" v => some v
    | _ => none
  toScalar
    | .scalar "!!str" v => some (.str v)
    | .scalar "!!int" v => v.toInt?.map .int
    | .scalar "!!bool" "true" => some (.bool true)
    | .scalar "!!bool" "false" => some (.bool false)
    | .scalar "!!float" v => some (.flt ⟨String.ofList (v.toList.drop 2)⟩)
    | .scalar "!!null" _ => some .null
    | _ => none
  ofInt i := .scalar "!!int" (Int.repr i)
  ofFlt f := .scalar "!!float" (String.ofList ('0' :: '.' :: f.lit.toList))
  ofBool b := .scalar "!!bool" (if b then "true" else "false")
  ofKey
    | .str s => .str s
    | .int i => .scalar "!!int" (Int.repr i)
    | .bool b => .scalar "!!bool" (if b then "true" else "false")
    | .flt f => .scalar "!!float" (String.ofList ('0' :: '.' :: f.lit.toList))
    | .null => .scalar "!!null" "null"

/-- The hypothesis `Lawful` can be met. -/
theorem Xyml.std_lawful : Lawful Xyml.std where
  toInt_range := by
    intro n i h
    simp only [Xyml.std] at h
    split at h
    · split at h
      · split at h
        · cases h; assumption
        · cases h
      · cases h
    · cases h
  toInt_ofInt := by
    intro i h1 h2
    simp [Xyml.std, Int.toInt?_repr, h1, h2]
  toInt_big := by
    intro i h
    have : ¬ i < 9223372036854775808 := by omega
    simp [Xyml.std, Int.toInt?_repr, this]
  toFlt_ofFlt := by intro f; simp [Xyml.std]
  toBool_ofBool := by intro b; cases b <;> simp [Xyml.std]
  toStr_str := by intro s; simp [Xyml.std, Node.str]
  ofKey_str := by intro s; rfl
  toScalar_ofKey := by
    intro k
    cases k with
    | str s => simp [Xyml.std, Node.str]
    | int i => simp [Xyml.std, Int.toInt?_repr]
    | bool b => cases b <;> simp [Xyml.std]
    | flt f => simp [Xyml.std]
    | null => simp [Xyml.std]
  ofKey_isStr := by
    intro k hk
    cases k with
    | str s => exact absurd rfl (hk s)
    | _ => simp [Xyml.std, Node.isStr]
  ofKey_value := by
    intro k hk
    cases k with
    | str s => exact absurd rfl (hk s)
    | int i =>
      intro hm
      have h1 : ∀ x ∈ libraryKeys, 's' ∈ x.toList := by decide
      have h2 : 's' ∈ (Int.repr i).toList := h1 _ hm
      have h3 : ∀ n : Nat, 's' ∉ n.repr.toList := by
        intro n hn
        rw [Nat.toList_repr] at hn
        exact absurd (Nat.isDigit_of_mem_toDigits (by decide) (by decide) hn) (by decide)
      rw [Int.repr_eq_if] at h2
      split at h2
      · exact h3 _ h2
      · simp only [String.toList_append, List.mem_append] at h2
        rcases h2 with h2 | h2
        · exact absurd h2 (by decide)
        · exact h3 _ h2
    | bool b => cases b <;> simp [Xyml.std, Node.value, libraryKeys]
    | flt f =>
      intro hm
      have h1 : ∀ x ∈ libraryKeys, x.toList.head? ≠ some '0' := by decide
      exact h1 _ hm (by simp [Xyml.std, Node.value])
    | null => simp [Xyml.std, Node.value, libraryKeys]

end Verif.Doc
