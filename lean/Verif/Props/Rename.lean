import Verif.Doc.RenameWrite
import Verif.Doc.Laws

/-!
# C103: names are not interpreted

When the texts of an input are renamed, reading gives the same outcome with the same texts renamed,
and what is written for an object with renamed texts is what is written for the object, renamed.  So
nothing the library does depends on how a user spells a name, a description or an example.
-/

namespace Verif.Props
open Verif Verif.Doc Verif.Doc.Spec

variable {X : Xyml} {r : String → String}

/-! ### Reading -/

/-- C103: reading a data type from a renamed input.  The outcome is the renamed outcome: the renamed
type, the same error, or the same panic. -/
theorem C103_type_read (h : Renaming r) (hX : Blind X r) (n : Node) :
    hat X (renNode r n) = (hat X n).map (renType r) := ren_hat h hX n

/-- C103: loading a renamed input into a renamed data type. -/
theorem C103_type_load (h : Renaming r) (hX : Blind X r) (n : Node) (t : DT) :
    (renType r t).unmarshal X (renNode r n) = (t.unmarshal X n).map (renType r) :=
  ren_type_load h hX n t

/-- C103: loading a renamed input into a renamed example. -/
theorem C103_example_load (h : Renaming r) (hX : Blind X r) (n : Node) (e : Example) :
    (renExample r e).unmarshal X (renNode r n) = (e.unmarshal X n).map (renExample r) :=
  ren_example_load h hX n e

/-- C103: loading a renamed input into renamed XML settings. -/
theorem C103_xml_load (h : Renaming r) (hX : Blind X r) (n : Node) (x : XML) :
    (renXML r x).unmarshal X (renNode r n) = (x.unmarshal X n).map (renXML r) :=
  ren_xml_load h hX n x

/-- C103: loading a renamed input into a renamed documentation entry. -/
theorem C103_documentation_load (h : Renaming r) (hX : Blind X r) (n : Node) (d : Documentation) :
    (renDoc r d).unmarshal X (renNode r n) = (d.unmarshal X n).map (renDoc r) :=
  ren_doc_load h hX n d

/-- C103: loading a renamed input into a renamed API document. -/
theorem C103_api_load (h : Renaming r) (hX : Blind X r) (n : Node) (a : APISpec) :
    (renApi r a).unmarshal X (renNode r n) = (a.unmarshal X n).map (renApi r) :=
  ren_api_load h hX n a

/-- C103: parsing a renamed API document. -/
theorem C103_api_parse (h : Renaming r) (hX : Blind X r) (n : Node) :
    parseApi X (renNode r n) = (parseApi X n).map (renApi r) := by
  have := ren_api_load h hX n APISpec.new
  rw [ren_api_new h] at this
  exact this

/-- C103: loading a renamed input into a renamed library. -/
theorem C103_library_load (h : Renaming r) (hX : Blind X r) (n : Node) (l : Library) :
    (renLib r l).unmarshal X (renNode r n) = (l.unmarshal X n).map (renLib r) :=
  ren_lib_load h hX n l

/-- C103: parsing a renamed library. -/
theorem C103_library_parse (h : Renaming r) (hX : Blind X r) (n : Node) :
    parseLibrary X (some (renNode r n)) = (parseLibrary X (some n)).map (renLib r) :=
  ren_lib_load h hX n Library.new

/-! ### Writing -/

/-- C103: writing a renamed data type. -/
theorem C103_type_write (h : Renaming r) (hX : Blind X r) (t : DT) :
    (renType r t).toYAML X = renNode r (t.toYAML X) := ren_type_write h hX t

/-- C103: writing a renamed example. -/
theorem C103_example_write (h : Renaming r) (hX : Blind X r) (e : Example) :
    (renExample r e).toYAML X = renNode r (e.toYAML X) := ren_example_write h hX e

/-- C103: writing a renamed API document. -/
theorem C103_api_write (h : Renaming r) (hX : Blind X r) (a : APISpec) :
    (renApi r a).toYAML X = renNode r (a.toYAML X) := ren_api_write h hX a

/-- C103: writing a renamed library. -/
theorem C103_library_write (h : Renaming r) (hX : Blind X r) (l : Library) :
    (renLib r l).toYAML X = renNode r (l.toYAML X) := ren_lib_write h hX l

/-! ### Reading and writing again -/

/-- C103: what is written again for a renamed API document is what was written for the document,
renamed; in particular one is accepted exactly when the other is. -/
theorem C103_api (h : Renaming r) (hX : Blind X r) (n : Node) :
    (parseApi X (renNode r n)).map (APISpec.toYAML X) =
      ((parseApi X n).map (APISpec.toYAML X)).map (renNode r) := by
  rw [C103_api_parse h hX, Doc.map_map, Doc.map_map]
  simp only [C103_api_write h hX]

/-- C103: the same for a library. -/
theorem C103_library (h : Renaming r) (hX : Blind X r) (n : Node) :
    (parseLibrary X (some (renNode r n))).map (Library.toYAML X) =
      ((parseLibrary X (some n)).map (Library.toYAML X)).map (renNode r) := by
  rw [C103_library_parse h hX, Doc.map_map, Doc.map_map]
  simp only [C103_library_write h hX]

/-- C103: the same for a data type. -/
theorem C103_type (h : Renaming r) (hX : Blind X r) (n : Node) :
    (hat X (renNode r n)).map (DT.toYAML X) = ((hat X n).map (DT.toYAML X)).map (renNode r) := by
  rw [C103_type_read h hX, Doc.map_map, Doc.map_map]
  simp only [C103_type_write h hX]

/-! ### There are renamings -/

private theorem swap_word {a b w : String} (ha : Ordinary a) (hb : Ordinary b)
    (hw : w ∈ reservedWords) : swapText a b w = w := by
  unfold swapText
  have h1 : w ≠ a := fun e => ha.1 (e ▸ hw)
  have h2 : w ≠ b := fun e => hb.1 (e ▸ hw)
  rw [if_neg h1, if_neg h2]

private theorem swap_same {β : Type} {a b : String} (f : String → β) (hab : f a = f b) (s : String) :
    f (swapText a b s) = f s := by
  unfold swapText
  split
  · rename_i e; rw [e, hab]
  split
  · rename_i e; rw [e, hab]
  · rfl

/-- Exchanging two ordinary names is a renaming. -/
theorem C103_swap {a b : String} (ha : Ordinary a) (hb : Ordinary b) : Renaming (swapText a b) := by
  obtain ⟨_, ⟨c, hc, hc'⟩, ha3, _⟩ := id ha
  obtain ⟨_, ⟨d, hd, hd'⟩, hb3, _⟩ := id hb
  have nf : ∀ x : Char, x.isAlpha = false →
      ((firstChar a = some x) ↔ False) ∧ ((firstChar b = some x) ↔ False) := by
    intro x hx
    rw [hc, hd]
    constructor <;> refine ⟨fun e => ?_, False.elim⟩
    · cases e; rw [hx] at hc'; cases hc'
    · cases e; rw [hx] at hd'; cases hd'
  have np : ∀ s c, firstChar s = some c → c.isAlpha = true →
      "!include ".toList.isPrefixOf s.toList = false := by
    intro s c h1 h2
    unfold firstChar at h1
    cases hs : s.toList with
    | nil => rfl
    | cons x l =>
      rw [hs] at h1
      cases h1
      have : ('!' == c) = false := by
        rw [beq_eq_false_iff_ne]
        intro e
        subst e
        revert h2
        decide
      simp [List.isPrefixOf, this]
  constructor
  · intro s t e
    unfold swapText at e
    split_ifs at e <;> simp_all
  · exact fun s hs => swap_word ha hb hs
  · intro s
    have := swap_same (a := a) (b := b) (fun s => firstChar s = some '(')
      (propext ((nf _ (by decide)).1.trans (nf _ (by decide)).2.symm)) s
    exact iff_of_eq this
  · intro s
    have := swap_same (a := a) (b := b) (fun s => firstChar s = some '/')
      (propext ((nf _ (by decide)).1.trans (nf _ (by decide)).2.symm)) s
    exact iff_of_eq this
  · exact swap_same (fun s => "!include ".toList.isPrefixOf s.toList)
      ((np a c hc hc').trans (np b d hd hd').symm)
  · exact swap_same (fun s => s.toList.contains '|') (ha3.trans hb3.symm)

private theorem ordinary_int {a : String} (ha : Ordinary a) : a.toInt? = none := by
  obtain ⟨_, ⟨c, hc, hc'⟩, _⟩ := ha
  have hm : c ∈ a.toList := List.mem_of_mem_head? hc
  cases hi : a.isInt with
  | false => exact String.toInt?_eq_none_iff.mpr hi
  | true =>
    exfalso
    rcases String.isInt_iff.mp hi with h | ⟨t, rfl, h⟩
    · rcases (String.isNat_iff.mp h).2.1 c hm with h1 | rfl
      · revert hc' h1
        simp only [Char.isAlpha, Char.isUpper, Char.isLower, Char.isDigit, ge_iff_le,
          Bool.or_eq_true, Bool.and_eq_true, decide_eq_true_eq, UInt32.le_iff_toNat_le]
        intro h1 h2
        simp at h1 h2
        omega
      · revert hc'; decide
    · simp [firstChar] at hc
      subst hc
      revert hc'
      decide

/-- With the standard conversions, exchanging two ordinary names that agree from the third character
on does not matter.  (The standard conversions take any text tagged as a float for a float.) -/
theorem C103_swap_std {a b : String} (ha : Ordinary a) (hb : Ordinary b)
    (hab : a.toList.drop 2 = b.toList.drop 2) : Blind Xyml.std (swapText a b) := by
  have e1 := swap_same (a := a) (b := b) (fun s => s.toInt?)
    ((ordinary_int ha).trans (ordinary_int hb).symm)
  have e2 := swap_same (a := a) (b := b) (fun s => s.toList.drop 2) hab
  have e3 : ∀ s, (swapText a b s = "true") = (s = "true") := fun s =>
    swap_same (a := a) (b := b) (fun s => s = "true") (by simp [ha.2.2.2.1, hb.2.2.2.1]) s
  have e4 : ∀ s, (swapText a b s = "false") = (s = "false") := fun s =>
    swap_same (a := a) (b := b) (fun s => s = "false") (by simp [ha.2.2.2.2, hb.2.2.2.2]) s
  have hr : ∀ s : String, s ≠ a → s ≠ b → swapText a b s = s := by
    intro s h1 h2
    unfold swapText
    rw [if_neg h1, if_neg h2]
  have hi : ∀ i : Int, swapText a b (Int.repr i) = Int.repr i := by
    intro i
    refine hr _ ?_ ?_ <;> intro e <;> have h1 := Int.toInt?_repr i <;> rw [e] at h1
    · rw [ordinary_int ha] at h1; cases h1
    · rw [ordinary_int hb] at h1; cases h1
  have hf : ∀ l : List Char, swapText a b (String.ofList ('0' :: l)) = String.ofList ('0' :: l) := by
    intro l
    obtain ⟨_, ⟨c, hc, hc'⟩, _⟩ := id ha
    obtain ⟨_, ⟨d, hd, hd'⟩, _⟩ := id hb
    refine hr _ ?_ ?_ <;> intro e
    · rw [← e] at hc; simp [firstChar] at hc; subst hc; revert hc'; decide
    · rw [← e] at hd; simp [firstChar] at hd; subst hd; revert hd'; decide
  have hbl : ∀ c : Bool, swapText a b (if c then "true" else "false") = if c then "true" else "false" := by
    intro c
    refine hr _ ?_ ?_ <;> intro e <;> cases c
    · exact ha.2.2.2.2 e.symm
    · exact ha.2.2.2.1 e.symm
    · exact hb.2.2.2.2 e.symm
    · exact hb.2.2.2.1 e.symm
  have hnull : swapText a b "null" = "null" := swap_word ha hb (by decide)
  constructor
  case toInt =>
    intro n
    cases n with
    | scalar t s =>
      rw [ren_scalar]
      by_cases ht : t = "!!int"
      · subst ht; have := e1 s; simp only [Xyml.std]; simp only [this]
      · simp [Xyml.std, ht]
    | seq x y => rw [ren_seq]; rfl
    | map x => rw [ren_map]; rfl
  case toFlt =>
    intro n
    cases n with
    | scalar t s =>
      rw [ren_scalar]
      by_cases ht : t = "!!float"
      · subst ht; have := e2 s; simp only [Xyml.std]; simp only [this]
      · simp [Xyml.std, ht]
    | seq x y => rw [ren_seq]; rfl
    | map x => rw [ren_map]; rfl
  case toBool =>
    intro n
    cases n with
    | scalar t s =>
      rw [ren_scalar]
      by_cases ht : t = "!!bool"
      · subst ht
        by_cases h1 : s = "true"
        · rw [(e3 s).mpr h1, h1]
        by_cases h2 : s = "false"
        · rw [(e4 s).mpr h2, h2]
        have h3 : swapText a b s ≠ "true" := fun e => h1 ((e3 s).mp e)
        have h4 : swapText a b s ≠ "false" := fun e => h2 ((e4 s).mp e)
        simp [Xyml.std, h1, h2, h3, h4]
      · simp [Xyml.std, ht]
    | seq x y => rw [ren_seq]; rfl
    | map x => rw [ren_map]; rfl
  case toStr =>
    intro n
    cases n with
    | scalar t s =>
      rw [ren_scalar]
      by_cases ht : t = "!!str"
      · subst ht; rfl
      · simp [Xyml.std, ht]
    | seq x y => rw [ren_seq]; rfl
    | map x => rw [ren_map]; rfl
  case toScalar =>
    intro n
    cases n with
    | scalar t s =>
      rw [ren_scalar]
      by_cases ht : t = "!!str"
      · subst ht; rfl
      by_cases h5 : t = "!!int"
      · subst h5
        have := e1 s
        simp only [Xyml.std]
        simp only [this]
        cases s.toInt? <;> rfl
      by_cases h6 : t = "!!float"
      · subst h6; have := e2 s; simp only [Xyml.std]; simp only [this]; rfl
      by_cases h7 : t = "!!null"
      · subst h7; rfl
      by_cases h8 : t = "!!bool"
      · subst h8
        by_cases h1 : s = "true"
        · rw [(e3 s).mpr h1, h1]; rfl
        by_cases h2 : s = "false"
        · rw [(e4 s).mpr h2, h2]; rfl
        have h3 : swapText a b s ≠ "true" := fun e => h1 ((e3 s).mp e)
        have h4 : swapText a b s ≠ "false" := fun e => h2 ((e4 s).mp e)
        simp [Xyml.std, h1, h2, h3, h4]
      · simp [Xyml.std, ht, h5, h6, h7, h8]
    | seq x y => rw [ren_seq]; rfl
    | map x => rw [ren_map]; rfl
  case ofInt => intro i; simp only [Xyml.std, ren_scalar, hi]
  case ofFlt => intro f; simp only [Xyml.std, ren_scalar, hf]
  case ofBool => intro c; simp only [Xyml.std, ren_scalar, hbl]
  case ofKey =>
    intro k
    cases k with
    | str s => simp only [Xyml.std, renKey, ren_str]
    | int i => simp only [Xyml.std, renKey, ren_scalar, hi]
    | bool c => simp only [Xyml.std, renKey, ren_scalar, hbl]
    | flt f => simp only [Xyml.std, renKey, ren_scalar, hf]
    | null => simp only [Xyml.std, renKey, ren_scalar, hnull]

private theorem ordinary_cat : Ordinary "Cat" :=
  ⟨by decide, ⟨'C', rfl, by decide⟩, by decide, by decide, by decide⟩

private theorem ordinary_bat : Ordinary "Bat" :=
  ⟨by decide, ⟨'B', rfl, by decide⟩, by decide, by decide, by decide⟩

/-- Concrete case: in a document with the types `Cat` and `Bat`, of which one refers to the other,
the two names are exchanged. -/
example : let n : Node := .map [(.str "title", .str "t"), (.str "types",
      .map [(.str "Cat", .map [(.str "properties", .map [(.str "friend", .str "Bat")])]),
        (.str "Bat", .str "string")])]
    let m : Node := .map [(.str "title", .str "t"), (.str "types",
      .map [(.str "Bat", .map [(.str "properties", .map [(.str "friend", .str "Cat")])]),
        (.str "Cat", .str "string")])]
    let r := swapText "Cat" "Bat"
    Renaming r ∧ Blind Xyml.std r ∧ renNode r n = m ∧
      (parseApi Xyml.std n).isOk = true ∧
      parseApi Xyml.std m = (parseApi Xyml.std n).map (renApi r) := by
  intro n m r
  have h1 : Renaming r := C103_swap ordinary_cat ordinary_bat
  have h2 : Blind Xyml.std r := C103_swap_std ordinary_cat ordinary_bat (by decide)
  have h3 : renNode r n = m := by
    simp [n, m, r, ren_map, ren_str, swapText]
  exact ⟨h1, h2, h3, rfl, h3 ▸ C103_api_parse h1 h2 n⟩

/-- Concrete case: a rejected definition is rejected in the same way after renaming, and so is one
that makes the parser panic. -/
example : let r := swapText "Cat" "Bat"
    let bad : Node := .map [(.str "Cat", .str "x"), (.str "displayName", .seq seqTag [.str "Bat"])]
    let crash : Node := .map [(.str "properties", .map [(.str "Cat", .str "nil")])]
    hat Xyml.std bad = .err .notString ∧ hat Xyml.std (renNode r bad) = .err .notString ∧
      hat Xyml.std crash = .panic .notProperty ∧
      hat Xyml.std (renNode r crash) = .panic .notProperty := by
  intro r bad crash
  have h1 : Renaming r := C103_swap ordinary_cat ordinary_bat
  have h2 : Blind Xyml.std r := C103_swap_std ordinary_cat ordinary_bat (by decide)
  have e1 : hat Xyml.std bad = .err .notString := by rfl
  have e2 : hat Xyml.std crash = .panic .notProperty := by rfl
  refine ⟨e1, ?_, e2, ?_⟩
  · rw [C103_type_read h1 h2, e1]; rfl
  · rw [C103_type_read h1 h2, e2]; rfl

/-- Concrete case: a renamed library and what is written for it. -/
example : let r := swapText "Cat" "Bat"
    let l : Library := { Library.new with
      traits := (OM.empty false).put "Cat" (.str "Bat"), usage := some "Cat" }
    (renLib r l).toYAML Xyml.std = .map [(.str "usage", .str "Bat"),
      (.str "traits", .map [(.str "Bat", .str "Cat")])] := by
  intro r l
  rw [C103_library_write (C103_swap ordinary_cat ordinary_bat)
    (C103_swap_std ordinary_cat ordinary_bat (by decide))]
  have : l.toYAML Xyml.std = .map [(.str "usage", .str "Cat"),
      (.str "traits", .map [(.str "Cat", .str "Bat")])] := rfl
  rw [this]
  simp [ren_map, ren_str, swapText]

/-- Concrete case: the condition on the words of the library is needed.  Exchanging the names of two
built-in types changes what is read. -/
example : (hat Xyml.std (renNode (swapText "string" "number") (.str "string"))).map DT.kind =
    .ok .number ∧ ((hat Xyml.std (.str "string")).map
      (renType (swapText "string" "number"))).map DT.kind = .ok .string := ⟨rfl, rfl⟩

end Verif.Props
