import Verif.Doc.Command
import Verif.Props.Library
import Verif.Props.FixedPoint

/-! # C89: the example program -/

namespace Verif.Props
open Verif Verif.Doc Verif.Doc.Spec

/-- The text a document is written as: the chunks of its encoding with the RAML header. -/
def ramlText (X : Xyml) (enc : String → Node → List String) (a : APISpec) : String :=
  String.join (enc "#%RAML 1.0" (a.toYAML X))

private theorem feed_appending (w : Writer String) (hw : ∀ s c, (w.write s c).1 = true →
    (w.write s c).2 = s ++ c) (cs : List String) (s : String) (h : accepts w cs s = true) :
    feed w (handed w cs s) s = s ++ String.join cs := by
  induction cs generalizing s with
  | nil => simp [feed, handed, String.join]
  | cons c cs ih =>
    simp only [accepts, Bool.and_eq_true] at h
    have := ih _ h.2
    simp only [handed, h.1, if_true, feed, List.foldl_cons]
    rw [show List.foldl (fun s c => (w.write s c).2) (w.write s c).2
      (handed w cs (w.write s c).2) = feed w (handed w cs (w.write s c).2) (w.write s c).2
      from rfl, this, hw s c h.1]
    apply String.toList_injective
    simp [String.join_cons, String.append_assoc]

private theorem accepts_buffer (cs : List String) (s : String) : accepts buffer cs s = true := by
  induction cs generalizing s with
  | nil => rfl
  | cons c cs ih => simp only [accepts, ih, Bool.and_true]; rfl

/-- C89: the program ends normally exactly if there is a document, it can be read as an API
document, and standard output takes all of its text. -/
theorem C89_ends_normally_iff {σ : Type} (X : Xyml) (dec : String → Option Node)
    (enc : String → Node → List String) (w : Writer σ) (body : Option String) (s : σ) :
    (exampleMain X dec enc w body s).1 = true ↔
      ∃ text n a, body = some text ∧ dec text = some n ∧ parseApi X n = .ok a ∧
        accepts w (enc "#%RAML 1.0" (a.toYAML X)) s = true := by
  constructor
  · intro h
    cases body with
    | none => cases h
    | some text =>
      cases hd : dec text with
      | none => simp [exampleMain, hd] at h
      | some n =>
        cases hp : parseApi X n with
        | ok a =>
          simp only [exampleMain, hd, hp, C63_chunks] at h
          exact ⟨text, n, a, rfl, hd, hp, h⟩
        | err e => simp [exampleMain, hd, hp] at h
        | panic e => simp [exampleMain, hd, hp] at h
  · rintro ⟨text, n, a, rfl, hd, hp, h⟩
    simp only [exampleMain, hd, hp, C63_chunks]
    exact h

/-- C89: if there is no document, or it cannot be read, nothing is written. -/
theorem C89_nothing_written {σ : Type} (X : Xyml) (dec : String → Option Node)
    (enc : String → Node → List String) (w : Writer σ) (body : Option String) (s : σ)
    (h : ∀ text n a, body = some text → dec text = some n → parseApi X n ≠ .ok a) :
    exampleMain X dec enc w body s = (false, s) := by
  cases body with
  | none => rfl
  | some text =>
    cases hd : dec text with
    | none => simp [exampleMain, hd]
    | some n =>
      cases hp : parseApi X n with
      | ok a => exact absurd hp (h text n a rfl hd)
      | err e => simp [exampleMain, hd, hp]
      | panic e => simp [exampleMain, hd, hp]

/-- C89: when it ends normally, with an output that appends what it takes, the text of the
document was appended. -/
theorem C89_output (X : Xyml) (dec : String → Option Node) (enc : String → Node → List String)
    (w : Writer String) (body : Option String) (s : String)
    (hw : ∀ s c, (w.write s c).1 = true → (w.write s c).2 = s ++ c)
    (h : (exampleMain X dec enc w body s).1 = true) :
    ∃ text n a, body = some text ∧ dec text = some n ∧ parseApi X n = .ok a ∧
      (exampleMain X dec enc w body s).2 = s ++ ramlText X enc a := by
  obtain ⟨text, n, a, rfl, hd, hp, hacc⟩ := (C89_ends_normally_iff X dec enc w body s).mp h
  refine ⟨text, n, a, rfl, hd, hp, ?_⟩
  simp only [exampleMain, hd, hp, C63_chunks]
  exact feed_appending w hw _ s hacc

/-- C89: run on its own output, the program writes that output again, if it ends normally.  Of
YAML text it is assumed that the written document is read as the tree that was encoded. -/
theorem C89_fixed_point (X : Xyml) (hX : Lawful X) (dec : String → Option Node)
    (enc : String → Node → List String) (text : String) (n : Node) (a : APISpec)
    (hn : dec text = some n) (ha : parseApi X n = .ok a) (ht : TidyApi a)
    (hf : dec (ramlText X enc a) = some (a.toYAML X))
    (h2 : (exampleMain X dec enc buffer (some (ramlText X enc a)) "").1 = true) :
    exampleMain X dec enc buffer (some text) "" = (true, ramlText X enc a) ∧
    exampleMain X dec enc buffer (some (ramlText X enc a)) "" = (true, ramlText X enc a) := by
  have hb : ∀ s c, (buffer.write s c).1 = true → (buffer.write s c).2 = s ++ c := fun _ _ _ => rfl
  have h1 : (exampleMain X dec enc buffer (some text) "").1 = true :=
    (C89_ends_normally_iff X dec enc buffer _ "").mpr
      ⟨text, n, a, rfl, hn, ha, accepts_buffer _ _⟩
  obtain ⟨t1, n1, a1, e1, hn1, ha1, ho1⟩ := C89_output X dec enc buffer _ "" hb h1
  obtain ⟨t2, n2, a2, e2, hn2, ha2, ho2⟩ := C89_output X dec enc buffer _ "" hb h2
  cases e1; cases e2
  rw [hn] at hn1; cases hn1
  rw [ha] at ha1; cases ha1
  rw [hf] at hn2; cases hn2
  have hfix := C48_fixed_point X hX n a a2 ha ht ha2
  refine ⟨Prod.ext h1 (ho1.trans (String.empty_append)), Prod.ext h2 (ho2.trans ?_)⟩
  rw [String.empty_append, ramlText, hfix, ramlText]

/-- C89: a document that uses only what can be written is written so that a second run ends
normally. -/
theorem C89_second_run (X : Xyml) (hX : Lawful X) (dec : String → Option Node)
    (enc : String → Node → List String) (n : Node) (a : APISpec)
    (ha : parseApi X n = .ok a) (hm : MildApi a) (hf : dec (ramlText X enc a) = some (a.toYAML X)) :
    exampleMain X dec enc buffer (some (ramlText X enc a)) "" = (true, ramlText X enc a) := by
  have hb : ∀ s c, (buffer.write s c).1 = true → (buffer.write s c).2 = s ++ c := fun _ _ _ => rfl
  have hp := C32_parsed_lossless X hX n a ha hm
  have h1 : (exampleMain X dec enc buffer (some (ramlText X enc a)) "").1 = true :=
    (C89_ends_normally_iff X dec enc buffer _ "").mpr
      ⟨_, _, a, rfl, hf, hp, accepts_buffer _ _⟩
  obtain ⟨t2, n2, a2, e2, hn2, ha2, ho2⟩ := C89_output X dec enc buffer _ "" hb h1
  cases e2
  rw [hf] at hn2; cases hn2
  rw [hp] at ha2; cases ha2
  exact Prod.ext h1 (ho2.trans String.empty_append)

/-! ### Concrete cases -/

/-- A document, an encoder and a decoder that know just this document, and what it is written
as. -/
private def sample : Node := .map [(.str "/r", .str "x"), (.str "title", .str "t")]
private def sampleWritten : Node := .map [(.str "title", .str "t"), (.str "/r", .str "x")]
private def sampleEnc : String → Node → List String := fun h _ => [h, "\n", "title: t\n/r: x\n"]
private def sampleDec : String → Option Node := fun s =>
  if s = "/r: x\ntitle: t\n" then some sample
  else if s = "#%RAML 1.0\ntitle: t\n/r: x\n" then some sampleWritten
  else none

/-- Non-vacuity: the program orders the entries; its output comes out unchanged; text that is not
understood, and a failed request, print nothing; a small disk gets the beginning. -/
example :
    exampleMain Xyml.std sampleDec sampleEnc buffer (some "/r: x\ntitle: t\n") "" =
      (true, "#%RAML 1.0\ntitle: t\n/r: x\n") ∧
    exampleMain Xyml.std sampleDec sampleEnc buffer (some "#%RAML 1.0\ntitle: t\n/r: x\n") "" =
      (true, "#%RAML 1.0\ntitle: t\n/r: x\n") ∧
    exampleMain Xyml.std sampleDec sampleEnc buffer (some "- 1") "" = (false, "") ∧
    exampleMain Xyml.std sampleDec sampleEnc buffer none "" = (false, "") ∧
    exampleMain Xyml.std sampleDec sampleEnc (bounded 12) (some "/r: x\ntitle: t\n") "" =
      (false, "#%RAML 1.0\n") := by
  decide +kernel

/-- The hypotheses of `C89_fixed_point` and `C89_second_run` are met by that document. -/
example : ∃ a, parseApi Xyml.std sample = .ok a ∧ TidyApi a ∧ MildApi a ∧
    sampleDec (ramlText Xyml.std sampleEnc a) = some (a.toYAML Xyml.std) := by
  refine ⟨_, rfl, ⟨?_, ?_⟩, ⟨?_, ?_, rfl, rfl⟩, rfl⟩
  all_goals intro p hp; cases hp

end Verif.Props
