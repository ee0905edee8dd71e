import Verif.Props.TypeOrder
import Verif.Props.ApiParse

/-! # C18, C38: sequences and mappings where a text is expected -/

namespace Verif.Props
open Verif Verif.Doc Verif.Doc.Spec

/-- Sequences and mappings, which have no text of their own. -/
inductive Collection : Node → Prop where
  | seq (tag : String) (l : List Node) : Collection (.seq tag l)
  | map (ps : List (Node × Node)) : Collection (.map ps)

/-- C18: an entry of a type definition whose key is a sequence or a mapping is kept as an extra
facet with the empty name; of several only the last is kept. -/
theorem C18_collection_key (X : Xyml) (pre post : List (Node × Node)) (k v : Node) (t : DT)
    (h : hat X (.map (pre ++ (k, v) :: post)) = .ok t) (hk : Collection k)
    (hpost : ∀ p ∈ post, ¬ Collection p.1 ∧ p.1.value ≠ "") :
    (Scalar.str "", v) ∈ t.extra.ents := by
  have hx := C18_extra_facets X _ t h
  have hi : isExtra t.kind (k, v) = true := by
    have h1 : ∀ kd : Kind, (facetNames kd).contains "" = false := by intro kd; cases kd <;> decide
    cases hk <;> simp only [isExtra, Node.value, h1, startsWith, Node.isStr] <;> simp
  have hv : k.value = "" := by cases hk <;> rfl
  rw [List.filter_append, List.filter_cons_of_pos (by exact hi), List.map_append, List.map_cons]
    at hx
  have hn : ∀ e ∈ (post.filter (isExtra t.kind)).map fun p => (Scalar.str p.1.value, p.2),
      e.1 ≠ .str k.value := by
    intro e he
    obtain ⟨p, hp, rfl⟩ := List.mem_map.mp he
    rw [hv]
    intro hc
    exact (hpost p (List.mem_filter.mp hp).1).2 (Scalar.str.inj hc)
  obtain ⟨w, h1, h2⟩ := lastWins_suffix
    (A := (pre.filter (isExtra t.kind)).map fun p => (Scalar.str p.1.value, p.2))
    (B := (Scalar.str k.value, v) :: (post.filter (isExtra t.kind)).map fun p =>
      (Scalar.str p.1.value, p.2)) (k := Scalar.str k.value) (by simp)
  rw [hx, ← hv]
  rcases List.mem_cons.mp h1 with h1 | h1
  · obtain rfl : w = v := congrArg Prod.snd h1
    exact h2
  · exact absurd rfl (hn _ h1)

/-- C18: what is written for a type with an extra facet of the empty name, such as one read with
a sequence as a key, is not read as a type with facets again. -/
theorem C18_collection_key_written (X : Xyml) (hX : Lawful X) (ps : List (Node × Node)) (t t' : DT)
    (h : hat X (.map ps) = .ok t) (hk : ∃ p ∈ ps, Collection p.1)
    (h' : hat X (t.toYAML X) = .ok t') : isBasic t'.kind = true := by
  obtain ⟨⟨k, w⟩, hp, hc⟩ := hk
  replace hc : Collection k := hc
  have hv : k.value = "" := by cases hc <;> rfl
  have hm : Scalar.str "" ∈ t.extra.ents.map Prod.fst := by
    rw [C18_extra_facets X _ t h, lastWins_keys]
    have h1 : ∀ kd : Kind, (facetNames kd).contains "" = false := by intro kd; cases kd <;> decide
    have hi : isExtra t.kind (k, w) = true := by
      cases hc <;> simp only [isExtra, Node.value, h1, startsWith, Node.isStr] <;> simp
    refine List.mem_map.mpr ⟨(.str k.value, w), ?_, by rw [hv]⟩
    exact List.mem_map_of_mem (f := fun p : Node × Node => (Scalar.str p.1.value, p.2))
      (List.mem_filter.mpr ⟨hp, hi⟩)
  have he : Scalar.str "" ∈ (t.ents X).map Prod.fst := by
    obtain ⟨e, he, hk⟩ := List.mem_map.mp hm
    refine List.mem_map.mpr ⟨e, ?_, hk⟩
    cases t with
    | basic i s x => exact List.mem_cons_of_mem _ he
    | ext g b fs qs it =>
      exact List.mem_append_right _ (List.mem_append_right _ (List.mem_append_left _ he))
  obtain ⟨v, _, h2⟩ := reread_suffix hX (A := []) (B := t.ents X) rfl he (by decide) h'
  have hf : facetOf t'.kind (Node.str "", v) = .extra := by
    cases t'.kind <;> rfl
  obtain ⟨s, x, _, h3⟩ := h2 .extra hf
  cases hb : isBasic t'.kind with
  | true => rfl
  | false => simp [facetStep, hb, Node.isStr, Node.str, Node.value] at h3

/-- A string type with a sequence as a key, whose value becomes an extra facet without a name. -/
example : ((hat Xyml.std (.map [(.str "type", .str "string"),
      (.seq "!!seq" [.str "a"], .str "x")])).map fun t => t.extra.ents) =
    .ok [(.str "", .str "x")] := rfl

example : ∃ t, hat Xyml.std (.map [(.str "type", .str "string"),
      (.seq "!!seq" [.str "a"], .str "x")]) = .ok t ∧
    hat Xyml.std (t.toYAML Xyml.std) = .panic .emptyKey :=
  ⟨_, rfl, rfl⟩

/-- C38: a title or content that is a sequence or a mapping is read as the empty text. -/
theorem C38_collection_text (X : Xyml) (ps : List (Node × Node)) (d : Documentation) (v : Node)
    (h : loadDocumentation X (.map ps) = .ok d) (hv : Collection v) :
    (lastVal "title" ps = some v → d.title = "") ∧
    (lastVal "content" ps = some v → d.content = "") := by
  have hd := loadDocumentation_ok h
  have he : v.value = "" := by cases hv <;> rfl
  exact ⟨fun hl => by rw [hd.title]; simp [mapEntries, hl, he],
    fun hl => by rw [hd.content]; simp [mapEntries, hl, he]⟩

example : ((loadDocumentation Xyml.std (.map [(.str "title", .seq "!!seq" [.str "a"]),
      (.str "content", .str "c")])).map fun d => (d.title, d.content)) = .ok ("", "c") := rfl

end Verif.Props
