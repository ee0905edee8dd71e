import Verif.Doc.Shuffle
import Verif.Doc.OriginSpec
import Verif.Props.Reorder
import Verif.Props.Readable

/-!
# C104: what is written does not depend on the order of the input, up to order

A document with its mapping entries in another order is read and written as the same document with
entries in another order.
-/

namespace Verif.Props
open Verif Verif.Doc Verif.Doc.Spec Verif.Doc.Mix

variable {X : Xyml}

/-! ### Writing -/

/-- C104: types that agree in every getter, up to order, are written alike up to order. -/
theorem C104_type_write (hX : Lawful X) (t t' : DT) (h : TypeOnce t) (h' : TypeOnce t')
    (hv : typeView t = typeView t') : Shuffled (t.toYAML X) (t'.toYAML X) :=
  shuffled_of (sh_type hX h h' hv)

/-- C104: the same for examples. -/
theorem C104_example_write (hX : Lawful X) (e e' : Example) (h : ExampleOnce e)
    (h' : ExampleOnce e') (hv : exampleView e = exampleView e') :
    Shuffled (e.toYAML X) (e'.toYAML X) :=
  shuffled_of (sh_example hX hv h h')

/-- C104: the same for API documents. -/
theorem C104_api_write (hX : Lawful X) (a a' : APISpec) (h : ApiOnce a) (h' : ApiOnce a')
    (hv : apiView a = apiView a') : Shuffled (a.toYAML X) (a'.toYAML X) :=
  shuffled_of (sh_api hX hv h h')

/-- C104: the same for libraries. -/
theorem C104_library_write (hX : Lawful X) (l l' : Library) (h : LibOnce l) (h' : LibOnce l')
    (hv : libView l = libView l') : Shuffled (l.toYAML X) (l'.toYAML X) :=
  shuffled_of (sh_lib hX hv h h')

/-! ### What is read has no key twice -/

private theorem anns_once {b : Bool} {m : OM String Ann} (h : ParsedAnns b m) : AnnsOnce m :=
  ⟨h.distinct, fun e he => (h.values e he).2⟩

private theorem example_once {kd : Kind} {e : Example} (h : ParsedExample kd e) : ExampleOnce e :=
  ⟨anns_once h.annotations, h.extra⟩

private theorem parsed_once {t : DT} (h : Parsed t) : TypeOnce t := by
  induction h with
  | basic h => exact .basic h.distinct
  | ext hh _ _ f1 f2 _ _ p1 _ _ _ _ _ ihf ihp ihi =>
    exact .ext ⟨hh.extra.distinct, anns_once hh.annotations,
      fun e he => example_once (hh.example e he).2, hh.examplesDistinct,
      fun e he => example_once (hh.examples e he)⟩ f1 (fun f hf => (f2 f hf).2) ihf p1 ihp ihi

/-- C104: no map of a type that has been read has a key twice. -/
theorem C104_type_once (hX : Lawful X) (n : Node) (t : DT) (h : hat X n = .ok t) : TypeOnce t :=
  parsed_once (hat_parsed hX h)

/-- C104: the same for API documents. -/
theorem C104_api_once (hX : Lawful X) (n : Node) (a : APISpec) (h : parseApi X n = .ok a) :
    ApiOnce a := by
  have h := ((C95_apis hX a).mp ⟨n, h⟩).parsed
  exact ⟨h.baseURIParameters.2, h.types.2, fun e he => parsed_once (h.typesEach e he), h.traits.2,
    h.resourceTypes.2, h.annotationTypes.2, anns_once h.annotations, h.securitySchemes.2,
    h.uses.2, h.resources.2, h.extra.2⟩

/-- C104: the same for libraries. -/
theorem C104_library_once (hX : Lawful X) (o : Option Node) (l : Library)
    (h : parseLibrary X o = .ok l) : LibOnce l := by
  have h := ((C95_libraries hX l).mp ⟨o, h⟩).parsed
  exact ⟨⟨h.annotations.2, fun e he => (h.annotationValues e he).2⟩,
    by rw [h.annotationTypes]; exact List.nodup_nil, h.extra.2, h.uses.2, h.resourceTypes.2,
    h.securitySchemes.2, h.traits.2, h.types.2, fun e he => parsed_once (h.typesEach e he)⟩

/-! ### Reading and writing again -/

private theorem seen_ok {α β : Type} {f : α → β} {r r' : Res α} {a : α} (h : r = .ok a)
    (hs : seen f r = seen f r') : ∃ a', r' = .ok a' ∧ f a = f a' := by
  subst h
  cases r' with
  | ok a' => exact ⟨a', rfl, Option.some.inj hs⟩
  | err e => cases hs
  | panic c => cases hs

/-- C104: a type definition with entries of mappings in another order, at any depth, is accepted
too, and what is written again differs in the order of entries only. -/
theorem C104_type (hX : Lawful X) (hR : ReadsScalars X) (n n' : Node) (h : Reordered n n') (t : DT)
    (ht : hat X n = .ok t) : ∃ t', hat X n' = .ok t' ∧ Shuffled (t.toYAML X) (t'.toYAML X) := by
  obtain ⟨t', h1, h2⟩ := seen_ok ht (C101_type X hX hR n n' h)
  exact ⟨t', h1, C104_type_write hX t t' (C104_type_once hX n t ht) (C104_type_once hX n' t' h1) h2⟩

/-- C104: the same for API documents. -/
theorem C104_api (hX : Lawful X) (hR : ReadsScalars X) (n n' : Node) (h : Reordered n n')
    (a : APISpec) (ha : parseApi X n = .ok a) :
    ∃ a', parseApi X n' = .ok a' ∧ Shuffled (a.toYAML X) (a'.toYAML X) := by
  obtain ⟨a', h1, h2⟩ := seen_ok ha (C101_api X hX hR n n' h)
  exact ⟨a', h1, C104_api_write hX a a' (C104_api_once hX n a ha) (C104_api_once hX n' a' h1) h2⟩

/-- C104: the same for libraries. -/
theorem C104_library (hX : Lawful X) (hR : ReadsScalars X) (n n' : Node) (h : Reordered n n')
    (l : Library) (hl : parseLibrary X (some n) = .ok l) :
    ∃ l', parseLibrary X (some n') = .ok l' ∧ Shuffled (l.toYAML X) (l'.toYAML X) := by
  obtain ⟨l', h1, h2⟩ := seen_ok hl (C101_library X hX hR n n' h)
  exact ⟨l', h1, C104_library_write hX l l' (C104_library_once hX (some n) l hl)
    (C104_library_once hX (some n') l' h1) h2⟩

/-! ### What differing in order only means -/

private theorem shuffled_refl (n : Node) : Shuffled n n := .refl n

private theorem all_refl (l : List Node) : List.Forall₂ Shuffled l l :=
  List.forall₂_same.mpr fun n _ => .refl n

private theorem all_symm {l m : List Node} (h : List.Forall₂ Shuffled l m) :
    List.Forall₂ Shuffled m l :=
  h.flip.imp fun _ _ h => .symm _ _ h

private theorem all_trans {a b c : List Node} (h : List.Forall₂ Shuffled a b)
    (h' : List.Forall₂ Shuffled b c) : List.Forall₂ Shuffled a c := by
  induction h generalizing c with
  | nil => exact h'
  | cons h1 _ ih =>
    cases h' with
    | cons h2 h3 => exact .cons (.trans _ _ _ h1 h2) (ih h3)

private theorem matching_refl (n : Node) : Matching n n := by
  cases n with
  | scalar t s => exact ⟨rfl, rfl⟩
  | seq t ns => exact ⟨rfl, rfl, fun _ => all_refl _, fun _ => all_refl _⟩
  | map ps => exact ⟨rfl, fun _ => all_refl _⟩

private theorem matching_symm {a b : Node} (h : Matching a b) : Matching b a := by
  cases a <;> cases b <;> simp only [Matching] at h ⊢
  · exact ⟨h.1.symm, h.2.symm⟩
  · obtain ⟨rfl, h2, h3, h4⟩ := h
    exact ⟨rfl, h2.symm, fun ht => all_symm (h3 ht), fun k => all_symm (h4 k)⟩
  · exact ⟨h.1.symm, fun k => all_symm (h.2 k)⟩

private theorem matching_trans {a b c : Node} (h : Matching a b) (h' : Matching b c) :
    Matching a c := by
  cases a <;> cases b <;> simp only [Matching] at h <;> cases c <;> simp only [Matching] at h' ⊢
  · exact ⟨h.1.trans h'.1, h.2.trans h'.2⟩
  · obtain ⟨rfl, h2, h3, h4⟩ := h
    obtain ⟨rfl, h2', h3', h4'⟩ := h'
    exact ⟨rfl, h2.trans h2', fun ht => all_trans (h3 ht) (h3' ht),
      fun k => all_trans (h4 k) (h4' k)⟩
  · exact ⟨h.1.trans h'.1, fun k => all_trans (h.2 k) (h'.2 k)⟩

private theorem under_append (k : Node) (ps qs : List (Node × Node)) :
    under k (ps ++ qs) = under k ps ++ under k qs := by
  simp [under]

private theorem under_swap (k : Node) (pre post : List (Node × Node)) (p q : Node × Node)
    (h : p.1 ≠ q.1) : under k (pre ++ p :: q :: post) = under k (pre ++ q :: p :: post) := by
  simp only [under_append]
  congr 1
  by_cases h1 : p.1 = k <;> by_cases h2 : q.1 = k <;> simp [under, h1, h2]
  exact absurd (h1.trans h2.symm) h

private theorem under_value (k k' : Node) (pre post : List (Node × Node)) {v v' : Node}
    (h : Shuffled v v') : List.Forall₂ Shuffled (under k (pre ++ (k', v) :: post))
      (under k (pre ++ (k', v') :: post)) := by
  simp only [under_append]
  refine List.rel_append (all_refl _) ?_
  by_cases h1 : k' = k
  · simpa [under, h1] using ⟨h, fun x _ => .refl x⟩
  · simpa [under, h1] using fun x _ => .refl x

private theorem matching_step {a b : Node} (h : Shuffle a b) : Matching a b := by
  cases h with
  | here pre p q post h =>
    exact ⟨by simp, fun k => under_swap k pre post p q h ▸ all_refl _⟩
  | entry pre p q post h =>
    refine ⟨rfl, by simp, fun ht => absurd rfl ht, fun k => ?_⟩
    have := under_swap k (entriesOf pre) (entriesOf post) p q h
    simp only [entriesOf, List.flatMap_append, List.flatMap_cons, List.cons_append,
      List.nil_append] at this ⊢
    exact this ▸ all_refl _
  | value pre k' post h =>
    exact ⟨by simp, fun k => under_value k k' pre post (.rel _ _ h)⟩
  | item t pre post h =>
    refine ⟨rfl, by simp, fun _ => ?_, fun k => ?_⟩
    · exact List.rel_append (all_refl _) (.cons (.rel _ _ h) (all_refl _))
    · simp only [entriesOf, List.flatMap_append, List.flatMap_cons, under_append]
      refine List.rel_append (all_refl _) (List.rel_append ?_ (all_refl _))
      cases h with
      | here p2 p q post h => rcases p2 with _ | ⟨x, _ | ⟨z, p2⟩⟩ <;> exact all_refl _
      | entry => exact all_refl _
      | item => exact all_refl _
      | value p2 k' post h =>
        rcases p2 with _ | ⟨x, p2⟩
        · rcases post with _ | ⟨y, post⟩
          · exact under_value k k' [] [] (.rel _ _ h)
          · exact all_refl _
        · rcases p2 with _ | ⟨z, p2⟩ <;> exact all_refl _

/-- C104: trees that differ in order only are the same scalar, or sequences with the same tag whose
items differ in order only, or mappings or ordered maps with the same keys under which there are
values that differ in order only. -/
theorem C104_meaning (a b : Node) (h : Shuffled a b) : Matching a b := by
  induction h with
  | rel a b h => exact matching_step h
  | refl a => exact matching_refl a
  | symm a b _ ih => exact matching_symm ih
  | trans a b c _ _ ih1 ih2 => exact matching_trans ih1 ih2

private theorem nodesIn_append (l m : List Node) : nodesIn (l ++ m) = nodesIn l ++ nodesIn m := by
  induction l with
  | nil => rfl
  | cons a l ih => simp only [List.cons_append, nodesIn, ih, List.append_assoc]

private theorem nodesInPairs_append (l m : List (Node × Node)) :
    nodesInPairs (l ++ m) = nodesInPairs l ++ nodesInPairs m := by
  induction l with
  | nil => rfl
  | cons a l ih => simp only [List.cons_append, nodesInPairs, ih, List.append_assoc]

private theorem texts_step {a b : Node} (h : Shuffle a b) : (texts a).Perm (texts b) := by
  have hc (x y z w : List String) (h : y.Perm z) : (x ++ (y ++ w)).Perm (x ++ (z ++ w)) :=
    (h.append_right w).append_left x
  have hs (x y z w : List String) : (x ++ (y ++ (z ++ w))).Perm (x ++ (z ++ (y ++ w))) := by
    rw [← List.append_assoc y, ← List.append_assoc z]
    exact hc x _ _ w List.perm_append_comm
  induction h with
  | here pre p q post h =>
    simp only [texts, nodesOf, nodesInPairs_append, nodesInPairs, List.filterMap_append,
      List.filterMap_cons, scalarText]
    exact hs _ _ _ _
  | entry pre p q post h =>
    simp only [texts, nodesOf, nodesIn_append, nodesIn, List.filterMap_append,
      List.filterMap_cons, scalarText]
    exact hs _ _ _ _
  | value pre k post h ih =>
    simp only [texts, nodesOf, nodesInPairs_append, nodesInPairs, nodesInPair,
      List.filterMap_append, List.filterMap_cons, scalarText, List.append_assoc] at ih ⊢
    exact (hc _ _ _ _ ih).append_left _ |> fun h => by simpa only [List.append_assoc] using h
  | item t pre post h ih =>
    simp only [texts, nodesOf, nodesIn_append, nodesIn, List.filterMap_append,
      List.filterMap_cons, scalarText] at ih ⊢
    exact hc _ _ _ _ ih

/-- C104: trees that differ in order only have the same texts, each as often. -/
theorem C104_texts (a b : Node) (h : Shuffled a b) : (texts a).Perm (texts b) := by
  induction h with
  | rel a b h => exact texts_step h
  | refl a => exact .refl _
  | symm a b _ ih => exact ih.symm
  | trans a b c _ _ ih1 ih2 => exact ih1.trans ih2

/-! ### Samples -/

private theorem sample_reordered : Reordered
    (.map [(.str "note", .str "n"), (.str "properties", .map [(.str "x", .str "string"),
      (.str "y", .str "any")]), (.str "mark", .str "m")])
    (.map [(.str "mark", .str "m"), (.str "properties", .map [(.str "y", .str "any"),
      (.str "x", .str "string")]), (.str "note", .str "n")]) := by
  have h1 : Reordered (.map [(.str "x", .str "string"), (.str "y", .str "any")])
      (.map [(.str "y", .str "any"), (.str "x", .str "string")]) :=
    .rel _ _ (.here [] _ _ [] rfl rfl (by decide))
  refine .trans _ _ _ ((C101_inside _ _ h1).1 [(.str "note", .str "n")] (.str "properties")
    [(.str "mark", .str "m")]) (.trans _ _ _ (.rel _ _ (.here [] (.str "note", .str "n") _
      [(.str "mark", .str "m")] rfl rfl (by decide))) ?_)
  refine .trans _ _ _ (.rel _ _ (.here [(.str "properties", _)] (.str "note", .str "n") _
      [] rfl rfl (by decide))) (.rel _ _ (.here [] _ (.str "mark", .str "m") _ rfl rfl (by decide)))

/-- Concrete case: an object type with two properties and two extra facets, in two orders.  Both
are accepted; the extra facets and the properties are written in the order of the input, so the two
outputs are not the same, but they differ in order only. -/
example :
    let n : Node := .map [(.str "note", .str "n"), (.str "properties", .map [
      (.str "x", .str "string"), (.str "y", .str "any")]), (.str "mark", .str "m")]
    let n' : Node := .map [(.str "mark", .str "m"), (.str "properties", .map [
      (.str "y", .str "any"), (.str "x", .str "string")]), (.str "note", .str "n")]
    let w : Node := .map [(.str "type", .str "object"), (.str "note", .str "n"),
      (.str "mark", .str "m"), (.str "properties", .map [(.str "x", .str "string"),
        (.str "y", .str "any")])]
    let w' : Node := .map [(.str "type", .str "object"), (.str "mark", .str "m"),
      (.str "note", .str "n"), (.str "properties", .map [(.str "y", .str "any"),
        (.str "x", .str "string")])]
    (hat Xyml.std n).map (DT.toYAML Xyml.std) = .ok w ∧
    (hat Xyml.std n').map (DT.toYAML Xyml.std) = .ok w' ∧ Shuffled w w' := by
  intro n n' w w'
  have h1 : (hat Xyml.std n).map (DT.toYAML Xyml.std) = .ok w := rfl
  have h2 : (hat Xyml.std n').map (DT.toYAML Xyml.std) = .ok w' := rfl
  refine ⟨h1, h2, ?_⟩
  obtain ⟨t, e1, e2⟩ := Res.map_eq_ok.mp h1
  obtain ⟨t', e3, e4⟩ := C104_type Xyml.std_lawful C101_std n n' sample_reordered t e1
  rw [e3, Res.map_ok] at h2
  rw [← e2, ← Res.ok.inj h2]
  exact e4

/-- Concrete case: the same type inside an API document and inside a library. -/
example :
    let n : Node := .map [(.str "properties", .map [(.str "x", .str "string"),
      (.str "y", .str "any")])]
    let n' : Node := .map [(.str "properties", .map [(.str "y", .str "any"),
      (.str "x", .str "string")])]
    let d := fun n => Node.map [(.str "traits", .map []), (.str "types", .map [(.str "A", n)])]
    ∃ a a' l l', parseApi Xyml.std (d n) = .ok a ∧ parseApi Xyml.std (d n') = .ok a' ∧
      Shuffled (a.toYAML Xyml.std) (a'.toYAML Xyml.std) ∧
      parseLibrary Xyml.std (some (d n)) = .ok l ∧ parseLibrary Xyml.std (some (d n')) = .ok l' ∧
      Shuffled (l.toYAML Xyml.std) (l'.toYAML Xyml.std) := by
  intro n n' d
  have h : Reordered n n' := (C101_inside _ _ (.rel _ _ (.here [] (.str "x", .str "string")
    (.str "y", .str "any") [] rfl rfl (by decide)))).1 [] (.str "properties") []
  have hd : Reordered (d n) (d n') :=
    (C101_inside _ _ ((C101_inside _ _ h).1 [] (.str "A") [])).1
      [(.str "traits", .map [])] (.str "types") []
  obtain ⟨a, ha⟩ := Res.isOk_iff.mp (show (parseApi Xyml.std (d n)).isOk = true from by decide +kernel)
  obtain ⟨l, hl⟩ :=
    Res.isOk_iff.mp (show (parseLibrary Xyml.std (some (d n))).isOk = true from by decide +kernel)
  obtain ⟨a', h1, h2⟩ := C104_api Xyml.std_lawful C101_std _ _ hd a ha
  obtain ⟨l', h3, h4⟩ := C104_library Xyml.std_lawful C101_std _ _ hd l hl
  exact ⟨a, a', l, l', ha, h1, h2, hl, h3, h4⟩

/-- Concrete case: an example with two extra facets, given in two orders. -/
example :
    let e : Example := { Example.new .string with
      extra := ((OM.empty false).put (.str "a") (.str "1")).put (.str "b") (.str "2") }
    let e' : Example := { Example.new .string with
      extra := ((OM.empty false).put (.str "b") (.str "2")).put (.str "a") (.str "1") }
    e.toYAML Xyml.std = .map [(.str "a", .str "1"), (.str "b", .str "2")] ∧
      e'.toYAML Xyml.std = .map [(.str "b", .str "2"), (.str "a", .str "1")] ∧
      Shuffled (e.toYAML Xyml.std) (e'.toYAML Xyml.std) := by
  intro e e'
  refine ⟨rfl, rfl, C104_example_write Xyml.std_lawful e e' ?_ ?_ ?_⟩
  · exact ⟨⟨List.nodup_nil, fun _ h => nomatch h⟩,
      show List.Nodup [Scalar.str "a", Scalar.str "b"] from by decide⟩
  · exact ⟨⟨List.nodup_nil, fun _ h => nomatch h⟩,
      show List.Nodup [Scalar.str "b", Scalar.str "a"] from by decide⟩
  · simp only [exampleView, ExampleV.mk.injEq]
    exact ⟨rfl, rfl, rfl, rfl, rfl, rfl,
      Verif.Doc.Order.view_put_comm _ _ _ (by decide)⟩

/-- Concrete case: the facets of a type are written as an ordered map; that too may change its
order. -/
example : Shuffled
    (.seq omapTag [.map [(.str "f", .str "a")], .map [(.str "g", .str "b")]])
    (.seq omapTag [.map [(.str "g", .str "b")], .map [(.str "f", .str "a")]]) :=
  .rel _ _ (.entry [] (.str "f", .str "a") (.str "g", .str "b") []
    (fun e => absurd (congrArg Node.value e) (by decide)))

/-- Concrete case: a list may not change its order, and nothing may be lost or changed. -/
example : ¬ Shuffled (.seq seqTag [.str "a", .str "b"]) (.seq seqTag [.str "b", .str "a"]) ∧
    ¬ Shuffled (.map [(.str "a", .str "b")]) (.map []) ∧
    ¬ Shuffled (.map [(.str "a", .str "b")]) (.map [(.str "a", .str "c")]) := by
  refine ⟨fun h => ?_, fun h => ?_, fun h => ?_⟩
  · have h1 := (C104_meaning _ _ h).2.2.1 (by decide)
    cases h1 with
    | cons h2 _ => exact absurd (C104_meaning _ _ h2).2 (by decide)
  · exact absurd (C104_meaning _ _ h).1 (by decide)
  · have h1 := (C104_meaning _ _ h).2 (.str "a")
    simp only [under, List.filter_cons, decide_true, List.filter_nil, if_true, List.map_cons,
      List.map_nil] at h1
    cases h1 with
    | cons h2 _ => exact absurd (C104_meaning _ _ h2).2 (by decide)

end Verif.Props
