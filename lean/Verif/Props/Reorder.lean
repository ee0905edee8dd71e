import Verif.Doc.OrderApi

/-!
# C101: the order of mapping entries in the input does not matter, at any depth
-/

namespace Verif.Props
open Verif Verif.Doc Verif.Doc.Spec Verif.Doc.Order

private theorem along {α β : Type} {r : Node → Res α} {f : α → β}
    (h : ∀ n n', Swap n n' → seen f (r n) = seen f (r n')) {n n' : Node} (hn : Reordered n n') :
    seen f (r n) = seen f (r n') := by
  induction hn with
  | rel a b h' => exact h a b h'
  | refl a => rfl
  | symm a b _ ih => exact ih.symm
  | trans a b c _ _ ih1 ih2 => exact ih1.trans ih2

/-- C101: two type definitions that differ in the order of mapping entries only, at any depth,
are both rejected or both read as types that agree in everything but the order of dictionary
entries. -/
theorem C101_type (X : Xyml) (hL : Lawful X) (hX : ReadsScalars X) (n n' : Node)
    (h : Reordered n n') : seen typeView (hat X n) = seen typeView (hat X n') :=
  along (fun _ _ h => (alike hL hX h).typ) h

/-- C101: the same for API documents. -/
theorem C101_api (X : Xyml) (hL : Lawful X) (hX : ReadsScalars X) (n n' : Node)
    (h : Reordered n n') : seen apiView (parseApi X n) = seen apiView (parseApi X n') :=
  along (fun _ _ h => api_read hL hX h) h

/-- C101: the same for libraries. -/
theorem C101_library (X : Xyml) (hL : Lawful X) (hX : ReadsScalars X) (n n' : Node)
    (h : Reordered n n') :
    seen libView (parseLibrary X (some n)) = seen libView (parseLibrary X (some n')) :=
  along (r := fun n => parseLibrary X (some n)) (fun _ _ h => lib_read hL hX h) h

/-- C101: the entries of one mapping can be put in any order, when their keys are strings no two
of which name the same place. -/
theorem C101_permuted (ps qs : List (Node × Node)) (h : ps.Perm qs)
    (hs : ∀ p ∈ ps, p.1.isStr = true)
    (ht : ps.Pairwise fun p q => sameTarget p.1.value q.1.value = false) :
    Reordered (.map ps) (.map qs) := by
  have hsym : ∀ a b : String, sameTarget a b = sameTarget b a := by
    intro a b
    unfold sameTarget
    rw [show (a == b) = (b == a) from Bool.beq_comm, Bool.and_comm (List.contains _ a),
      Bool.and_comm (List.contains ["types", "schemas"] a)]
    simp only [Bool.or_assoc]
    rw [Bool.or_comm (a == "annotationTypes" && b.toList.head? == some '(')]
  suffices H : ∀ pre, Reordered (.map (pre ++ ps)) (.map (pre ++ qs)) from H []
  induction h with
  | nil => exact fun pre => .refl _
  | cons x h ih =>
    intro pre
    have := ih (fun p hp => hs p (by simp [hp])) (List.pairwise_cons.mp ht).2 (pre ++ [x])
    simpa using this
  | swap x y l =>
    intro pre
    refine .rel _ _ (.here pre y x l (hs y (by simp)) (hs x (by simp)) ?_)
    exact (List.pairwise_cons.mp ht).1 x (by simp)
  | trans h1 h2 ih1 ih2 =>
    intro pre
    refine .trans _ _ _ (ih1 hs ht pre) (ih2 (fun p hp => hs p (h1.mem_iff.mpr hp)) ?_ pre)
    exact h1.pairwise ht fun {a b} hab => by rw [hsym]; exact hab

/-- C101: reordering inside a value of a mapping, or inside an item of a sequence, is a reordering
of the whole. -/
theorem C101_inside (v v' : Node) (h : Reordered v v') :
    (∀ pre k post, Reordered (.map (pre ++ (k, v) :: post)) (.map (pre ++ (k, v') :: post))) ∧
    ∀ tag pre post, Reordered (.seq tag (pre ++ v :: post)) (.seq tag (pre ++ v' :: post)) := by
  induction h with
  | rel a b h =>
    exact ⟨fun pre k post => .rel _ _ (.value pre k post h),
      fun tag pre post => .rel _ _ (.item tag pre post h)⟩
  | refl a => exact ⟨fun _ _ _ => .refl _, fun _ _ _ => .refl _⟩
  | symm a b _ ih =>
    exact ⟨fun pre k post => .symm _ _ (ih.1 pre k post),
      fun tag pre post => .symm _ _ (ih.2 tag pre post)⟩
  | trans a b c _ _ ih1 ih2 =>
    exact ⟨fun pre k post => .trans _ _ _ (ih1.1 pre k post) (ih2.1 pre k post),
      fun tag pre post => .trans _ _ _ (ih1.2 tag pre post) (ih2.2 tag pre post)⟩

/-- C101: forgetting the order keeps scalars apart. -/
theorem C101_scalars_kept (t s : String) (n : Node)
    (h : unordered n = unordered (.scalar t s)) : n = .scalar t s := by
  have hkeep : ∀ a b, Swap a b → (a = .scalar t s) = (b = .scalar t s) := by
    intro a b hab
    obtain ⟨h1, h2⟩ := swap_not_scalar hab
    exact propext ⟨fun e => absurd e (h1 t s), fun e => absurd e (h2 t s)⟩
  have := congrArg (Quot.lift (fun n => n = Node.scalar t s) hkeep) h
  exact (show (n = .scalar t s) = (Node.scalar t s = .scalar t s) from this).mpr rfl

/-- C101: types that agree up to order have the same kind and type text, the same extra facets
by key, and the same properties by name. -/
theorem C101_view_type (t t' : DT) (h : typeView t = typeView t') :
    t.kind = t'.kind ∧ t.type = t'.type ∧
    (∀ k, (t.extra.get k).map unordered = (t'.extra.get k).map unordered) ∧
    ∀ k, ((properties t).get k).map typeView = ((properties t').get k).map typeView := by
  rcases t with ⟨i, s, x⟩ | ⟨hd, b, fs, ps, it⟩ <;>
    rcases t' with ⟨i', s', x'⟩ | ⟨hd', b', fs', ps', it'⟩
  · simp only [typeView, DTV.basic.injEq, mapView, MapV.mk.injEq] at h
    obtain ⟨rfl, rfl, _, hx⟩ := h
    exact ⟨rfl, rfl, fun k => congrFun hx k, fun k => rfl⟩
  · rw [typeView_ext] at h; simp only [typeView] at h; cases h
  · rw [typeView_ext] at h; simp only [typeView] at h; cases h
  · rw [typeView_ext, typeView_ext] at h
    simp only [DTV.ext.injEq] at h
    obtain ⟨hh, hb, _, hp, _⟩ := h
    have h1 := body_kind hb
    simp only [hdrView, HdrV.mk.injEq, mapView, MapV.mk.injEq] at hh
    simp only [mapView, MapV.mk.injEq] at hp
    exact ⟨h1, hh.1, fun k => congrFun hh.2.1.2 k, fun k => congrFun hp.2 k⟩

/-- The conversions of the samples accept scalars only. -/
theorem C101_std : ReadsScalars Xyml.std := by
  intro n h
  cases n with
  | scalar t s => exact absurd rfl (h t s)
  | seq t ns => exact ⟨rfl, rfl, rfl, rfl⟩
  | map ps => exact ⟨rfl, rfl, rfl, rfl⟩

/-! ### The excluded exchanges -/

private def schemaText : Option DTV → Option String
  | some (.basic _ s _) => some s
  | some (.ext h _ _ _ _) => some h.schema
  | none => none

/-- C101: exchanging two entries that name the same place does change what is read: `type` and
`schema` of a type, `types` and `schemas` of an API document, `annotationTypes` and an annotation
of a library. -/
theorem C101_targets_needed :
    seen typeView (hat Xyml.std (.map [(.str "type", .str "string"), (.str "schema", .str "any")]))
      ≠ seen typeView (hat Xyml.std (.map [(.str "schema", .str "any"),
        (.str "type", .str "string")])) ∧
    seen apiView (parseApi Xyml.std (.map [
        (.str "types", .map [(.str "a", .str "string")]),
        (.str "schemas", .map [(.str "a", .str "any")])])) ≠
      seen apiView (parseApi Xyml.std (.map [
        (.str "schemas", .map [(.str "a", .str "any")]),
        (.str "types", .map [(.str "a", .str "string")])])) ∧
    seen libView (parseLibrary Xyml.std (some (.map [
        (.str "annotationTypes", .map [(.str "(a)", .map [(.str "x", .str "1")])]),
        (.str "(a)", .map [])]))) ≠
      seen libView (parseLibrary Xyml.std (some (.map [
        (.str "(a)", .map []),
        (.str "annotationTypes", .map [(.str "(a)", .map [(.str "x", .str "1")])])]))) := by
  refine ⟨fun h => ?_, fun h => ?_, fun h => ?_⟩
  · have := congrArg schemaText h
    exact absurd this (by decide +kernel)
  · have := congrArg (fun o : Option APISpecV => o.bind fun a => schemaText (a.types.get "a")) h
    exact absurd this (by decide +kernel)
  · have := congrArg (fun o : Option LibraryV =>
      o.bind fun a => (a.annotations.get "(a)").map fun m => (m.get "x").isSome) h
    exact absurd this (by decide +kernel)

/-! ### Samples -/

/-- A type with its entries, and those of its properties, in two orders. -/
def orderSampleA : Node :=
  .map [(.str "type", .str "object"), (.str "note", .map [(.str "p", .str "1"), (.str "q", .str "2")]),
    (.str "properties", .map [(.str "x", .map [(.str "type", .str "string"),
      (.str "displayName", .str "X")]), (.str "y", .str "any")])]

/-- The same type, reordered. -/
def orderSampleB : Node :=
  .map [(.str "properties", .map [(.str "y", .str "any"), (.str "x", .map [
      (.str "displayName", .str "X"), (.str "type", .str "string")])]),
    (.str "note", .map [(.str "q", .str "2"), (.str "p", .str "1")]), (.str "type", .str "object")]

private theorem order_samples : Reordered orderSampleA orderSampleB := by
  have h1 : Reordered (.map [(.str "type", .str "string"), (.str "displayName", .str "X")])
      (.map [(.str "displayName", .str "X"), (.str "type", .str "string")]) :=
    .rel _ _ (.here [] _ _ [] rfl rfl (by decide))
  have h2 : Reordered (.map [(.str "p", .str "1"), (.str "q", .str "2")])
      (.map [(.str "q", .str "2"), (.str "p", .str "1")]) :=
    .rel _ _ (.here [] _ _ [] rfl rfl (by decide))
  have h3 := (C101_inside _ _ h1).1 [] (.str "x") [(.str "y", .str "any")]
  have h4 : Reordered (.map ([] ++ (.str "x", .map [(.str "displayName", .str "X"),
      (.str "type", .str "string")]) :: [(.str "y", .str "any")]))
      (.map [(.str "y", .str "any"), (.str "x", .map [(.str "displayName", .str "X"),
        (.str "type", .str "string")])]) :=
    .rel _ _ (.here [] _ _ [] rfl rfl (by decide))
  have h5 := (C101_inside _ _ (.trans _ _ _ h3 h4)).1 [(.str "type", .str "object"),
    (.str "note", .map [(.str "p", .str "1"), (.str "q", .str "2")])] (.str "properties") []
  have h6 := (C101_inside _ _ h2).1 [(.str "type", .str "object")] (.str "note")
    [(.str "properties", .map [(.str "y", .str "any"), (.str "x", .map [
      (.str "displayName", .str "X"), (.str "type", .str "string")])])]
  refine .trans _ _ _ h5 (.trans _ _ _ h6 (C101_permuted _ _ ?_ ?_ ?_))
  · exact (List.Perm.swap _ _ _).trans ((List.Perm.cons _ (List.Perm.swap _ _ _)).trans
      ((List.Perm.swap _ _ _).trans (List.Perm.cons _ (List.Perm.refl _))))
  · intro p hp
    simp only [List.cons_append, List.nil_append, List.mem_cons, List.not_mem_nil, or_false] at hp
    rcases hp with rfl | rfl | rfl <;> rfl
  · simp only [List.cons_append, List.nil_append, List.pairwise_cons, List.mem_cons,
      List.not_mem_nil, or_false]
    refine ⟨?_, ?_, ?_, List.Pairwise.nil⟩
    · rintro _ (rfl | rfl) <;> decide
    · rintro _ rfl; decide
    · rintro _ ⟨⟩

/-- Both are accepted, and agree up to order. -/
example : (hat Xyml.std orderSampleA).isOk = true ∧ (hat Xyml.std orderSampleB).isOk = true ∧
    seen typeView (hat Xyml.std orderSampleA) = seen typeView (hat Xyml.std orderSampleB) :=
  ⟨by decide +kernel, by decide +kernel,
    C101_type _ Xyml.std_lawful C101_std _ _ order_samples⟩

/-- The same inside an API document and inside a library. -/
example :
    let a := fun n => Node.map [(.str "title", .str "t"), (.str "types", .map [(.str "A", n)])]
    (parseApi Xyml.std (a orderSampleA)).isOk = true ∧
    seen apiView (parseApi Xyml.std (a orderSampleA)) =
      seen apiView (parseApi Xyml.std (a orderSampleB)) ∧
    (parseLibrary Xyml.std (some (a orderSampleA))).isOk = true ∧
    seen libView (parseLibrary Xyml.std (some (a orderSampleA))) =
      seen libView (parseLibrary Xyml.std (some (a orderSampleB))) := by
  intro a
  have h : Reordered (a orderSampleA) (a orderSampleB) :=
    (C101_inside _ _ ((C101_inside _ _ order_samples).1 [] (.str "A") [])).1
      [(.str "title", .str "t")] (.str "types") []
  exact ⟨by decide +kernel, C101_api _ Xyml.std_lawful C101_std _ _ h, by decide +kernel,
    C101_library _ Xyml.std_lawful C101_std _ _ h⟩

/-- Two views that agree: the same extra facets in another order. -/
example :
    typeView (.basic false "nil" (((OM.empty true).put (Scalar.str "a") (.str "1")).put
      (Scalar.str "b") (.str "2"))) =
    typeView (.basic false "nil" (((OM.empty true).put (Scalar.str "b") (.str "2")).put
      (Scalar.str "a") (.str "1"))) := by
  simp only [typeView]
  exact congrArg _ (view_put_comm _ _ _ (by decide))

/-- A scalar without order is still that scalar. -/
example : unordered (.str "a") ≠ unordered (.str "b") :=
  fun h => absurd (C101_scalars_kept "!!str" "b" _ h) (by
    intro e; exact absurd (congrArg Node.value e) (by decide))

end Verif.Props
