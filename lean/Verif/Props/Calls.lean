import Verif.Doc.CallParts

/-!
# C105: of a history of calls only the calls about each part matter, from the last setter on

The order in which calls about different parts of an object are made does not matter, and a call is
pointless when a later one sets the same part.
-/

namespace Verif.Props
open Verif Verif.Doc Verif.Doc.Spec Verif.Doc.Calls

/-! ### Data types -/

/-- C105: two histories of calls on a data type with the same calls about each facet leave the same
type, or both have a call that does not exist. -/
theorem C105_type (t : DT) (os ps : List TypeOp)
    (h : ∀ k, about typePart k os = about typePart k ps) : t.applyAll os = t.applyAll ps := by
  rw [applyAll_run, applyAll_run]
  exact run_same type_parts os ps h t

/-- C105: calls about different facets can be made in any order. -/
theorem C105_type_any_order (t : DT) (os ps : List TypeOp) (h : os.Perm ps)
    (hd : (os.map typePart).Nodup) : t.applyAll os = t.applyAll ps := by
  rw [applyAll_run, applyAll_run]
  exact run_perm type_parts h hd t

/-- C105: calls that a later setter of the same facet makes pointless can be left out. -/
theorem C105_type_effective (t u : DT) (os : List TypeOp) (h : t.applyAll os = some u) :
    t.applyAll (effective typePart typeSets os) = some u := by
  rw [applyAll_run] at h ⊢
  exact run_effective type_parts os t u h

/-- C105: of setters the last about each facet counts. -/
theorem C105_type_last (t u v : DT) (os ps : List TypeOp) (ho : ∀ o ∈ os, typeSets o = true)
    (hp : ∀ o ∈ ps, typeSets o = true)
    (hl : ∀ k, (about typePart k os).getLast? = (about typePart k ps).getLast?)
    (hu : t.applyAll os = some u) (hv : t.applyAll ps = some v) : u = v := by
  rw [applyAll_run] at hu hv
  exact run_last type_parts ho hp hl hu hv

/-- C105: no call changes which methods a data type has. -/
theorem C105_type_methods (t u : DT) (os : List TypeOp) (o : TypeOp) (h : t.applyAll os = some u) :
    (∃ v, u.apply o = some v) ↔ ∃ v, t.apply o = some v := by
  rw [applyAll_run] at h
  rw [← Option.isSome_iff_exists, ← Option.isSome_iff_exists]
  exact run_there type_parts o h

/-! ### Examples -/

/-- C105: two histories of calls with the same calls about each part leave the same. -/
theorem C105_example (x : Example) (os ps : List ExampleOp)
    (h : ∀ k, about examplePart k os = about examplePart k ps) :
    os.foldl Example.apply x = ps.foldl Example.apply x := by
  have := run_same example_parts os ps h x
  rw [run_total, run_total] at this
  exact Option.some.inj this

/-- C105: calls about different parts can be made in any order. -/
theorem C105_example_any_order (x : Example) (os ps : List ExampleOp) (h : os.Perm ps)
    (hd : (os.map examplePart).Nodup) : os.foldl Example.apply x = ps.foldl Example.apply x := by
  have := run_perm example_parts h hd x
  rw [run_total, run_total] at this
  exact Option.some.inj this

/-- C105: calls that a later setter of the same part makes pointless can be left out. -/
theorem C105_example_effective (x : Example) (os : List ExampleOp) :
    (effective examplePart exampleSets os).foldl Example.apply x = os.foldl Example.apply x := by
  have := run_effective example_parts os x _ (run_total Example.apply x os)
  rw [run_total] at this
  exact Option.some.inj this

/-! ### XML settings -/

/-- C105: two histories of calls with the same calls about each part leave the same. -/
theorem C105_xml (x : XML) (os ps : List XMLOp)
    (h : ∀ k, about xmlPart k os = about xmlPart k ps) :
    os.foldl XML.apply x = ps.foldl XML.apply x := by
  have := run_same xml_parts os ps h x
  rw [run_total, run_total] at this
  exact Option.some.inj this

/-- C105: calls about different parts can be made in any order. -/
theorem C105_xml_any_order (x : XML) (os ps : List XMLOp) (h : os.Perm ps)
    (hd : (os.map xmlPart).Nodup) : os.foldl XML.apply x = ps.foldl XML.apply x := by
  have := run_perm xml_parts h hd x
  rw [run_total, run_total] at this
  exact Option.some.inj this

/-- C105: calls that a later setter of the same part makes pointless can be left out. -/
theorem C105_xml_effective (x : XML) (os : List XMLOp) :
    (effective xmlPart (fun _ => true) os).foldl XML.apply x = os.foldl XML.apply x := by
  have := run_effective xml_parts os x _ (run_total XML.apply x os)
  rw [run_total] at this
  exact Option.some.inj this

/-! ### Documentation entries -/

/-- C105: two histories of calls with the same calls about each part leave the same. -/
theorem C105_doc (x : Documentation) (os ps : List DocOp)
    (h : ∀ k, about docPart k os = about docPart k ps) :
    os.foldl Documentation.apply x = ps.foldl Documentation.apply x := by
  have := run_same doc_parts os ps h x
  rw [run_total, run_total] at this
  exact Option.some.inj this

/-- C105: calls about different parts can be made in any order. -/
theorem C105_doc_any_order (x : Documentation) (os ps : List DocOp) (h : os.Perm ps)
    (hd : (os.map docPart).Nodup) : os.foldl Documentation.apply x = ps.foldl Documentation.apply x := by
  have := run_perm doc_parts h hd x
  rw [run_total, run_total] at this
  exact Option.some.inj this

/-- C105: calls that a later setter of the same part makes pointless can be left out. -/
theorem C105_doc_effective (x : Documentation) (os : List DocOp) :
    (effective docPart docSets os).foldl Documentation.apply x = os.foldl Documentation.apply x := by
  have := run_effective doc_parts os x _ (run_total Documentation.apply x os)
  rw [run_total] at this
  exact Option.some.inj this

/-! ### API documents -/

/-- C105: two histories of calls with the same calls about each part leave the same. -/
theorem C105_api (x : APISpec) (os ps : List ApiCall)
    (h : ∀ k, about apiPart k os = about apiPart k ps) :
    os.foldl APISpec.call x = ps.foldl APISpec.call x := by
  have := run_same api_parts os ps h x
  rw [run_total, run_total] at this
  exact Option.some.inj this

/-- C105: calls about different parts can be made in any order. -/
theorem C105_api_any_order (x : APISpec) (os ps : List ApiCall) (h : os.Perm ps)
    (hd : (os.map apiPart).Nodup) : os.foldl APISpec.call x = ps.foldl APISpec.call x := by
  have := run_perm api_parts h hd x
  rw [run_total, run_total] at this
  exact Option.some.inj this

/-- C105: calls that a later setter of the same part makes pointless can be left out. -/
theorem C105_api_effective (x : APISpec) (os : List ApiCall) :
    (effective apiPart apiSets os).foldl APISpec.call x = os.foldl APISpec.call x := by
  have := run_effective api_parts os x _ (run_total APISpec.call x os)
  rw [run_total] at this
  exact Option.some.inj this

/-! ### Libraries -/

/-- C105: two histories of calls with the same calls about each part leave the same. -/
theorem C105_library (x : Library) (os ps : List LibCall)
    (h : ∀ k, about libPart k os = about libPart k ps) :
    os.foldl Library.call x = ps.foldl Library.call x := by
  have := run_same lib_parts os ps h x
  rw [run_total, run_total] at this
  exact Option.some.inj this

/-- C105: calls about different parts can be made in any order. -/
theorem C105_library_any_order (x : Library) (os ps : List LibCall) (h : os.Perm ps)
    (hd : (os.map libPart).Nodup) : os.foldl Library.call x = ps.foldl Library.call x := by
  have := run_perm lib_parts h hd x
  rw [run_total, run_total] at this
  exact Option.some.inj this

/-- C105: calls that a later setter of the same part makes pointless can be left out. -/
theorem C105_library_effective (x : Library) (os : List LibCall) :
    (effective libPart libSets os).foldl Library.call x = os.foldl Library.call x := by
  have := run_effective lib_parts os x _ (run_total Library.call x os)
  rw [run_total] at this
  exact Option.some.inj this

/-! ### What is left out -/

/-- C105: of the calls about each part, those before the last setter are left out and no others. -/
theorem C105_effective {O : Type} (part : O → String) (sets : O → Bool) (os : List O) (k : String) :
    ∃ dropped, about part k os = dropped ++ about part k (effective part sets os) ∧
      (dropped = [] ∨ ∃ q rest, about part k (effective part sets os) = q :: rest ∧
        sets q = true) ∧
      ∀ q ∈ (about part k (effective part sets os)).tail, sets q = false :=
  have ⟨⟨d, h1, h2⟩, h3⟩ := effective_about (part := part) (sets := sets) os k
  ⟨d, h1, h2, h3⟩

/-! ### Samples -/

/-- Concrete case: eight calls on a string type; the first description and the change of the
annotations are made pointless by later calls, and the others can be made in the opposite order. -/
example :
    let os : List TypeOp := [.setDescription "a", .setPattern "x",
      .editAnnotations (fun m => m.put "(z)" (OM.empty false)), .setMinLength 3, .unsetAnnotations,
      .editAnnotations (fun m => m.put "(a)" (OM.empty false)), .setDescription "b",
      .setMaxLength 5]
    let ps : List TypeOp := [.setMaxLength 5, .setDescription "b", .unsetAnnotations,
      .editAnnotations (fun m => m.put "(a)" (OM.empty false)), .setMinLength 3, .setPattern "x"]
    (effective typePart typeSets os).length = 6 ∧
    (∀ k, about typePart k (effective typePart typeSets os) = about typePart k ps) ∧
    ∃ u, (DT.new .string).applyAll os = some u ∧ (DT.new .string).applyAll ps = some u := by
  intro os ps
  have hk : ∀ k, about typePart k (effective typePart typeSets os) = about typePart k ps := by
    intro k
    show about typePart k [.setPattern "x", .setMinLength 3, .unsetAnnotations,
      .editAnnotations (fun m => m.put "(a)" (OM.empty false)), .setDescription "b",
      .setMaxLength 5] = _
    by_cases h1 : "pattern" = k
    · subst h1; rfl
    by_cases h2 : "minLength" = k
    · subst h2; rfl
    by_cases h3 : "annotations" = k
    · subst h3; rfl
    by_cases h4 : "description" = k
    · subst h4; rfl
    by_cases h5 : "maxLength" = k
    · subst h5; rfl
    simp [about, ps, typePart, opKey, h1, h2, h3, h4, h5]
  have hu : ∃ u, (DT.new .string).applyAll os = some u := ⟨_, rfl⟩
  obtain ⟨u, hu⟩ := hu
  refine ⟨rfl, hk, u, hu, ?_⟩
  rw [← C105_type _ _ _ hk]
  exact C105_type_effective _ _ _ hu

/-- Concrete case: six calls on an API document, all about different parts, in two orders; and what
is left when two titles are set. -/
example :
    let os : List ApiCall := [.set (.setTitle "t"), .set (.setVersion "1"), .set .unsetTypes,
      .resources (fun m => m.put "/a" (.map [])), .extra (fun m => m.put (.str "x") (.str "y")),
      .annotations (fun m => m.put "(a)" (OM.empty false))]
    (os.map apiPart).Nodup ∧ os.foldl APISpec.call APISpec.new =
      os.reverse.foldl APISpec.call APISpec.new ∧
    (effective apiPart apiSets (ApiCall.set (.setTitle "s") :: os)).length = 6 := by
  intro os
  have h : (os.map apiPart).Nodup := by decide
  exact ⟨h, C105_api_any_order _ _ _ (List.reverse_perm os).symm h, rfl⟩

/-- Concrete case: the order of two calls about one part matters, and so does a change of a live
map before another change. -/
example :
    (XML.new.apply (.setName "a")).apply (.setName "b") ≠
      (XML.new.apply (.setName "b")).apply (.setName "a") ∧
    (Documentation.new.apply (.editExtra fun m => m.put (.str "x") (.str "y"))).apply
        (.editExtra fun m => if m.len = 0 then m else OM.empty false) =
      Documentation.new ∧
    ((Documentation.new.apply (.editExtra fun m => if m.len = 0 then m else OM.empty false)).apply
      (.editExtra fun m => m.put (.str "x") (.str "y"))).extra.len = 1 :=
  ⟨fun h => absurd (congrArg XML.name h) (by decide), rfl, rfl⟩

end Verif.Props
