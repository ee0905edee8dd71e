import Verif.Doc.HeapSessionRun
import Verif.Props.Programs

/-!
# Whole programs

What a program leaves in its variables, from its first constructor on, with no assumption about the
objects that it works on: it makes all of them.
-/

namespace Verif.Props
open Verif.Doc Relation

/-! ## C82: whole programs -/

/-- After any program every variable holds a tree, different variables share nothing, and each is
worth, and written as, what the program leaves in it when it is run on values. -/
theorem C82_sessions (X : Xyml) (cs : List Cmd) :
    Reachable X (runCmds X cs).1 ∧ (runCmds X cs).2.length = (evalCmds X cs).length ∧
    (∀ i r, held (runCmds X cs).2 i = some r → ∃ v, held (evalCmds X cs) i = some v ∧
      (runCmds X cs).1.Tree r.obj ∧ (∃ n, (runCmds X cs).1.rootVal n r = some v ∧
        (runCmds X cs).1.rootWrite X n r = some (v.toYAML X)) ∧
        ∀ n w, (runCmds X cs).1.rootVal n r = some w → w = v) ∧
    (∀ i, held (runCmds X cs).2 i = none → held (evalCmds X cs) i = none) ∧
    ∀ i j r r', i ≠ j → held (runCmds X cs).2 i = some r → held (runCmds X cs).2 j = some r' →
      (runCmds X cs).1.Apart r.obj r'.obj := by
  have h := live_run X cs
  refine ⟨h.reach, h.len, fun i r hi => ?_, fun i hi => ?_, h.apart⟩
  · have := h.sim i
    rw [hi] at this
    obtain ⟨v, hv, hs⟩ := this.some
    obtain ⟨n, hn⟩ := hs.val
    exact ⟨v, hv, hs.tree, ⟨n, hn, rootWrite_eq hn⟩, fun m w hw => rootVal_unique hw hn⟩
  · have := h.sim i
    rw [hi] at this
    exact this.none

theorem changeFirst_last {V : Type} (k : String) (g : V → V) (x : V) (l : List (String × V))
    (h : ∀ e ∈ l, e.1 ≠ k) : changeFirst k g (l ++ [(k, x)]) = l ++ [(k, g x)] := by
  induction l with
  | nil => simp only [List.nil_append, changeFirst, if_true]
  | cons e l ih =>
    simp only [List.cons_append, changeFirst, if_neg (h e List.mem_cons_self),
      ih fun e he => h e (List.mem_cons_of_mem _ he)]

/-- A value that is changed and then put in, or put in and then changed there. -/
theorem change_put {V : Type} (m : OM String V) (k : String) (g : V → V) (x : V) :
    (m.put k x).change k g = m.put k (g x) := by
  simp only [OM.change, OM.put]
  rw [changeFirst_last]
  intro e he
  simpa using (List.mem_filter.mp he).2

/-- It makes no difference whether a data type is worked on before it is declared in a document or
afterwards, through the document: the document is written alike. -/
theorem C82_before_or_after (X : Xyml) (cs : List Cmd) {i j : Nat} (hij : i ≠ j) {x : Holder}
    {b : Addr} (hi : held (runCmds X cs).2 i = some (.doc x))
    (hj : held (runCmds X cs).2 j = some (.type b)) (k : String) (hs : List Hop) (s : TypeStep) :
    ∃ n n' y,
      (runCmds X (cs ++ [.work j (.inside hs s), .give i j (.types k)])).1.rootWrite X n (.doc x) =
        some y ∧
      (runCmds X (cs ++ [.give i j (.types k), .work i (.declared k hs s)])).1.rootWrite X n'
        (.doc x) = some y := by
  have h := C82_sessions X cs
  obtain ⟨vi, hvi, -, ⟨n1, hn1, -⟩, -⟩ := h.2.2.1 i _ hi
  obtain ⟨vj, hvj, -, ⟨n2, hn2, -⟩, -⟩ := h.2.2.1 j _ hj
  obtain ⟨d, hd, rfl⟩ := Option.map_eq_some_iff.mp hn1
  obtain ⟨u, hu, rfl⟩ := Option.map_eq_some_iff.mp hn2
  have hvi' : held (cs.foldl (Cmd.eval X) []) i = some (.doc d) := hvi
  have hvj' : held (cs.foldl (Cmd.eval X) []) j = some (.type u) := hvj
  have hi' : held (cs.foldl (Cmd.run X) (Heap.start, [])).2 i = some (.doc x) := hi
  have hj' : held (cs.foldl (Cmd.run X) (Heap.start, [])).2 j = some (.type b) := hj
  have e1 : held (evalCmds X (cs ++ [.work j (.inside hs s), .give i j (.types k)])) i =
      some (.doc (d.onTypes fun m => m.put k (u.within (fun u => u.alter X s) hs))) := by
    simp only [evalCmds, List.foldl_append, List.foldl_cons, List.foldl_nil, Cmd.eval, hvj',
      if_neg hij, held_set_ne _ hij, hvi', held_set_self hvj', RootVal.step, RootVal.placed]
    rw [held_set_self (a := .doc d)]
    rw [held_set_ne _ hij, hvi']
  have e2 : held (evalCmds X (cs ++ [.give i j (.types k), .work i (.declared k hs s)])) i =
      some (.doc (d.onTypes fun m => m.put k (u.within (fun u => u.alter X s) hs))) := by
    simp only [evalCmds, List.foldl_append, List.foldl_cons, List.foldl_nil, Cmd.eval, hvj',
      if_neg hij, held_set_ne _ hij, hvi', held_set_self hvi', RootVal.placed]
    rw [held_set_self (a := .doc (d.onTypes fun m => m.put k u))]
    · cases d <;> simp only [RootVal.step, DocVal.onTypes, change_put]
    · rw [held_set_ne _ hij, held_set_self hvi']
  have r1 : held (runCmds X (cs ++ [.work j (.inside hs s), .give i j (.types k)])).2 i =
      some (.doc x) := by
    simp only [runCmds, List.foldl_append, List.foldl_cons, List.foldl_nil, Cmd.run, hj', hi',
      if_neg hij, held_set_ne _ hij]
  have r2 : held (runCmds X (cs ++ [.give i j (.types k), .work i (.declared k hs s)])).2 i =
      some (.doc x) := by
    simp only [runCmds, List.foldl_append, List.foldl_cons, List.foldl_nil, Cmd.run, hj', hi',
      if_neg hij, held_set_ne _ hij]
  obtain ⟨v1, hv1, -, ⟨n, -, hw1⟩, -⟩ := (C82_sessions X _).2.2.1 i _ r1
  obtain ⟨v2, hv2, -, ⟨n', -, hw2⟩, -⟩ := (C82_sessions X _).2.2.1 i _ r2
  rw [e1] at hv1
  rw [e2] at hv2
  cases hv1
  cases hv2
  exact ⟨n, n', _, hw1, hw2⟩

/-- What is declared in a document and taken out again is the same object, and worth the same. -/
theorem C82_give_take (X : Xyml) (cs : List Cmd) {i j : Nat} (hij : i ≠ j) {x : Holder}
    {b : Addr} (hi : held (runCmds X cs).2 i = some (.doc x))
    (hj : held (runCmds X cs).2 j = some (.type b)) (k : String) :
    held (runCmds X (cs ++ [.give i j (.types k), .take i (.types k)])).2
        (runCmds X cs).2.length = some (.type b) ∧
      ∃ n t, (runCmds X cs).1.val n b = some t ∧
        (runCmds X (cs ++ [.give i j (.types k), .take i (.types k)])).1.val n b = some t := by
  have h := C82_sessions X cs
  obtain ⟨vi, hvi, -, ⟨n1, hn1, -⟩, -⟩ := h.2.2.1 i _ hi
  obtain ⟨vj, hvj, -, ⟨n2, hn2, -⟩, -⟩ := h.2.2.1 j _ hj
  obtain ⟨d, hd, rfl⟩ := Option.map_eq_some_iff.mp hn1
  obtain ⟨u, hu, rfl⟩ := Option.map_eq_some_iff.mp hn2
  obtain ⟨m, hm, -⟩ := docVal_types hd
  have hvi' : held (cs.foldl (Cmd.eval X) []) i = some (.doc d) := hvi
  have hvj' : held (cs.foldl (Cmd.eval X) []) j = some (.type u) := hvj
  have hi' : held (cs.foldl (Cmd.run X) (Heap.start, [])).2 i = some (.doc x) := hi
  have hj' : held (cs.foldl (Cmd.run X) (Heap.start, [])).2 j = some (.type b) := hj
  have hm' : (cs.foldl (Cmd.run X) (Heap.start, [])).1.sec x .types = some (.tm m) := hm
  have hlen : (runCmds X cs).2.length = (evalCmds X cs).length := h.2.1
  have hget : ∀ {V : Type} (y : OM String V) (z : V), (y.put k z).get k = some z := by
    intro V y z
    simp only [OM.put, OM.get, List.find?_append]
    have : (y.ents.filter fun e => !(e.1 == k)).find? (fun e => e.1 == k) = none := by
      rw [List.find?_eq_none]
      intro e he
      simpa using (List.mem_filter.mp he).2
    rw [this]
    simp
  have hsec : ∀ (H : Heap) (f : OM String Addr → OM String Addr),
      (H.edit (.tm m f)).sec x .types = H.sec x .types := by
    intro H f
    cases x <;> rfl
  have r1 : held (runCmds X (cs ++ [.give i j (.types k), .take i (.types k)])).2
      (runCmds X cs).2.length = some (.type b) := by
    simp only [runCmds, List.foldl_append, List.foldl_cons, List.foldl_nil, Cmd.run, hj', hi',
      if_neg hij, held_set_ne _ hij, Heap.placeAt, hm', Heap.at, Heap.find, Heap.run, Heap.act,
      hsec]
    rw [held_push, List.length_set, if_pos rfl]
    have : ((((cs.foldl (Cmd.run X) (Heap.start, [])).1.edit
        (.tm m fun y => y.put k b)).tm m).get k) = some b := by
      simp only [Heap.edit, upd_self]
      exact hget _ _
    rw [this]
    rfl
  have e1 : held (evalCmds X (cs ++ [.give i j (.types k), .take i (.types k)]))
      (runCmds X cs).2.length = some (.type u) := by
    rw [hlen]
    have hmid : held (((cs.foldl (Cmd.eval X) []).set i
        (some (.doc (d.onTypes fun m => m.put k u)))).set j none) i =
        some (.doc (d.onTypes fun m => m.put k u)) := by
      rw [held_set_ne _ hij, held_set_self hvi']
    simp only [evalCmds, List.foldl_append, List.foldl_cons, List.foldl_nil, Cmd.eval, hvj',
      if_neg hij, hvi', RootVal.placed, hmid]
    rw [held_push, List.length_set, List.length_set, List.length_set, if_pos rfl]
    cases d <;>
      simp only [RootVal.at, RootVal.find, DocVal.onTypes, hget, Option.bind_some, DT.walk,
        Option.map_some]
  refine ⟨r1, ?_⟩
  obtain ⟨v1, hv1, -, ⟨n, hw1, -⟩, -⟩ := (C82_sessions X _).2.2.1 _ _ r1
  rw [e1] at hv1
  cases hv1
  obtain ⟨t, ht, e⟩ := Option.map_eq_some_iff.mp hw1
  cases e
  exact ⟨max n n2, u, val_mono (Nat.le_max_right _ _) hu, val_mono (Nat.le_max_left _ _) ht⟩

section examples

/-- An object type gets a property that was made and described before; the object type is declared in
an API document; through the document its property gets a default; the property is taken out, and
declared in a library. -/
def tour : List Cmd :=
  [.make (.type .object), .make (.type .string), .work 1 (.inside [] (.call (.setDescription "d"))),
    .give 0 1 (.part (.inside []) (.property "p")), .make .api, .give 2 0 (.types "T"),
    .work 2 (.declared "T" [.property "p"] (.call (.setDisplayName "P"))), .make .lib,
    .take 2 (.part (.declared "T" []) (.property "p")), .give 3 4 (.types "U"),
    .make (.read (.str "integer")), .give 3 5 (.types "U")]

/-- What is written of a variable: the keys under `types`. -/
def typesWritten (X : Xyml) (cs : List Cmd) (i n : Nat) : Option (List (String × List String)) :=
  (held (runCmds X cs).2 i).bind fun r => ((runCmds X cs).1.rootVal n r).map fun v => match v with
    | .doc (.api a) => a.types.ents.map fun e => (e.1, (propertyDescriptions e.2).map Prod.fst)
    | .doc (.lib l) => l.types.ents.map fun e => (e.1, match e.2 with
      | .ext h _ _ _ _ => [h.displayName.getD "", h.description.getD "", h.schema]
      | _ => [])
    | _ => []

/-- After nine lines the API document declares an object type with no property left in it. -/
example : typesWritten Xyml.std (tour.take 9) 2 3 = some [("T", [])] := by decide +kernel

/-- After eight it still had one. -/
example : typesWritten Xyml.std (tour.take 8) 2 3 = some [("T", ["p"])] := by decide +kernel

/-- After ten the library declares the property, with what was done to it in all its places. -/
example : typesWritten Xyml.std (tour.take 10) 3 3 = some [("U", ["P", "d", "string"])] := by
  decide +kernel

/-- In the end something else is declared under its name. -/
example : typesWritten Xyml.std tour 3 3 = some [("U", ["", "", "integer"])] := by
  decide +kernel

/-- The premises of `C82_before_or_after` and `C82_give_take`: the variables 2 and 0 after five
lines. -/
example (X : Xyml) : held (runCmds X (tour.take 5)).2 2 = some (.doc (.api 3)) ∧
    held (runCmds X (tour.take 5)).2 0 = some (.type 1) := ⟨rfl, rfl⟩

/-- So a description set before the type is handed over is written like one set after. -/
example (X : Xyml) : ∃ n n' y,
    (runCmds X (tour.take 5 ++ [.work 0 (.inside [.property "p"] (.call (.setDescription "x"))),
      .give 2 0 (.types "T")])).1.rootWrite X n (.doc (.api 3)) = some y ∧
    (runCmds X (tour.take 5 ++ [.give 2 0 (.types "T"),
      .work 2 (.declared "T" [.property "p"] (.call (.setDescription "x")))])).1.rootWrite X n'
        (.doc (.api 3)) = some y :=
  C82_before_or_after X (tour.take 5) (i := 2) (j := 0) (by decide) rfl rfl "T" [.property "p"] _

/-- What the document of the tour is worth, and that it has nothing in common with the library. -/
example (X : Xyml) : ∃ v, held (evalCmds X (tour.take 8)) 2 = some v ∧
    ∃ n, (runCmds X (tour.take 8)).1.rootWrite X n (.doc (.api 3)) = some (v.toYAML X) := by
  obtain ⟨v, h1, -, ⟨n, -, h2⟩, -⟩ := (C82_sessions X (tour.take 8)).2.2.1 2 (.doc (.api 3)) rfl
  exact ⟨v, h1, n, h2⟩

example (X : Xyml) : (runCmds X (tour.take 8)).1.Apart (.api 3) (.lib 9) :=
  (C82_sessions X (tour.take 8)).2.2.2.2 2 3 (.doc (.api 3)) (.doc (.lib 9)) (by decide) rfl rfl

end examples

end Verif.Props
