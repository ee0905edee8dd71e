import Verif.Doc.HeapDocs

/-!
# Writing object graphs

Data types and documents as Go holds them: objects that point to each other.
-/

namespace Verif.Props
open Verif.Doc Relation

/-! ## C70: what is written, and when writing never ends -/

/-- A data type that is written is written as the value it stands for; how deep the calls went does
not matter. -/
theorem C70_written (X : Xyml) (H : Heap) (a : Addr) (y : Node) :
    (∃ n, H.write X n a = some y) ↔ ∃ n t, H.val n a = some t ∧ y = t.toYAML X := by
  constructor
  · rintro ⟨n, h⟩
    rw [write_eq] at h
    obtain ⟨t, ht, rfl⟩ := Option.map_eq_some_iff.mp h
    exact ⟨n, t, ht, rfl⟩
  · rintro ⟨n, t, ht, rfl⟩
    exact ⟨n, by rw [write_eq, ht]; rfl⟩

example (X : Xyml) : ∃ n, (Heap.start.act X (.newType .string)).write X n 1 =
    some ((DT.new .string).toYAML X) :=
  (C70_written X _ 1 _).mpr ⟨1, _, rfl, rfl⟩

/-- There is at most one result, whatever the size of the stack, and the number of objects bounds
the depth of the calls. -/
theorem C70_stack {X : Xyml} {H : Heap} (hr : Reachable X H) {a : Addr} (ha : a < H.next) {n : Nat}
    {y : Node} (h : H.write X n a = some y) :
    H.write X H.next a = some y ∧ ∀ m z, H.write X m a = some z → z = y := by
  rw [write_eq] at h
  obtain ⟨t, ht, rfl⟩ := Option.map_eq_some_iff.mp h
  refine ⟨by rw [write_eq, val_bound hr.closed ha ht]; rfl, fun m z hz => ?_⟩
  rw [write_eq] at hz
  obtain ⟨u, hu, rfl⟩ := Option.map_eq_some_iff.mp hz
  rw [val_unique ht hu]

/-- Writing a data type overflows every stack exactly when a data type that can be reached from it,
through properties, items or facets, is inside itself. -/
theorem C70_overflow_iff {X : Xyml} {H : Heap} (hr : Reachable X H) {a : Addr} (ha : a < H.next) :
    (∀ n, H.write X n a = none) ↔
      ∃ c, H.Reaches (.ty a) (.ty c) ∧ H.Inside (.ty c) (.ty c) := by
  have hw : (∀ n, H.write X n a = none) ↔ ∀ n, H.val n a = none := by
    simp only [write_eq, Option.map_eq_none_iff]
  rw [hw]
  constructor
  · intro h
    obtain ⟨c, hc, hi⟩ := no_val_cycle hr.closed ha h
    exact ⟨c, reaches_iff.mpr hc, inside_iff.mpr hi⟩
  · rintro ⟨c, hc, hi⟩ n
    exact reaches_no_val (reaches_iff.mp hc) (cycle_no_val (inside_iff.mp hi)) n

/-- The same for API documents. -/
theorem C70_api_written (X : Xyml) (H : Heap) (d : Addr) (y : Node) :
    (∃ n, H.apiWrite X n d = some y) ↔ ∃ n s, H.apiVal n d = some s ∧ y = s.toYAML X := by
  constructor
  · rintro ⟨n, h⟩
    rw [apiWrite_eq] at h
    obtain ⟨t, ht, rfl⟩ := Option.map_eq_some_iff.mp h
    exact ⟨n, t, ht, rfl⟩
  · rintro ⟨n, t, ht, rfl⟩
    exact ⟨n, by rw [apiWrite_eq, ht]; rfl⟩

example (X : Xyml) : ∃ n, (Heap.start.act X .newApi).apiWrite X n 1 = some (APISpec.new.toYAML X) :=
  (C70_api_written X _ 1 _).mpr ⟨0, _, rfl, rfl⟩

/-- An API document can never be written exactly when a data type in it is inside itself. -/
theorem C70_api_overflow_iff {X : Xyml} {H : Heap} (hr : Reachable X H) (d : Addr) :
    (∀ n, H.apiWrite X n d = none) ↔
      ∃ c, H.Reaches (.api d) (.ty c) ∧ H.Inside (.ty c) (.ty c) := by
  have hw : (∀ n, H.apiWrite X n d = none) ↔
      ∀ n, followMap (H.val n) (H.tm (H.api d).types) = none := by
    simp only [apiWrite_eq, Heap.apiVal, Option.map_eq_none_iff]
  rw [hw]
  constructor
  · intro h
    obtain ⟨e, he, hn⟩ := followMap_never hr.closed h
    obtain ⟨c, hc, hi⟩ := no_val_cycle hr.closed (hr.closed _ _ (reaches_entry he)) hn
    exact ⟨c, (ReflTransGen.single (api_points H d)).trans
      (.head (reaches_entry he) (reaches_iff.mpr hc)), inside_iff.mpr hi⟩
  · rintro ⟨c, hc, hi⟩ n
    obtain ⟨e, he, hr'⟩ := api_reaches_ty hc
    exact followMap_none he (reaches_no_val (reaches_iff.mp hr') (cycle_no_val (inside_iff.mp hi)) n)

/-- The same for libraries. -/
theorem C70_lib_written (X : Xyml) (H : Heap) (d : Addr) (y : Node) :
    (∃ n, H.libWrite X n d = some y) ↔ ∃ n s, H.libVal n d = some s ∧ y = s.toYAML X := by
  constructor
  · rintro ⟨n, h⟩
    rw [libWrite_eq] at h
    obtain ⟨t, ht, rfl⟩ := Option.map_eq_some_iff.mp h
    exact ⟨n, t, ht, rfl⟩
  · rintro ⟨n, t, ht, rfl⟩
    exact ⟨n, by rw [libWrite_eq, ht]; rfl⟩

example (X : Xyml) : ∃ n, (Heap.start.act X .newLib).libWrite X n 1 = some (Library.new.toYAML X) :=
  (C70_lib_written X _ 1 _).mpr ⟨0, _, rfl, rfl⟩

/-- A library can never be written exactly when a data type in it is inside itself. -/
theorem C70_lib_overflow_iff {X : Xyml} {H : Heap} (hr : Reachable X H) (d : Addr) :
    (∀ n, H.libWrite X n d = none) ↔
      ∃ c, H.Reaches (.lib d) (.ty c) ∧ H.Inside (.ty c) (.ty c) := by
  have hw : (∀ n, H.libWrite X n d = none) ↔
      ∀ n, followMap (H.val n) (H.tm (H.lib d).types) = none := by
    simp only [libWrite_eq, Heap.libVal, Option.map_eq_none_iff]
  rw [hw]
  constructor
  · intro h
    obtain ⟨e, he, hn⟩ := followMap_never hr.closed h
    obtain ⟨c, hc, hi⟩ := no_val_cycle hr.closed (hr.closed _ _ (reaches_entry he)) hn
    exact ⟨c, (ReflTransGen.single (lib_points H d)).trans
      (.head (reaches_entry he) (reaches_iff.mpr hc)), inside_iff.mpr hi⟩
  · rintro ⟨c, hc, hi⟩ n
    obtain ⟨e, he, hr'⟩ := lib_reaches_ty hc
    exact followMap_none he (reaches_no_val (reaches_iff.mp hr') (cycle_no_val (inside_iff.mp hi)) n)

section examples

/-- An array type at 1 whose items are itself; an object type at 2 with it as a property; an API
document at 3 with the object type; an array type at 9 whose items are the string type at 10. -/
def loopProgram : List Act :=
  [.newType .array, .onType 1 (.ptr (.setItems (some 1))), .newType .object,
    .edit (.tm 2 fun m => m.put "p" 1), .newApi, .edit (.tm 3 fun m => m.put "T" 2),
    .newType .array, .newType .string, .onType 9 (.ptr (.setItems (some 10)))]

/-- The heap it makes. -/
def loopHeap (X : Xyml) : Heap := Heap.start.run X loopProgram

theorem loop_legal (X : Xyml) : Heap.start.LegalAll X loopProgram := by
  refine ⟨trivial, ⟨?_, ?_⟩, trivial, ⟨?_, ?_⟩, trivial, ⟨?_, ?_⟩, trivial, trivial, ⟨?_, ?_⟩,
    trivial⟩
  · show 1 < 2; decide
  · rintro x ⟨⟩; show 1 < 2; decide
  · show 2 < 3; decide
  · intro x hx
    have : x = ("p", 1) := by simpa using (show x ∈ [("p", 1)] from hx)
    subst this; show 1 < 3; decide
  · show 3 < 9; decide
  · intro x hx
    have : x = ("T", 2) := by simpa using (show x ∈ [("T", 2)] from hx)
    subst this; show 2 < 9; decide
  · show 9 < 11; decide
  · rintro x ⟨⟩; show 10 < 11; decide

theorem loop_reachable (X : Xyml) : Reachable X (loopHeap X) :=
  reachable_run .start (loop_legal X)

theorem loop_inside (X : Xyml) : (loopHeap X).Inside (.ty 1) (.ty 1) := .single (by
  have : (loopHeap X).refs (.ty 1) = [.xm 1, .am 1, .em 1, .fm 1, .ty 1] := rfl
  rw [Heap.Points, this]
  decide)

theorem loop_object (X : Xyml) : (loopHeap X).Reaches (.ty 2) (.ty 1) := by
  have h1 : (loopHeap X).refs (.ty 2) = [.xm 2, .am 2, .em 2, .fm 2, .tm 2] := rfl
  have h2 : (loopHeap X).refs (.tm 2) = [.ty 1] := rfl
  exact .head (b := .tm 2) (by rw [Heap.Points, h1]; decide)
    (.single (by rw [Heap.Points, h2]; decide))

/-- The object type and the document with it can never be written. -/
example (X : Xyml) (n : Nat) : (loopHeap X).write X n 2 = none :=
  (C70_overflow_iff (loop_reachable X) (show 2 < 11 by decide)).mpr
    ⟨1, loop_object X, loop_inside X⟩ n

example (X : Xyml) (n : Nat) : (loopHeap X).apiWrite X n 3 = none := by
  refine (C70_api_overflow_iff (loop_reachable X) 3).mpr ⟨1, ?_, loop_inside X⟩ n
  have h2 : (loopHeap X).refs (.tm 3) = [.ty 2] := rfl
  exact (ReflTransGen.single (api_points (loopHeap X) 3)).trans
    (.head (by rw [Heap.Points]; exact h2 ▸ List.mem_singleton.mpr rfl) (loop_object X))

/-- The other array type can be written, with a stack for two calls. -/
example (X : Xyml) : ∃ y, (loopHeap X).write X 2 9 = some y ∧ (loopHeap X).write X 1 9 = none :=
  ⟨_, rfl, rfl⟩

/-- So a stack as deep as there are objects will do for it. -/
example (X : Xyml) : (loopHeap X).write X 11 9 = (loopHeap X).write X 2 9 :=
  (C70_stack (loop_reachable X) (show 9 < 11 by decide) (n := 2) rfl).1

end examples

/-! ## C71: what a program can change -/

/-- A program changes what a data type is written as only if it calls a method on an object that
can be reached from that data type, or loads into a document or data type whose maps can be. -/
theorem C71_type {X : Xyml} {H : Heap} (hr : Reachable X H) {ss : List Act} (hl : H.LegalAll X ss)
    {a : Addr} (ha : a < H.next) (h : ∀ o ∈ H.touchesAll X ss, ¬ H.Reaches (.ty a) o) :
    (∀ n, (H.run X ss).write X n a = H.write X n a) ∧
      ∀ o, (H.run X ss).Reaches (.ty a) o ↔ H.Reaches (.ty a) o := by
  have hs := only_sameFrom hr.closed (quiet_run hl).only (o := .ty a) ha h
  exact ⟨fun n => by rw [write_eq, write_eq, sameFrom_val n hs],
    fun o => (sameFrom_reaches hs).symm⟩

/-- The same for API documents. -/
theorem C71_api {X : Xyml} {H : Heap} (hr : Reachable X H) {ss : List Act} (hl : H.LegalAll X ss)
    {d : Addr} (hd : d < H.next) (h : ∀ o ∈ H.touchesAll X ss, ¬ H.Reaches (.api d) o) :
    (∀ n, (H.run X ss).apiWrite X n d = H.apiWrite X n d) ∧
      ∀ o, (H.run X ss).Reaches (.api d) o ↔ H.Reaches (.api d) o := by
  have hs := only_sameFrom hr.closed (quiet_run hl).only (o := .api d) hd h
  exact ⟨fun n => by rw [apiWrite_eq, apiWrite_eq, sameFrom_apiVal n hs],
    fun o => (sameFrom_reaches hs).symm⟩

/-- The same for libraries. -/
theorem C71_lib {X : Xyml} {H : Heap} (hr : Reachable X H) {ss : List Act} (hl : H.LegalAll X ss)
    {d : Addr} (hd : d < H.next) (h : ∀ o ∈ H.touchesAll X ss, ¬ H.Reaches (.lib d) o) :
    (∀ n, (H.run X ss).libWrite X n d = H.libWrite X n d) ∧
      ∀ o, (H.run X ss).Reaches (.lib d) o ↔ H.Reaches (.lib d) o := by
  have hs := only_sameFrom hr.closed (quiet_run hl).only (o := .lib d) hd h
  exact ⟨fun n => by rw [libWrite_eq, libWrite_eq, sameFrom_libVal n hs],
    fun o => (sameFrom_reaches hs).symm⟩

/-- The same for the values, which tell more than what is written (XML settings are written without
their content). -/
theorem C71_values {X : Xyml} {H : Heap} (hr : Reachable X H) {ss : List Act}
    (hl : H.LegalAll X ss) (n : Nat) :
    (∀ a < H.next, (∀ o ∈ H.touchesAll X ss, ¬ H.Reaches (.ty a) o) →
      (H.run X ss).val n a = H.val n a) ∧
    (∀ d < H.next, (∀ o ∈ H.touchesAll X ss, ¬ H.Reaches (.api d) o) →
      (H.run X ss).apiVal n d = H.apiVal n d) ∧
    ∀ d < H.next, (∀ o ∈ H.touchesAll X ss, ¬ H.Reaches (.lib d) o) →
      (H.run X ss).libVal n d = H.libVal n d :=
  have hq := (quiet_run hl).only
  ⟨fun a ha h => (sameFrom_val n (only_sameFrom hr.closed hq (o := .ty a) ha h)).symm,
    fun d hd h => (sameFrom_apiVal n (only_sameFrom hr.closed hq (o := .api d) hd h)).symm,
    fun d hd h => (sameFrom_libVal n (only_sameFrom hr.closed hq (o := .lib d) hd h)).symm⟩

section examples

/-- What the string type at 10 leads to. -/
theorem loop_string (X : Xyml) {o : Obj} (h : (loopHeap X).Reaches (.ty 10) o) :
    o ∈ [.ty 10, .xm 10, .am 10, .em 10, .fm 10] := by
  refine reaches_mem (fun x hx y hy => ?_) h (by decide)
  simp only [List.mem_cons, List.not_mem_nil, or_false] at hx
  rcases hx with rfl | rfl | rfl | rfl | rfl
  · have : (loopHeap X).refs (.ty 10) = [.xm 10, .am 10, .em 10, .fm 10] := rfl
    rw [this] at hy
    exact List.mem_cons_of_mem _ hy
  all_goals cases hy

/-- A library that is made and loaded after the document at 3 does not change what is written of
that. -/
example (X : Xyml) (v : Node) (n : Nat) :
    ((loopHeap X).run X [.newLib, .loadLib 11 v]).apiWrite X n 3 = (loopHeap X).apiWrite X n 3 := by
  refine (C71_api (loop_reachable X) (ss := [.newLib, .loadLib 11 v])
    ⟨trivial, show 11 < 15 by decide, trivial⟩ (show 3 < 11 by decide) fun o ho hr => ?_).1 n
  have h : o.addr < 11 := closed_reaches (loop_reachable X).closed hr (show 3 < 11 by decide)
  exact absurd ((show ∀ o ∈ (loopHeap X).touchesAll X [.newLib, .loadLib 11 v], 11 ≤ o.addr by
    show ∀ o ∈ [Obj.lib 11, .tm 11, .um 11, .um 12, .um 13, .am 11, .um 14, .sm 11, .xm 11], _
    decide) o ho) (Nat.not_le.mpr h)

/-- And the other way round. -/
example (X : Xyml) (v : Node) (n : Nat) :
    ((Heap.start.act X .newLib).run X [.newApi, .loadApi 5 v]).libWrite X n 1 =
      (Heap.start.act X .newLib).libWrite X n 1 := by
  have hr : Reachable X (Heap.start.act X .newLib) := .act _ .start trivial
  refine (C71_lib hr (ss := [.newApi, .loadApi 5 v]) ⟨trivial, show 5 < 11 by decide, trivial⟩
    (show 1 < 5 by decide) fun o ho h => ?_).1 n
  have h : o.addr < 5 := closed_reaches hr.closed h (show 1 < 5 by decide)
  exact absurd ((show ∀ o ∈ (Heap.start.act X .newLib).touchesAll X [.newApi, .loadApi 5 v],
      5 ≤ o.addr by
    show ∀ o ∈ [Obj.api 5, .tm 5, .um 5, .um 6, .um 7, .am 5, .um 8, .um 9, .sm 5, .um 10, .xm 5], _
    decide) o ho) (Nat.not_le.mpr h)

/-- Calls on the array type at 9, on its annotations and on the document. -/
def elsewhere : List Act :=
  [.onType 9 (.ptr (.setItems none)), .edit (.am 9 fun _ => OM.empty true), .setApi 3 (.types none)]

/-- They do not change what the string type at 10 is written as. -/
example (X : Xyml) (n : Nat) :
    ((loopHeap X).run X elsewhere).write X n 10 = (loopHeap X).write X n 10 := by
  have hl : (loopHeap X).LegalAll X elsewhere :=
    ⟨⟨(show 9 < 11 by decide), fun x hx => by cases hx⟩, (show 9 < 11 by decide),
      ⟨(show 3 < 11 by decide), fun x hx => by cases hx⟩, trivial⟩
  refine (C71_type (loop_reachable X) hl (show 10 < 11 by decide) ?_).1 n
  intro o ho hr
  have ho : o ∈ [Obj.ty 9, .am 9, .api 3] := ho
  have := loop_string X hr
  simp only [List.mem_cons, List.not_mem_nil, or_false] at ho
  rcases ho with rfl | rfl | rfl <;> exact absurd this (by decide)

/-- The description of the item type. -/
def itemDescription : DT → Option String
  | .ext _ _ _ _ (some (.ext h _ _ _ _)) => h.description
  | _ => none

/-- A call on the string type shows in the array type it is the item type of. -/
example (X : Xyml) :
    ((loopHeap X).act X (.onType 10 (.plain (.setDescription "d")))).val 2 9 ≠
      (loopHeap X).val 2 9 := by
  intro h
  have : (some (some "d") : Option (Option String)) = some none :=
    congrArg (Option.map itemDescription) h
  cases this

end examples

end Verif.Props
