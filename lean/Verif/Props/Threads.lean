import Verif.Doc.HeapThreads
import Verif.Props.Sessions

/-!
# Programs that run at the same time

Several goroutines use the library in one heap.  As long as each works on objects that it made, read,
took out or was handed, none of them sees what the others do.
-/

namespace Verif.Props
open Verif.Doc Relation

/-! ## C85: programs that run at the same time -/

/-- After any events every variable of every thread holds a tree, no two variables of the same or of
different threads share an object, and each is worth, and written as, what the same events leave in it
on values, where threads have nothing in common. -/
theorem C85_threads (X : Xyml) (es : List Event) :
    Reachable X (runEvents X es).1 ∧
    (∀ t, ((runEvents X es).2 t).length = (evalEvents X es t).length) ∧
    (∀ t i r, held ((runEvents X es).2 t) i = some r → ∃ v, held (evalEvents X es t) i = some v ∧
      (runEvents X es).1.Tree r.obj ∧ (∃ n, (runEvents X es).1.rootVal n r = some v ∧
        (runEvents X es).1.rootWrite X n r = some (v.toYAML X)) ∧
        ∀ n w, (runEvents X es).1.rootVal n r = some w → w = v) ∧
    (∀ t i, held ((runEvents X es).2 t) i = none → held (evalEvents X es t) i = none) ∧
    ∀ t i u j r r', (t, i) ≠ (u, j) → held ((runEvents X es).2 t) i = some r →
      held ((runEvents X es).2 u) j = some r' → (runEvents X es).1.Apart r.obj r'.obj := by
  have h := allHolding_run X es
  refine ⟨(h.own 0).reach, fun t => (h.own t).len, fun t i r hi => ?_, fun t i hi => ?_,
    fun t i u j r r' hne => allHolding_apart h fun e => hne (by rw [e.1, e.2])⟩
  · have := (h.own t).sim i
    rw [hi] at this
    obtain ⟨v, hv, hs⟩ := this.some
    obtain ⟨n, hn⟩ := hs.val
    exact ⟨v, hv, hs.tree, ⟨n, hn, rootWrite_eq hn⟩, fun m w hw => rootVal_unique hw hn⟩
  · have := (h.own t).sim i
    rw [hi] at this
    exact this.none

/-- Threads that hand nothing over: each has in each variable what its program leaves there when it
runs alone, whatever the others do and in whatever order the lines happen. -/
theorem C85_alone (X : Xyml) (es : List Event) (hs : ∀ e ∈ es, e.isSend = false) (t i : Nat) :
    (held ((runEvents X es).2 t) i = none ↔ held (runCmds X (ownLines t es)).2 i = none) ∧
    ∀ r r₀, held ((runEvents X es).2 t) i = some r →
      held (runCmds X (ownLines t es)).2 i = some r₀ → ∃ n n₀ v y,
        (runEvents X es).1.rootVal n r = some v ∧
        (runCmds X (ownLines t es)).1.rootVal n₀ r₀ = some v ∧
        (runEvents X es).1.rootWrite X n r = some y ∧
        (runCmds X (ownLines t es)).1.rootWrite X n₀ r₀ = some y := by
  have h := C85_threads X es
  have h₀ := C82_sessions X (ownLines t es)
  have he := evalEvents_own X es hs t
  refine ⟨⟨fun hn => ?_, fun hn => ?_⟩, fun r r₀ hr hr₀ => ?_⟩
  · have hv := h.2.2.2.1 t i hn
    rw [he] at hv
    cases hx : held (runCmds X (ownLines t es)).2 i with
    | none => rfl
    | some r₀ =>
      obtain ⟨v, h1, -⟩ := h₀.2.2.1 i r₀ hx
      rw [hv] at h1
      cases h1
  · have hv := h₀.2.2.2.1 i hn
    rw [← he] at hv
    cases hx : held ((runEvents X es).2 t) i with
    | none => rfl
    | some r =>
      obtain ⟨v, h1, -⟩ := h.2.2.1 t i r hx
      rw [hv] at h1
      cases h1
  · obtain ⟨v, h1, -, ⟨n, h2, h3⟩, -⟩ := h.2.2.1 t i r hr
    obtain ⟨v', h1', -, ⟨n', h2', h3'⟩, -⟩ := h₀.2.2.1 i r₀ hr₀
    rw [he, h1'] at h1
    cases h1
    exact ⟨n, n', v, _, h2, h2', h3, h3'⟩

/-- So the order in which the lines of different threads happen makes no difference to what any
variable is worth and to how it is written. -/
theorem C85_any_order (X : Xyml) (es es' : List Event) (hs : ∀ e ∈ es, e.isSend = false)
    (hs' : ∀ e ∈ es', e.isSend = false) (he : ∀ t, ownLines t es = ownLines t es') (t i : Nat) :
    (held ((runEvents X es).2 t) i = none ↔ held ((runEvents X es').2 t) i = none) ∧
    ∀ r r', held ((runEvents X es).2 t) i = some r → held ((runEvents X es').2 t) i = some r' →
      ∃ n n' v y, (runEvents X es).1.rootVal n r = some v ∧
        (runEvents X es').1.rootVal n' r' = some v ∧
        (runEvents X es).1.rootWrite X n r = some y ∧
        (runEvents X es').1.rootWrite X n' r' = some y := by
  have h := C85_alone X es hs t i
  have h' := C85_alone X es' hs' t i
  rw [← he t] at h'
  refine ⟨h.1.trans h'.1.symm, fun r r' hr hr' => ?_⟩
  cases hx : held (runCmds X (ownLines t es)).2 i with
  | none =>
    rw [h.1.mpr hx] at hr
    cases hr
  | some r₀ =>
    obtain ⟨n, m, v, y, h1, h2, h3, h4⟩ := h.2 r r₀ hr hx
    obtain ⟨n', m', v', y', h1', h2', h3', h4'⟩ := h'.2 r' r₀ hr' hx
    have hv := rootVal_unique h2 h2'
    subst hv
    exact ⟨n, n', v, _, h1, h1', rootWrite_eq h1, rootWrite_eq h1'⟩

/-- It makes no difference whether an object is worked on before it is handed to another thread or
by that thread afterwards. -/
theorem C85_handed_over (X : Xyml) (es : List Event) {t i : Nat} {r : Root}
    (hr : held ((runEvents X es).2 t) i = some r) (u : Nat) (s : RootStep) :
    ∃ n n' v y,
      held ((runEvents X (es ++ [.line t (.work i s), .send t i u])).2 u)
        ((runEvents X es).2 u).length = some r ∧
      held ((runEvents X (es ++ [.send t i u, .line u (.work ((runEvents X es).2 u).length s)])).2 u)
        ((runEvents X es).2 u).length = some r ∧
      (runEvents X (es ++ [.line t (.work i s), .send t i u])).1.rootVal n r = some v ∧
      (runEvents X (es ++ [.send t i u, .line u (.work ((runEvents X es).2 u).length s)])).1.rootVal
        n' r = some v ∧
      (runEvents X (es ++ [.line t (.work i s), .send t i u])).1.rootWrite X n r = some y ∧
      (runEvents X (es ++
        [.send t i u, .line u (.work ((runEvents X es).2 u).length s)])).1.rootWrite X n' r = some y := by
  have h := C85_threads X es
  obtain ⟨v, hv, -⟩ := h.2.2.1 t i r hr
  have hl := h.2.1 u
  have hr' : held ((es.foldl (Event.run X) (Heap.start, fun _ => [])).2 t) i = some r := hr
  have hv' : held (es.foldl (Event.eval X) (fun _ => []) t) i = some v := hv
  have hself : ∀ f : Nat → List (Option Root), setVars f t (f t) = f := by
    intro f; funext w; unfold setVars; split
    · rename_i e; rw [e]
    · rfl
  have a1 : held ((runEvents X (es ++ [.line t (.work i s), .send t i u])).2 u)
      ((runEvents X es).2 u).length = some r := by
    simp only [runEvents, List.foldl_append, List.foldl_cons, List.foldl_nil, Event.run, Cmd.run,
      hr', hself]
    rw [held_handOver, if_pos ⟨rfl, rfl⟩, hr']
  have a2 : held (evalEvents X (es ++ [.line t (.work i s), .send t i u]) u)
      ((runEvents X es).2 u).length = some (v.step X s) := by
    rw [hl]
    simp only [evalEvents, List.foldl_append, List.foldl_cons, List.foldl_nil, Event.eval, Cmd.eval,
      hv']
    have hlen : ∀ (f : Nat → List (Option RootVal)) (x : Option RootVal),
        (f u).length = (setVars f t ((f t).set i x) u).length := by
      intro f x
      unfold setVars
      split
      · rename_i e; rw [List.length_set, e]
      · rfl
    rw [held_handOver, if_pos ⟨rfl, hlen _ _⟩]
    simp only [setVars, if_true]
    rw [held_set_self hv']
  have b1 : held ((runEvents X
      (es ++ [.send t i u, .line u (.work ((runEvents X es).2 u).length s)])).2 u)
      ((runEvents X es).2 u).length = some r := by
    have e : held (handOver (runEvents X es).2 t i u u) ((runEvents X es).2 u).length = some r := by
      rw [held_handOver, if_pos ⟨rfl, rfl⟩, hr]
    have e' : held (handOver (es.foldl (Event.run X) (Heap.start, fun _ => [])).2 t i u u)
      ((runEvents X es).2 u).length = some r := e
    simp only [runEvents, List.foldl_append, List.foldl_cons, List.foldl_nil, Event.run, Cmd.run]
    simp only [runEvents] at e'
    rw [e']
    simp only [setVars, if_true]
    exact e'
  have b2 : held (evalEvents X
      (es ++ [.send t i u, .line u (.work ((runEvents X es).2 u).length s)]) u)
      ((runEvents X es).2 u).length = some (v.step X s) := by
    rw [hl]
    have e : held (handOver (es.foldl (Event.eval X) fun _ => []) t i u u)
        (evalEvents X es u).length = some v := by
      rw [held_handOver, if_pos ⟨rfl, rfl⟩, hv']
    simp only [evalEvents, List.foldl_append, List.foldl_cons, List.foldl_nil, Event.eval, Cmd.eval]
    simp only [evalEvents] at e
    rw [e]
    simp only [setVars, if_true]
    rw [held_set_self e]
  obtain ⟨va, c1, -, ⟨n, c2, c3⟩, -⟩ := (C85_threads X _).2.2.1 u _ r a1
  obtain ⟨vb, d1, -, ⟨n', d2, d3⟩, -⟩ := (C85_threads X _).2.2.1 u _ r b1
  rw [a2] at c1
  rw [b2] at d1
  cases c1
  cases d1
  exact ⟨n, n', _, _, a1, b1, c2, d2, c3, d3⟩

section examples

/-- Thread 0 builds an object type, thread 1 a string type, line by line in turn; thread 1 hands its
type to thread 0, which makes it a property and declares the object type in its API document.
Meanwhile thread 1 goes on with a library. -/
def meeting : List Event :=
  [.line 0 (.make (.type .object)), .line 1 (.make (.type .string)),
    .line 0 (.work 0 (.inside [] (.call (.setDescription "o")))),
    .line 1 (.work 0 (.inside [] (.call (.setDescription "s")))),
    .line 1 (.make .lib), .send 1 0 0, .line 0 (.give 0 1 (.part (.inside []) (.property "p"))),
    .line 1 (.make (.read (.str "integer"))), .line 0 (.make .api),
    .line 1 (.give 1 2 (.types "U")), .line 0 (.give 2 0 (.types "T")),
    .line 0 (.work 2 (.declared "T" [.property "p"] (.call (.setDisplayName "P"))))]

/-- What a thread has in a variable: the names under `types`, with the names and descriptions of
properties. -/
def declaredIn (X : Xyml) (es : List Event) (t i n : Nat) :
    Option (List (String × List (String × Option String))) :=
  (held ((runEvents X es).2 t) i).bind fun r => ((runEvents X es).1.rootVal n r).map fun v =>
    match v with
    | .doc (.api a) => a.types.ents.map fun e => (e.1, propertyDescriptions e.2)
    | .doc (.lib l) => l.types.ents.map fun e => (e.1, propertyDescriptions e.2)
    | _ => []

example : declaredIn Xyml.std meeting 0 2 4 = some [("T", [("p", some "s")])] := by decide +kernel

example : declaredIn Xyml.std meeting 1 1 4 = some [("U", [])] := by decide +kernel

/-- Thread 1 no longer holds what it has handed over. -/
example (X : Xyml) : held ((runEvents X (meeting.take 6)).2 1) 0 = none ∧
    ∃ a, held ((runEvents X (meeting.take 6)).2 0) 1 = some (.type a) := ⟨rfl, _, rfl⟩

/-- The premises of `C85_any_order`: two orders of the same lines. -/
def inTurn : List Event :=
  [.line 0 (.make .api), .line 1 (.make .lib), .line 0 (.make (.type .object)),
    .line 1 (.make (.type .string)), .line 0 (.give 0 1 (.types "A")),
    .line 1 (.give 0 1 (.types "B"))]

def oneAfterTheOther : List Event :=
  [.line 1 (.make .lib), .line 1 (.make (.type .string)), .line 1 (.give 0 1 (.types "B")),
    .line 0 (.make .api), .line 0 (.make (.type .object)), .line 0 (.give 0 1 (.types "A"))]

private theorem turn_facts : (∀ e ∈ inTurn, e.isSend = false) ∧
    (∀ e ∈ oneAfterTheOther, e.isSend = false) ∧
    ∀ t, ownLines t inTurn = ownLines t oneAfterTheOther := by
  refine ⟨by simp [inTurn, Event.isSend], by simp [oneAfterTheOther, Event.isSend], fun t => ?_⟩
  by_cases h0 : 0 = t
  · subst h0; simp [ownLines, inTurn, oneAfterTheOther]
  · by_cases h1 : 1 = t
    · subst h1; simp [ownLines, inTurn, oneAfterTheOther]
    · simp [ownLines, inTurn, oneAfterTheOther, h0, h1]

/-- The document of the first thread is written the same after both. -/
example (X : Xyml) : ∃ r r', held ((runEvents X inTurn).2 0) 0 = some r ∧
    held ((runEvents X oneAfterTheOther).2 0) 0 = some r' ∧
    ∃ n n' y, (runEvents X inTurn).1.rootWrite X n r = some y ∧
      (runEvents X oneAfterTheOther).1.rootWrite X n' r' = some y := by
  obtain ⟨n, n', v, y, -, -, h1, h2⟩ := (C85_any_order X inTurn oneAfterTheOther turn_facts.1
    turn_facts.2.1 turn_facts.2.2 0 0).2 _ _ rfl rfl
  exact ⟨_, _, rfl, rfl, n, n', y, h1, h2⟩

/-- And as if the thread had been alone. -/
example (X : Xyml) : ∃ r r₀, held ((runEvents X inTurn).2 1) 0 = some r ∧
    held (runCmds X [.make .lib, .make (.type .string), .give 0 1 (.types "B")]).2 0 = some r₀ ∧
    ∃ n n₀ y, (runEvents X inTurn).1.rootWrite X n r = some y ∧
      (runCmds X [.make .lib, .make (.type .string), .give 0 1 (.types "B")]).1.rootWrite X n₀ r₀ =
        some y := by
  obtain ⟨n, n', v, y, -, -, h1, h2⟩ := (C85_alone X inTurn turn_facts.1 1 0).2 _ _ rfl rfl
  exact ⟨_, _, rfl, rfl, n, n', y, h1, h2⟩

/-- The two documents have nothing in common. -/
example (X : Xyml) : ∃ r r', held ((runEvents X inTurn).2 0) 0 = some r ∧
    held ((runEvents X inTurn).2 1) 0 = some r' ∧ (runEvents X inTurn).1.Apart r.obj r'.obj :=
  ⟨_, _, rfl, rfl, (C85_threads X inTurn).2.2.2.2 0 0 1 0 _ _ (by decide) rfl rfl⟩

example : declaredIn Xyml.std inTurn 0 0 4 = some [("A", [])] ∧
    declaredIn Xyml.std oneAfterTheOther 0 0 4 = some [("A", [])] ∧
    declaredIn Xyml.std inTurn 1 0 4 = some [("B", [])] :=
  ⟨by decide +kernel, by decide +kernel, by decide +kernel⟩

end examples

end Verif.Props
