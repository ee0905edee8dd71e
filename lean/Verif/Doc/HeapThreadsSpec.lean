import Verif.Doc.HeapSessionSpec

/-!
# Vocabulary: programs that run at the same time

Several programs (goroutines) work in one heap, each with its own variables.  Their lines happen one
at a time, in any order; a call is not interrupted.  A program may hand what a variable holds to
another program (over a channel), and then does not use it again.
-/

namespace Verif.Doc

/-- What happens: thread `t` runs a line of its program; thread `t` hands what its variable `i` holds
to thread `u`, where it becomes a new variable. -/
inductive Event where
  | line (t : Nat) (c : Cmd)
  | send (t i u : Nat)

/-- The variables with those of thread `t` replaced. -/
def setVars {α : Type} (f : Nat → List α) (t : Nat) (l : List α) : Nat → List α :=
  fun u => if u = t then l else f u

/-- Variable `i` of `t` becomes a new variable of `u`. -/
def handOver {α : Type} (f : Nat → List (Option α)) (t i u : Nat) : Nat → List (Option α) :=
  let g := setVars f t ((f t).set i none)
  setVars g u (g u ++ [held (f t) i])

/-- One event, on the objects. -/
def Event.run (X : Xyml) (S : Heap × (Nat → List (Option Root))) :
    Event → Heap × (Nat → List (Option Root))
  | .line t c => ((c.run X (S.1, S.2 t)).1, setVars S.2 t (c.run X (S.1, S.2 t)).2)
  | .send t i u => (S.1, handOver S.2 t i u)

/-- One event, on values: there is nothing but the variables. -/
def Event.eval (X : Xyml) (vs : Nat → List (Option RootVal)) : Event → Nat → List (Option RootVal)
  | .line t c => setVars vs t (c.eval X (vs t))
  | .send t i u => handOver vs t i u

/-- What happens, on the objects. -/
def runEvents (X : Xyml) (es : List Event) : Heap × (Nat → List (Option Root)) :=
  es.foldl (Event.run X) (Heap.start, fun _ => [])

/-- What happens, on values. -/
def evalEvents (X : Xyml) (es : List Event) : Nat → List (Option RootVal) :=
  es.foldl (Event.eval X) fun _ => []

/-- The program of thread `t`. -/
def ownLines (t : Nat) (es : List Event) : List Cmd :=
  es.filterMap fun
    | .line u c => if u = t then some c else none
    | .send _ _ _ => none

/-- Does the event hand something over? -/
def Event.isSend : Event → Bool
  | .send _ _ _ => true
  | .line _ _ => false

end Verif.Doc
