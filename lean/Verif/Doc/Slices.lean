import Mathlib.Data.List.Basic
import Mathlib.Logic.Function.Basic
import Verif.Doc.LiveType

/-!
# Slices that objects share with their callers

`SetEnum` (x-gen-type-string.go:160-163), `SetMediaTypes` (APISpec.go:123-126), `SetDocumentation`
(:137-140) and `SetFileTypes`, `SetProtocols`, `SetSecuredBy` store the slice that they get, and the
getters return the stored one.  Loading an `enum` (x-gen-type-string.go:263-273), `documentation`
(APISpec.go:413-420) or a single `mediaType` (:408-409) appends to what is stored; loading a list of
strings (string-list.go:8-26) or the value of an array example (x-gen-ex-array.go:191-196) stores a
new slice.

Here a slice is a window on an array in memory.  One memory holds the arrays of one element type;
the fields of all objects with that element type are numbered.
-/

namespace Verif.Doc.Slices

/-- A Go slice that is not nil: an array, where the window starts in it, its length and capacity. -/
structure Slice where
  arr : Nat
  off : Nat
  len : Nat
  cap : Nat
deriving DecidableEq

/-- The arrays; those below `next` are in use. -/
structure Mem (V : Type) where
  arr : Nat → List V
  next : Nat

variable {V : Type}

/-- The elements of a slice. -/
def Mem.read (M : Mem V) (s : Slice) : List V := ((M.arr s.arr).drop s.off).take s.len

/-- The elements of a slice that may be nil. -/
def Mem.value (M : Mem V) (s : Option Slice) : Option (List V) := s.map M.read

/-- A new array `xs ++ extra`, and the slice of its first part. -/
def Mem.alloc (M : Mem V) (xs extra : List V) : Slice × Mem V :=
  (⟨M.next, 0, xs.length, (xs ++ extra).length⟩,
    { arr := Function.update M.arr M.next (xs ++ extra), next := M.next + 1 })

/-- `append(s, x)`: in place while there is room, else into a new array whose unused slots are
`slack`, given what is copied (any growth, any contents). -/
def Mem.push (slack : List V → List V) (M : Mem V) (s : Option Slice) (x : V) : Slice × Mem V :=
  match s with
  | none => M.alloc [x] (slack [])
  | some s =>
    if s.len < s.cap then
      ({ s with len := s.len + 1 },
        { M with arr := Function.update M.arr s.arr ((M.arr s.arr).set (s.off + s.len) x) })
    else M.alloc (M.read s ++ [x]) (slack (M.read s))

/-- The loop that appends one element after the other to the stored slice. -/
def Mem.pushAll (slack : List V → List V) (M : Mem V) (s : Option Slice) :
    List V → Option Slice × Mem V
  | [] => (s, M)
  | x :: xs => let r := M.push slack s x; Mem.pushAll slack r.2 (some r.1) xs

/-- Memory, the slices in the fields of the objects, and those in the variables of the caller. -/
structure State (V : Type) where
  mem : Mem V
  field : Nat → Option Slice
  var : List (Option Slice)

/-- What is in a variable; nil where there is none. -/
def State.get (S : State V) (v : Nat) : Option Slice := (S.var[v]?).join

/-- What a program does.  `lit`, `sub` (`s[i:j:k]`), `push` and `get` make a new variable. -/
inductive Op (V : Type) where
  /-- `make([]T, …)` with contents, and room for more. -/
  | lit (xs extra : List V)
  /-- `s[i:j:k]` -/
  | sub (v i j k : Nat)
  /-- `append(s, x)` -/
  | push (v : Nat) (x : V)
  /-- `s[i] = x` -/
  | write (v i : Nat) (x : V)
  /-- a getter -/
  | get (f : Nat)
  /-- a setter -/
  | set (f v : Nat)
  /-- `Unset…` -/
  | unset (f : Nat)
  /-- loading what is appended -/
  | load (f : Nat) (xs : List V)
  /-- loading what replaces the stored slice by a new one, with room for more or not -/
  | replace (f : Nat) (xs extra : List V)

/-- One step; a panicking one does nothing. -/
def State.step (slack : List V → List V) (S : State V) : Op V → State V
  | .lit xs extra => let r := S.mem.alloc xs extra; { S with mem := r.2, var := S.var ++ [some r.1] }
  | .sub v i j k => match S.get v with
    | some s => if i ≤ j ∧ j ≤ k ∧ k ≤ s.cap then
        { S with var := S.var ++ [some ⟨s.arr, s.off + i, j - i, k - i⟩] } else S
    | none => S
  | .push v x => let r := S.mem.push slack (S.get v) x
    { S with mem := r.2, var := S.var ++ [some r.1] }
  | .write v i x => match S.get v with
    | some s => if i < s.len then
        { S with mem := { S.mem with
            arr := Function.update S.mem.arr s.arr ((S.mem.arr s.arr).set (s.off + i) x) } } else S
    | none => S
  | .get f => { S with var := S.var ++ [S.field f] }
  | .set f v => { S with field := Function.update S.field f (S.get v) }
  | .unset f => { S with field := Function.update S.field f none }
  | .load f xs => let r := S.mem.pushAll slack (S.field f) xs
    { S with mem := r.2, field := Function.update S.field f r.1 }
  | .replace f xs extra => let r := S.mem.alloc xs extra
    { S with mem := r.2, field := Function.update S.field f (some r.1) }

/-- Nothing made yet; every field is nil. -/
def State.start (V : Type) : State V := ⟨⟨fun _ => [], 0⟩, fun _ => none, []⟩

/-- A program. -/
def State.run (slack : List V → List V) (S : State V) (os : List (Op V)) : State V :=
  os.foldl (State.step slack) S

/-- Loading a list into a field that loading appends to (x-gen-type-string.go:263-273,
x-gen-type-any.go:217-220, APISpec.go:413-420): each element is read, then appended. -/
def State.loadSeq (slack : List V → List V) (read : Node → Res V) (f : Nat) (v : Node)
    (S : State V) : Live (State V) :=
  liveSeq (fun n S => store (read n) (fun S x => S.step slack (.load f [x])) S) v S

/-! ### The same on values -/

/-- Lists in the fields and variables. -/
structure Vals (V : Type) where
  field : Nat → Option (List V)
  var : List (Option (List V))

/-- What is in a variable. -/
def Vals.get (S : Vals V) (v : Nat) : Option (List V) := (S.var[v]?).join

/-- One step on lists, where a setter copies. -/
def Vals.step (S : Vals V) : Op V → Vals V
  | .lit xs _ => { S with var := S.var ++ [some xs] }
  | .sub v i j _ => match S.get v with
    | some l => { S with var := S.var ++ [some ((l.take j).drop i)] }
    | none => S
  | .push v x => { S with var := S.var ++ [some ((S.get v).getD [] ++ [x])] }
  | .write _ _ _ => S
  | .get f => { S with var := S.var ++ [S.field f] }
  | .set f v => { S with field := Function.update S.field f (S.get v) }
  | .unset f => { S with field := Function.update S.field f none }
  | .load f xs => { S with
      field := Function.update S.field f
        (if xs.isEmpty then S.field f else some ((S.field f).getD [] ++ xs)) }
  | .replace f xs _ => { S with field := Function.update S.field f (some xs) }

/-- A program on lists. -/
def Vals.run (S : Vals V) (os : List (Op V)) : Vals V := os.foldl Vals.step S

/-- Nothing made yet. -/
def Vals.start (V : Type) : Vals V := ⟨fun _ => none, []⟩

/-! ### Care with slices -/

/-- The slice has no room behind its elements. -/
def Full (s : Option Slice) : Prop := ∀ x, s = some x → x.len = x.cap

/-- What a careful caller does: it gives away and appends to full slices only (`s[:n:n]`), slices
within the length, and writes no elements. -/
def State.Careful (S : State V) : Op V → Prop
  | .push v _ | .set _ v => Full (S.get v)
  | .sub v i j k => ∀ s, S.get v = some s → i ≤ j ∧ j ≤ s.len ∧ j ≤ k ∧ k ≤ s.cap
  | .write _ _ _ => False
  | _ => True

/-- All the way. -/
def State.CarefulAll (slack : List V → List V) (S : State V) : List (Op V) → Prop
  | [] => True
  | o :: os => S.Careful o ∧ (S.step slack o).CarefulAll slack os

end Verif.Doc.Slices
