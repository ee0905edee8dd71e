import Verif.OMap.Model

/-!
# The `ordered` slice with its memory layout

The model of `Model.lean` treats `ordered` as a list.  Here it is a Go slice: a backing array
(whose size is the capacity) and a length.  `append` writes in place while there is room and
otherwise moves to a new array of arbitrary larger size with arbitrary contents in its unused
slots; `Delete` shifts in place.  Line numbers are those of AnyMap.go.
-/

namespace Verif.OMap.Mem
open Verif.OMap

/-- A Go slice starting at offset 0 of its array: `arr.length` is the capacity. -/
structure Slice (α : Type) where
  arr : List α
  len : Nat

namespace Slice
variable {α : Type}

/-- The elements a program can see through the slice. -/
def visible (s : Slice α) : List α := s.arr.take s.len

/-- `s[j]` with `j` already known non-negative: run-time check against the length, not the
capacity (AnyMap.go:207, :224, :244). -/
def get? (s : Slice α) (j : Nat) : Option α := if j < s.len then s.arr[j]? else none

/-- `append(s, x)` (AnyMap.go:162).  `slack n` are the unused slots of the new array when an
array of `n` elements is outgrown (arbitrary growth policy, arbitrary contents). -/
def push (slack : Nat → List α) (s : Slice α) (x : α) : Slice α :=
  if s.len < s.arr.length then { arr := s.arr.set s.len x, len := s.len + 1 }
  else { arr := s.arr.take s.len ++ x :: slack s.len, len := s.len + 1 }

/-- Element-wise copy `arr[dst+i] = arr[src+i]` for `i < n`, in increasing order within one
array (what `append` does at AnyMap.go:235, source and destination overlapping). -/
def move (arr : List α) (dst src : Nat) : Nat → List α
  | 0 => arr
  | n + 1 =>
    match arr[src]? with
    | some x => move (arr.set dst x) (dst + 1) (src + 1) n
    | none => arr

/-- `append(s[:pos], s[pos+1:]...)` (AnyMap.go:235): `s[:pos]` keeps array and capacity, so the
`len-pos-1` elements after `pos` fit and are copied in place. -/
def cut (s : Slice α) (pos : Nat) : Slice α :=
  { arr := move s.arr pos (pos + 1) (s.len - pos - 1), len := s.len - 1 }

/-- `s[pos] = f(s[pos])` in place (AnyMap.go:187). -/
def update (s : Slice α) (pos : Nat) (f : α → α) : Slice α :=
  { s with arr := s.arr.modify pos f }

end Slice

/-- `implAnyMap` (AnyMap.go:108-112) with a real slice. -/
structure MImpl (K V : Type) where
  ordered : Slice (K × V)
  index : List (K × V)
  outOrder : Bool

section
variable {K V : Type} [GoKey K]

/-- `NewAnyMap(size)` (AnyMap.go:99-105): `make` panics on a negative size (`none`), otherwise
gives an array of `size` slots of arbitrary contents `junk`, length 0. -/
def mnew (junk : Nat → K × V) (size : Int) : Option (MImpl K V) :=
  if size < 0 then none
  else some { ordered := { arr := (List.range size.toNat).map junk, len := 0 }, index := [], outOrder := true }

/-- AnyMap.go:194, :215, :220. -/
def mIndexRead (k : K) : M (MImpl K V) (Option V) := do
  let s ← M.get
  if GoKey.hashable k then return hmLookup s.index k else M.throw .unhashable

/-- The loop of `IndexOf` (AnyMap.go:223-227): `n` slots to go, next `j`. -/
def mScan (k : K) (s : Slice (K × V)) : Nat → Nat → Option Nat
  | 0, _ => none
  | n + 1, j =>
    match s.get? j with
    | some e => if e.1 == k then some j else mScan k s n (j + 1)
    | none => none

/-- `IndexOf` (AnyMap.go:219-229). -/
def mIndexOf (k : K) : M (MImpl K V) Int := do
  if (← mIndexRead k).isNone then
    return -1
  else
    let s ← M.get
    match mScan k s.ordered s.ordered.len 0 with
    | some j => return (j : Int)
    | none => M.throw .outOfSync

/-- `At` (AnyMap.go:206-208). -/
def mAt (j : Int) : M (MImpl K V) (K × V) := do
  let s ← M.get
  if 0 ≤ j then
    match s.ordered.get? j.toNat with
    | some e => return e
    | none => M.throw .indexRange
  else M.throw .indexRange

/-- `Delete` (AnyMap.go:231-240). -/
def mDelete (k : K) : M (MImpl K V) Unit := do
  let pos ← mIndexOf k
  if pos > -1 then
    M.modify fun s => { s with ordered := s.ordered.cut pos.toNat }
    M.modify fun s => { s with index := hmDelete s.index k }

/-- `Put` (AnyMap.go:159-164). -/
def mPut (slack : Nat → List (K × V)) (k : K) (v : V) : M (MImpl K V) Unit := do
  mDelete k
  M.modify fun s => { s with index := hmAssign s.index k v }
  M.modify fun s => { s with ordered := s.ordered.push slack (k, v) }

/-- `ReplaceIfExists` (AnyMap.go:182-191). -/
def mReplaceIfExists (k : K) (v : V) : M (MImpl K V) Unit := do
  let pos ← mIndexOf k
  if pos > -1 then
    M.modify fun s => { s with index := hmAssign s.index k v }
    M.modify fun s => { s with ordered := s.ordered.update pos.toNat (fun e => (e.1, v)) }

/-- `ForEach` with a recording callback (AnyMap.go:242-248). -/
def mEntries : Nat → Nat → List (K × V) → M (MImpl K V) (List (K × V))
  | 0, _, acc => M.pure acc
  | n + 1, j, acc => do
    match (← M.get).ordered.get? j with
    | some e => mEntries n (j + 1) (acc ++ [e])
    | none => M.throw .indexRange

/-- Dispatch of a user call. -/
def mCall (slack : Nat → List (K × V)) : Op K V → M (MImpl K V) (Obs K V)
  | .put k v => do mPut slack k v; return .unit
  | .putIfNotNil k (some v) => do mPut slack k v; return .unit
  | .putIfNotNil _ none => M.pure .unit
  | .replaceOrPut k v => do
    if (← mIndexRead k).isSome then mReplaceIfExists k v else mPut slack k v
    return .unit
  | .replaceIfExists k v => do mReplaceIfExists k v; return .unit
  | .delete k => do mDelete k; return .unit
  | .serializeOrdered b => do M.modify (fun s => { s with outOrder := b }); return .unit
  | .get k => do return .val (← mIndexRead k)
  | .has k => do return .bool (← mIndexRead k).isSome
  | .indexOf k => do return .int (← mIndexOf k)
  | .at' j => do return .entry (← mAt j)
  | .len => do return .int (← M.get).ordered.len
  | .entries => do return .entries (← mEntries (← M.get).ordered.len 0 [])

/-- A history; the growth policy may be different at every call. -/
def mRun : List (Op K V × (Nat → List (K × V))) → MImpl K V → List (Out (Obs K V)) × MImpl K V
  | [], s => ([], s)
  | (op, slack) :: ops, s =>
    let r := mCall slack op s
    let rest := mRun ops r.2
    (r.1 :: rest.1, rest.2)

end
end Verif.OMap.Mem
