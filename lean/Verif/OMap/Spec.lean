import Verif.OMap.Model

/-!
# Specification: an ordered dictionary

A list of key/value pairs.  There is no index and no scan position; each call is described
by what the user sees.  This file does not use any method of the implementation model.
-/

namespace Verif.OMap.Spec
open Verif.OMap

variable {K V : Type} [GoKey K]

/-- The dictionary without key `k`. -/
def remove (k : K) (d : List (K × V)) : List (K × V) := d.filter (fun e => !(e.1 == k))

/-- `k` is moved to / added at the end. -/
def put (k : K) (v : V) (d : List (K × V)) : List (K × V) := remove k d ++ [(k, v)]

/-- The value at `k` is changed in place. -/
def replace (k : K) (v : V) (d : List (K × V)) : List (K × V) :=
  d.map (fun e => if e.1 == k then (e.1, v) else e)

/-- Is there an entry for `k`? -/
def mem (k : K) (d : List (K × V)) : Bool := d.any (fun e => e.1 == k)

/-- The value stored for `k`. -/
def find (k : K) (d : List (K × V)) : Option V := (d.find? (fun e => e.1 == k)).map (·.2)

/-- The position of `k`, or -1. -/
def position (k : K) (d : List (K × V)) : Int :=
  match d.findIdx? (fun e => e.1 == k) with
  | some i => i
  | none => -1

/-- The key an operation is about, if it is about one. A nil `PutIfNotNil` touches no key. -/
def keyOf : Op K V → Option K
  | .put k _ | .putIfNotNil k (some _) | .replaceOrPut k _ | .replaceIfExists k _ | .delete k
  | .get k | .has k | .indexOf k => some k
  | _ => none

/-- Answer and new dictionary for an operation on hashable keys. -/
def answer : Op K V → List (K × V) → Out (Obs K V) × List (K × V)
  | .put k v, d => (.val .unit, put k v d)
  | .putIfNotNil k (some v), d => (.val .unit, put k v d)
  | .putIfNotNil _ none, d => (.val .unit, d)
  | .replaceOrPut k v, d => (.val .unit, if mem k d then replace k v d else put k v d)
  | .replaceIfExists k v, d => (.val .unit, replace k v d)
  | .delete k, d => (.val .unit, remove k d)
  | .serializeOrdered _, d => (.val .unit, d)
  | .get k, d => (.val (.val (find k d)), d)
  | .has k, d => (.val (.bool (mem k d)), d)
  | .indexOf k, d => (.val (.int (position k d)), d)
  | .at' j, d =>
    (if h : 0 ≤ j ∧ j.toNat < d.length then .val (.entry (d[j.toNat]'h.2)) else .panic .indexRange, d)
  | .len, d => (.val (.int d.length), d)
  | .entries, d => (.val (.entries d), d)

/-- Answer and new dictionary; a key that cannot be hashed panics and changes nothing. -/
def step (op : Op K V) (d : List (K × V)) : Out (Obs K V) × List (K × V) :=
  match keyOf op with
  | some k => if GoKey.hashable k then answer op d else (.panic .unhashable, d)
  | none => answer op d

/-- A history on the dictionary. -/
def run : List (Op K V) → List (K × V) → List (Out (Obs K V)) × List (K × V)
  | [], d => ([], d)
  | op :: ops, d =>
    let r := step op d
    let rest := run ops r.2
    (r.1 :: rest.1, rest.2)

/-- Specification of `Get` by history: `h` lists the calls, most recent first. -/
def lastWrite (k : K) : List (Op K V) → Option V
  | [] => none
  | .put k' v :: h => if k' == k then some v else lastWrite k h
  | .putIfNotNil k' (some v) :: h => if k' == k then some v else lastWrite k h
  | .replaceOrPut k' v :: h => if k' == k then some v else lastWrite k h
  | .replaceIfExists k' v :: h =>
    if k' == k then (lastWrite k h).map (fun _ => v) else lastWrite k h
  | .delete k' :: h => if k' == k then none else lastWrite k h
  | _ :: h => lastWrite k h

end Verif.OMap.Spec
