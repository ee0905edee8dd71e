/-!
# The generated ordered maps (implementation model)

Models `/repo/v0/pkg/raml/*Map.go`: 21 generated files which differ only in their
key and value types (`StringMap.go`, `UntypedMap.go`, `AnyExampleMap.go` and
`AnyMap.go` also have `GetOpt`).  Line numbers below are those of `AnyMap.go`,
the variant with `interface{}` keys; the others have the same bodies.

Everything here follows the Go code statement by statement; nothing in this
file knows about the specification (`Verif/OMap/Spec.lean`).
-/

namespace Verif.OMap

/-- Keys of a Go map.  `==` is Go's `==` on the key type; `hashable k = false`
models interface keys whose dynamic type is a slice, map or function, on which any
hash-map access panics.  For the 20 string-keyed types `==` is string equality
and every key is hashable; for `AnyMap.go:99-105` (`map[interface{}]interface{}`)
neither reflexivity (NaN) nor hashability is guaranteed. -/
class GoKey (K : Type) extends BEq K where
  hashable : K → Bool

/-- What the Go language guarantees of `==` on map keys: symmetric and transitive.
It is not always reflexive. -/
class LawfulGoKey (K : Type) [GoKey K] : Prop where
  symm : ∀ {a b : K}, (a == b) = true → (b == a) = true
  trans : ∀ {a b c : K}, (a == b) = true → (b == c) = true → (a == c) = true

/-- Keys with ordinary equality (all string-keyed maps). -/
class StrictGoKey (K : Type) [GoKey K] : Prop where
  eq_iff : ∀ {a b : K}, (a == b) = true ↔ a = b
  hash : ∀ a : K, GoKey.hashable a = true

/-- The three panics a map method can raise. -/
inductive Panic where
  /-- `panic("invalid map state, out of sync")`, AnyMap.go:228 -/
  | outOfSync
  /-- run-time error: index out of range, AnyMap.go:207 and :244 -/
  | indexRange
  /-- run-time error: hash of unhashable type (any access to `index`) -/
  | unhashable
deriving DecidableEq, Repr

/-- Outcome of a Go call that may panic. -/
inductive Out (α : Type) where
  | val (a : α)
  | panic (p : Panic)
deriving DecidableEq, Repr

/-- A Go statement acting on a state: it returns or panics, and in both cases leaves a
state behind (a panic may be recovered by the caller). -/
def M (σ α : Type) : Type := σ → Out α × σ

namespace M
variable {σ α β : Type}

/-- Return a value (glue; no Go counterpart). -/
def pure (a : α) : M σ α := fun s => (.val a, s)

/-- Sequencing; a panic skips the rest (glue; no Go counterpart). -/
def bind (x : M σ α) (f : α → M σ β) : M σ β := fun s =>
  match x s with
  | (.val a, s') => f a s'
  | (.panic p, s') => (.panic p, s')

instance : Monad (M σ) where
  pure := M.pure
  bind := M.bind

/-- Read the receiver (glue). -/
def get : M σ σ := fun s => (.val s, s)

/-- Update the receiver (glue). -/
def modify (f : σ → σ) : M σ Unit := fun s => (.val (), f s)

/-- `panic(p)` (glue). -/
def throw (p : Panic) : M σ α := fun s => (.panic p, s)

end M

section GoMap
variable {K V : Type} [GoKey K]

/-- `v, ok := index[k]` on the contents of a Go hash map (AnyMap.go:194, :199, :215, :220). -/
def hmLookup (idx : List (K × V)) (k : K) : Option V :=
  (idx.find? (fun e => e.1 == k)).map (·.2)

/-- `index[k] = v` (AnyMap.go:161, :186).  An existing slot is overwritten, including its
key (Go updates the key of float/string/interface slots); otherwise a slot is added. The
list order stands for nothing: iteration order is an arbitrary permutation. -/
def hmAssign (idx : List (K × V)) (k : K) (v : V) : List (K × V) :=
  if idx.any (fun e => e.1 == k) then
    idx.map (fun e => if e.1 == k then (k, v) else e)
  else idx ++ [(k, v)]

/-- `delete(index, k)` (AnyMap.go:236). -/
def hmDelete (idx : List (K × V)) (k : K) : List (K × V) :=
  idx.filter (fun e => !(e.1 == k))

end GoMap

/-- `implAnyMap` (AnyMap.go:108-112).  `ordered` is the slice contents (the memory layout
of the slice is refined in `Verif/OMap/Slice.lean`). -/
structure Impl (K V : Type) where
  ordered : List (K × V)
  index : List (K × V)
  outOrder : Bool
deriving Repr

section Methods
variable {K V : Type} [GoKey K]

/-- `NewAnyMap(size)` (AnyMap.go:99-105).  The size is only a capacity hint (a negative one
would panic in `make`; see `Slice.lean`). -/
def new : Impl K V := { ordered := [], index := [], outOrder := true }

/-- Access to `index` with key `k`: run-time panic when `k` is not hashable, otherwise the
lookup result (AnyMap.go:194, :215, :220). -/
def indexRead (k : K) : M (Impl K V) (Option V) := do
  let s ← M.get
  if GoKey.hashable k then return hmLookup s.index k else M.throw .unhashable

/-- `Has` (AnyMap.go:214-217). -/
def has (k : K) : M (Impl K V) Bool := do
  return (← indexRead k).isSome

/-- `Get` (AnyMap.go:193-196); the `(value, ok)` pair is an `Option`. `GetOpt`
(AnyMap.go:198-204) has the same content. -/
def get (k : K) : M (Impl K V) (Option V) := indexRead k

/-- The scan `for j := range i.ordered { if i.ordered[j].Key == k { return j } }`
(AnyMap.go:223-227), started at offset `j`; `none` when the loop falls through. -/
def scan (k : K) : List (K × V) → Nat → Option Nat
  | [], _ => none
  | e :: es, j => if e.1 == k then some j else scan k es (j + 1)

/-- `IndexOf` (AnyMap.go:219-229). -/
def indexOf (k : K) : M (Impl K V) Int := do
  if (← indexRead k).isNone then
    return -1
  else
    match scan k (← M.get).ordered 0 with
    | some j => return (j : Int)
    | none => M.throw .outOfSync

/-- `At` (AnyMap.go:206-208): Go slice indexing. -/
def at' (j : Int) : M (Impl K V) (K × V) := do
  let s ← M.get
  if 0 ≤ j then
    match s.ordered[j.toNat]? with
    | some e => return e
    | none => M.throw .indexRange
  else M.throw .indexRange

/-- `Len` (AnyMap.go:210-212). -/
def len : M (Impl K V) Nat := do
  return (← M.get).ordered.length

/-- `Delete` (AnyMap.go:231-240).  `append(o[:pos], o[pos+1:]...)` is rendered as
`take pos ++ drop (pos+1)`. -/
def delete (k : K) : M (Impl K V) Unit := do
  let pos ← indexOf k
  if pos > -1 then
    M.modify fun s => { s with
      ordered := s.ordered.take pos.toNat ++ s.ordered.drop (pos.toNat + 1) }
    M.modify fun s => { s with index := hmDelete s.index k }

/-- `Put` (AnyMap.go:159-164). -/
def put (k : K) (v : V) : M (Impl K V) Unit := do
  delete k
  M.modify fun s => { s with index := hmAssign s.index k v }
  M.modify fun s => { s with ordered := s.ordered ++ [(k, v)] }

/-- `PutIfNotNil` (AnyMap.go:166-172): `none` is a nil argument, `some v` a pointer to (or a
non-nil interface holding) `v`. -/
def putIfNotNil (k : K) (v : Option V) : M (Impl K V) Unit :=
  match v with
  | some v => put k v
  | none => M.pure ()

/-- `ReplaceIfExists` (AnyMap.go:182-191). -/
def replaceIfExists (k : K) (v : V) : M (Impl K V) Unit := do
  let pos ← indexOf k
  if pos > -1 then
    M.modify fun s => { s with index := hmAssign s.index k v }
    M.modify fun s => { s with
      ordered := s.ordered.modify pos.toNat (fun e => (e.1, v)) }

/-- `ReplaceOrPut` (AnyMap.go:174-180). -/
def replaceOrPut (k : K) (v : V) : M (Impl K V) Unit := do
  if ← has k then replaceIfExists k v else put k v

/-- `SerializeOrdered` (AnyMap.go:250-253). -/
def serializeOrdered (b : Bool) : M (Impl K V) Unit :=
  M.modify fun s => { s with outOrder := b }

end Methods

/-- The calls a user can make on a map, `ForEach` with a callback that only looks
(for callbacks that call back into the map see `forEach`). -/
inductive Op (K V : Type) where
  | put (k : K) (v : V)
  | putIfNotNil (k : K) (v : Option V)
  | replaceOrPut (k : K) (v : V)
  | replaceIfExists (k : K) (v : V)
  | delete (k : K)
  | serializeOrdered (b : Bool)
  | get (k : K)
  | has (k : K)
  | indexOf (k : K)
  | at' (j : Int)
  | len
  | entries
deriving Repr

/-- What a call returns to the user. -/
inductive Obs (K V : Type) where
  | unit
  | val (v : Option V)
  | bool (b : Bool)
  | int (i : Int)
  | entry (e : K × V)
  | entries (es : List (K × V))
deriving Repr, DecidableEq

section Run
variable {K V : Type} [GoKey K]

/-- A program of a callback: it calls map methods, sees their results, and finally
returns a state `S` of its own. -/
inductive Prog (K V S : Type) where
  | ret (s : S)
  | call (op : Op K V) (next : Out (Obs K V) → Prog K V S)

/-- The loop of `ForEach` (AnyMap.go:242-248): `n` iterations remain, the next index is
`j`; each iteration re-reads `i.ordered[j]`.  `f` is the callback's effect. -/
def forEachLoop {S : Type} (f : S → K → V → M (Impl K V) S) : Nat → Nat → S → M (Impl K V) S
  | 0, _, s => M.pure s
  | n + 1, j, s => do
    let m ← M.get
    match m.ordered[j]? with
    | some e =>
      let s' ← f s e.1 e.2
      forEachLoop f n (j + 1) s'
    | none => M.throw .indexRange

/-- `ForEach` (AnyMap.go:242-248): the number of iterations is fixed on entry. -/
def forEach {S : Type} (f : S → K → V → M (Impl K V) S) (s : S) : M (Impl K V) S := do
  let m ← M.get
  forEachLoop f m.ordered.length 0 s

/-- Dispatch of one user call to the method modelled above. -/
def call : Op K V → M (Impl K V) (Obs K V)
  | .put k v => do put k v; return .unit
  | .putIfNotNil k v => do putIfNotNil k v; return .unit
  | .replaceOrPut k v => do replaceOrPut k v; return .unit
  | .replaceIfExists k v => do replaceIfExists k v; return .unit
  | .delete k => do delete k; return .unit
  | .serializeOrdered b => do serializeOrdered b; return .unit
  | .get k => do return .val (← get k)
  | .has k => do return .bool (← has k)
  | .indexOf k => do return .int (← indexOf k)
  | .at' j => do return .entry (← at' j)
  | .len => do return .int (← len)
  | .entries => do
    return .entries (← forEach (fun acc k v => M.pure (acc ++ [(k, v)])) [])

/-- A whole history of user calls; panics are observed (recovered) and the history goes on
with whatever state the panic left behind. -/
def run : List (Op K V) → Impl K V → List (Out (Obs K V)) × Impl K V
  | [], s => ([], s)
  | op :: ops, s =>
    let r := call op s
    let rest := run ops r.2
    (r.1 :: rest.1, rest.2)

/-- Running a callback program: its calls go to the same map. -/
def Prog.run {S : Type} : Prog K V S → M (Impl K V) S
  | .ret s => M.pure s
  | .call op next => fun m =>
    let r := OMap.call op m
    (next r.1).run r.2

/-- States a user can reach. -/
def Reachable (s : Impl K V) : Prop := ∃ ops, (run ops new).2 = s

end Run

/-! ## JSON -/

/-- Shape of the JSON text produced by a map: an array of `{"key":..,"value":..}` objects
or one object.  Values stay symbolic. -/
inductive Json (K V : Type) where
  | array (es : List (K × V))
  | object (fields : List (String × V))
deriving Repr, DecidableEq

/-- `out[fmt.Sprint(k)] = v` on a Go `map[string]interface{}` (AnyMap.go:124-126). -/
def strAssign {V : Type} (m : List (String × V)) (k : String) (v : V) : List (String × V) :=
  if m.any (fun e => e.1 == k) then m.map (fun e => if e.1 == k then (k, v) else e)
  else m ++ [(k, v)]

/-- `json.Marshal` of a `map[string]interface{}`: fields sorted by key
(AnyMap.go:128). -/
def sortFields {V : Type} (m : List (String × V)) : List (String × V) :=
  m.mergeSort (fun a b => decide (a.1 ≤ b.1))

/-- `MarshalJSON` (AnyMap.go:118-129).  `iter` is the order in which Go happens to iterate
over `index` (any permutation of it), `print` is `fmt.Sprint` on keys. -/
def marshalJSON {K V : Type} (print : K → String) (s : Impl K V) (iter : List (K × V)) : Json K V :=
  if s.outOrder then .array s.ordered
  else .object (sortFields (iter.foldl (fun m e => strAssign m (print e.1) e.2) []))

end Verif.OMap
