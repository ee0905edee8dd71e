import Verif.Yaml
import Verif.OMap.Spec

/-!
# Common parts of the document layer

Outcomes, the dictionary type that layer 2 uses, the third-party scalar conversions, and the
`assign` helpers.
-/

namespace Verif.Doc

/-- Why a parse was rejected.  Simplification: the Go errors are texts with positions; only the
place in the code that raised them is kept. -/
inductive Err where
  /-- `xyml.RequireString` (util/assign/string.go:9, :19 and the map loaders) -/
  | notString
  /-- `xyml.MapForEach` on a node that is no mapping -/
  | notMap
  /-- `xyml.SequenceForEach` on a node that is no sequence -/
  | notSeq
  /-- `xyml.ToBoolean` -/
  | notBool
  /-- `xyml.ToInt` -/
  | notInt
  /-- `xyml.ToFloat` -/
  | notFloat
  /-- `xyml.ToString` -/
  | notText
  /-- `xyml.ToScalarValue` -/
  | notScalar
  /-- fn-sorting-hat-type.go:32, :140 -/
  | multiType
  /-- fn-sorting-hat-type.go:144 -/
  | badTypeKey
  /-- fn-sorting-hat-type.go:57 -/
  | badTypeDef
  /-- fn-sorting-hat-example.go:44 -/
  | noExample
  /-- fn-sorting-hat-date-format.go:30 -/
  | badFormat
deriving DecidableEq, Repr

/-- Run-time panics the parser can raise. -/
inductive Crash where
  /-- index out of range in `k[0]` for an empty key: in-components.go:27, APISpec.go:382,
  Library.go:230, x-gen-ex-string.go:154 -/
  | emptyKey
  /-- failed interface conversion `val.(raml.Property)`: util-dt-map.go:36 -/
  | notProperty
deriving DecidableEq, Repr

/-- Outcome of a parsing call. -/
inductive Res (α : Type) where
  | ok (a : α)
  | err (e : Err)
  | panic (c : Crash)
deriving DecidableEq, Repr

/-- `if err != nil { return err }` (glue). -/
def Res.bind {α β : Type} : Res α → (α → Res β) → Res β
  | .ok a, f => f a
  | .err e, _ => .err e
  | .panic c, _ => .panic c

instance : Monad Res where
  pure := .ok
  bind := Res.bind

/-- Apply a function to a successful outcome (glue). -/
def Res.map {α β : Type} (f : α → β) (r : Res α) : Res β := r.bind fun a => .ok (f a)

/-- Did the call return normally without an error? (glue, used in statements) -/
def Res.isOk {α : Type} : Res α → Bool
  | .ok _ => true
  | _ => false

/-- Did the call panic? (glue, used in statements) -/
def Res.isPanic {α : Type} : Res α → Bool
  | .panic _ => true
  | _ => false

/-- An ordered map as its user sees it: the entries in order and the `SerializeOrdered` flag.
Stands for every `raml.*Map` (v0/pkg/raml/AnyMap.go:99-112 and its 20 siblings); layer 1 proves
that the implementation behaves like this (`Verif.Props.C01_histories_refine_dictionary`). -/
structure OM (K V : Type) where
  ents : List (K × V)
  omap : Bool
deriving DecidableEq, Repr

namespace OM
variable {K V : Type}

/-- `New*Map(n)` (AnyMap.go:99-105), followed by `SerializeOrdered(b)`. -/
def empty (b : Bool) : OM K V := ⟨[], b⟩

/-- `Put` (AnyMap.go:159-164): the key is moved to / added at the end. -/
def put [DecidableEq K] (m : OM K V) (k : K) (v : V) : OM K V :=
  ⟨m.ents.filter (fun e => !(e.1 == k)) ++ [(k, v)], m.omap⟩

/-- `Len` (AnyMap.go:210-212). -/
def len (m : OM K V) : Nat := m.ents.length

/-- `Has` (AnyMap.go:214-217). -/
def has [DecidableEq K] (m : OM K V) (k : K) : Bool := m.ents.any fun e => e.1 == k

/-- `Get` (AnyMap.go:193-196). -/
def get [DecidableEq K] (m : OM K V) (k : K) : Option V :=
  (m.ents.find? fun e => e.1 == k).map (·.2)

/-- `m.ForEach(func(k, v) { out.Put(k, v) })` (in-components.go:23, :59; APISpec.go:341-343). -/
def putAll [DecidableEq K] (out : OM K V) (es : List (K × V)) : OM K V :=
  es.foldl (fun m e => m.put e.1 e.2) out

/-- `PutIfNotNil` (AnyMap.go:166-172), `none` being nil. -/
def putOpt [DecidableEq K] (m : OM K V) (k : K) : Option V → OM K V
  | some v => m.put k v
  | none => m

end OM

/-- `ToYAML` of a generated map, given the rendered entries (AnyMap.go:131-157; same as
`Verif.OMap.toYAML`). -/
def renderPairs (omap : Bool) (ps : List (Node × Node)) : Node :=
  if omap then .seq omapTag (ps.map fun p => .map [p]) else .map ps

/-- A 64-bit float, kept as an opaque literal.  Simplification: NaN is an ordinary value. -/
structure Flt where
  lit : String
deriving DecidableEq, Repr

/-- Dynamic values that `xyml.ToScalarValue` returns and that are used as `AnyMap` keys
(APISpec.go:374, Library.go:239).  Simplification: NaN keys are covered by layer 1 only. -/
inductive Scalar where
  | str (s : String)
  | int (i : Int)
  | bool (b : Bool)
  | flt (f : Flt)
  | null
deriving DecidableEq, Repr

/-- Third-party scalar conversions (package `xyml`, not in the sandbox).  Reading: `ToInt`,
`ToFloat`, `ToBoolean`, `ToString`, `ToScalarValue`; writing: what `ToYamlNode` makes of a
number, a boolean, and a map key. -/
structure Xyml where
  toInt : Node → Option Int
  toFlt : Node → Option Flt
  toBool : Node → Option Bool
  toStr : Node → Option String
  toScalar : Node → Option Scalar
  ofInt : Int → Node
  ofFlt : Flt → Node
  ofBool : Bool → Node
  ofKey : Scalar → Node

/-- `AnyMap.ToYAML` (AnyMap.go:131-157) for values that are rendered already. -/
def renderAny (X : Xyml) (m : OM Scalar Node) : Node :=
  renderPairs m.omap (m.ents.map fun e => (X.ofKey e.1, e.2))

/-- `ToYAML` of a string-keyed map (StringMap.go etc., same lines as AnyMap.go:131-157). -/
def renderStrMap {V : Type} (vn : V → Node) (m : OM String V) : Node :=
  renderPairs m.omap (m.ents.map fun e => (Node.str e.1, vn e.2))

/-- `xyml.ToYamlNode` of a slice. -/
def renderList {α : Type} (f : α → Node) (l : List α) : Node := .seq seqTag (l.map f)

/-! ### Iteration (`xyml.MapForEach`, `xyml.SequenceForEach`) -/

/-- The loop inside `xyml.MapForEach`: visit in order, stop at the first error. -/
def forPairs {σ : Type} (f : Node → Node → σ → Res σ) : List (Node × Node) → σ → Res σ
  | [], s => .ok s
  | p :: ps, s => (f p.1 p.2 s).bind (forPairs f ps)

/-- `xyml.MapForEach`. -/
def mapForEach {σ : Type} (f : Node → Node → σ → Res σ) : Node → σ → Res σ
  | .map ps, s => forPairs f ps s
  | _, _ => .err .notMap

/-- The loop inside `xyml.SequenceForEach`. -/
def forItems {σ : Type} (f : Node → σ → Res σ) : List Node → σ → Res σ
  | [], s => .ok s
  | n :: ns, s => (f n s).bind (forItems f ns)

/-- `xyml.SequenceForEach`. -/
def seqForEach {σ : Type} (f : Node → σ → Res σ) : Node → σ → Res σ
  | .seq _ ns, s => forItems f ns s
  | _, _ => .err .notSeq

/-! ### The `assign` helpers (v0/internal/util/assign) -/

/-- `xyml.RequireString` followed by reading `.Value`: `AsString`, `AsStringPtr`
(string.go:8-27). -/
def asString (v : Node) : Res String := if v.isStr then .ok v.value else .err .notString

/-- `AsBool`, `AsBoolPtr` (bool.go:9-28). -/
def asBool (X : Xyml) (v : Node) : Res Bool :=
  match X.toBool v with | some b => .ok b | none => .err .notBool

/-- `AsInt64Ptr` (int64.go:8-16). -/
def asInt (X : Xyml) (v : Node) : Res Int :=
  match X.toInt v with | some i => .ok i | none => .err .notInt

/-- `AsFloat64Ptr` (float64.go:8-16). -/
def asFlt (X : Xyml) (v : Node) : Res Flt :=
  match X.toFlt v with | some f => .ok f | none => .err .notFloat

/-- `ToUint`, `AsUintPtr` (uint.go:9-29): `uint(val)` of an `int64` wraps modulo 2^64. -/
def asUint (X : Xyml) (v : Node) : Res Nat :=
  (asInt X v).map fun i => (i % 18446744073709551616).toNat

/-- `AsStringList` (string-list.go:8-26): a fresh list, never nil. -/
def asStringList (v : Node) : Res (List String) :=
  seqForEach (fun n acc => (asString n).map fun s => acc ++ [s]) v []

/-- `xyml.ToScalarValue` as used for extra facets (APISpec.go:374, :439; Library.go:239). -/
def asScalar (X : Xyml) (k : Node) : Res Scalar :=
  match X.toScalar k with | some s => .ok s | none => .err .notScalar

/-- `UnmarshalUntypedMapRAML` (util-untyped-map.go:10-20), same as `assign.ToUntypedMap`
(any-map.go:26-36). -/
def loadUntyped (m : OM String Node) (v : Node) : Res (OM String Node) :=
  mapForEach (fun k v m => (asString k).map fun s => m.put s v) v m

/-- `UnmarshalStringMapRAML` (util-str-map.go:9-23). -/
def loadStrings (m : OM String String) (v : Node) : Res (OM String String) :=
  mapForEach (fun k v m => (asString k).bind fun s => (asString v).map fun t => m.put s t) v m

/-- `raml.Annotation` is an `UntypedMap` (annotation.go:7-9); its values are YAML nodes after
parsing. -/
abbrev Ann := OM String Node

/-- Reading one annotation value into a fresh map: `raml.NewUntypedMap` (flag true) and
`UnmarshalUntypedMapRAML` (in-components.go:31-35, APISpec.go:383-386). -/
def loadAnn (v : Node) : Res Ann := loadUntyped (OM.empty true) v

/-- The first character of a string, as in `k.Value[0]`; `none` is the run-time panic on `""`.
Simplification: Go looks at the first byte; the code only compares it with the ASCII characters
`(` and `/`, for which byte and character agree. -/
def firstChar (s : String) : Option Char := s.toList.head?

end Verif.Doc
