import Verif.OMap.Model

/-! Concrete Go key types: `string`, and an `interface{}` sample type with the awkward cases. -/

namespace Verif.OMap

/-- Go `string` keys: the 20 string-keyed generated maps (e.g. StringMap.go:99-112). -/
instance : GoKey String where
  hashable _ := true

instance : StrictGoKey String where
  eq_iff := by simp
  hash _ := rfl

/-- Sample of dynamic values an `interface{}` key of `AnyMap` (AnyMap.go:99-112) can hold:
strings, integers, float NaN (never equal to itself), the two float zeros (equal to each
other), and slices (not hashable).  Simplification: other dynamic types behave like one of
these. -/
inductive AnyKey where
  | str (s : String)
  | int (i : Int)
  | nan
  | zero (neg : Bool)
  | slice
deriving DecidableEq, Repr

/-- Go `==` on interface values (AnyMap.go:224). -/
def AnyKey.goEq : AnyKey → AnyKey → Bool
  | .str a, .str b => a == b
  | .int a, .int b => a == b
  | .zero _, .zero _ => true
  | _, _ => false

instance : GoKey AnyKey where
  beq := AnyKey.goEq
  hashable k := match k with
    | .slice => false
    | _ => true

instance : LawfulGoKey AnyKey where
  symm {a b} h := by
    cases a <;> cases b <;> simp_all [BEq.beq, AnyKey.goEq]
  trans {a b c} h1 h2 := by
    cases a <;> cases b <;> cases c <;> simp_all [BEq.beq, AnyKey.goEq]

/-- `fmt.Sprint` on the sample keys (AnyMap.go:125). -/
def AnyKey.print : AnyKey → String
  | .str s => s
  | .int i => toString i
  | .nan => "NaN"
  | .zero true => "-0"
  | .zero false => "0"
  | .slice => "[]"

instance {K : Type} [GoKey K] [StrictGoKey K] : LawfulGoKey K where
  symm h := by rw [StrictGoKey.eq_iff] at *; exact h.symm
  trans h1 h2 := by rw [StrictGoKey.eq_iff] at *; exact h1.trans h2

end Verif.OMap
