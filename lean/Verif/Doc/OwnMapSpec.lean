import Verif.Doc.OwnMap
import Verif.Doc.WriteSpec

/-! # Vocabulary for C97

The order in which entries come out when every second one is taken, going round. -/

namespace Verif.Doc.Spec
open Verif.Doc

/-- Going round a list: the first is passed over and goes to the end, the next is taken, and so on
until none is left. -/
def everySecond {α : Type} : List α → List α
  | [] => []
  | [a] => [a]
  | a :: b :: l => b :: everySecond (l ++ [a])
termination_by l => l.length

/-- The names written before the extra facets of a data type. -/
def leading : List Scalar :=
  [.str "default", .str "displayName", .str "description", .str "type"]

/-- No annotation of the type has one of the leading names. -/
def PlainAnnotations : DT → Prop
  | .basic _ _ _ => True
  | .ext h _ _ _ _ => ∀ e ∈ h.annotations.ents, Scalar.str e.1 ∉ leading

/-- What a data type without extra facets writes into a new map. -/
def bare (X : Xyml) (t : DT) : OM Scalar Node :=
  ((t.withExtra (OM.empty true)).marshalRAML X (OM.empty false)).1

/-- What an example writes besides its extra entries, in order. -/
def exampleEntries (X : Xyml) (e : Example) : List (Scalar × Node) :=
  (e.displayName.map fun s => (Scalar.str "displayName", Node.str s)).toList ++
  (e.description.map fun s => (Scalar.str "description", Node.str s)).toList ++
  (e.value.map fun v => (Scalar.str "value", v.render X)).toList ++
  (if e.strict then [] else [(Scalar.str "strict", X.ofBool false)]) ++
  e.annotations.ents.map fun a => (Scalar.str a.1, renderStrMap id a.2)

end Verif.Doc.Spec
