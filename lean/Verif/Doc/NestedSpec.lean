import Verif.Doc.HeapSessionSpec

/-! # Vocabulary of C99: a place in a tree, and the places of nested data types -/

namespace Verif.Doc.Spec
open Verif Verif.Doc

/-- The surroundings of a value in a mapping or, if `ordered`, in an ordered mapping, which is a
sequence of mappings with one entry each: its key and the entries before and after it. -/
structure Around where
  ordered : Bool
  before : List (Node × Node)
  key : Node
  after : List (Node × Node)

/-- The tree with a value in these surroundings. -/
def Around.fill (a : Around) (n : Node) : Node :=
  if a.ordered then
    .seq "!!omap" ((a.before ++ (a.key, n) :: a.after).map fun p => .map [p])
  else .map (a.before ++ (a.key, n) :: a.after)

/-- The tree with a value in surroundings within surroundings, the outermost first. -/
def fillAll : List Around → Node → Node
  | [], n => n
  | a :: as, n => a.fill (fillAll as n)

/-- The keys under which the data type that the getters lead to is written. -/
def keysOf : Hop → List String
  | .property k => ["properties", k]
  | .items => ["items"]
  | .facet k k' => ["facets", k, k']

/-- The same for a way into a data type or a document. -/
def wayKeys : Way → List String
  | .inside hs => hs.flatMap keysOf
  | .declared k hs => "types" :: k :: hs.flatMap keysOf

/-- A step on the data type at the end of a way. -/
def wayStep (s : TypeStep) : Way → RootStep
  | .inside hs => .inside hs s
  | .declared k hs => .declared k hs s

/-! ### Reading -/

/-- No entry after the place has the same key text. -/
def Around.last (a : Around) : Prop := ∀ p ∈ a.after, p.1.value ≠ a.key.value

/-- Can this data type be at the end of this way?  Only a data type with facets can be a
property. -/
def fits (hs : List Hop) (t : DT) : Bool := match hs.getLast? with
  | some (.property _) => t.isProperty
  | _ => true

end Verif.Doc.Spec
