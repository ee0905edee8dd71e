import Verif.Doc.HeapTreeSpec

/-!
# Vocabulary: whole programs, from the first constructor on

A program holds data types and documents in numbered variables.  It makes them with constructors and
by reading, works on them, puts a data type that it holds into another object (and then reaches it
only through that object), and takes data types out again.
-/

namespace Verif.Doc

/-! ### Ways into what is held -/

/-- From what is held to a data type in it: through a data type, or through `Types().Get(k)` of a
document. -/
inductive Way where
  | inside (hs : List Hop)
  | declared (k : String) (hs : List Hop)

/-- The data type that the getters lead to. -/
def Heap.find (H : Heap) : Root → Way → Option Addr
  | .type a, .inside hs => H.walk hs a
  | .doc x, .declared k hs => match H.sec x .types with
    | some (.tm m) => match (H.tm m).get k with
      | some a => H.walk hs a
      | none => none
    | _ => none
  | _, _ => none

/-- The same in a value: one getter. -/
def DT.hop : Hop → DT → Option DT
  | .property k, .ext _ (.object _) _ ps _ => ps.get k
  | .items, .ext _ (.array _) _ _ it => it
  | .facet k k', .ext _ _ fs _ _ => (fs.get k).bind fun m => m.get k'
  | _, _ => none

/-- One after the other. -/
def DT.walk : List Hop → DT → Option DT
  | [], t => some t
  | h :: hs, t => (t.hop h).bind (DT.walk hs)

/-- The data type at the end of a way. -/
def RootVal.find : RootVal → Way → Option DT
  | .type t, .inside hs => t.walk hs
  | .doc (.api a), .declared k hs => (a.types.get k).bind (DT.walk hs)
  | .doc (.lib l), .declared k hs => (l.types.get k).bind (DT.walk hs)
  | _, _ => none

/-- The change `g` of the data type at the end of a way. -/
def RootVal.change (g : DT → DT) : RootVal → Way → RootVal
  | .type t, .inside hs => .type (t.within g hs)
  | .doc v, .declared k hs => .doc (v.onTypes fun m => m.change k (DT.within g hs))
  | v, _ => v

/-! ### Putting in and taking out -/

/-- A place for a data type: a property, the items or a facet of a data type, or an entry of the types
of a document. -/
inductive Spot where
  | part (w : Way) (p : Hop)
  | types (k : String)

/-- The call that puts the data type at `b` in: `Properties().Put(k, b)` (only a data type with
facets is a `Property`), `SetItems(b)`, `FacetDefinitions().Get(k).Put(k', b)`. -/
def Heap.place (H : Heap) (c b : Addr) : Hop → List Act
  | .property k => match H.getMap c .properties, H.ty b with
    | some m, .ext _ _ _ _ _ _ => [.edit (.tm m fun y => y.put k b)]
    | _, _ => []
  | .items => [.onType c (.ptr (.setItems (some b)))]
  | .facet k k' => match H.facetAt c k with
    | some m => [.edit (.tm m fun y => y.put k' b)]
    | none => []

/-- The same at a place; `Types().Put(k, b)` for a document. -/
def Heap.placeAt (H : Heap) (r : Root) (b : Addr) : Spot → List Act
  | .part w p => match H.find r w with
    | some c => H.place c b p
    | none => []
  | .types k => match r with
    | .doc x => match H.sec x .types with
      | some (.tm m) => [.edit (.tm m fun y => y.put k b)]
      | _ => []
    | .type _ => []

/-- The value with the value `u` put in. -/
def DT.placed (u : DT) : Hop → DT → DT
  | .property k, t => if u.isProperty then t.onProperties fun m => m.put k u else t
  | .items, .ext h (.array o) fs ps _ => .ext h (.array o) fs ps (some u)
  | .items, t => t
  | .facet k k', t => t.onFacets fun m => m.change k fun y => y.put k' u

/-- The same at a place. -/
def RootVal.placed (u : DT) (v : RootVal) : Spot → RootVal
  | .part w p => v.change (DT.placed u p) w
  | .types k => match v with
    | .doc d => .doc (d.onTypes fun m => m.put k u)
    | .type t => .type t

/-- The step that takes out what is there: `Delete(k)` or `UnsetItems()`. -/
def Hop.drop : Hop → TypeStep
  | .property k => .dropProperty k
  | .items => .unset .items
  | .facet k k' => .dropFacetType k k'

/-- The same at a place. -/
def Spot.drop : Spot → RootStep
  | .part (.inside hs) p => .inside hs p.drop
  | .part (.declared k hs) p => .declared k hs p.drop
  | .types k => .doc (.dropType k)

/-- The data type at a place. -/
def Heap.at (H : Heap) (r : Root) : Spot → Option Addr
  | .part w p => (H.find r w).bind fun c => H.hop c p
  | .types k => H.find r (.declared k [])

/-- The same in a value. -/
def RootVal.at (v : RootVal) : Spot → Option DT
  | .part w p => (v.find w).bind (DT.hop p)
  | .types k => v.find (.declared k [])

/-! ### Programs -/

/-- A new object: `NewRamlApi`/`NewLibrary`, a constructor of a data type, `TypeSortingHat`. -/
inductive Make where
  | api
  | lib
  | type (k : Kind)
  | read (v : Node)

/-- The call. -/
def Make.act : Make → Act
  | .api => .newApi
  | .lib => .newLib
  | .type k => .newType k
  | .read v => .parseType v

/-- The object that it returns, if it returns one. -/
def Make.root (X : Xyml) (H : Heap) : Make → Option Root
  | .api => some (.doc (.api H.next))
  | .lib => some (.doc (.lib H.next))
  | .type k => some (.type (H.storeT (DT.new k)).1)
  | .read v => match hat X v with
    | .ok t => some (.type (H.storeT t).1)
    | _ => none

/-- Its value. -/
def Make.val (X : Xyml) : Make → Option RootVal
  | .api => some (.doc (.api APISpec.new))
  | .lib => some (.doc (.lib Library.new))
  | .type k => some (.type (DT.new k))
  | .read v => match hat X v with
    | .ok t => some (.type t)
    | _ => none

/-- One line of a program: a new variable; a step on what variable `i` holds; what variable `j` holds
is put into what `i` holds, and `j` is not used again; what is at a place in `i` is taken out into a
new variable. -/
inductive Cmd where
  | make (m : Make)
  | work (i : Nat) (s : RootStep)
  | give (i j : Nat) (p : Spot)
  | take (i : Nat) (p : Spot)

/-- What a variable holds. -/
def held {α : Type} (l : List (Option α)) (i : Nat) : Option α := (l[i]?).join

/-- One line, on the objects. -/
def Cmd.run (X : Xyml) (S : Heap × List (Option Root)) : Cmd → Heap × List (Option Root)
  | .make m => (S.1.act X m.act, S.2 ++ [m.root X S.1])
  | .work i s => match held S.2 i with
    | some r => (S.1.run X (s.acts X S.1 r), S.2)
    | none => S
  | .give i j p => if i = j then S else match held S.2 i, held S.2 j with
    | some r, some (.type b) => (S.1.run X (S.1.placeAt r b p), S.2.set j none)
    | _, _ => S
  | .take i p => match held S.2 i with
    | some r => (S.1.run X (p.drop.acts X S.1 r), S.2 ++ [(S.1.at r p).map .type])
    | none => S

/-- One line, on values. -/
def Cmd.eval (X : Xyml) (vs : List (Option RootVal)) : Cmd → List (Option RootVal)
  | .make m => vs ++ [m.val X]
  | .work i s => match held vs i with
    | some v => vs.set i (some (v.step X s))
    | none => vs
  | .give i j p => if i = j then vs else match held vs i, held vs j with
    | some v, some (.type u) => (vs.set i (some (v.placed u p))).set j none
    | _, _ => vs
  | .take i p => match held vs i with
    | some v => vs.set i (some (v.step X p.drop)) ++ [(v.at p).map .type]
    | none => vs

/-- A program, on the objects. -/
def runCmds (X : Xyml) (cs : List Cmd) : Heap × List (Option Root) :=
  cs.foldl (Cmd.run X) (Heap.start, [])

/-- A program, on values. -/
def evalCmds (X : Xyml) (cs : List Cmd) : List (Option RootVal) := cs.foldl (Cmd.eval X) []

end Verif.Doc
