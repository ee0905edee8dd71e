import Verif.Doc.HeapRoots
import Verif.Props.Exact
import Verif.Props.TypeObjLoad

/-!
# Programs on data types and documents at any depth

What a program that works on several data types and documents by turns leaves in each of them.
-/

namespace Verif.Props
open Verif.Doc Relation

/-! ## C81: programs on trees -/

/-- Trees that share nothing, worked on by turns and at any depth: each stays a tree, they still
share nothing, and each is worth, and written as, what its own steps make of its value. -/
theorem C81_programs {X : Xyml} {H : Heap} (hr : Reachable X H) {held : Root → Prop}
    {vals : Root → RootVal} (hlt : ∀ r, held r → r.obj.addr < H.next)
    (htree : ∀ r, held r → H.Tree r.obj) (hval : ∀ r, held r → ∃ n, H.rootVal n r = some (vals r))
    (hap : ∀ r r', held r → held r' → r ≠ r' → H.Apart r.obj r'.obj)
    (ps : List (Root × RootStep)) (hps : ∀ p ∈ ps, held p.1) :
    Reachable X (H.runRoots X ps) ∧
    (∀ r, held r → (H.runRoots X ps).Tree r.obj ∧
      ∃ n, (H.runRoots X ps).rootVal n r =
          some ((rootSteps r ps).foldl (RootVal.step X) (vals r)) ∧
        (H.runRoots X ps).rootWrite X n r =
          some (((rootSteps r ps).foldl (RootVal.step X) (vals r)).toYAML X)) ∧
    ∀ r r', held r → held r' → r ≠ r' → (H.runRoots X ps).Apart r.obj r'.obj := by
  have h := roots_run (X := X) ps hps
    (⟨fun r h => ⟨hr, hlt r h, htree r h, hval r h⟩, hap⟩ : RootsSim X held H vals)
  have hreach : Reachable X (H.runRoots X ps) := by
    cases ps with
    | nil => exact hr
    | cons p ps => exact (h.sim p.1 (hps p List.mem_cons_self)).reach
  refine ⟨hreach, fun r hx => ⟨(h.sim r hx).tree, ?_⟩, h.apart⟩
  obtain ⟨n, hn⟩ := (h.sim r hx).val
  refine ⟨n, hn, rootWrite_eq hn⟩

/-- A new API document is a tree. -/
theorem C81_new_api (X : Xyml) (H : Heap) : (H.act X .newApi).Tree (.api H.next) :=
  tree_newApi H

example (X : Xyml) : ((nestHeap X).act X .newApi).Tree (.api 4) := C81_new_api X (nestHeap X)

/-- A new library is a tree. -/
theorem C81_new_lib (X : Xyml) (H : Heap) : (H.act X .newLib).Tree (.lib H.next) :=
  tree_newLib H

section examples

/-- An object type at 1 and an API document at 2. -/
theorem typeDoc_facts (X : Xyml) :
    Reachable X (Heap.start.run X [.newType .object, .newApi]) ∧
    (Heap.start.run X [.newType .object, .newApi]).Tree (.ty 1) ∧
    (Heap.start.run X [.newType .object, .newApi]).Tree (.api 2) ∧
    (Heap.start.run X [.newType .object, .newApi]).Apart (.ty 1) (.api 2) := by
  have h1 : Reachable X (Heap.start.act X (.newType .object)) := .act _ .start trivial
  have h2 := C75_new_api h1
  refine ⟨.act .newApi h1 trivial, ?_, C81_new_api X _, h2.2.2 (.ty 1) (show 1 < 2 by decide)⟩
  exact sameFrom_tree (extends_sameFrom h1.closed (quiet_newApi _).only.extends
    (show 1 < 2 by decide)) (storeT_tree (DT.new .object) Heap.start)

/-- The premises of `C81_programs`, for these two: a property is put in and then described, a type is
declared and loaded into, by turns. -/
example (X : Xyml) (u v w : Node) :
    ∃ n, ((Heap.start.run X [.newType .object, .newApi]).runRoots X
        [(.type 1, .inside [] (.putProperty "p" v)), (.doc (.api 2), .doc (.putType "T" w)),
          (.type 1, .inside [.property "p"] (.call (.setDescription "d"))),
          (.doc (.api 2), .declared "T" [.items] (.load u))]).rootVal n (.type 1) =
      some (((RootVal.type (DT.new .object)).step X (.inside [] (.putProperty "p" v))).step X
        (.inside [.property "p"] (.call (.setDescription "d")))) := by
  obtain ⟨hr, o1, o2, ha⟩ := typeDoc_facts X
  obtain ⟨_, n, hn, _⟩ := (C81_programs hr (held := fun r => r = .type 1 ∨ r = .doc (.api 2))
    (vals := fun r => match r with
      | .type _ => .type (DT.new .object)
      | .doc x => .doc (.new x))
    (by rintro r (rfl | rfl); exacts [show 1 < 8 by decide, show 2 < 8 by decide])
    (by rintro r (rfl | rfl); exacts [o1, o2])
    (by rintro r (rfl | rfl); exacts [⟨1, rfl⟩, ⟨0, rfl⟩])
    (by
      rintro r r' (rfl | rfl) (rfl | rfl) hne
      exacts [absurd rfl hne, ha, fun o h1 h2 => ha o h2 h1, absurd rfl hne])
    [(.type 1, .inside [] (.putProperty "p" v)), (.doc (.api 2), .doc (.putType "T" w)),
      (.type 1, .inside [.property "p"] (.call (.setDescription "d"))),
      (.doc (.api 2), .declared "T" [.items] (.load u))]
    (by
      intro p hp
      simp only [List.mem_cons, List.not_mem_nil, or_false] at hp
      rcases hp with rfl | rfl | rfl | rfl <;> simp)).2.1 (.type 1) (Or.inl rfl)
  exact ⟨n, hn⟩

/-- The descriptions of the properties, at the top or in the items. -/
def propertyDescriptions : DT → List (String × Option String)
  | .ext _ (.object _) _ ps _ => ps.ents.map fun e => (e.1, match e.2 with
    | .ext h _ _ _ _ => h.description
    | _ => none)
  | .ext _ (.array _) _ _ (some t) => propertyDescriptions t
  | _ => []

/-- What the steps on the object type make of it: a described property. -/
example : (match ((RootVal.type (DT.new .object)).step Xyml.std
        (.inside [] (.putProperty "p" (.str "string")))).step Xyml.std
        (.inside [.property "p"] (.call (.setDescription "d"))) with
      | .type t => propertyDescriptions t
      | _ => []) = [("p", some "d")] := by
  decide +kernel

/-- Sharing nothing is needed: the object type at 1 is the items of the array type at 3, both are
trees, and a description given to the property of the one shows in the other. -/
example : (((nestHeap Xyml.std).val 3 3).map propertyDescriptions = some [("p", none)]) ∧
    ((((nestHeap Xyml.std).runRoots Xyml.std
      [(.type 1, .inside [.property "p"] (.call (.setDescription "d")))]).val 3 3).map
        propertyDescriptions = some [("p", some "d")]) := by
  constructor <;> decide +kernel

end examples

end Verif.Props
