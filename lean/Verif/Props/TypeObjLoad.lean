import Verif.Doc.HeapTree
import Verif.Props.Exact

/-!
# Loading into a data type object
-/

namespace Verif.Props
open Verif.Doc Relation

/-! ## C80: loading into an object is loading into its value -/

/-- Loading a definition into a data type object that owns its maps does to its value what loading
does to a value, with the same outcome, also when it fails midway; and the object owns its maps
again. -/
theorem C80_load {X : Xyml} {H : Heap} (hr : Reachable X H) {a : Addr} (ha : a < H.next)
    (ho : H.OwnMaps a) {n : Nat} {t : DT} (hv : H.val n a = some t) (v : Node) :
    (∃ n', (H.act X (.loadType a v)).val n' a = some (t.load X v).1) ∧
    (H.typeLoad X a v).2 = (t.load X v).2 ∧
    (H.act X (.loadType a v)).OwnMaps a := by
  have h := typeLoad_sim X v (⟨hr.closed, ha, ho, hr.sound a, n, hv⟩ : TypeSim a H t)
  exact ⟨h.1.val, h.2, h.1.own⟩

/-- So it is then written as that value. -/
theorem C80_load_written {X : Xyml} {H : Heap} (hr : Reachable X H) {a : Addr} (ha : a < H.next)
    (ho : H.OwnMaps a) {n : Nat} {t : DT} (hv : H.val n a = some t) (v : Node) :
    ∃ n', (H.act X (.loadType a v)).write X n' a = some ((t.load X v).1.toYAML X) :=
  let ⟨n', hn⟩ := (C80_load hr ha ho hv v).1
  ⟨n', by rw [write_eq, hn]; rfl⟩

/-- Loading several definitions in turn. -/
theorem C80_loads {X : Xyml} {H : Heap} (hr : Reachable X H) {a : Addr} (ha : a < H.next)
    (ho : H.OwnMaps a) {n : Nat} {t : DT} (hv : H.val n a = some t) (vs : List Node) :
    (∃ n', (H.run X (vs.map (.loadType a))).val n' a =
      some (vs.foldl (fun t v => (t.load X v).1) t)) ∧
    (H.run X (vs.map (.loadType a))).OwnMaps a := by
  induction vs generalizing H n t with
  | nil => exact ⟨⟨n, hv⟩, ho⟩
  | cons v vs ih =>
    obtain ⟨⟨n', h1⟩, -, h3⟩ := C80_load hr ha ho hv v
    exact ih (Reachable.act (.loadType a v) hr ha)
      (Nat.lt_of_lt_of_le ha (loads_typeLoad X a v H ha).quiet.only.next) h3 h1

/-- A new data type is a tree, so it owns its maps. -/
theorem C80_new_type (X : Xyml) (H : Heap) (k : Kind) :
    ∃ a, H.next ≤ a ∧ a < (H.act X (.newType k)).next ∧
      (∃ n, (H.act X (.newType k)).val n a = some (DT.new k)) ∧
      (H.act X (.newType k)).Tree (.ty a) ∧ (H.act X (.newType k)).OwnMaps a :=
  have hs := storeT_ok (DT.new k) H
  have ht := storeT_tree (DT.new k) H
  ⟨_, hs.above.self.1, hs.above.self.2, hs.val, ht, ht.ownMaps⟩

example (X : Xyml) : ∃ a, ((nestHeap X).act X (.newType .object)).Tree (.ty a) :=
  (C80_new_type X _ .object).imp fun _ h => h.2.2.2.1

/-- So is a data type read from a definition, with all the data types in it. -/
theorem C80_read_type (X : Xyml) (H : Heap) {v : Node} {t : DT} (h : hat X v = .ok t) :
    ∃ a, H.next ≤ a ∧ a < (H.act X (.parseType v)).next ∧
      (∃ n, (H.act X (.parseType v)).val n a = some t) ∧
      (H.act X (.parseType v)).Tree (.ty a) ∧
      ∀ b, (H.act X (.parseType v)).Reaches (.ty a) (.ty b) →
        (H.act X (.parseType v)).OwnMaps b := by
  have e : H.act X (.parseType v) = (H.storeT t).2 := by simp only [Heap.act, h]
  rw [e]
  have hs := storeT_ok t H
  have ht := storeT_tree t H
  exact ⟨_, hs.above.self.1, hs.above.self.2, hs.val, ht, fun b hb => (ht.sub hb).ownMaps⟩

example : ∃ a, (Heap.start.act Xyml.std (.parseType (.map [(.str "items", .str "string")]))).Tree
    (.ty a) := by
  obtain ⟨t, h⟩ := Res.isOk_iff.mp
    (show (hat Xyml.std (.map [(.str "items", .str "string")])).isOk = true from rfl)
  exact (C80_read_type Xyml.std Heap.start h).imp fun _ h => h.2.2.2.1

/-- Loading XML settings that only the data type has is setting the XML settings to the loaded
ones. -/
theorem C80_load_xml {X : Xyml} {H : Heap} (hr : Reachable X H) {a m : Addr} {n : Nat} {t : DT}
    (hv : H.val n a = some t) (hg : H.get a .xml = some (.xo m)) (ho : H.OwnedBy (.ty a) (.xo m))
    (v : Node) :
    ∃ t', t.apply (.setXML (some ((H.xo m).load X v).1)) = some t' ∧
      (H.act X (.loadXML m v)).val (n + 1) a = some t' :=
  xo_exact hr.closed hv hg ho _

example (X : Xyml) (v : Node) : ∃ t t', (partsHeap X).val 2 1 = some t ∧
    t.apply (.setXML (some (((partsHeap X).xo 6).load X v).1)) = some t' ∧
    ((partsHeap X).act X (.loadXML 6 v)).val 3 1 = some t' := by
  obtain ⟨t', h⟩ := C80_load_xml (parts_reachable X) (n := 2) (a := 1) (m := 6) rfl rfl
    (parts_owned X (by decide)) v
  exact ⟨_, t', rfl, h⟩

/-- The same for the example. -/
theorem C80_load_example {X : Xyml} {H : Heap} (hr : Reachable X H) {a m : Addr} {n : Nat} {t : DT}
    (hv : H.val n a = some t) (hg : H.get a .example = some (.ex m))
    (ho : H.OwnedBy (.ty a) (.ex m)) (v : Node) :
    ∃ t', t.apply (.setExample (some ((H.ex m).load X v).1)) = some t' ∧
      (H.act X (.loadEx m v)).val (n + 1) a = some t' :=
  ex_exact hr.closed hv hg ho _

section examples

/-- The premises of `C80_load`: an object type that owns its maps, with a property type that owns its
own. -/
example (X : Xyml) : Reachable X (nestHeap X) ∧ (nestHeap X).OwnMaps 1 ∧ (nestHeap X).OwnMaps 2 ∧
    (nestHeap X).maps 1 = [.xm 1, .am 1, .em 1, .fm 1, .tm 1] ∧
    ∃ t, (nestHeap X).val 2 1 = some t := by
  refine ⟨nest_reachable X, ?_, ?_, rfl, _, rfl⟩
  · intro s hs o hro hp
    replace hs : s ∈ [Obj.xm 1, .am 1, .em 1, .fm 1, .tm 1] := hs
    have ho := nest_object X hro
    simp only [List.mem_cons, List.not_mem_nil, or_false] at ho
    rcases ho with rfl | rfl | rfl | rfl | rfl | rfl | rfl | rfl | rfl | rfl | rfl
    · rfl
    any_goals cases hp; done
    · have : (nestHeap X).refs (.tm 1) = [.ty 2] := rfl
      rw [Heap.Points, this] at hp
      revert s; decide
    · have : (nestHeap X).refs (.ty 2) = [.xm 2, .am 2, .em 2, .fm 2] := rfl
      rw [Heap.Points, this] at hp
      revert s; decide
  · intro s hs o hro hp
    have ho : o ∈ [Obj.ty 2, .xm 2, .am 2, .em 2, .fm 2] := by
      refine reaches_mem (fun x hx y hy => ?_) hro (by decide)
      simp only [List.mem_cons, List.not_mem_nil, or_false] at hx
      rcases hx with rfl | rfl | rfl | rfl | rfl
      · have : (nestHeap X).refs (.ty 2) = [.xm 2, .am 2, .em 2, .fm 2] := rfl
        rw [this] at hy
        revert y; decide
      all_goals cases hy
    simp only [List.mem_cons, List.not_mem_nil, or_false] at ho
    rcases ho with rfl | rfl | rfl | rfl | rfl
    · rfl
    all_goals cases hp

/-- Loading into the object type, once, and twice. -/
example (X : Xyml) (v : Node) : ∃ t n, (nestHeap X).val 2 1 = some t ∧
    ((nestHeap X).act X (.loadType 1 v)).val n 1 = some (t.load X v).1 := by
  obtain ⟨⟨n, h⟩, -⟩ := C80_load (nest_reachable X) (show 1 < 4 by decide)
    (fun s hs => nest_owned X hs) (n := 2) rfl v
  exact ⟨_, n, rfl, h⟩

example (X : Xyml) (v : Node) : ∃ t n, (nestHeap X).val 2 1 = some t ∧
    ((nestHeap X).act X (.loadType 1 v)).write X n 1 = some ((t.load X v).1.toYAML X) := by
  obtain ⟨n, h⟩ := C80_load_written (nest_reachable X) (show 1 < 4 by decide)
    (fun s hs => nest_owned X hs) (n := 2) rfl v
  exact ⟨_, n, rfl, h⟩

example (X : Xyml) (v w : Node) : ∃ t n, (nestHeap X).val 2 1 = some t ∧
    ((nestHeap X).run X [.loadType 1 v, .loadType 1 w]).val n 1 =
      some ((t.load X v).1.load X w).1 := by
  obtain ⟨⟨n, h⟩, -⟩ := C80_loads (nest_reachable X) (show 1 < 4 by decide)
    (fun s hs => nest_owned X hs) (n := 2) rfl [v, w]
  exact ⟨_, n, rfl, h⟩

/-- How many annotations the property types have. -/
def propertyAnnotationCounts (t : Option DT) : Option (List Nat) :=
  t.map fun t => (propertyAnnotations t).map fun m => m.ents.length

/-- Owning is needed in `C80_load`: the object type and its property have the same annotations, and
the loaded annotation shows in the property too, though not when it is loaded into the value. -/
example : propertyAnnotationCounts (((commonHeap Xyml.std).val 2 1).map
      fun t => (t.load Xyml.std (.map [(.str "(x)", .map [])])).1) = some [0] ∧
    propertyAnnotationCounts
      (((commonHeap Xyml.std).act Xyml.std (.loadType 1 (.map [(.str "(x)", .map [])]))).val 2 1) =
        some [1] := by
  constructor <;> decide +kernel

/-- A string type read with XML settings and an example. -/
def dressed : Node :=
  .map [(.str "type", .str "string"), (.str "xml", .map []), (.str "example", .str "e")]

/-- What it is read as. -/
def dressedType : DT := match hat Xyml.std dressed with
  | .ok t => t
  | _ => DT.new .string

/-- The premises of `C80_load_xml` and `C80_load_example`: the type that was read has its own. -/
example : ∃ a m m', (Heap.start.act Xyml.std (.parseType dressed)).get a .xml = some (.xo m) ∧
    (Heap.start.act Xyml.std (.parseType dressed)).get a .example = some (.ex m') ∧
    (Heap.start.act Xyml.std (.parseType dressed)).OwnedBy (.ty a) (.xo m) ∧
    (Heap.start.act Xyml.std (.parseType dressed)).OwnedBy (.ty a) (.ex m') := by
  have hok : (match hat Xyml.std dressed with | .ok _ => true | _ => false) = true := by
    decide +kernel
  have e : Heap.start.act Xyml.std (.parseType dressed) = (Heap.start.storeT dressedType).2 := by
    unfold dressedType
    simp only [Heap.act]
    generalize hat Xyml.std dressed = r at hok
    cases r with
    | ok t => rfl
    | err e => cases hok
    | panic c => cases hok
  rw [e]
  have h1 : (Heap.start.storeT dressedType).2.get (Heap.start.storeT dressedType).1 .xml =
      some (.xo 1) := by decide +kernel
  have h2 : (Heap.start.storeT dressedType).2.get (Heap.start.storeT dressedType).1 .example =
      some (.ex 1) := by decide +kernel
  have ht := storeT_tree dressedType Heap.start
  exact ⟨_, 1, 1, h1, h2, ht.owned (get_points h1), ht.owned (get_points h2)⟩

end examples

end Verif.Props
