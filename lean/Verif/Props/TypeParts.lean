import Verif.Doc.HeapParts
import Verif.Props.Exact

/-!
# What data types have in common

Setters of data types store the object they are given, and getters return it.
-/

namespace Verif.Props
open Verif.Doc Relation

/-! ## C76: parts in common -/

/-- After a setter the getter returns the very object that was given; after nil or `Unset` it
returns nil, or a new empty map. -/
theorem C76_stored {H H' : Heap} {a : Addr} {op : PtrOp} (h : H.typeCall a (.ptr op) = some H') :
    (∀ o, op.arg = some o → H'.get a op.part = some o) ∧
      (op.arg = none → (∀ n, (H'.get a op.part).bind (H'.partVal n) = op.part.unset) ∧
        ∀ o, H'.get a op.part = some o → o.addr = H.next) :=
  setPtr_get h

/-- It changes nothing else: neither the object that was there before nor the one that was given,
nor the other parts of the data type. -/
theorem C76_only_that {X : Xyml} {H H' : Heap} {a : Addr} {op : PtrOp}
    (hl : H.Legal (.onType a (.ptr op))) (h : H.typeCall a (.ptr op) = some H') :
    (∀ o, o ≠ .ty a → o.addr < H.next → Same H H' o) ∧
      ∀ s, s ≠ op.part → H'.get a s = H.get a s := by
  have hq := quiet_act X hl
  have e : H.act X (.onType a (.ptr op)) = H' := by simp only [Heap.act, h, Option.getD_some]
  rw [e] at hq
  exact ⟨fun o hne ho => hq.only.same o ho (by simpa [Heap.touches] using hne),
    fun s hs => setPtr_get_other h (Ne.symm hs)⟩

/-- Through every program the getter returns the same object until the setter of that part is called
on that data type, or a definition with the key of that part is loaded into it: other loads, edits,
other setters, other data types do not replace it. A load never replaces a map. -/
theorem C76_kept {X : Xyml} {H : Heap} {ss : List Act} (hl : H.LegalAll X ss) {a : Addr}
    (ha : a < H.next) {s : TypeSec} (hn : ∀ c ∈ ss, ¬ c.replaces a s) :
    (H.run X ss).get a s = H.get a s :=
  run_get hl ha hn

/-- A part that two data types have in common stays in common, and shows the same in both. -/
theorem C76_stay_shared {X : Xyml} {H : Heap} {ss : List Act} (hl : H.LegalAll X ss) {a b : Addr}
    (ha : a < H.next) (hb : b < H.next) {s s' : TypeSec} {o : Obj} (h : H.get a s = some o)
    (h' : H.get b s' = some o) (hna : ∀ c ∈ ss, ¬ c.replaces a s)
    (hnb : ∀ c ∈ ss, ¬ c.replaces b s') :
    (H.run X ss).get a s = some o ∧ (H.run X ss).get b s' = some o ∧
      ∀ n t u, (H.run X ss).val n a = some t → (H.run X ss).val n b = some u →
        t.part s = u.part s' := by
  have e := (run_get hl ha hna).trans h
  have e' := (run_get hl hb hnb).trans h'
  refine ⟨e, e', fun n t u ht hu => ?_⟩
  cases n with
  | zero => cases ht
  | succ n => rw [val_part ht e, val_part hu e']

/-- The same for a part of a data type and a section of a document: annotations, extra facets,
types. -/
theorem C76_stay_shared_doc {X : Xyml} {H : Heap} {ss : List Act} (hl : H.LegalAll X ss) {a : Addr}
    {x : Holder} (ha : a < H.next) (hx : x.obj.addr < H.next) {s : TypeSec} {s' : Sec} {o : Obj}
    (h : H.get a s = some o) (h' : H.sec x s' = some o) (hna : ∀ c ∈ ss, ¬ c.replaces a s)
    (hnx : ∀ m c, setSec x s' m = some c → c ∉ ss) :
    (H.run X ss).get a s = some o ∧ (H.run X ss).sec x s' = some o ∧
      ∀ n t v, (H.run X ss).val (n + 1) a = some t → (H.run X ss).secVal n x s' = some v →
        t.part s = v.part := by
  have e := (run_get hl ha hna).trans h
  have e' := (run_sec hl hx hnx).trans h'
  refine ⟨e, e', fun n t v ht hv => ?_⟩
  obtain ⟨o', ho', hv⟩ := secVal_mapVal hv
  rw [e'] at ho'
  cases ho'
  rw [val_part ht e]
  cases o <;> simp only [Heap.mapVal, reduceCtorEq] at hv
  · obtain ⟨m, hm, rfl⟩ := Option.map_eq_some_iff.mp hv
    have hm' : (H.run X ss).typeMap n _ = some m := hm
    simp only [Heap.partVal, hm', Option.map_some, SecVal.part]
  · cases hv; rfl
  · cases hv; rfl
  · exfalso; revert h; simp only [Heap.get]; split <;> simp
  · exfalso; revert h; simp only [Heap.get]; split <;> simp

section examples

/-- A string type at 1 and a number type at 2 with the annotations of the string type. -/
def annotatedProgram : List Act :=
  [.newType .string, .newType .number, .onType 2 (.ptr (.setAnnotations (some 1))), .newApi,
    .setApi 3 (.annotations (some 1))]

/-- The heap it makes. -/
def annotatedHeap (X : Xyml) : Heap := Heap.start.run X annotatedProgram

theorem annotated_legal (X : Xyml) : Heap.start.LegalAll X annotatedProgram :=
  ⟨trivial, trivial,
    ⟨show 2 < 3 by decide, fun x hx => by cases hx; exact show 1 < 3 by decide⟩, trivial,
    ⟨show 3 < 9 by decide, fun x hx => by cases hx; exact show 1 < 9 by decide⟩, trivial⟩

example (X : Xyml) : (annotatedHeap X).get 1 .annotations = some (.am 1) ∧
    (annotatedHeap X).get 2 .annotations = some (.am 1) ∧
    (annotatedHeap X).sec (.api 3) .annotations = some (.am 1) := ⟨rfl, rfl, rfl⟩

/-- An annotation that is put in through one shows in the other, also after the first has got new
annotations. -/
example (X : Xyml) (v : Ann) :
    (((annotatedHeap X).run X [.edit (.am 1 fun m => m.put "(x)" v),
        .onType 1 (.ptr (.setAnnotations none))]).val 1 2).bind (fun t => t.part .annotations) =
      some (.annotations ⟨[("(x)", v)], true⟩) := rfl

/-- A setter with a pointer stores it; a setter with nil leaves an unset part. -/
example (X : Xyml) : ((annotatedHeap X).act X (.onType 1 (.ptr (.setAnnotations (some 3))))).get 1
    .annotations = some (.am 3) :=
  (C76_stored (H := annotatedHeap X) (a := 1) (op := .setAnnotations (some 3)) rfl).1 _ rfl

example (X : Xyml) (n : Nat) : (((annotatedHeap X).act X (.onType 1 (.ptr (.setXML none)))).get 1
    .xml).bind (((annotatedHeap X).act X (.onType 1 (.ptr (.setXML none)))).partVal n) =
      TypeSec.xml.unset :=
  ((C76_stored (H := annotatedHeap X) (a := 1) (op := .setXML none) rfl).2 rfl).1 n

/-- It leaves the other type as it was, and the other parts of this one. -/
example (X : Xyml) : Same (annotatedHeap X)
      ((annotatedHeap X).act X (.onType 1 (.ptr (.setAnnotations (some 3))))) (.ty 2) ∧
    ((annotatedHeap X).act X (.onType 1 (.ptr (.setAnnotations (some 3))))).get 1 .extra =
      (annotatedHeap X).get 1 .extra := by
  have h := C76_only_that (X := X) (H := annotatedHeap X) (a := 1) (op := .setAnnotations (some 3))
    ⟨show 1 < 9 by decide, fun x hx => by cases hx; exact show 3 < 9 by decide⟩ rfl
  exact ⟨h.1 (.ty 2) (by decide) (show 2 < 9 by decide), h.2 .extra nofun⟩

/-- Loading a document leaves the types their parts. -/
example (X : Xyml) (v : Node) : ((annotatedHeap X).run X [.loadApi 3 v, .newType .any]).get 2
    .annotations = some (.am 1) :=
  C76_kept (H := annotatedHeap X) (ss := [.loadApi 3 v, .newType .any]) ⟨show 3 < 9 by decide, trivial, trivial⟩
    (show 2 < 9 by decide) (by simp [Act.replaces])

/-- The premises of `C76_stay_shared` hold for an edit and a setter of another part. -/
example (X : Xyml) (v : Ann) :
    let ss : List Act := [.edit (.am 1 fun m => m.put "(x)" v), .onType 1 (.ptr (.setXML none))]
    (annotatedHeap X).LegalAll X ss ∧ (∀ c ∈ ss, ¬ c.replaces 1 .annotations) ∧
      ∀ c ∈ ss, ¬ c.replaces 2 .annotations := by
  refine ⟨⟨show 1 < 9 by decide, ⟨show 1 < 9 by decide, fun x hx => by cases hx⟩, trivial⟩, ?_, ?_⟩ <;>
    simp [Act.replaces, PtrOp.part]

end examples

end Verif.Props
