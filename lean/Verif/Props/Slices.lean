import Verif.Doc.SliceLemmas

/-!
# C83: slices that objects share with their callers

The setters store the slice that they get, the getters return the stored one, and loading an `enum`,
`documentation` or a single `mediaType` appends to it.  `V` is the type of the elements, `slack` what
the runtime leaves in the room behind the elements of a slice that it has grown, and the fields of all
objects are numbered.
-/

namespace Verif.Props
open Verif.Doc Verif.Doc.Slices
variable {V : Type}

/-- After any program, loading into a field leaves the old elements followed by the new ones in it, in
order; loading none changes nothing, also not nil to empty. -/
theorem C83_load_appends (slack : List V → List V) (os : List (Op V)) (f : Nat) (xs : List V) :
    let S := (State.start V).run slack os
    let S' := S.step slack (.load f xs)
    S'.mem.value (S'.field f) =
      if xs = [] then S.mem.value (S.field f) else some ((S.mem.value (S.field f)).getD [] ++ xs) := by
  have := value_load slack (ok_run slack os (ok_start V)) f xs
  simpa only [List.isEmpty_iff] using this

/-- Loading a list from YAML into such a field, through memory, is loading it as a value
(`liveSeq` appending to a list): the same elements end up in the field, and the same error is
returned, also when the loading stops half way. -/
theorem C83_load_from_yaml (slack : List V → List V) (os : List (Op V)) (read : Node → Res V)
    (f : Nat) (v : Node) :
    let S := (State.start V).run slack os
    let R := S.loadSeq slack read f v
    (R.1.mem.value (R.1.field f), R.2) =
      liveSeq (fun n l => store (read n) (fun l x => some (l.getD [] ++ [x])) l) v
        (S.mem.value (S.field f)) ∧
    ∃ xs, R.1 = S.step slack (.load f xs) := by
  obtain ⟨xs, h1, h2⟩ := loadSeq_eq slack read f v (ok_run slack os (ok_start V))
  exact ⟨h2, xs, h1⟩

/-- That is what the `enum` case of data types and the `documentation` case of API documents do as
values. -/
theorem C83_load_from_yaml_enum (slack : List Val → List Val) (os : List (Op Val)) (X : Xyml)
    (kd : Kind) (f : Nat) (v : Node) :
    let S := (State.start Val).run slack os
    let R := S.loadSeq slack (enumVal X kd) f v
    (R.1.mem.value (R.1.field f), R.2) = liveEnum X kd v (S.mem.value (S.field f)) :=
  (C83_load_from_yaml slack os (enumVal X kd) f v).1

/-- See `C83_load_from_yaml_enum`. -/
theorem C83_load_from_yaml_docs (slack : List Documentation → List Documentation)
    (os : List (Op Documentation)) (X : Xyml) (f : Nat) (v : Node) :
    let S := (State.start Documentation).run slack os
    let R := S.loadSeq slack (loadDocumentation X) f v
    (R.1.mem.value (R.1.field f), R.2) = liveDocs X v (S.mem.value (S.field f)) :=
  (C83_load_from_yaml slack os (loadDocumentation X) f v).1

/-- What loading into field `f` does to any other slice `s` that the program has, exactly: the
elements of `s` that lie in the array of the slice in `f`, behind its elements and within its capacity,
become the loaded ones; all others stay. -/
theorem C83_frame (slack : List V → List V) (os : List (Op V)) (f : Nat) (xs : List V) (s : Slice) :
    let S := (State.start V).run slack os
    let S' := S.step slack (.load f xs)
    ((∃ g, S.field g = some s) ∨ ∃ v, S.get v = some s) →
    (S'.mem.read s).length = (S.mem.read s).length ∧
    ∀ i, i < s.len → (S'.mem.read s)[i]? = match S.field f with
      | some t =>
        if s.arr = t.arr ∧ t.off + t.len ≤ s.off + i ∧ s.off + i < t.off + min t.cap (t.len + xs.length)
        then xs[s.off + i - (t.off + t.len)]? else (S.mem.read s)[i]?
      | none => (S.mem.read s)[i]? := by
  intro S S' hs
  have hok : S.Ok := ok_run slack os (ok_start V)
  have hs : Slices.Ok S.mem s := by
    rcases hs with ⟨g, hg⟩ | ⟨v, hv⟩
    · exact hok.field g s hg
    · exact hok.var v s hv
  refine ⟨?_, fun i hi => read_pushAll slack xs (hok.field f) hs hi⟩
  rw [read_length hs]
  exact read_length (hs.later (later_pushAll slack xs S.mem (S.field f)))

/-- What a getter returned is not changed by loading more into the object. -/
theorem C83_getter_keeps (slack : List V → List V) (os : List (Op V)) (f : Nat) (xs : List V) :
    let S := (State.start V).run slack os
    let S' := (S.step slack (.get f)).step slack (.load f xs)
    S'.mem.value (S'.get S.var.length) = S.mem.value (S.field f) := by
  intro S S'
  have hok : S.Ok := ok_run slack os (ok_start V)
  have hg : S'.get S.var.length = S.field f := by
    show ((S.var ++ [S.field f])[S.var.length]?).join = _
    simp
  rw [hg]
  cases hf : S.field f with
  | none => rfl
  | some t =>
    have ht := hok.field f t hf
    have hM : S'.mem = (S.mem.pushAll slack (some t) xs).2 := by rw [← hf]; rfl
    simp only [Mem.value, Option.map_some, Option.some.injEq]
    rw [hM]
    refine List.ext_getElem? fun i => ?_
    by_cases hi : i < t.len
    · rw [read_pushAll slack xs (fun y hy => by cases hy; exact ht) ht hi]
      refine if_neg ?_
      rintro ⟨-, h, -⟩
      omega
    · rw [List.getElem?_eq_none, List.getElem?_eq_none]
      · rw [read_length ht]; omega
      · rw [read_length (ht.later (later_pushAll slack xs S.mem (some t)))]; omega

/-- A program that gives only full slices away and appends only to full ones, slices only within the
length and writes no elements sees lists: every field and every variable has the value that it has when
setters and getters copy. -/
theorem C83_careful (slack : List V → List V) (os : List (Op V))
    (h : (State.start V).CarefulAll slack os) :
    let S := (State.start V).run slack os
    let W := (Vals.start V).run os
    (∀ f, S.mem.value (S.field f) = W.field f) ∧ S.var.map S.mem.value = W.var := by
  have := sim_run slack os (sim_start V) h
  exact ⟨fun f => (this.field f).symm, this.var.symm⟩

/-- Without that care, the last load wins: a slice with room that two objects have got holds in both
what was loaded into the second one. -/
theorem C83_clobber (slack : List V → List V) (os : List (Op V)) (v f g : Nat) (s : Slice) (x y : V)
    (hfg : f ≠ g) :
    let S := (State.start V).run slack os
    let S' := S.run slack [.set f v, .set g v, .load f [x], .load g [y]]
    S.get v = some s → s.len < s.cap →
    S'.mem.value (S'.field f) = some (S.mem.read s ++ [y]) ∧
      S'.mem.value (S'.field g) = some (S.mem.read s ++ [y]) := by
  intro S S' hv hlt
  have hok : S.Ok := ok_run slack os (ok_start V)
  have hs := hok.var v s hv
  have hgf := Ne.symm hfg
  have hmem : S' = { S with
      mem := (S.mem.put s.arr (s.off + s.len) x).put s.arr (s.off + s.len) y
      field := Function.update (Function.update S.field f (some { s with len := s.len + 1 })) g
        (some { s with len := s.len + 1 }) } := by
    simp only [S', State.run, List.foldl, State.step, State.get] at hv ⊢
    simp only [hv, Function.update_of_ne hfg, Function.update_self, Mem.pushAll, push_room slack hlt,
      Function.update_of_ne hgf]
    congr 1
    funext k
    simp only [Function.update_apply]
    split <;> simp_all
  have hs1 : Slices.Ok (S.mem.put s.arr (s.off + s.len) x) s := hs.later (later_put _ _ _ _)
  have hr := read_push slack (M := S.mem.put s.arr (s.off + s.len) x) (s := some s)
    (fun t ht => by cases ht; exact hs1) y
  rw [push_room slack hlt] at hr
  have h0 : (S.mem.put s.arr (s.off + s.len) x).read s = S.mem.read s :=
    read_put_other _ _ _ _ hs fun _ => Nat.le_refl _
  simp only [Mem.value, Option.map_some, Option.getD_some, h0] at hr
  rw [hmem]
  simp only [Function.update_of_ne hfg, Function.update_self, Mem.value, Option.map_some, hr, and_self]

section examples

/-- What is in field `f` after a program. -/
def fieldAfter (os : List (Op String)) (f : Nat) : Option (List String) :=
  let S := (State.start String).run (fun l => l ++ [""]) os
  S.mem.value (S.field f)

/-- `C83_clobber`: one slice of length 1 and capacity 2 is set in two objects, and one value loaded
into each. -/
def sharedRoom : List (Op String) :=
  [.lit ["a"] [""], .set 0 0, .set 1 0, .load 0 ["b"], .load 1 ["c"]]

example : fieldAfter sharedRoom 0 = some ["a", "c"] ∧ fieldAfter sharedRoom 1 = some ["a", "c"] := by
  decide +kernel

/-- With `s[:1:1]` each object has its own. -/
def sharedFull : List (Op String) :=
  [.lit ["a"] [""], .sub 0 0 1 1, .set 0 1, .set 1 1, .load 0 ["b", "d"], .load 1 ["c"], .get 0,
    .load 0 ["e"], .push 1 "x"]

example : fieldAfter sharedFull 0 = some ["a", "b", "d", "e"] ∧ fieldAfter sharedFull 1 = some ["a", "c"] := by
  decide +kernel

/-- That is a program of a careful caller. -/
example : (State.start String).CarefulAll (fun l => l ++ [""]) sharedFull := by
  refine ⟨trivial, ?_, ?_, ?_, trivial, trivial, trivial, trivial, ?_, trivial⟩
  · intro s h; cases h; decide
  · intro s h; cases h; rfl
  · intro s h; cases h; rfl
  · intro s h; cases h; rfl

/-- A caller that appends to what a getter returned overwrites what was loaded meanwhile. -/
example : fieldAfter [.load 0 ["a", "b"], .load 0 ["c"], .get 0, .load 0 ["d"], .push 0 "x"] 0 =
    some ["a", "b", "c", "x"] := by decide +kernel

/-- A caller that writes to an element of the slice that it has given away changes the object. -/
example : fieldAfter [.lit ["a"] [], .set 0 0, .write 0 0 "b"] 0 = some ["b"] := by decide +kernel

/-- An empty `enum` leaves nil. -/
example : fieldAfter [.load 0 []] 0 = none := by decide +kernel

/-- A wrong element stops the loading, and what was before it stays. -/
example : (fun R : Live (State String) => (R.1.mem.value (R.1.field 0), R.2 == .ok ()))
    ((State.start String).loadSeq (fun l => l) asString 0 (.seq "!!seq" [.str "a", .map [], .str "b"])) =
    (some ["a"], false) := by decide +kernel

end examples

end Verif.Props
