import Verif.OMap.Slice
import Verif.OMap.Refine
import Verif.OMap.Keys

/-! # C11: the slice memory layout is invisible -/

namespace Verif.Props
open Verif.OMap Verif.OMap.Mem

section
variable {K V : Type} [GoKey K]

/-- The list-level map a slice-level map stands for. -/
private def abs (s : MImpl K V) : Impl K V :=
  { ordered := s.ordered.visible, index := s.index, outOrder := s.outOrder }

/-- The length of a slice never exceeds its capacity. -/
private def Fits {α : Type} (s : Slice α) : Prop := s.len ≤ s.arr.length

variable {α : Type}

private theorem visible_length {s : Slice α} (h : Fits s) : s.visible.length = s.len := by
  simp only [Slice.visible, List.length_take, Fits] at *; omega

private theorem get?_visible (s : Slice α) (j : Nat) : s.get? j = s.visible[j]? := by
  simp [Slice.get?, Slice.visible, List.getElem?_take]

private theorem move_length (arr : List α) (dst src n : Nat) :
    (Slice.move arr dst src n).length = arr.length := by
  induction n generalizing arr dst src with
  | zero => rfl
  | succ n ih =>
    simp only [Slice.move]
    split
    · rw [ih]; simp
    · rfl

private theorem move_get (arr : List α) (dst n : Nat) (h : dst + 1 + n ≤ arr.length) (i : Nat) :
    (Slice.move arr dst (dst + 1) n)[i]? =
      if dst ≤ i ∧ i < dst + n then arr[i + 1]? else arr[i]? := by
  induction n generalizing arr dst with
  | zero =>
    have : ¬ (dst ≤ i ∧ i < dst + 0) := by omega
    simp [Slice.move]; intros; omega
  | succ n ih =>
    have hs : dst + 1 < arr.length := by omega
    simp only [Slice.move, List.getElem?_eq_getElem hs]
    rw [ih _ _ (by simp; omega)]
    simp only [List.getElem?_set]
    by_cases h1 : dst = i
    · subst h1
      have h2 : ¬ (dst + 1 ≤ dst ∧ dst < dst + 1 + n) := by omega
      have h3 : dst ≤ dst ∧ dst < dst + (n + 1) := by omega
      have h4 : dst < arr.length := by omega
      rw [if_neg h2, if_pos h3]
      simp [h4]
    · by_cases h2 : dst + 1 ≤ i ∧ i < dst + 1 + n
      · have h3 : dst ≤ i ∧ i < dst + (n + 1) := by omega
        have h4 : dst ≠ i + 1 := by omega
        simp [h2, h3, h4]
      · have h3 : ¬ (dst ≤ i ∧ i < dst + (n + 1)) := by omega
        simp [h2, h3, h1]

private theorem cut_visible {s : Slice α} (h : Fits s) {pos : Nat} (hp : pos < s.len) :
    (s.cut pos).visible = s.visible.take pos ++ s.visible.drop (pos + 1) := by
  apply List.ext_getElem?
  intro i
  simp only [Slice.visible, Slice.cut, List.getElem?_take, List.getElem?_append,
    List.length_take, List.getElem?_drop, Fits] at *
  rw [move_get _ _ _ (by omega)]
  by_cases h1 : i < pos
  · have h2 : i < s.len - 1 := by omega
    have h3 : ¬ (pos ≤ i ∧ i < pos + (s.len - pos - 1)) := by omega
    have h4 : i < min pos (min s.len s.arr.length) := by omega
    have h5 : i < s.len := by omega
    simp [h2, h3, h4, h1, h5]
  · have h4 : ¬ i < min pos (min s.len s.arr.length) := by omega
    have h6 : min pos (min s.len s.arr.length) = pos := by omega
    have h7 : pos + 1 + (i - pos) = i + 1 := by omega
    simp only [h6, h1, if_false, h7]
    by_cases h2 : i < s.len - 1
    · have h3 : pos ≤ i ∧ i < pos + (s.len - pos - 1) := by omega
      have h5 : i + 1 < s.len := by omega
      simp [h2, h3, h5]
    · have h5 : ¬ i + 1 < s.len := by omega
      simp [h2, h5]

private theorem cut_fits {s : Slice α} (h : Fits s) (pos : Nat) : Fits (s.cut pos) := by
  simp only [Fits, Slice.cut, move_length] at *; omega

private theorem push_visible {s : Slice α} (h : Fits s) (slack : Nat → List α) (x : α) :
    (s.push slack x).visible = s.visible ++ [x] ∧ Fits (s.push slack x) := by
  simp only [Slice.push, Fits, Slice.visible] at *
  split
  · next hlt =>
    refine ⟨?_, by simp; omega⟩
    simp only
    rw [List.take_set, List.take_add_one, List.set_append]
    have h2 : s.arr[s.len]? = some s.arr[s.len] := by simp [hlt]
    simp [h2, Nat.min_eq_left h]
  · next hlt =>
    have : s.arr.length = s.len := by omega
    simp only
    rw [List.take_append, List.take_take, List.take_of_length_le (by omega), List.length_take,
      List.take_of_length_le (l := s.arr) (by omega)]
    have : s.len + 1 - min s.len s.arr.length = 1 := by omega
    simp [this]; omega

private theorem update_visible {s : Slice α} (h : Fits s) (pos : Nat) (f : α → α) :
    (s.update pos f).visible = s.visible.modify pos f ∧ Fits (s.update pos f) := by
  simp only [Slice.update, Fits, Slice.visible] at *
  refine ⟨?_, by simpa using h⟩
  apply List.ext_getElem?
  intro i
  simp only [List.getElem?_take, List.getElem?_modify]
  by_cases h1 : i < s.len
  · simp [h1]
  · simp [h1]

private theorem mScan_eq (k : K) (s : Slice (K × V)) (h : Fits s) (n j : Nat) (hn : j + n = s.len) :
    mScan k s n j = scan k (s.visible.drop j) j := by
  induction n generalizing j with
  | zero =>
    have : s.visible.drop j = [] := by
      rw [List.drop_eq_nil_iff, visible_length h]; omega
    rw [this]; rfl
  | succ n ih =>
    have hj : j < s.visible.length := by rw [visible_length h]; omega
    rw [List.drop_eq_getElem_cons hj]
    simp only [mScan, get?_visible, List.getElem?_eq_getElem hj, scan]
    rw [ih (j + 1) (by omega)]

private theorem mIndexRead_eq (k : K) (s : MImpl K V) :
    mIndexRead k s = ((indexRead k (abs s)).1, s) := by
  simp only [mIndexRead, indexRead, bind, M.bind, M.get, abs]
  split <;> rfl

private theorem indexRead_state (k : K) (s : Impl K V) : (indexRead k s).2 = s := by
  simp only [indexRead, bind, M.bind, M.get]
  split <;> rfl

private theorem mIndexOf_eq (k : K) (s : MImpl K V) (h : Fits s.ordered) :
    mIndexOf k s = ((indexOf k (abs s)).1, s) := by
  have hs := indexRead_state k (abs s)
  simp only [mIndexOf, indexOf, bind, M.bind, mIndexRead_eq]
  rcases hr : indexRead k (abs s) with ⟨r, s'⟩
  rw [hr] at hs
  simp only at hs; subst hs
  cases r with
  | panic p => rfl
  | val o =>
    cases o with
    | none => rfl
    | some v =>
      simp only [Option.isNone_some, Bool.false_eq_true, if_false, M.get, M.bind]
      rw [mScan_eq k s.ordered h s.ordered.len 0 (by omega)]
      simp only [List.drop_zero, abs]
      cases scan k s.ordered.visible 0 <;> rfl

private theorem indexOf_state (k : K) (s : Impl K V) : (indexOf k s).2 = s := by
  have hs := indexRead_state k s
  simp only [indexOf, bind, M.bind]
  rcases hr : indexRead k s with ⟨r, s'⟩
  rw [hr] at hs
  simp only at hs; subst hs
  cases r with
  | panic p => rfl
  | val o =>
    cases o with
    | none => rfl
    | some v =>
      simp only [Option.isNone_some, Bool.false_eq_true, if_false, M.get, M.bind]
      cases scan k s'.ordered 0 <;> rfl

private theorem scan_lt (k : K) (l : List (K × V)) (j i : Nat) (h : scan k l j = some i) :
    i < j + l.length := by
  induction l generalizing j with
  | nil => simp [scan] at h
  | cons e l ih =>
    simp only [scan] at h
    split at h
    · simp at h; simp; omega
    · have := ih _ h; simp; omega

private theorem indexOf_lt (k : K) (s : Impl K V) (i : Int)
    (h : (indexOf k s).1 = .val i) : i < s.ordered.length := by
  have hs := indexRead_state k s
  simp only [indexOf, bind, M.bind] at h
  rcases hr : indexRead k s with ⟨r, s'⟩
  rw [hr] at hs h
  simp only at hs; subst hs
  cases r with
  | panic p => simp at h
  | val o =>
    cases o with
    | none => simp [pure, M.pure] at h; omega
    | some v =>
      simp only [Option.isNone_some, Bool.false_eq_true, if_false, M.get, M.bind] at h
      cases hc : scan k s'.ordered 0 with
      | none => rw [hc] at h; simp [M.throw] at h
      | some j =>
        rw [hc] at h
        have := scan_lt k _ _ _ hc
        simp [pure, M.pure] at h; omega

/-- One step of the simulation. -/
private def Sim (r : Out α × MImpl K V) (q : Out α × Impl K V) : Prop :=
  r.1 = q.1 ∧ abs r.2 = q.2 ∧ Fits r.2.ordered

private theorem mDelete_sim (k : K) (s : MImpl K V) (h : Fits s.ordered) :
    Sim (mDelete k s) (delete k (abs s)) := by
  have hs := indexOf_state k (abs s)
  have hl := indexOf_lt k (abs s)
  simp only [mDelete, delete, bind, M.bind, mIndexOf_eq k s h]
  rcases hr : indexOf k (abs s) with ⟨r, s'⟩
  rw [hr] at hs hl
  simp only at hs hl; subst hs
  cases r with
  | panic p => exact ⟨rfl, rfl, h⟩
  | val i =>
    have hl := hl i rfl
    by_cases hi : i > -1
    · simp only [hi, if_true, M.modify, M.bind]
      refine ⟨rfl, ?_, cut_fits h _⟩
      have hl' : i.toNat < s.ordered.len := by
        have : (abs s).ordered.length = s.ordered.len := visible_length h
        omega
      simp [abs, cut_visible h hl']
    · simp only [hi, if_false]
      exact ⟨rfl, rfl, h⟩

private theorem mPut_sim (slack : Nat → List (K × V)) (k : K) (v : V) (s : MImpl K V)
    (h : Fits s.ordered) : Sim (mPut slack k v s) (put k v (abs s)) := by
  have hd := mDelete_sim k s h
  simp only [mPut, put, bind, M.bind]
  rcases hr : mDelete k s with ⟨r, s1⟩
  rcases hq : delete k (abs s) with ⟨q, s2⟩
  rw [hr, hq] at hd
  obtain ⟨h1, h2, h3⟩ := hd
  simp only at h1 h2 h3; subst h1 h2
  cases r with
  | panic p => exact ⟨rfl, rfl, h3⟩
  | val u =>
    have := push_visible h3 slack (k, v)
    refine ⟨rfl, ?_, this.2⟩
    simp [M.modify, abs, this.1]

private theorem mReplace_sim (k : K) (v : V) (s : MImpl K V) (h : Fits s.ordered) :
    Sim (mReplaceIfExists k v s) (replaceIfExists k v (abs s)) := by
  have hs := indexOf_state k (abs s)
  simp only [mReplaceIfExists, replaceIfExists, bind, M.bind, mIndexOf_eq k s h]
  rcases hr : indexOf k (abs s) with ⟨r, s'⟩
  rw [hr] at hs
  simp only at hs; subst hs
  cases r with
  | panic p => exact ⟨rfl, rfl, h⟩
  | val i =>
    by_cases hi : i > -1
    · simp only [hi, if_true, M.modify, M.bind]
      have := update_visible h i.toNat (fun e : K × V => (e.1, v))
      refine ⟨rfl, ?_, this.2⟩
      simp [abs, this.1]
    · simp only [hi, if_false]
      exact ⟨rfl, rfl, h⟩

private theorem mEntries_eq (s : MImpl K V) (h : Fits s.ordered) (n j : Nat) (acc : List (K × V))
    (hn : j + n = s.ordered.len) :
    mEntries n j acc s = (.val (acc ++ s.ordered.visible.drop j), s) := by
  induction n generalizing j acc with
  | zero =>
    have : s.ordered.visible.drop j = [] := by
      rw [List.drop_eq_nil_iff, visible_length h]; omega
    simp [mEntries, M.pure, this]
  | succ n ih =>
    have hj : j < s.ordered.visible.length := by rw [visible_length h]; omega
    simp only [mEntries, bind, M.bind, M.get, get?_visible, List.getElem?_eq_getElem hj]
    rw [ih _ _ (by omega), List.drop_eq_getElem_cons hj (i := j), List.append_assoc]
    rfl

private theorem sim_unit {x : M (MImpl K V) Unit} {y : M (Impl K V) Unit} {s : MImpl K V} {t : Impl K V}
    (h : Sim (x s) (y t)) :
    Sim (M.bind x (fun _ => M.pure (Obs.unit : Obs K V)) s)
      (M.bind y (fun _ => M.pure (Obs.unit : Obs K V)) t) := by
  unfold M.bind
  rcases hx : x s with ⟨r, s1⟩; rcases hy : y t with ⟨q, s2⟩
  rw [hx, hy] at h
  obtain ⟨h1, h2, h3⟩ := h
  simp only at h1 h2 h3; subst h1 h2
  cases r <;> exact ⟨rfl, rfl, h3⟩

private theorem mCall_sim (slack : Nat → List (K × V)) (op : Op K V) (s : MImpl K V)
    (h : Fits s.ordered) : Sim (mCall slack op s) (call op (abs s)) := by
  cases op with
  | put k v => exact sim_unit (mPut_sim slack k v s h)
  | putIfNotNil k v =>
    cases v with
    | none => exact ⟨rfl, rfl, h⟩
    | some v => exact sim_unit (mPut_sim slack k v s h)
  | replaceIfExists k v => exact sim_unit (mReplace_sim k v s h)
  | replaceOrPut k v =>
    have hs := indexRead_state k (abs s)
    simp only [mCall, call, replaceOrPut, has, bind, M.bind, mIndexRead_eq]
    rcases hr : indexRead k (abs s) with ⟨r, s'⟩
    rw [hr] at hs
    simp only at hs; subst hs
    cases r with
    | panic p => exact ⟨rfl, rfl, h⟩
    | val o =>
      cases o with
      | none => exact sim_unit (mPut_sim slack k v s h)
      | some w => exact sim_unit (mReplace_sim k v s h)
  | delete k => exact sim_unit (mDelete_sim k s h)
  | serializeOrdered b => exact ⟨rfl, rfl, h⟩
  | get k =>
    have hs := indexRead_state k (abs s)
    simp only [mCall, call, OMap.get, bind, M.bind, mIndexRead_eq]
    rcases hr : indexRead k (abs s) with ⟨r, s'⟩
    rw [hr] at hs
    simp only at hs; subst hs
    cases r <;> exact ⟨rfl, rfl, h⟩
  | has k =>
    have hs := indexRead_state k (abs s)
    simp only [mCall, call, has, bind, M.bind, mIndexRead_eq]
    rcases hr : indexRead k (abs s) with ⟨r, s'⟩
    rw [hr] at hs
    simp only at hs; subst hs
    cases r <;> exact ⟨rfl, rfl, h⟩
  | indexOf k =>
    have hs := indexOf_state k (abs s)
    simp only [mCall, call, bind, M.bind, mIndexOf_eq k s h]
    rcases hr : indexOf k (abs s) with ⟨r, s'⟩
    rw [hr] at hs
    simp only at hs; subst hs
    cases r <;> exact ⟨rfl, rfl, h⟩
  | at' j =>
    simp only [mCall, call, mAt, at', bind, M.bind, M.get, get?_visible, abs]
    by_cases h0 : 0 ≤ j
    · simp only [h0, if_true]
      cases s.ordered.visible[j.toNat]? <;> exact ⟨rfl, rfl, h⟩
    · simp only [h0, if_false]
      exact ⟨rfl, rfl, h⟩
  | len =>
    refine ⟨?_, rfl, h⟩
    simp [mCall, call, len, bind, M.bind, M.get, pure, M.pure, abs, visible_length h]
  | entries =>
    simp only [mCall, call, forEach, bind, M.bind, M.get,
      mEntries_eq s h s.ordered.len 0 [] (by omega),
      forEachLoop_entries (abs s) [] (abs s).ordered.length 0 (by omega)]
    exact ⟨rfl, rfl, h⟩

end

/-- C11: with a real backing array, in-place deletion, in-place append and arbitrary
re-allocation at every call, every history gives the answers of the list-level model, for every
non-negative initial capacity and any contents of unused slots. -/
theorem C11_slice_layout_invisible {K V : Type} [GoKey K]
    (ops : List (Op K V × (Nat → List (K × V)))) (junk : Nat → K × V) (size : Int) (m : MImpl K V)
    (hm : mnew junk size = some m) :
    (mRun ops m).1 = (run (ops.map (·.1)) new).1 := by
  have key : ∀ (ops : List (Op K V × (Nat → List (K × V)))) (s : MImpl K V), Fits s.ordered →
      (mRun ops s).1 = (run (ops.map (·.1)) (abs s)).1 := by
    intro ops
    induction ops with
    | nil => intro s _; rfl
    | cons o ops ih =>
      intro s hs
      obtain ⟨h1, h2, h3⟩ := mCall_sim o.2 o.1 s hs
      simp only [mRun, run, List.map_cons]
      rw [ih _ h3, h1, h2]
  simp only [mnew] at hm
  split at hm
  · cases hm
  · simp only [Option.some.injEq] at hm
    subst hm
    rw [key ops _ (by simp [Fits])]
    simp [abs, Slice.visible, new]

example (slack slack' : Nat → List (String × Nat)) (junk : Nat → String × Nat) (m : MImpl String Nat)
    (hm : mnew junk 7 = some m) :
    (mRun [(.put "a" 1, slack), (.put "b" 2, slack'), (.delete "a", slack), (.entries, slack)] m).1 =
      [.val .unit, .val .unit, .val .unit, .val (.entries [("b", 2)])] :=
  (C11_slice_layout_invisible _ junk 7 m hm).trans rfl

/-- C11 with C01: the slice-level map refines the ordered dictionary. -/
theorem C11_slice_refines_dictionary {K V : Type} [GoKey K] [LawfulGoKey K]
    (ops : List (Op K V × (Nat → List (K × V)))) (junk : Nat → K × V) (size : Int) (m : MImpl K V)
    (hm : mnew junk size = some m) :
    (mRun ops m).1 = (Spec.run (ops.map (·.1)) []).1 := by
  rw [C11_slice_layout_invisible ops junk size m hm]
  exact (run_refines _ inv_new).1

example (slack : Nat → List (String × Nat)) (junk : Nat → String × Nat) (m : MImpl String Nat)
    (hm : mnew junk 1 = some m) :
    (mRun [(.put "a" 1, slack), (.put "b" 2, slack), (.put "a" 3, slack), (.at' 0, slack)] m).1 =
      [.val .unit, .val .unit, .val .unit, .val (.entry ("b", 2))] :=
  (C11_slice_refines_dictionary _ junk 1 m hm).trans rfl

/-- C11: every non-negative size is accepted and every negative one panics in `make`. -/
theorem C11_new_panics_iff_negative {K V : Type} (junk : Nat → K × V) (size : Int) :
    mnew junk size = none ↔ size < 0 := by
  simp only [mnew]; split <;> simp_all

/-- Non-trivial case: an array of capacity 2 is filled, shifted in place and outgrown. -/
example : ∃ m, mnew (K := String) (V := Nat) (fun _ => ("junk", 0)) 2 = some m ∧
    (mRun ((fun op => (op, fun _ => [("slack", 9)])) <$>
      [.put "a" 1, .put "b" 2, .put "a" 3, .put "c" 4, .delete "b", .put "d" 5, .entries]) m).1
    = [.val .unit, .val .unit, .val .unit, .val .unit, .val .unit, .val .unit,
       .val (.entries [("a", 3), ("c", 4), ("d", 5)])] := ⟨_, rfl, by decide⟩

end Verif.Props
