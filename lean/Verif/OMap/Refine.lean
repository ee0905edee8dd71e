import Verif.OMap.Spec

/-! Helper lemmas: the implementation simulates the ordered dictionary. -/

namespace Verif.OMap
variable {K V : Type} [GoKey K]

/-- A slot of `ordered` and a slot of `index` describe the same entry. -/
def Rel (a b : K × V) : Prop := (∀ k, (a.1 == k) = (b.1 == k)) ∧ a.2 = b.2

/-- Element-wise relation of two lists. -/
inductive All2 {α β : Type} (R : α → β → Prop) : List α → List β → Prop
  | nil : All2 R [] []
  | cons {a b l m} : R a b → All2 R l m → All2 R (a :: l) (b :: m)

/-- The representation invariant. -/
structure SyncInv (s : Impl K V) : Prop where
  sync : All2 Rel s.ordered s.index
  distinct : s.ordered.Pairwise (fun a b => (a.1 == b.1) = false)

theorem inv_new : SyncInv (new : Impl K V) := ⟨.nil, .nil⟩

theorem lookup_eq {o i : List (K × V)} (h : All2 Rel o i) (k : K) :
    hmLookup i k = Spec.find k o := by
  induction h with
  | nil => rfl
  | cons r _ ih =>
    simp only [hmLookup, Spec.find, List.find?_cons] at ih ⊢
    rw [← r.1 k]
    split
    · simp [r.2]
    · exact ih

theorem find_isSome (k : K) (d : List (K × V)) : (Spec.find k d).isSome = Spec.mem k d := by
  induction d with
  | nil => rfl
  | cons e d ih =>
    simp only [Spec.find, Spec.mem, List.find?_cons, List.any_cons] at ih ⊢
    split <;> simp_all

theorem any_eq {o i : List (K × V)} (h : All2 Rel o i) (k : K) :
    i.any (fun e => e.1 == k) = Spec.mem k o := by
  induction h with
  | nil => rfl
  | cons r _ ih => simp only [Spec.mem, List.any_cons] at ih ⊢; rw [r.1 k, ih]

theorem filter_all2 {o i : List (K × V)} (h : All2 Rel o i) (k : K) :
    All2 Rel (Spec.remove k o) (hmDelete i k) := by
  induction h with
  | nil => exact .nil
  | cons r _ ih =>
    simp only [Spec.remove, hmDelete, List.filter_cons] at ih ⊢
    rw [r.1 k]
    split
    · exact .cons r ih
    · exact ih

theorem append_all2 {α β : Type} {R : α → β → Prop} {o i a b} (h : All2 R o i) (r : R a b) :
    All2 R (o ++ [a]) (i ++ [b]) := by
  induction h with
  | nil => exact .cons r .nil
  | cons r' _ ih => exact .cons r' ih

theorem replace_all2 [LawfulGoKey K] {o i : List (K × V)} (h : All2 Rel o i) (k : K) (v : V) :
    All2 Rel (Spec.replace k v o) (i.map (fun e => if e.1 == k then (k, v) else e)) := by
  induction h with
  | nil => exact .nil
  | @cons a b _ _ r _ ih =>
    simp only [Spec.replace, List.map_cons] at ih ⊢
    refine .cons ?_ ih
    rw [← r.1 k]
    by_cases hk : (a.1 == k) = true
    · simp only [hk, if_true]
      refine ⟨fun k' => ?_, rfl⟩
      have hs := LawfulGoKey.symm hk
      rw [Bool.eq_iff_iff]
      exact ⟨fun h => LawfulGoKey.trans hs h, fun h => LawfulGoKey.trans hk h⟩
    · simp only [hk]; exact r

theorem scan_eq (k : K) (l : List (K × V)) (j : Nat) :
    scan k l j = (l.findIdx? (fun e => e.1 == k)).map (· + j) := by
  induction l generalizing j with
  | nil => rfl
  | cons e l ih =>
    simp only [scan, List.findIdx?_cons]
    split
    · simp
    · rw [ih]
      cases List.findIdx? (fun e => e.1 == k) l <;> simp [Nat.add_comm, Nat.add_left_comm]

/-- At most one entry matches a key. -/
theorem no_second [LawfulGoKey K] {e : K × V} {l : List (K × V)} {k : K}
    (h : (e :: l).Pairwise (fun a b => (a.1 == b.1) = false)) (hk : (e.1 == k) = true) :
    ∀ x ∈ l, (x.1 == k) = false := by
  intro x hx
  cases hxk : (x.1 == k)
  · rfl
  · have := (List.pairwise_cons.1 h).1 x hx
    rw [LawfulGoKey.trans hk (LawfulGoKey.symm hxk)] at this
    cases this

theorem remove_of_not_mem {k : K} {l : List (K × V)} (h : ∀ x ∈ l, (x.1 == k) = false) :
    Spec.remove k l = l := by
  simp only [Spec.remove]
  rw [List.filter_eq_self]
  intro x hx; simp [h x hx]

theorem replace_of_not_mem {k : K} {v : V} {l : List (K × V)} (h : ∀ x ∈ l, (x.1 == k) = false) :
    Spec.replace k v l = l := by
  induction l with
  | nil => rfl
  | cons e l ih =>
    simp only [Spec.replace, List.map_cons] at ih ⊢
    rw [ih (fun x hx => h x (List.mem_cons_of_mem _ hx)), h e (List.mem_cons_self ..)]
    simp

theorem cut_eq [LawfulGoKey K] {k : K} {l : List (K × V)} {j : Nat}
    (hp : l.Pairwise (fun a b => (a.1 == b.1) = false))
    (hj : l.findIdx? (fun e => e.1 == k) = some j) :
    l.take j ++ l.drop (j + 1) = Spec.remove k l := by
  induction l generalizing j with
  | nil => simp at hj
  | cons e l ih =>
    rw [List.findIdx?_cons] at hj
    split at hj
    · next hk =>
      simp only [Option.some.injEq] at hj; subst hj
      have := remove_of_not_mem (no_second hp hk)
      simp only [Spec.remove] at this
      simp [Spec.remove, hk, this]
    · next hk =>
      cases hj' : l.findIdx? (fun e => e.1 == k) with
      | none => simp [hj'] at hj
      | some j' =>
        simp [hj'] at hj; subst hj
        have := ih (List.pairwise_cons.1 hp).2 hj'
        simp only [Spec.remove] at this
        simp [Spec.remove, hk, this]

theorem modify_eq [LawfulGoKey K] {k : K} {v : V} {l : List (K × V)} {j : Nat}
    (hp : l.Pairwise (fun a b => (a.1 == b.1) = false))
    (hj : l.findIdx? (fun e => e.1 == k) = some j) :
    l.modify j (fun e => (e.1, v)) = Spec.replace k v l := by
  induction l generalizing j with
  | nil => simp at hj
  | cons e l ih =>
    rw [List.findIdx?_cons] at hj
    split at hj
    · next hk =>
      simp only [Option.some.injEq] at hj; subst hj
      have := replace_of_not_mem (v := v) (no_second hp hk)
      simp only [Spec.replace] at this
      simp [Spec.replace, hk, this]
    · next hk =>
      cases hj' : l.findIdx? (fun e => e.1 == k) with
      | none => simp [hj'] at hj
      | some j' =>
        simp [hj'] at hj; subst hj
        have := ih (List.pairwise_cons.1 hp).2 hj'
        simp only [Spec.replace] at this
        simp [Spec.replace, hk, this]

theorem mem_iff_findIdx (k : K) (l : List (K × V)) :
    Spec.mem k l = (l.findIdx? (fun e => e.1 == k)).isSome := by
  simp [Spec.mem, List.findIdx?_isSome]

theorem pairwise_remove {k : K} {l : List (K × V)}
    (hp : l.Pairwise (fun a b => (a.1 == b.1) = false)) :
    (Spec.remove k l).Pairwise (fun a b => (a.1 == b.1) = false) := hp.filter _

theorem remove_not_mem (k : K) (l : List (K × V)) : Spec.mem k (Spec.remove k l) = false := by
  simp [Spec.mem, Spec.remove]

theorem pairwise_put {k : K} {v : V} {l : List (K × V)}
    (hp : l.Pairwise (fun a b => (a.1 == b.1) = false)) :
    (Spec.put k v l).Pairwise (fun a b => (a.1 == b.1) = false) := by
  simp only [Spec.put]
  rw [List.pairwise_append]
  refine ⟨pairwise_remove hp, by simp, ?_⟩
  intro a ha b hb
  simp only [List.mem_singleton] at hb; subst hb
  simp [Spec.remove] at ha; simpa using ha.2

theorem pairwise_replace {k : K} {v : V} {l : List (K × V)}
    (hp : l.Pairwise (fun a b => (a.1 == b.1) = false)) :
    (Spec.replace k v l).Pairwise (fun a b => (a.1 == b.1) = false) := by
  simp only [Spec.replace]
  rw [List.pairwise_map]
  refine hp.imp ?_
  intro a b h
  split <;> split <;> simpa using h

/-! ### Each method against the dictionary -/

theorem indexRead_eq {s : Impl K V} (h : SyncInv s) (k : K) :
    indexRead k s = (if GoKey.hashable k then .val (Spec.find k s.ordered)
      else .panic .unhashable, s) := by
  simp only [indexRead, bind, M.bind, M.get]
  split
  · simp [pure, M.pure, lookup_eq h.sync]
  · rfl

theorem indexOf_eq {s : Impl K V} (h : SyncInv s) (k : K) :
    indexOf k s = (if GoKey.hashable k then .val (Spec.position k s.ordered)
      else .panic .unhashable, s) := by
  simp only [indexOf, bind, M.bind, indexRead_eq h]
  rcases hh : GoKey.hashable k with _ | _
  · rfl
  · have hm := find_isSome k s.ordered
    rw [mem_iff_findIdx] at hm
    cases hf : s.ordered.findIdx? (fun e => e.1 == k) with
    | none =>
      rw [hf] at hm
      simp at hm
      simp [hm, Spec.position, hf, pure, M.pure]
    | some j =>
      rw [hf] at hm
      obtain ⟨v, hv⟩ := Option.isSome_iff_exists.1 (by simpa using hm)
      simp [hv, M.get, M.bind, scan_eq, hf, Spec.position, pure, M.pure]

theorem delete_eq [LawfulGoKey K] {s : Impl K V} (h : SyncInv s) (k : K) :
    delete k s = if GoKey.hashable k then
      (.val (), { s with ordered := Spec.remove k s.ordered, index := hmDelete s.index k })
      else (.panic .unhashable, s) := by
  simp only [delete, bind, M.bind, indexOf_eq h]
  by_cases hh : GoKey.hashable k = true
  · simp only [hh, if_true]
    cases hf : s.ordered.findIdx? (fun e => e.1 == k) with
    | none =>
      have hnm : ∀ x ∈ s.ordered, (x.1 == k) = false := by
        intro x hx; simpa using (List.findIdx?_eq_none_iff.1 hf) x hx
      have h1 : Spec.remove k s.ordered = s.ordered := remove_of_not_mem hnm
      have h2 : hmDelete s.index k = s.index := by
        simp only [hmDelete]
        rw [List.filter_eq_self]
        have := any_eq h.sync k
        rw [mem_iff_findIdx, hf] at this
        simp at this
        intro a ha
        have := this a.1 a.2 ha
        simpa using this
      simp [Spec.position, hf, pure, M.pure, h1, h2]
    | some j =>
      have := cut_eq h.distinct hf
      have hp : (j : Int) > -1 := by omega
      simp only [Spec.position, hf, hp, if_true, M.modify, M.bind]
      simp [this]
  · simp [hh]

theorem inv_delete {s : Impl K V} (h : SyncInv s) (k : K) :
    SyncInv { s with ordered := Spec.remove k s.ordered, index := hmDelete s.index k } :=
  ⟨filter_all2 h.sync k, pairwise_remove h.distinct⟩

/-- The state `Put` leaves behind. -/
def putState (k : K) (v : V) (s : Impl K V) : Impl K V :=
  { s with ordered := Spec.put k v s.ordered, index := hmDelete s.index k ++ [(k, v)] }

theorem put_eq [LawfulGoKey K] {s : Impl K V} (h : SyncInv s) (k : K) (v : V) :
    put k v s = if GoKey.hashable k then (.val (), putState k v s)
      else (.panic .unhashable, s) := by
  simp only [put, bind, M.bind, delete_eq h]
  by_cases hh : GoKey.hashable k = true
  · simp only [hh, if_true, M.modify, putState, Spec.put]
    have : (hmDelete s.index k).any (fun e => e.1 == k) = false := by
      simp [hmDelete]
    simp [hmAssign, this]
  · simp [hh]

theorem inv_put {s : Impl K V} (h : SyncInv s) (k : K) (v : V) : SyncInv (putState k v s) :=
  ⟨append_all2 (filter_all2 h.sync k) ⟨fun _ => rfl, rfl⟩, pairwise_put h.distinct⟩

theorem replaceIfExists_eq [LawfulGoKey K] {s : Impl K V} (h : SyncInv s) (k : K) (v : V) :
    ∃ i, replaceIfExists k v s = (if GoKey.hashable k then
      (.val (), { s with ordered := Spec.replace k v s.ordered, index := i })
      else (.panic .unhashable, s)) ∧
      SyncInv { s with ordered := Spec.replace k v s.ordered, index := i } := by
  simp only [replaceIfExists, bind, M.bind, indexOf_eq h]
  cases hf : s.ordered.findIdx? (fun e => e.1 == k) with
  | none =>
    have hnm : ∀ x ∈ s.ordered, (x.1 == k) = false := by
      intro x hx; simpa using (List.findIdx?_eq_none_iff.1 hf) x hx
    have h1 : Spec.replace k v s.ordered = s.ordered := replace_of_not_mem hnm
    refine ⟨s.index, ?_, ?_⟩
    · by_cases hh : GoKey.hashable k = true
      · simp [hh, Spec.position, hf, pure, M.pure, h1]
      · simp [hh]
    · rw [h1]; exact h
  | some j =>
    have hm := modify_eq (v := v) h.distinct hf
    refine ⟨s.index.map (fun e => if e.1 == k then (k, v) else e), ?_,
      replace_all2 h.sync k v, pairwise_replace h.distinct⟩
    by_cases hh : GoKey.hashable k = true
    · have ha : s.index.any (fun e => e.1 == k) = true := by
        rw [any_eq h.sync, mem_iff_findIdx, hf]; rfl
      have hp : (j : Int) > -1 := by omega
      simp only [hh, if_true, Spec.position, hf, hp, M.modify, M.bind, hmAssign, ha]
      simp [hm]
    · simp [hh]

theorem forEachLoop_entries (s : Impl K V) (acc : List (K × V)) (n j : Nat)
    (h : j + n = s.ordered.length) :
    forEachLoop (fun acc k v => M.pure (acc ++ [(k, v)])) n j acc s
      = (.val (acc ++ s.ordered.drop j), s) := by
  induction n generalizing j acc with
  | zero =>
    have : s.ordered.drop j = [] := by simp; omega
    simp [forEachLoop, M.pure, this]
  | succ n ih =>
    have hj : j < s.ordered.length := by omega
    simp only [forEachLoop, bind, M.bind, M.get, List.getElem?_eq_getElem hj, M.pure]
    rw [ih _ _ (by omega)]
    rw [List.drop_eq_getElem_cons hj (l := s.ordered), List.append_assoc]
    rfl

/-- One call: same answer as the dictionary, same entries, invariant kept. -/
theorem call_refines [LawfulGoKey K] {s : Impl K V} (h : SyncInv s) (op : Op K V) :
    (call op s).1 = (Spec.step op s.ordered).1 ∧
    (call op s).2.ordered = (Spec.step op s.ordered).2 ∧ SyncInv (call op s).2 := by
  cases op with
  | put k v =>
    simp only [call, bind, M.bind, put_eq h, Spec.step, Spec.keyOf]
    rcases hB : GoKey.hashable k with _ | _ <;> simp only [hB, if_true, Bool.false_eq_true, if_false]
    rotate_left
    · exact ⟨by trivial, by trivial, inv_put h k v⟩
    · exact ⟨by trivial, by trivial, h⟩
  | putIfNotNil k v =>
    cases v with
    | none => exact ⟨by trivial, by trivial, h⟩
    | some v =>
      simp only [call, bind, M.bind, putIfNotNil, put_eq h, Spec.step, Spec.keyOf]
      rcases hB : GoKey.hashable k with _ | _ <;> simp only [hB, if_true, Bool.false_eq_true, if_false]
      rotate_left
      · exact ⟨by trivial, by trivial, inv_put h k v⟩
      · exact ⟨by trivial, by trivial, h⟩
  | replaceIfExists k v =>
    obtain ⟨i, he, hi⟩ := replaceIfExists_eq h k v
    simp only [call, bind, M.bind, he, Spec.step, Spec.keyOf]
    rcases hB : GoKey.hashable k with _ | _ <;> simp only [hB, if_true, Bool.false_eq_true, if_false]
    rotate_left
    · exact ⟨by trivial, by trivial, hi⟩
    · exact ⟨by trivial, by trivial, h⟩
  | replaceOrPut k v =>
    obtain ⟨i, he, hi⟩ := replaceIfExists_eq h k v
    simp only [call, bind, M.bind, replaceOrPut, has, indexRead_eq h, Spec.step, Spec.keyOf]
    rcases hh : GoKey.hashable k with _ | _
    rotate_left
    · simp only [hh, if_true, pure, M.pure, find_isSome]
      rcases hm : Spec.mem k s.ordered with _ | _
      rotate_left
      · simp only [hm, if_true, he, hh, Spec.answer]
        exact ⟨by trivial, by trivial, hi⟩
      · simp only [hm, Bool.false_eq_true, if_false, put_eq h, hh, if_true, Spec.answer]
        exact ⟨by trivial, by trivial, inv_put h k v⟩
    · simp only [hh, Bool.false_eq_true, if_false]
      exact ⟨by trivial, by trivial, h⟩
  | delete k =>
    simp only [call, bind, M.bind, delete_eq h, Spec.step, Spec.keyOf]
    rcases hB : GoKey.hashable k with _ | _ <;> simp only [hB, if_true, Bool.false_eq_true, if_false]
    rotate_left
    · exact ⟨by trivial, by trivial, inv_delete h k⟩
    · exact ⟨by trivial, by trivial, h⟩
  | serializeOrdered b => exact ⟨by trivial, by trivial, h.sync, h.distinct⟩
  | get k =>
    simp only [call, bind, M.bind, get, indexRead_eq h, Spec.step, Spec.keyOf]
    rcases hB : GoKey.hashable k with _ | _ <;> simp only [hB, if_true, Bool.false_eq_true, if_false]
    rotate_left
    · exact ⟨by trivial, by trivial, h⟩
    · exact ⟨by trivial, by trivial, h⟩
  | has k =>
    simp only [call, bind, M.bind, has, indexRead_eq h, Spec.step, Spec.keyOf]
    rcases hh : GoKey.hashable k with _ | _
    rotate_left
    · simp only [hh, if_true, pure, M.pure, find_isSome, Spec.answer]
      exact ⟨by trivial, by trivial, h⟩
    · simp only [hh, Bool.false_eq_true, if_false]
      exact ⟨by trivial, by trivial, h⟩
  | indexOf k =>
    simp only [call, bind, M.bind, indexOf_eq h, Spec.step, Spec.keyOf]
    rcases hB : GoKey.hashable k with _ | _ <;> simp only [hB, if_true, Bool.false_eq_true, if_false]
    rotate_left
    · exact ⟨by trivial, by trivial, h⟩
    · exact ⟨by trivial, by trivial, h⟩
  | at' j =>
    simp only [call, at', bind, M.bind, M.get, Spec.step, Spec.keyOf, Spec.answer]
    by_cases h0 : 0 ≤ j
    · by_cases h1 : j.toNat < s.ordered.length
      · simp [h0, h1, pure, M.pure, h]
      · have : s.ordered[j.toNat]? = none := by simp; omega
        simp [h0, h1, M.throw, h]
    · simp [h0, M.throw, h]
  | len => exact ⟨by trivial, by trivial, h⟩
  | entries =>
    simp only [call, forEach, bind, M.bind, M.get, Spec.step, Spec.keyOf, Spec.answer,
      forEachLoop_entries s [] s.ordered.length 0 (by omega)]
    exact ⟨by simp [pure, M.pure], rfl, h⟩

theorem run_refines [LawfulGoKey K] (ops : List (Op K V)) {s : Impl K V} (h : SyncInv s) :
    (run ops s).1 = (Spec.run ops s.ordered).1 ∧
    (run ops s).2.ordered = (Spec.run ops s.ordered).2 ∧ SyncInv (run ops s).2 := by
  induction ops generalizing s with
  | nil => exact ⟨by trivial, by trivial, h⟩
  | cons op ops ih =>
    obtain ⟨h1, h2, h3⟩ := call_refines h op
    obtain ⟨i1, i2, i3⟩ := ih h3
    simp only [run, Spec.run]
    rw [h2] at i1 i2
    exact ⟨by rw [h1, i1], i2, i3⟩

theorem inv_of_reachable [LawfulGoKey K] {s : Impl K V} (h : Reachable s) : SyncInv s := by
  obtain ⟨ops, rfl⟩ := h
  exact (run_refines ops inv_new).2.2

end Verif.OMap
