import Verif.Doc.HeapSessionRun
import Verif.Doc.HeapThreadsSpec

/-! # Lemmas: programs that run at the same time -/

namespace Verif.Doc
open Relation

/-! ### Variables behind others -/

theorem held_append {α : Type} (a b : List (Option α)) (i : Nat) :
    held (a ++ b) i = if i < a.length then held a i else held b (i - a.length) := by
  unfold held
  rw [List.getElem?_append]
  split <;> rfl

theorem held_append_right {α : Type} (a b : List (Option α)) (i : Nat) :
    held (a ++ b) (a.length + i) = held b i := by
  rw [held_append, if_neg (by omega), Nat.add_sub_cancel_left]

theorem held_append_left {α : Type} (a b : List (Option α)) {i : Nat} (h : i < a.length) :
    held (a ++ b) i = held a i := by
  rw [held_append, if_pos h]

theorem held_lt {α : Type} {a : List (Option α)} {i : Nat} {x : α} (h : held a i = some x) :
    i < a.length := by
  by_contra hn
  have : a[i]? = none := List.getElem?_eq_none (by omega)
  simp [held, this] at h

/-- The same line when there are `n` variables before. -/
def Cmd.shift (n : Nat) : Cmd → Cmd
  | .make m => .make m
  | .work i s => .work (n + i) s
  | .give i j p => .give (n + i) (n + j) p
  | .take i p => .take (n + i) p

theorem set_right {α : Type} (a b : List α) (i : Nat) (x : α) :
    (a ++ b).set (a.length + i) x = a ++ b.set i x := by
  rw [List.set_append_right _ _ (by omega), Nat.add_sub_cancel_left]

theorem run_shift (X : Xyml) (H : Heap) (os rs : List (Option Root)) (c : Cmd) :
    (c.shift os.length).run X (H, os ++ rs) =
      ((c.run X (H, rs)).1, os ++ (c.run X (H, rs)).2) := by
  cases c with
  | make m => simp [Cmd.shift, Cmd.run]
  | work i s =>
    simp only [Cmd.shift, Cmd.run, held_append_right]
    cases held rs i <;> rfl
  | give i j p =>
    simp only [Cmd.shift, Cmd.run, held_append_right, Nat.add_left_cancel_iff]
    split
    · rfl
    · split
      · simp only [set_right]
      · rfl
  | take i p =>
    simp only [Cmd.shift, Cmd.run, held_append_right]
    cases held rs i <;> simp

theorem eval_shift (X : Xyml) (os vs : List (Option RootVal)) (c : Cmd) :
    (c.shift os.length).eval X (os ++ vs) = os ++ c.eval X vs := by
  cases c with
  | make m => simp [Cmd.shift, Cmd.eval]
  | work i s =>
    simp only [Cmd.shift, Cmd.eval, held_append_right]
    cases held vs i <;> simp only [set_right]
  | give i j p =>
    simp only [Cmd.shift, Cmd.eval, held_append_right, Nat.add_left_cancel_iff]
    split
    · rfl
    · split
      · simp only [set_right]
      · rfl
  | take i p =>
    simp only [Cmd.shift, Cmd.eval, held_append_right]
    cases held vs i <;> simp [set_right]

/-! ### All variables of all threads -/

/-- Two lists of variables share nothing. -/
def CrossApart (H : Heap) (a b : List (Option Root)) : Prop :=
  ∀ i j r r', held a i = some r → held b j = some r' → H.Apart r.obj r'.obj

section
variable {X : Xyml} {H : Heap} {a b : List (Option Root)} {a' b' : List (Option RootVal)}

theorem holding_append (ha : Holding X H a a') (hb : Holding X H b b') (hc : CrossApart H a b) :
    Holding X H (a ++ b) (a' ++ b') := by
  refine ⟨ha.reach, by simp [ha.len, hb.len], fun i => ?_, fun i j r r' hij hi hj => ?_⟩
  · rw [held_append, held_append, ha.len]
    split
    · exact ha.sim i
    · exact hb.sim _
  · rw [held_append] at hi hj
    split at hi <;> split at hj
    · exact ha.apart i j r r' hij hi hj
    · exact hc _ _ _ _ hi hj
    · exact apart_symm (hc _ _ _ _ hj hi)
    · exact hb.apart _ _ r r' (by omega) hi hj

theorem holding_split (h : Holding X H (a ++ b) (a' ++ b')) (hl : a.length = a'.length) :
    Holding X H a a' ∧ Holding X H b b' ∧ CrossApart H a b := by
  have hlen : b.length = b'.length := by
    have := h.len
    simp only [List.length_append] at this
    omega
  refine ⟨⟨h.reach, hl, fun i => ?_, fun i j r r' hij hi hj => ?_⟩,
    ⟨h.reach, hlen, fun i => ?_, fun i j r r' hij hi hj => ?_⟩, fun i j r r' hi hj => ?_⟩
  · by_cases hi : i < a.length
    · have := h.sim i
      rwa [held_append_left _ _ hi, held_append_left _ _ (hl ▸ hi)] at this
    · have h1 : held a i = none := by
        cases hx : held a i with
        | none => rfl
        | some x => exact absurd (held_lt hx) hi
      have h2 : held a' i = none := by
        cases hx : held a' i with
        | none => rfl
        | some x => exact absurd (hl ▸ held_lt hx) hi
      rw [h1, h2]
      trivial
  · exact h.apart i j r r' hij (by rwa [held_append_left _ _ (held_lt hi)])
      (by rwa [held_append_left _ _ (held_lt hj)])
  · have := h.sim (a.length + i)
    rw [held_append_right] at this
    rwa [hl, held_append_right] at this
  · exact h.apart (a.length + i) (a.length + j) r r' (by omega) (by rwa [held_append_right])
      (by rwa [held_append_right])
  · have hlt := held_lt hi
    exact h.apart i (a.length + j) r r' (by omega) (by rwa [held_append_left _ _ hlt])
      (by rwa [held_append_right])

end

/-- The variables of all threads hold trees that share nothing. -/
structure AllHolding (X : Xyml) (H : Heap) (R : Nat → List (Option Root))
    (V : Nat → List (Option RootVal)) : Prop where
  own : ∀ t, Holding X H (R t) (V t)
  cross : ∀ t u, t ≠ u → CrossApart H (R t) (R u)

/-- A line of one thread keeps what two others hold. -/
theorem line_beside {X : Xyml} {H : Heap} {os rs : List (Option Root)}
    {ovs vs : List (Option RootVal)} (ho : Holding X H os ovs) (h : Holding X H rs vs)
    (hc : CrossApart H os rs) (c : Cmd) :
    Holding X (c.run X (H, rs)).1 os ovs ∧
    Holding X (c.run X (H, rs)).1 (c.run X (H, rs)).2 (c.eval X vs) ∧
    CrossApart (c.run X (H, rs)).1 os (c.run X (H, rs)).2 := by
  have := live_cmd (S := (H, os ++ rs)) (holding_append ho h hc) (c.shift os.length)
  rw [run_shift, ho.len, eval_shift] at this
  exact holding_split this ho.len

theorem allHolding_line {X : Xyml} {H : Heap} {R : Nat → List (Option Root)}
    {V : Nat → List (Option RootVal)} (h : AllHolding X H R V) (t : Nat) (c : Cmd) :
    AllHolding X (c.run X (H, R t)).1 (setVars R t (c.run X (H, R t)).2)
      (setVars V t (c.eval X (V t))) := by
  have hone : ∀ u, u ≠ t → _ := fun u hu =>
    line_beside (h.own u) (h.own t) (h.cross u t hu) c
  refine ⟨fun u => ?_, fun u w huw => ?_⟩
  · unfold setVars
    by_cases hu : u = t
    · rw [if_pos hu, if_pos hu]
      exact live_cmd (S := (H, R t)) (h.own t) c
    · rw [if_neg hu, if_neg hu]
      exact (hone u hu).1
  · unfold setVars
    by_cases hu : u = t
    · rw [if_pos hu, if_neg (fun e => huw (hu.trans e.symm))]
      have := (hone w (fun e => huw (hu.trans e.symm))).2.2
      exact fun i j r r' hi hj => apart_symm (this j i r' r hj hi)
    · rw [if_neg hu]
      by_cases hw : w = t
      · rw [if_pos hw]
        exact (hone u hu).2.2
      · rw [if_neg hw]
        have hj := holding_append (h.own u) (h.own w) (h.cross u w huw)
        have hc : CrossApart H (R u ++ R w) (R t) := by
          intro i j r r' hi hj
          rw [held_append] at hi
          split at hi
          · exact h.cross u t hu _ _ _ _ hi hj
          · exact h.cross w t hw _ _ _ _ hi hj
        exact (holding_split (line_beside hj (h.own t) hc c).1 (h.own u).len).2.2

/-- Where a variable of a thread comes from after something was handed over. -/
theorem held_handOver {α : Type} (f : Nat → List (Option α)) (t i u w j : Nat) :
    held (handOver f t i u w) j =
      if w = u ∧ j = (f u).length then held (f t) i
      else if w = t ∧ j = i then none else held (f w) j := by
  have hset : ∀ (l : List (Option α)) (i j : Nat), held (l.set i none) j =
      if j = i then none else held l j := by
    intro l i j
    by_cases hij : j = i
    · subst hij
      rw [if_pos rfl]
      unfold held
      rw [List.getElem?_set]
      simp only [if_true]
      split <;> rfl
    · rw [if_neg hij, held_set_ne _ hij]
  have hlen : ∀ x, (if x = t then (f t).set i none else f x).length = (f x).length := by
    intro x
    split
    · rename_i h; subst h; simp
    · rfl
  unfold handOver setVars
  by_cases hw : w = u
  · subst hw
    simp only [if_true, true_and]
    rw [held_push, hlen]
    split
    · rfl
    · by_cases ht : w = t
      · subst ht
        simp only [if_true, true_and, hset]
      · simp only [ht, false_and, if_false]
  · simp only [hw, false_and, if_false]
    by_cases ht : w = t
    · subst ht
      simp only [if_true, true_and, hset]
    · simp only [ht, false_and, if_false]

theorem length_handOver {α : Type} (f : Nat → List (Option α)) (t i u w : Nat) :
    (handOver f t i u w).length = (f w).length + if w = u then 1 else 0 := by
  unfold handOver setVars
  by_cases hw : w = u
  · subst hw
    simp only [if_true, List.length_append, List.length_singleton]
    split
    · rename_i h; subst h; simp
    · rfl
  · simp only [if_neg hw, Nat.add_zero]
    split
    · rename_i h; subst h; simp
    · rfl

theorem allHolding_apart {X : Xyml} {H : Heap} {R : Nat → List (Option Root)}
    {V : Nat → List (Option RootVal)} (h : AllHolding X H R V) {t i u j : Nat} {r r' : Root}
    (hne : ¬ (t = u ∧ i = j)) (hi : held (R t) i = some r) (hj : held (R u) j = some r') :
    H.Apart r.obj r'.obj := by
  by_cases htu : t = u
  · subst htu
    exact (h.own t).apart i j r r' (fun e => hne ⟨rfl, e⟩) hi hj
  · exact h.cross t u htu i j r r' hi hj

theorem allHolding_send {X : Xyml} {H : Heap} {R : Nat → List (Option Root)}
    {V : Nat → List (Option RootVal)} (h : AllHolding X H R V) (t i u : Nat) :
    AllHolding X H (handOver R t i u) (handOver V t i u) := by
  have hap : ∀ w j w' j' r r', ¬ (w = w' ∧ j = j') → held (handOver R t i u w) j = some r →
      held (handOver R t i u w') j' = some r' → H.Apart r.obj r'.obj := by
    intro w j w' j' r r' hne hj hj'
    rw [held_handOver] at hj hj'
    split at hj <;> split at hj'
    · rename_i e1 e2
      exact absurd ⟨e1.1.trans e2.1.symm, e1.2.trans e2.2.symm⟩ hne
    · split at hj'
      · cases hj'
      · rename_i e2
        exact allHolding_apart h (fun e => e2 ⟨e.1.symm, e.2.symm⟩) hj hj'
    · split at hj
      · cases hj
      · rename_i e2
        exact allHolding_apart h e2 hj hj'
    · split at hj
      · cases hj
      · split at hj'
        · cases hj'
        · exact allHolding_apart h hne hj hj'
  refine ⟨fun w => ⟨(h.own 0).reach, ?_, fun j => ?_, fun j k r r' hjk hj hk => ?_⟩,
    fun w w' hw j k r r' hj hk => ?_⟩
  · rw [length_handOver, length_handOver, (h.own w).len]
  · rw [held_handOver, held_handOver, (h.own u).len]
    split
    · exact (h.own t).sim i
    · split
      · trivial
      · exact (h.own w).sim j
  · exact hap w j w k r r' (fun e => hjk e.2) hj hk
  · exact hap w j w' k r r' (fun e => hw e.1) hj hk

theorem allHolding_run (X : Xyml) (es : List Event) :
    AllHolding X (runEvents X es).1 (runEvents X es).2 (evalEvents X es) := by
  have : ∀ (es : List Event) (S : Heap × (Nat → List (Option Root)))
      (vs : Nat → List (Option RootVal)), AllHolding X S.1 S.2 vs →
      AllHolding X (es.foldl (Event.run X) S).1 (es.foldl (Event.run X) S).2
        (es.foldl (Event.eval X) vs) := by
    intro es
    induction es with
    | nil => exact fun _ _ h => h
    | cons e es ih =>
      refine fun S vs h => ih _ _ ?_
      cases e with
      | line t c => exact allHolding_line h t c
      | send t i u => exact allHolding_send h t i u
  exact this es (Heap.start, fun _ => []) (fun _ => [])
    ⟨fun _ => live_start X, fun _ _ _ _ _ _ _ h => by cases h⟩

/-- Without handing over, every thread computes on its own. -/
theorem evalEvents_own (X : Xyml) (es : List Event) (h : ∀ e ∈ es, e.isSend = false) (t : Nat) :
    evalEvents X es t = evalCmds X (ownLines t es) := by
  have : ∀ (es : List Event) (vs : Nat → List (Option RootVal)), (∀ e ∈ es, e.isSend = false) →
      es.foldl (Event.eval X) vs t = (ownLines t es).foldl (Cmd.eval X) (vs t) := by
    intro es
    induction es with
    | nil => exact fun _ _ => rfl
    | cons e es ih =>
      intro vs hs
      rw [List.foldl_cons, ih _ fun e he => hs e (List.mem_cons_of_mem _ he)]
      cases e with
      | send a b c => exact Bool.noConfusion (hs _ List.mem_cons_self)
      | line u c =>
        by_cases hu : u = t
        · subst hu
          simp [ownLines, Event.eval, setVars]
        · have hu' : ¬ t = u := fun e => hu e.symm
          simp [ownLines, Event.eval, setVars, hu, hu']
  exact this es _ h

end Verif.Doc
