import Verif.Doc.Slices

/-! # Lemmas: shared slices -/

namespace Verif.Doc.Slices
variable {V : Type}

/-- A slice within its array. -/
structure Ok (M : Mem V) (s : Slice) : Prop where
  arr : s.arr < M.next
  len : s.len ≤ s.cap
  cap : s.off + s.cap ≤ (M.arr s.arr).length

/-- All slices are. -/
structure State.Ok (S : State V) : Prop where
  field : ∀ f s, S.field f = some s → Slices.Ok S.mem s
  var : ∀ v s, S.get v = some s → Slices.Ok S.mem s

/-- Memory where what was in use still is, and arrays keep their size. -/
structure Later (M M' : Mem V) : Prop where
  next : M.next ≤ M'.next
  size : ∀ a, a < M.next → (M'.arr a).length = (M.arr a).length

theorem Later.refl (M : Mem V) : Later M M := ⟨Nat.le_refl _, fun _ _ => rfl⟩

theorem Later.trans {M M' M'' : Mem V} (h : Later M M') (h' : Later M' M'') : Later M M'' :=
  ⟨Nat.le_trans h.next h'.next, fun a ha =>
    (h'.size a (Nat.lt_of_lt_of_le ha h.next)).trans (h.size a ha)⟩

theorem Ok.later {M M' : Mem V} {s : Slice} (h : Ok M s) (hl : Later M M') : Ok M' s :=
  ⟨Nat.lt_of_lt_of_le h.arr hl.next, h.len, by rw [hl.size _ h.arr]; exact h.cap⟩

theorem later_alloc (M : Mem V) (xs extra : List V) : Later M (M.alloc xs extra).2 :=
  ⟨Nat.le_succ _, fun a ha => by
    simp only [Mem.alloc, Function.update_of_ne (Nat.ne_of_lt ha)]⟩

theorem ok_alloc (M : Mem V) (xs extra : List V) :
    Ok (M.alloc xs extra).2 (M.alloc xs extra).1 :=
  ⟨Nat.lt_succ_self _, by simp [Mem.alloc], by simp [Mem.alloc]⟩

theorem read_alloc (M : Mem V) (xs extra : List V) :
    (M.alloc xs extra).2.read (M.alloc xs extra).1 = xs := by
  simp [Mem.alloc, Mem.read]

theorem read_alloc_other {M : Mem V} (xs extra : List V) {s : Slice} (h : s.arr < M.next) :
    (M.alloc xs extra).2.read s = M.read s := by
  simp only [Mem.alloc, Mem.read, Function.update_of_ne (Nat.ne_of_lt h)]

/-- Memory after a write into an array. -/
def Mem.put (M : Mem V) (a p : Nat) (x : V) : Mem V :=
  { M with arr := Function.update M.arr a ((M.arr a).set p x) }

theorem later_put (M : Mem V) (a p : Nat) (x : V) : Later M (M.put a p x) :=
  ⟨Nat.le_refl _, fun b _ => by
    by_cases h : b = a
    · subst h; simp [Mem.put]
    · simp [Mem.put, Function.update_of_ne h]⟩

/-- What a write shows as. -/
theorem read_put (M : Mem V) (a p : Nat) (x : V) {s : Slice} (hs : Ok M s) (i : Nat) :
    ((M.put a p x).read s)[i]? =
      if s.arr = a ∧ s.off + i = p ∧ i < s.len then some x else (M.read s)[i]? := by
  by_cases ha : s.arr = a
  · subst ha
    simp only [Mem.put, Mem.read, Function.update_self, true_and]
    by_cases hi : i < s.len
    · have hlt : s.off + i < (M.arr s.arr).length := by
        have := hs.len; have := hs.cap; omega
      simp only [List.getElem?_take, hi, if_true, List.getElem?_drop, List.getElem?_set, and_true]
      by_cases hp : s.off + i = p
      · simp [hp, hp ▸ hlt]
      · simp [hp, Ne.symm hp]
    · simp [List.getElem?_take, hi]
  · simp only [Mem.put, Mem.read, Function.update_of_ne ha, ha, false_and, if_false]

theorem read_put_other (M : Mem V) (a p : Nat) (x : V) {s : Slice} (hs : Ok M s)
    (h : s.arr = a → s.off + s.len ≤ p) : (M.put a p x).read s = M.read s := by
  refine List.ext_getElem? fun i => ?_
  rw [read_put M a p x hs]
  split
  · rename_i hc
    have := h hc.1
    omega
  · rfl

theorem read_length {M : Mem V} {s : Slice} (h : Ok M s) : (M.read s).length = s.len := by
  have := h.len; have := h.cap
  simp only [Mem.read, List.length_take, List.length_drop]
  omega

theorem push_room (slack : List V → List V) {M : Mem V} {s : Slice} (h : s.len < s.cap) (x : V) :
    M.push slack (some s) x = ({ s with len := s.len + 1 }, M.put s.arr (s.off + s.len) x) := by
  simp only [Mem.push, if_pos h, Mem.put]

theorem push_full (slack : List V → List V) {M : Mem V} {s : Slice} (h : s.len = s.cap) (x : V) :
    M.push slack (some s) x = M.alloc (M.read s ++ [x]) (slack (M.read s)) := by
  simp only [Mem.push, if_neg (show ¬ s.len < s.cap by omega)]

theorem later_push (slack : List V → List V) (M : Mem V) (s : Option Slice) (x : V) :
    Later M (M.push slack s x).2 := by
  cases s with
  | none => exact later_alloc M _ _
  | some s =>
    by_cases h : s.len < s.cap
    · rw [push_room slack h]; exact later_put M _ _ _
    · simp only [Mem.push, if_neg h]; exact later_alloc M _ _

theorem ok_push (slack : List V → List V) {M : Mem V} {s : Option Slice}
    (hs : ∀ t, s = some t → Ok M t) (x : V) : Ok (M.push slack s x).2 (M.push slack s x).1 := by
  cases s with
  | none => exact ok_alloc M _ _
  | some s =>
    have hs := hs s rfl
    by_cases h : s.len < s.cap
    · rw [push_room slack h]
      have := hs.later (later_put M s.arr (s.off + s.len) x)
      exact ⟨this.arr, h, this.cap⟩
    · simp only [Mem.push, if_neg h]; exact ok_alloc M _ _

theorem read_push (slack : List V → List V) {M : Mem V} {s : Option Slice}
    (hs : ∀ t, s = some t → Ok M t) (x : V) :
    (M.push slack s x).2.read (M.push slack s x).1 = (M.value s).getD [] ++ [x] := by
  cases s with
  | none => exact read_alloc M _ _
  | some s =>
    have hs := hs s rfl
    by_cases h : s.len < s.cap
    · rw [push_room slack h]
      have hok : Ok M { s with len := s.len + 1 } := ⟨hs.arr, h, hs.cap⟩
      refine List.ext_getElem? fun i => ?_
      rw [read_put M _ _ _ hok]
      simp only [Mem.value, Option.map_some, Option.getD_some, List.getElem?_append,
        read_length hs, true_and, Nat.add_left_cancel_iff]
      by_cases hi : i < s.len
      · simp only [hi, if_true, Nat.ne_of_lt hi, false_and, if_false]
        simp only [Mem.read, List.getElem?_take, hi, if_true, Nat.lt_succ_of_lt hi]
      · by_cases he : i = s.len
        · subst he; simp
        · have hgt : ¬ i < s.len + 1 := by omega
          have h0 : ¬ i - s.len = 0 := by omega
          simp only [he, false_and, if_false, hi]
          rw [List.getElem?_eq_none, List.getElem?_eq_none]
          · simp; omega
          · simp only [Mem.read, List.length_take]; omega
    · simp only [Mem.push, if_neg h]
      rw [read_alloc]
      rfl

theorem pushAll_append (slack : List V → List V) (M : Mem V) (s : Option Slice) (x : V)
    (xs : List V) : M.pushAll slack s (x :: xs) =
      (M.push slack s x).2.pushAll slack (some (M.push slack s x).1) xs := rfl

theorem later_pushAll (slack : List V → List V) (xs : List V) (M : Mem V) (s : Option Slice) :
    Later M (M.pushAll slack s xs).2 := by
  induction xs generalizing M s with
  | nil => exact .refl M
  | cons x xs ih => exact (later_push slack M s x).trans (ih _ _)

theorem ok_pushAll (slack : List V → List V) (xs : List V) {M : Mem V} {s : Option Slice}
    (hs : ∀ t, s = some t → Ok M t) :
    ∀ t, (M.pushAll slack s xs).1 = some t → Ok (M.pushAll slack s xs).2 t := by
  induction xs generalizing M s with
  | nil => exact hs
  | cons x xs ih =>
    rw [pushAll_append]
    exact ih fun t ht => by cases ht; exact ok_push slack hs x

theorem value_pushAll (slack : List V → List V) (xs : List V) {M : Mem V} {s : Option Slice}
    (hs : ∀ t, s = some t → Ok M t) :
    (M.pushAll slack s xs).2.value (M.pushAll slack s xs).1 =
      if xs.isEmpty then M.value s else some ((M.value s).getD [] ++ xs) := by
  induction xs generalizing M s with
  | nil => rfl
  | cons x xs ih =>
    rw [pushAll_append, ih fun t ht => by cases ht; exact ok_push slack hs x]
    simp only [Mem.value, Option.map_some, read_push slack hs, Option.getD_some, List.isEmpty_cons,
      Bool.false_eq_true, if_false]
    cases xs with
    | nil => rfl
    | cons y ys => simp

/-- What loading shows as through another slice: what is behind the elements of the stored slice, as
far as there is room, is overwritten. -/
theorem read_pushAll (slack : List V → List V) (xs : List V) {M : Mem V} {t : Option Slice}
    (ht : ∀ y, t = some y → Ok M y) {s : Slice} (hs : Ok M s) {i : Nat} (hi : i < s.len) :
    ((M.pushAll slack t xs).2.read s)[i]? = match (generalizing := false) t with
      | some t => if s.arr = t.arr ∧ t.off + t.len ≤ s.off + i ∧
          s.off + i < t.off + min t.cap (t.len + xs.length)
        then xs[s.off + i - (t.off + t.len)]? else (M.read s)[i]?
      | none => (M.read s)[i]? := by
  induction xs generalizing M t with
  | nil =>
    cases t with
    | none => rfl
    | some t =>
      have := ht t rfl
      have h1 := this.len
      simp only [Mem.pushAll, List.length_nil, Nat.add_zero]
      rw [if_neg]
      rintro ⟨-, h2, h3⟩
      omega
  | cons x xs ih =>
    have hok := ok_push slack ht x
    have hl := later_push slack M t x
    rw [pushAll_append, ih (fun y hy => by cases hy; exact hok) (hs.later hl)]
    have halloc : ∀ ys e, (match (generalizing := false) some (M.alloc ys e).1 with
        | some t => if s.arr = t.arr ∧ t.off + t.len ≤ s.off + i ∧
            s.off + i < t.off + min t.cap (t.len + xs.length)
          then xs[s.off + i - (t.off + t.len)]? else ((M.alloc ys e).2.read s)[i]?
        | none => ((M.alloc ys e).2.read s)[i]?) = (M.read s)[i]? := by
      intro ys e
      have hne : ¬ s.arr = (M.alloc ys e).1.arr := Nat.ne_of_lt hs.arr
      simp only [hne, false_and, if_false, read_alloc_other ys e hs.arr]
    cases t with
    | none => exact halloc _ _
    | some t =>
      have htk := ht t rfl
      by_cases h : t.len < t.cap
      · rw [push_room slack h]
        simp only [read_put M _ _ _ hs, hi, and_true]
        by_cases ha : s.arr = t.arr
        · simp only [ha, true_and, List.length_cons]
          by_cases he : s.off + i = t.off + t.len
          · have h1 : ¬ t.off + (t.len + 1) ≤ s.off + i := by omega
            have h2 : t.off + t.len ≤ s.off + i ∧
              s.off + i < t.off + min t.cap (t.len + (xs.length + 1)) := by omega
            rw [if_neg (fun q => h1 q.1), if_pos he, if_pos h2, he]
            simp
          · rw [if_neg he]
            by_cases hc : t.off + (t.len + 1) ≤ s.off + i ∧
                s.off + i < t.off + min t.cap (t.len + 1 + xs.length)
            · have h2 : t.off + t.len ≤ s.off + i ∧
                s.off + i < t.off + min t.cap (t.len + (xs.length + 1)) := by omega
              rw [if_pos hc, if_pos h2]
              have : s.off + i - (t.off + t.len) = s.off + i - (t.off + (t.len + 1)) + 1 := by omega
              rw [this, List.getElem?_cons_succ]
            · have h2 : ¬ (t.off + t.len ≤ s.off + i ∧
                s.off + i < t.off + min t.cap (t.len + (xs.length + 1))) := by omega
              rw [if_neg hc, if_neg h2]
        · simp only [ha, false_and, if_false]
      · have hf : t.len = t.cap := by have := htk.len; omega
        rw [push_full slack hf]
        rw [halloc]
        refine (if_neg ?_).symm
        rintro ⟨-, h1, h2⟩
        omega

/-! ### Steps -/

theorem get_push (S : State V) (x : Option Slice) (v : Nat) {M : Mem V} :
    State.get { S with mem := M, var := S.var ++ [x] } v =
      if v = S.var.length then x else S.get v := by
  simp only [State.get]
  split
  · rename_i h; subst h; simp
  · rename_i h
    rcases Nat.lt_or_gt_of_ne h with h | h
    · rw [List.getElem?_append_left h]
    · rw [List.getElem?_eq_none (by simp; omega), List.getElem?_eq_none (by omega)]

theorem State.Ok.addVar {S : State V} (h : S.Ok) {M : Mem V} (hl : Later S.mem M)
    {x : Option Slice} (hx : ∀ s, x = some s → Slices.Ok M s) :
    State.Ok { S with mem := M, var := S.var ++ [x] } := by
  refine ⟨fun f s hs => (h.field f s hs).later hl, fun v s hs => ?_⟩
  rw [get_push] at hs
  split at hs
  · exact hx s hs
  · exact (h.var v s hs).later hl

theorem State.Ok.setField {S : State V} (h : S.Ok) {M : Mem V} (hl : Later S.mem M)
    {x : Option Slice} (hx : ∀ s, x = some s → Slices.Ok M s) (f : Nat) :
    State.Ok { S with mem := M, field := Function.update S.field f x } := by
  refine ⟨fun g s hs => ?_, fun v s hs => (h.var v s hs).later hl⟩
  by_cases hg : g = f
  · subst hg
    simp only [Function.update_self] at hs
    exact hx s hs
  · simp only [Function.update_of_ne hg] at hs
    exact (h.field g s hs).later hl

/-- Every step keeps slices within their arrays. -/
theorem ok_step (slack : List V → List V) {S : State V} (h : S.Ok) (o : Op V) :
    (S.step slack o).Ok := by
  cases o with
  | lit xs extra =>
    exact h.addVar (later_alloc _ _ _) fun s hs => by cases hs; exact ok_alloc _ _ _
  | sub v i j k =>
    simp only [State.step]
    split
    · rename_i s hs
      split
      · rename_i hc
        have hok := h.var v s hs
        refine h.addVar (.refl _) fun t ht => ?_
        cases ht
        refine ⟨hok.arr, ?_, ?_⟩
        · show j - i ≤ k - i; omega
        · have := hok.cap
          show s.off + i + (k - i) ≤ (S.mem.arr s.arr).length
          omega
      · exact h
    · exact h
  | push v x =>
    exact h.addVar (later_push _ _ _ _) fun s hs => by
      cases hs; exact ok_push slack (h.var v) x
  | write v i x =>
    simp only [State.step]
    split
    · rename_i s hs
      split
      · have hl := later_put S.mem s.arr (s.off + i) x
        exact ⟨fun f t ht => (h.field f t ht).later hl, fun w t ht => (h.var w t ht).later hl⟩
      · exact h
    · exact h
  | get f => exact h.addVar (.refl _) fun s hs => h.field f s hs
  | set f v => exact h.setField (.refl _) (fun s hs => h.var v s hs) f
  | unset f => exact h.setField (.refl _) (fun s hs => by cases hs) f
  | load f xs =>
    exact h.setField (later_pushAll _ _ _ _) (ok_pushAll slack xs (h.field f)) f
  | replace f xs extra =>
    exact h.setField (later_alloc _ _ _) (fun s hs => by cases hs; exact ok_alloc _ _ _) f

theorem ok_start (V : Type) : (State.start V).Ok :=
  ⟨fun _ _ h => (by cases h), fun _ _ h => (by cases h)⟩

theorem ok_run (slack : List V → List V) (os : List (Op V)) {S : State V} (h : S.Ok) :
    (S.run slack os).Ok := by
  induction os generalizing S with
  | nil => exact h
  | cons o os ih => exact ih (ok_step slack h o)

/-- A load is one element after the other. -/
theorem step_load_append (slack : List V → List V) (xs ys : List V) (S : State V) (f : Nat) :
    S.step slack (.load f (xs ++ ys)) = (S.step slack (.load f xs)).step slack (.load f ys) := by
  induction xs generalizing S with
  | nil =>
    have : S.step slack (.load f []) = S := by
      simp only [State.step, Mem.pushAll, Function.update_eq_self]
    rw [this]; rfl
  | cons x xs ih =>
    have h : ∀ zs, S.step slack (.load f (x :: zs)) = State.step slack { S with
        mem := (S.mem.push slack (S.field f) x).2
        field := Function.update S.field f (some (S.mem.push slack (S.field f) x).1) }
        (.load f zs) := by
      intro zs
      simp only [State.step, pushAll_append, Function.update_self, Function.update_idem]
    rw [List.cons_append, h, h, ih]

theorem value_load (slack : List V → List V) {S : State V} (h : S.Ok) (f : Nat) (xs : List V) :
    (S.step slack (.load f xs)).mem.value ((S.step slack (.load f xs)).field f) =
      if xs.isEmpty then S.mem.value (S.field f)
      else some ((S.mem.value (S.field f)).getD [] ++ xs) := by
  simp only [State.step, Function.update_self]
  exact value_pushAll slack xs (h.field f)

/-- Loading a list appends what could be read before an error. -/
theorem loadSeq_eq (slack : List V → List V) (read : Node → Res V) (f : Nat) (v : Node)
    {S : State V} (h : S.Ok) : ∃ xs, (S.loadSeq slack read f v).1 = S.step slack (.load f xs) ∧
      ((S.loadSeq slack read f v).1.mem.value ((S.loadSeq slack read f v).1.field f),
        (S.loadSeq slack read f v).2) =
      liveSeq (fun n l => store (read n) (fun l x => some (l.getD [] ++ [x])) l) v
        (S.mem.value (S.field f)) := by
  have h0 : ∀ S : State V, S.step slack (.load f []) = S := fun S => by
    simp only [State.step, Mem.pushAll, Function.update_eq_self]
  cases v with
  | scalar _ _ => exact ⟨[], (h0 S).symm, rfl⟩
  | map _ => exact ⟨[], (h0 S).symm, rfl⟩
  | seq t ns =>
    simp only [State.loadSeq, liveSeq]
    induction ns generalizing S with
    | nil => exact ⟨[], (h0 S).symm, rfl⟩
    | cons n ns ih =>
      simp only [liveItems]
      cases hr : read n with
      | err e => exact ⟨[], by simp only [store, h0], rfl⟩
      | panic c => exact ⟨[], by simp only [store, h0], rfl⟩
      | ok x =>
        obtain ⟨xs, e1, e2⟩ := ih (ok_step slack h (.load f [x]))
        refine ⟨x :: xs, ?_, ?_⟩
        · exact e1.trans (step_load_append slack [x] xs S f).symm
        · refine e2.trans ?_
          rw [value_load slack h]
          rfl

/-! ### Care -/

/-- Fields and variables hold what lists do, and no slice sees what is behind the elements of a field
that has room there. -/
structure Sim (S : State V) (W : Vals V) : Prop where
  ok : S.Ok
  var : W.var = S.var.map S.mem.value
  field : ∀ f, W.field f = S.mem.value (S.field f)
  vars : ∀ f s, S.field f = some s → s.len < s.cap → ∀ v t, S.get v = some t → t.arr = s.arr →
    t.off + t.len ≤ s.off + s.len
  fields : ∀ f s, S.field f = some s → s.len < s.cap → ∀ g t, g ≠ f → S.field g = some t →
    t.arr = s.arr → t.off + t.len ≤ s.off + s.len ∧ t.len = t.cap

theorem Sim.get {S : State V} {W : Vals V} (h : Sim S W) (v : Nat) :
    W.get v = S.mem.value (S.get v) := by
  simp only [Vals.get, State.get, h.var, List.getElem?_map]
  cases S.var[v]? with
  | none => rfl
  | some x => cases x <;> rfl

theorem value_map {M M' : Mem V} {l : List (Option Slice)}
    (h : ∀ s, some s ∈ l → M'.read s = M.read s) : l.map M'.value = l.map M.value := by
  refine List.map_congr_left fun x hx => ?_
  cases x with
  | none => rfl
  | some s => simp only [Mem.value, Option.map_some, h s hx]

theorem mem_get {S : State V} {s : Slice} (h : some s ∈ S.var) : ∃ v, S.get v = some s := by
  obtain ⟨v, hv, e⟩ := List.mem_iff_getElem.mp h
  exact ⟨v, by simp only [State.get, List.getElem?_eq_getElem hv, e, Option.join_some]⟩

/-- A new variable that sees nothing behind the elements of a field. -/
theorem Sim.addVar {S : State V} {W : Vals V} (h : Sim S W) {M : Mem V} (hl : Later S.mem M)
    (hr : ∀ s, Slices.Ok S.mem s → M.read s = S.mem.read s) {x : Option Slice} {y : Option (List V)}
    (hx : ∀ s, x = some s → Slices.Ok M s) (hy : y = M.value x)
    (hc : ∀ f s, S.field f = some s → s.len < s.cap → ∀ t, x = some t → t.arr = s.arr →
      t.off + t.len ≤ s.off + s.len) :
    Sim { S with mem := M, var := S.var ++ [x] } { W with var := W.var ++ [y] } := by
  refine ⟨h.ok.addVar hl hx, ?_, fun f => ?_, fun f s hs hlt v t ht ha => ?_, h.fields⟩
  · simp only [List.map_append, List.map_cons, List.map_nil, h.var, hy]
    congr 1
    exact (value_map fun s hs => by
      obtain ⟨v, hv⟩ := mem_get hs
      exact hr s (h.ok.var v s hv)).symm
  · show W.field f = M.value (S.field f)
    rw [h.field f]
    cases hf : S.field f with
    | none => rfl
    | some s => simp only [Mem.value, Option.map_some, hr s (h.ok.field f s hf)]
  · rw [get_push] at ht
    split at ht
    · exact hc f s hs hlt t ht ha
    · exact h.vars f s hs hlt v t ht ha

/-- A field that gets a slice of its own, or a full one. -/
theorem Sim.setField {S : State V} {W : Vals V} (h : Sim S W) {M : Mem V} (hl : Later S.mem M)
    (hr : ∀ s, Slices.Ok S.mem s → M.read s = S.mem.read s) (f : Nat) {x : Option Slice}
    {y : Option (List V)} (hx : ∀ s, x = some s → Slices.Ok M s) (hy : y = M.value x)
    (hc : (∀ s, x = some s → S.mem.next ≤ s.arr) ∨ (Full x ∧ ∃ v, x = S.get v)) :
    Sim { S with mem := M, field := Function.update S.field f x }
      { W with field := Function.update W.field f y } := by
  have hnew : ∀ s t, x = some s → s.len < s.cap → Slices.Ok S.mem t → t.arr = s.arr → False := by
    intro s t hs hlt ht ha
    rcases hc with hc | hc
    · have := hc s hs; have := ht.arr; omega
    · have := hc.1 s hs; omega
  refine ⟨h.ok.setField hl hx f, ?_, fun g => ?_, fun g s hs hlt v t ht ha => ?_,
    fun g s hs hlt g' t hne ht ha => ?_⟩
  · rw [h.var]
    exact (value_map fun s hs => by
      obtain ⟨v, hv⟩ := mem_get hs
      exact hr s (h.ok.var v s hv)).symm
  · by_cases hg : g = f
    · subst hg; simp only [Function.update_self, hy]
    · simp only [Function.update_of_ne hg, h.field g]
      cases hf : S.field g with
      | none => rfl
      | some s => simp only [Mem.value, Option.map_some, hr s (h.ok.field g s hf)]
  · by_cases hg : g = f
    · subst hg
      simp only [Function.update_self] at hs
      exact (hnew s t hs hlt (h.ok.var v t ht) ha).elim
    · simp only [Function.update_of_ne hg] at hs
      exact h.vars g s hs hlt v t ht ha
  · by_cases hg : g = f
    · subst hg
      simp only [Function.update_self] at hs
      simp only [Function.update_of_ne hne] at ht
      exact (hnew s t hs hlt (h.ok.field g' t ht) ha).elim
    · simp only [Function.update_of_ne hg] at hs
      by_cases hg' : g' = f
      · subst hg'
        simp only [Function.update_self] at ht
        rcases hc with hc | ⟨hc, v, hv⟩
        · have := hc t ht
          have := (h.ok.field g s hs).arr
          omega
        · exact ⟨h.vars g s hs hlt v t (hv ▸ ht) ha, hc t ht⟩
      · simp only [Function.update_of_ne hg'] at ht
        exact h.fields g s hs hlt g' t hne ht ha

/-- One element is appended to a field. -/
theorem sim_load1 (slack : List V → List V) {S : State V} {W : Vals V} (h : Sim S W) (f : Nat)
    (x : V) :
    Sim { S with
        mem := (S.mem.push slack (S.field f) x).2
        field := Function.update S.field f (some (S.mem.push slack (S.field f) x).1) }
      { W with field := Function.update W.field f (some ((W.field f).getD [] ++ [x])) } := by
  have hok := ok_push slack (h.ok.field f) x
  have hrd := read_push slack (h.ok.field f) x
  have hy : some ((W.field f).getD [] ++ [x]) = (S.mem.push slack (S.field f) x).2.value
      (some (S.mem.push slack (S.field f) x).1) := by
    simp only [Mem.value, Option.map_some, hrd, h.field f]
  have halloc : ∀ ys e, S.mem.push slack (S.field f) x = S.mem.alloc ys e →
      Sim { S with
          mem := (S.mem.push slack (S.field f) x).2
          field := Function.update S.field f (some (S.mem.push slack (S.field f) x).1) }
        { W with field := Function.update W.field f (some ((W.field f).getD [] ++ [x])) } := by
    intro ys e he
    refine h.setField (later_push _ _ _ _) (fun s hs => ?_) f
      (fun s hs => by cases hs; exact hok) hy (Or.inl fun s hs => ?_)
    · rw [he]; exact read_alloc_other ys e hs.arr
    · cases hs; rw [he]; exact Nat.le_refl _
  cases hf : S.field f with
  | none => rw [hf] at halloc; exact halloc _ _ rfl
  | some s =>
    have hs := h.ok.field f s hf
    by_cases hlt : s.len < s.cap
    · rw [hf] at hy hok
      rw [push_room slack hlt] at hy hok ⊢
      have hl := later_put S.mem s.arr (s.off + s.len) x
      have hvar : ∀ v t, S.get v = some t →
          (S.mem.put s.arr (s.off + s.len) x).read t = S.mem.read t := fun v t ht =>
        read_put_other _ _ _ _ (h.ok.var v t ht) fun ha => h.vars f s hf hlt v t ht ha
      have hfld : ∀ g t, g ≠ f → S.field g = some t →
          (S.mem.put s.arr (s.off + s.len) x).read t = S.mem.read t := fun g t hg ht =>
        read_put_other _ _ _ _ (h.ok.field g t ht) fun ha => (h.fields f s hf hlt g t hg ht ha).1
      refine ⟨h.ok.setField hl (fun t ht => by cases ht; exact hok) f, ?_, fun g => ?_,
        fun g s' hs' hlt' v t ht ha => ?_, fun g s' hs' hlt' g' t hne ht ha => ?_⟩
      · rw [h.var]
        exact (value_map fun t ht => by
          obtain ⟨v, hv⟩ := mem_get ht
          exact hvar v t hv).symm
      · by_cases hg : g = f
        · subst hg; simp only [Function.update_self, hy]
        · simp only [Function.update_of_ne hg, h.field g]
          cases hfg : S.field g with
          | none => rfl
          | some t => simp only [Mem.value, Option.map_some, hfld g t hg hfg]
      · by_cases hg : g = f
        · subst hg
          simp only [Function.update_self] at hs'
          cases hs'
          have := h.vars g s hf hlt v t ht ha
          show t.off + t.len ≤ s.off + (s.len + 1)
          omega
        · simp only [Function.update_of_ne hg] at hs'
          exact h.vars g s' hs' hlt' v t ht ha
      · by_cases hg : g = f
        · subst hg
          simp only [Function.update_self] at hs'
          cases hs'
          simp only [Function.update_of_ne hne] at ht
          have := h.fields g s hf hlt g' t hne ht ha
          refine ⟨?_, this.2⟩
          show t.off + t.len ≤ s.off + (s.len + 1)
          omega
        · simp only [Function.update_of_ne hg] at hs'
          by_cases hg' : g' = f
          · subst hg'
            simp only [Function.update_self] at ht
            cases ht
            have := h.fields g' s hf hlt g s' (Ne.symm hne) hs' ha.symm
            omega
          · simp only [Function.update_of_ne hg'] at ht
            exact h.fields g s' hs' hlt' g' t hne ht ha
    · have hfull : s.len = s.cap := by have := hs.len; omega
      have := halloc (S.mem.read s ++ [x]) (slack (S.mem.read s)) (by rw [hf, push_full slack hfull])
      rw [hf] at this
      exact this

theorem sim_load (slack : List V → List V) (xs : List V) {S : State V} {W : Vals V} (h : Sim S W)
    (f : Nat) : Sim (S.step slack (.load f xs)) (W.step (.load f xs)) := by
  induction xs generalizing S W with
  | nil =>
    have e1 : S.step slack (.load f []) = S := by
      simp only [State.step, Mem.pushAll, Function.update_eq_self]
    have e2 : W.step (.load f []) = W := by
      simp only [Vals.step, List.isEmpty_nil, if_true, Function.update_eq_self]
    rw [e1, e2]
    exact h
  | cons x xs ih =>
    have := ih (sim_load1 slack h f x)
    have e1 : S.step slack (.load f (x :: xs)) = State.step slack { S with
        mem := (S.mem.push slack (S.field f) x).2
        field := Function.update S.field f (some (S.mem.push slack (S.field f) x).1) }
        (.load f xs) := by
      simp only [State.step, pushAll_append, Function.update_self, Function.update_idem]
    have e2 : W.step (.load f (x :: xs)) = Vals.step { W with
        field := Function.update W.field f (some ((W.field f).getD [] ++ [x])) } (.load f xs) := by
      simp only [Vals.step, Function.update_self, Function.update_idem, List.isEmpty_cons,
        Bool.false_eq_true, if_false]
      cases xs <;> simp
    rw [e1, e2]
    exact this

/-- Every careful step is the step on lists. -/
theorem sim_step (slack : List V → List V) {S : State V} {W : Vals V} (h : Sim S W) {o : Op V}
    (hc : S.Careful o) : Sim (S.step slack o) (W.step o) := by
  have hfresh : ∀ ys e, ∀ f s, S.field f = some s → s.len < s.cap → ∀ t,
      some (S.mem.alloc ys e).1 = some t → t.arr = s.arr → t.off + t.len ≤ s.off + s.len := by
    intro ys e f s hs _ t ht ha
    cases ht
    have := (h.ok.field f s hs).arr
    have ha : S.mem.next = s.arr := ha
    omega
  cases o with
  | lit xs extra =>
    refine h.addVar (later_alloc _ _ _) (fun s hs => read_alloc_other _ _ hs.arr)
      (fun s hs => by cases hs; exact ok_alloc _ _ _) ?_ (hfresh _ _)
    simp only [Mem.value, Option.map_some, read_alloc]
  | sub v i j k =>
    simp only [State.step, Vals.step, h.get v]
    cases hv : S.get v with
    | none => exact h
    | some s =>
      obtain ⟨h1, h2, h3, h4⟩ := hc s hv
      simp only [Mem.value, Option.map_some, h1, h3, h4, and_self, if_true]
      have hok := h.ok.var v s hv
      refine h.addVar (.refl _) (fun _ _ => rfl) (fun t ht => ?_) ?_ fun f s' hs hlt t ht ha => ?_
      · cases ht
        refine ⟨hok.arr, ?_, ?_⟩
        · show j - i ≤ k - i; omega
        · have := hok.cap
          show s.off + i + (k - i) ≤ (S.mem.arr s.arr).length
          omega
      · simp only [Mem.value, Option.map_some, Mem.read, List.take_take, Nat.min_eq_left h2,
          List.drop_take, List.drop_drop]
      · cases ht
        have := h.vars f s' hs hlt v s hv ha
        show s.off + i + (j - i) ≤ s'.off + s'.len
        omega
  | push v x =>
    have hrd := read_push slack (h.ok.var v) x
    have hy : some ((W.get v).getD [] ++ [x]) = (S.mem.push slack (S.get v) x).2.value
        (some (S.mem.push slack (S.get v) x).1) := by
      simp only [Mem.value, Option.map_some, hrd, h.get v]
    have he : ∃ ys e, S.mem.push slack (S.get v) x = S.mem.alloc ys e := by
      cases hv : S.get v with
      | none => exact ⟨_, _, rfl⟩
      | some s => exact ⟨_, _, push_full slack (hc s hv) x⟩
    obtain ⟨ys, e, he⟩ := he
    refine h.addVar (later_push _ _ _ _) (fun s hs => ?_)
      (fun s hs => by cases hs; exact ok_push slack (h.ok.var v) x) hy ?_
    · rw [he]; exact read_alloc_other ys e hs.arr
    · rw [he]; exact hfresh ys e
  | write v i x => exact hc.elim
  | get f =>
    refine h.addVar (.refl _) (fun _ _ => rfl) (h.ok.field f) (h.field f)
      fun g s hs hlt t ht ha => ?_
    by_cases hg : f = g
    · subst hg
      rw [hs] at ht
      cases ht
      exact Nat.le_refl _
    · exact (h.fields g s hs hlt f t hg ht ha).1
  | set f v =>
    exact h.setField (.refl _) (fun _ _ => rfl) f (h.ok.var v) (h.get v) (Or.inr ⟨hc, v, rfl⟩)
  | unset f =>
    exact h.setField (.refl _) (fun _ _ => rfl) f (fun s hs => by cases hs) rfl
      (Or.inl fun s hs => by cases hs)
  | load f xs => exact sim_load slack xs h f
  | replace f xs extra =>
    refine h.setField (later_alloc _ _ _) (fun s hs => read_alloc_other _ _ hs.arr) f
      (fun s hs => by cases hs; exact ok_alloc _ _ _) ?_ (Or.inl fun s hs => ?_)
    · simp only [Mem.value, Option.map_some, read_alloc]
    · cases hs; exact Nat.le_refl _

theorem sim_run (slack : List V → List V) (os : List (Op V)) {S : State V} {W : Vals V}
    (h : Sim S W) (hc : S.CarefulAll slack os) : Sim (S.run slack os) (W.run os) := by
  induction os generalizing S W with
  | nil => exact h
  | cons o os ih => exact ih (sim_step slack h hc.1) hc.2

theorem sim_start (V : Type) : Sim (State.start V) (Vals.start V) :=
  ⟨ok_start V, rfl, fun _ => rfl, fun _ _ h => (by cases h), fun _ _ h => (by cases h)⟩

end Verif.Doc.Slices
