import Verif.Doc.HeapRace
import Verif.Props.Threads

/-!
# No data races

In C85 the calls of different goroutines happen one at a time.  Here is why nothing else can happen:
a call reads and writes only its receiver, what a load fills and new objects; a line of a program reads
and writes only what the variables of the program hold, and new objects; and no two programs hold the
same object.
-/

namespace Verif.Props
open Verif.Doc Relation

/-! ## C94: no data races -/

/-- What a call does depends only on the objects that it may change: in two heaps that have the same
objects there, and the same free address, it leaves the same objects wherever they were the same. -/
theorem C94_calls (X : Xyml) {H H' : Heap} {s : Act} (hl : H.Legal s) (hn : H'.next = H.next)
    (hs : ∀ o ∈ H.touches s, Same H H' o) :
    (H'.act X s).next = (H.act X s).next ∧ ∀ o, Same H H' o → Same (H.act X s) (H'.act X s) o := by
  have h := (alike_of (Q := Same H H') hn fun _ h => h).act X hl hs
  exact ⟨h.next, fun o ho => h.same ho⟩

/-- Whether a load succeeds, fails or panics depends only on the same objects. -/
theorem C94_loads_answer (X : Xyml) {H H' : Heap} (hn : H'.next = H.next) (v : Node) :
    (∀ d, (∀ o ∈ H.touches (.loadApi d v), Same H H' o) →
      (H'.apiLoad X d v).2 = (H.apiLoad X d v).2) ∧
    (∀ d, (∀ o ∈ H.touches (.loadLib d v), Same H H' o) →
      (H'.libLoad X d v).2 = (H.libLoad X d v).2) ∧
    ∀ a, a < H.next → (∀ o ∈ H.touches (.loadType a v), Same H H' o) →
      (H'.typeLoad X a v).2 = (H.typeLoad X a v).2 := by
  have h := alike_of (Q := Same H H') hn fun _ h => h
  exact ⟨fun d hs => (h.apiLoad X (hs _ List.mem_cons_self)
      (fun o ho => hs o (List.mem_cons_of_mem _ ho)) v).2,
    fun d hs => (h.libLoad X (hs _ List.mem_cons_self)
      (fun o ho => hs o (List.mem_cons_of_mem _ ho)) v).2,
    fun a ha hs => (h.typeLoad X ha (hs _ List.mem_cons_self)
      (fun o ho => hs o (List.mem_cons_of_mem _ ho)) v).2⟩

/-- A line of a program reads nothing but what the variables of the program hold. -/
theorem C94_lines_read (X : Xyml) (es : List Event) (t : Nat) (c : Cmd) {H' : Heap}
    (hn : H'.next = (runEvents X es).1.next)
    (hs : ∀ o, (runEvents X es).1.Owns ((runEvents X es).2 t) o → Same (runEvents X es).1 H' o) :
    (c.run X (H', (runEvents X es).2 t)).2 = (c.run X ((runEvents X es).1, (runEvents X es).2 t)).2 ∧
    (c.run X (H', (runEvents X es).2 t)).1.next =
      (c.run X ((runEvents X es).1, (runEvents X es).2 t)).1.next ∧
    ∀ o, Same (runEvents X es).1 H' o →
      Same (c.run X ((runEvents X es).1, (runEvents X es).2 t)).1
        (c.run X (H', (runEvents X es).2 t)).1 o := by
  have h := line_alike ((allHolding_run X es).own t)
    (alike_of (Q := Same (runEvents X es).1 H') hn fun _ h => h) hs c
  exact ⟨h.1, h.2.next, fun o ho => h.2.same ho⟩

/-- So what its variables are worth afterwards, and how they are written, depends on nothing else
(free memory is always the same). -/
theorem C94_lines_see (X : Xyml) (es : List Event) (t : Nat) (c : Cmd) {H' : Heap}
    (hn : H'.next = (runEvents X es).1.next)
    (hs : ∀ o, (runEvents X es).1.Owns ((runEvents X es).2 t) o → Same (runEvents X es).1 H' o)
    (hf : ∀ o, (runEvents X es).1.next ≤ o.addr → Same (runEvents X es).1 H' o) {i : Nat} {r : Root}
    (hr : held (c.run X ((runEvents X es).1, (runEvents X es).2 t)).2 i = some r) :
    held (c.run X (H', (runEvents X es).2 t)).2 i = some r ∧ ∀ n,
      (c.run X (H', (runEvents X es).2 t)).1.rootVal n r =
        (c.run X ((runEvents X es).1, (runEvents X es).2 t)).1.rootVal n r ∧
      (c.run X (H', (runEvents X es).2 t)).1.rootWrite X n r =
        (c.run X ((runEvents X es).1, (runEvents X es).2 t)).1.rootWrite X n r := by
  obtain ⟨h1, -, h3⟩ := C94_lines_read X es t c hn hs
  refine ⟨by rw [h1]; exact hr, fun n => ?_⟩
  have : ∀ n, (c.run X (H', (runEvents X es).2 t)).1.rootVal n r =
      (c.run X ((runEvents X es).1, (runEvents X es).2 t)).1.rootVal n r := by
    refine alike_root fun o ho => h3 o ?_
    rcases line_owns ((allHolding_run X es).own t) c ⟨i, r, hr, ho⟩ with h | h
    · exact hs o h
    · exact hf o h
  exact ⟨this n, by rw [rootWrite_map, rootWrite_map, this n]⟩

/-- A line of a program writes to nothing but what the variables of the program hold, and new objects. -/
theorem C94_lines_write (X : Xyml) (es : List Event) (t : Nat) (c : Cmd) (o : Obj)
    (ho : o.addr < (runEvents X es).1.next)
    (hn : ¬ (runEvents X es).1.Owns ((runEvents X es).2 t) o) :
    Same (runEvents X es).1 (c.run X ((runEvents X es).1, (runEvents X es).2 t)).1 o := by
  obtain ⟨T, hT, h⟩ := line_only ((allHolding_run X es).own t) c
  exact hT.same o ho fun hm => hn (h o hm)

/-- After a line the variables of a program hold only objects that they held before, and new objects. -/
theorem C94_lines_hold (X : Xyml) (es : List Event) (t : Nat) (c : Cmd) (o : Obj)
    (ho : (c.run X ((runEvents X es).1, (runEvents X es).2 t)).1.Owns
      (c.run X ((runEvents X es).1, (runEvents X es).2 t)).2 o) :
    (runEvents X es).1.Owns ((runEvents X es).2 t) o ∨ (runEvents X es).1.next ≤ o.addr :=
  line_owns ((allHolding_run X es).own t) c ho

/-- No two programs hold the same object, and no line of one writes to an object that another holds. -/
theorem C94_no_race (X : Xyml) (es : List Event) {t u : Nat} (htu : t ≠ u) (c : Cmd) (o : Obj)
    (ho : (runEvents X es).1.Owns ((runEvents X es).2 u) o) :
    ¬ (runEvents X es).1.Owns ((runEvents X es).2 t) o ∧
    Same (runEvents X es).1 (c.run X ((runEvents X es).1, (runEvents X es).2 t)).1 o := by
  have hA := allHolding_run X es
  have hno : ¬ (runEvents X es).1.Owns ((runEvents X es).2 t) o := by
    obtain ⟨i, r, hi, hr⟩ := ho
    rintro ⟨j, r', hj, hr'⟩
    exact hA.cross t u htu j i r' r hj hi o hr' hr
  refine ⟨hno, C94_lines_write X es t c o ?_ hno⟩
  obtain ⟨i, r, hi, hr⟩ := ho
  have hs := (hA.own u).sim i
  rw [hi] at hs
  obtain ⟨v, -, hv⟩ := hs.some
  exact closed_reaches hv.reach.closed hr hv.lt

/-- Two lines of different programs that create nothing can be run in either order: the variables get
the same, and every object is the same. -/
theorem C94_either_order (X : Xyml) (es : List Event) {t u : Nat} (htu : t ≠ u) (c d : Cmd)
    (hc : (c.run X ((runEvents X es).1, (runEvents X es).2 t)).1.next = (runEvents X es).1.next)
    (hd : (d.run X ((runEvents X es).1, (runEvents X es).2 u)).1.next = (runEvents X es).1.next) :
    (runEvents X (es ++ [.line t c, .line u d])).2 = (runEvents X (es ++ [.line u d, .line t c])).2 ∧
    (runEvents X (es ++ [.line t c, .line u d])).1.next = (runEvents X es).1.next ∧
    (runEvents X (es ++ [.line u d, .line t c])).1.next = (runEvents X es).1.next ∧
    ∀ o, o.addr < (runEvents X es).1.next →
      Same (runEvents X (es ++ [.line t c, .line u d])).1
        (runEvents X (es ++ [.line u d, .line t c])).1 o := by
  have hA := allHolding_run X es
  have h12 : runEvents X (es ++ [.line t c, .line u d]) =
      Event.run X (Event.run X (runEvents X es) (.line t c)) (.line u d) := by
    simp only [runEvents, List.foldl_append, List.foldl_cons, List.foldl_nil]
  have h21 : runEvents X (es ++ [.line u d, .line t c]) =
      Event.run X (Event.run X (runEvents X es) (.line u d)) (.line t c) := by
    simp only [runEvents, List.foldl_append, List.foldl_cons, List.foldl_nil]
  have rt := fun o => C94_no_race X es htu c o
  have ru := fun o => C94_no_race X es (Ne.symm htu) d o
  have wt := fun o => C94_lines_write X es t c o
  have wu := fun o => C94_lines_write X es u d o
  rw [h12, h21]
  generalize runEvents X es = S at *
  generalize evalEvents X es = V at *
  obtain ⟨H, R⟩ := S
  dsimp only at *
  have eu : setVars R t (c.run X (H, R t)).2 u = R u := by
    unfold setVars; rw [if_neg (Ne.symm htu)]
  have et : setVars R u (d.run X (H, R u)).2 t = R t := by
    unfold setVars; rw [if_neg htu]
  simp only [Event.run, eu, et]
  obtain ⟨b1, -, -⟩ := line_beside (hA.own u) (hA.own t) (hA.cross u t (Ne.symm htu)) c
  obtain ⟨b2, -, -⟩ := line_beside (hA.own t) (hA.own u) (hA.cross t u htu) d
  obtain ⟨v1, a1⟩ := line_alike (H' := (c.run X (H, R t)).1) (hA.own u)
    (alike_of (Q := H.Owns (R u)) hc fun o ho => (rt o ho).2) (fun _ h => h) d
  obtain ⟨v2, a2⟩ := line_alike (H' := (d.run X (H, R u)).1) (hA.own t)
    (alike_of (Q := H.Owns (R t)) hd fun o ho => (ru o ho).2) (fun _ h => h) c
  refine ⟨?_, a1.next.trans hd, a2.next.trans hc, fun o ho => ?_⟩
  · rw [v1, v2]
    funext w
    unfold setVars
    by_cases hw : w = u
    · rw [if_pos hw, if_neg (fun e => htu (e.symm.trans hw)), if_pos hw]
    · rw [if_neg hw]
      by_cases hw' : w = t
      · rw [if_pos hw', if_pos hw']
      · rw [if_neg hw', if_neg hw', if_neg hw]
  · have back1 : ∀ o, (c.run X (H, R t)).1.Owns (R u) o → H.Owns (R u) o := by
      rintro o ⟨i, r, hi, hr⟩
      exact ⟨i, r, hi, (sameFrom_reaches (o := r.obj) fun x hx => (rt x ⟨i, r, hi, hx⟩).2).mpr hr⟩
    have back2 : ∀ o, (d.run X (H, R u)).1.Owns (R t) o → H.Owns (R t) o := by
      rintro o ⟨i, r, hi, hr⟩
      exact ⟨i, r, hi, (sameFrom_reaches (o := r.obj) fun x hx => (ru x ⟨i, r, hi, hx⟩).2).mpr hr⟩
    have keep1 : ¬ H.Owns (R u) o →
        Same (c.run X (H, R t)).1 (d.run X ((c.run X (H, R t)).1, R u)).1 o := fun hno => by
      obtain ⟨T, hT, h⟩ := line_only b1 d
      exact hT.same o (by rw [hc]; exact ho) fun hm => hno (back1 o (h o hm))
    have keep2 : ¬ H.Owns (R t) o →
        Same (d.run X (H, R u)).1 (c.run X ((d.run X (H, R u)).1, R t)).1 o := fun hno => by
      obtain ⟨T, hT, h⟩ := line_only b2 c
      exact hT.same o (by rw [hd]; exact ho) fun hm => hno (back2 o (h o hm))
    by_cases hu : H.Owns (R u) o
    · exact same_trans (same_symm (a1.same hu)) (keep2 (rt o hu).1)
    · by_cases ht : H.Owns (R t) o
      · exact same_trans (same_symm (keep1 hu)) (a2.same ht)
      · exact same_trans (same_symm (same_trans (wt o ho ht) (keep1 hu)))
          (same_trans (wu o ho hu) (keep2 ht))

section examples

def describedAs : TypeObj → Option String
  | .basic _ _ _ => none
  | .ext h _ _ _ _ _ => h.description

/-- Two heaps that differ in the type at address 2. -/
def twoTypes (X : Xyml) : Heap :=
  (Heap.start.act X (.newType .string)).act X (.newType .integer)

def secondDescribed (X : Xyml) : Heap :=
  (twoTypes X).act X (.onType 2 (.plain (.setDescription "d")))

/-- The premises of `C94_calls`, for a call on the type at address 1. -/
example (X : Xyml) : (secondDescribed X).next = (twoTypes X).next ∧
    (twoTypes X).Legal (.onType 1 (.plain (.setDescription "e"))) ∧
    (∀ o ∈ (twoTypes X).touches (.onType 1 (.plain (.setDescription "e"))),
      Same (twoTypes X) (secondDescribed X) o) ∧
    ¬ Same (twoTypes X) (secondDescribed X) (.ty 2) := by
  refine ⟨rfl, ⟨Nat.lt_succ_of_lt (Nat.lt_add_one 1), trivial⟩, ?_, fun h => ?_⟩
  · intro o ho
    rw [List.mem_singleton.mp ho]
    exact rfl
  · have : (none : Option String) = some "d" :=
      congrArg describedAs h
    exact nomatch this

/-- The premises of `C94_loads_answer`: loading into the type at address 1 gives the same in both heaps. -/
example : (1 : Addr) < (twoTypes Xyml.std).next ∧
    (∀ o ∈ (twoTypes Xyml.std).touches (.loadType 1 (.map [(.str "minLength", .str "x")])),
      Same (twoTypes Xyml.std) (secondDescribed Xyml.std) o) ∧
    ((twoTypes Xyml.std).typeLoad Xyml.std 1 (.map [(.str "minLength", .str "x")])).2 =
      ((secondDescribed Xyml.std).typeLoad Xyml.std 1 (.map [(.str "minLength", .str "x")])).2 := by
  refine ⟨by decide +kernel, fun o ho => ?_, rfl⟩
  have h : ∀ l : List Obj, (∀ o ∈ l, Same (twoTypes Xyml.std) (secondDescribed Xyml.std) o) →
      ∀ o ∈ l, Same (twoTypes Xyml.std) (secondDescribed Xyml.std) o := fun _ h => h
  refine h [.ty 1, .xm 1, .am 1, .em 1, .fm 1] ?_ o ho
  simp only [List.forall_mem_cons, List.not_mem_nil, false_imp_iff, implies_true, and_true]
  exact ⟨rfl, rfl, rfl, rfl, rfl⟩

/-- Two programs, each with a document, and a line of each that creates nothing. -/
def describeA : Cmd := .work 0 (.declared "A" [] (.call (.setDescription "a")))
def describeB : Cmd := .work 0 (.declared "B" [] (.call (.setDescription "b")))

/-- The premises of `C94_either_order`. -/
example : (describeA.run Xyml.std
      ((runEvents Xyml.std inTurn).1, (runEvents Xyml.std inTurn).2 0)).1.next =
      (runEvents Xyml.std inTurn).1.next ∧
    (describeB.run Xyml.std
      ((runEvents Xyml.std inTurn).1, (runEvents Xyml.std inTurn).2 1)).1.next =
      (runEvents Xyml.std inTurn).1.next := ⟨by decide +kernel, by decide +kernel⟩

/-- The premises of `C94_lines_read` and `C94_lines_see`: program 1 has run its line meanwhile. -/
example : (describeB.run Xyml.std
      ((runEvents Xyml.std inTurn).1, (runEvents Xyml.std inTurn).2 1)).1.next =
      (runEvents Xyml.std inTurn).1.next ∧
    (∀ o, (runEvents Xyml.std inTurn).1.Owns ((runEvents Xyml.std inTurn).2 0) o →
      Same (runEvents Xyml.std inTurn).1 (describeB.run Xyml.std
        ((runEvents Xyml.std inTurn).1, (runEvents Xyml.std inTurn).2 1)).1 o) ∧
    ∃ a, describedAs ((runEvents Xyml.std inTurn).1.ty a) = none ∧
      describedAs ((describeB.run Xyml.std
        ((runEvents Xyml.std inTurn).1, (runEvents Xyml.std inTurn).2 1)).1.ty a) = some "b" :=
  ⟨by decide +kernel, fun o ho => (C94_no_race Xyml.std inTurn (by decide) describeB o ho).2,
    12, by decide +kernel, by decide +kernel⟩

/-- The premise of `C94_no_race`: program 1 holds its library. -/
example : (runEvents Xyml.std inTurn).1.Owns ((runEvents Xyml.std inTurn).2 1) (.lib 7) :=
  ⟨0, .doc (.lib 7), by decide +kernel, ReflTransGen.refl⟩

/-- Two programs that held the same type would race: the order of their lines would matter. -/
example (X : Xyml) :
    let x : Cmd := .work 0 (.inside [] (.call (.setDescription "x")))
    let y : Cmd := .work 0 (.inside [] (.call (.setDescription "y")))
    let rs := [some (Root.type 1)]
    ¬ Same (y.run X ((x.run X (twoTypes X, rs)).1, rs)).1
      (x.run X ((y.run X (twoTypes X, rs)).1, rs)).1 (.ty 1) := by
  intro x y rs h
  have : some "y" = some "x" := congrArg describedAs h
  exact absurd this (by decide)

end examples

end Verif.Props
