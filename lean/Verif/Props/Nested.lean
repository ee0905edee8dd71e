import Verif.Doc.NestedSpec
import Verif.Props.TypeOrder
import Verif.Props.EditLocal
import Verif.Props.Sessions

/-! # C99: a nested data type is written in its place, and changing it changes that place only -/

namespace Verif.Props
open Verif Verif.Doc Verif.Doc.Spec

/-! ### Lists of entries -/

private theorem lastWins_late {K V : Type} [DecidableEq K] (A B : List (K × V)) (k : K)
    (hk : k ∉ B.map Prod.fst) :
    ∃ P Q, ∀ v, lastWins (A ++ (k, v) :: B) = P ++ (k, v) :: Q := by
  induction A with
  | nil =>
    refine ⟨[], lastWins B, fun v => ?_⟩
    simp only [List.nil_append]
    conv_lhs => unfold lastWins
    rw [if_neg hk]
  | cons e A ih =>
    obtain ⟨P, Q, h⟩ := ih
    by_cases he : e.1 ∈ A.map Prod.fst ∨ e.1 = k ∨ e.1 ∈ B.map Prod.fst
    · refine ⟨P, Q, fun v => ?_⟩
      rw [← h v, List.cons_append]
      conv_lhs => unfold lastWins
      rw [if_pos (by simpa using he)]
    · refine ⟨e :: P, Q, fun v => ?_⟩
      rw [List.cons_append, List.cons_append, ← h v]
      conv_lhs => unfold lastWins
      rw [if_neg (by simpa using he)]

private theorem change_at {V : Type} {m : OM String V} {k : String} {x : V}
    (h : m.get k = some x) :
    ∃ A B, m.ents = A ++ (k, x) :: B ∧ ∀ g, (m.change k g).ents = A ++ (k, g x) :: B := by
  obtain ⟨es, b⟩ := m
  simp only [OM.get, OM.change] at h ⊢
  induction es with
  | nil => cases h
  | cons e es ih =>
    by_cases he : e.1 = k
    · obtain ⟨k', y⟩ := e
      subst he
      simp at h
      subst h
      exact ⟨[], es, rfl, fun g => by simp [changeFirst]⟩
    · rw [List.find?_cons_of_neg (by simpa using he)] at h
      obtain ⟨A, B, h1, h2⟩ := ih h
      refine ⟨e :: A, B, by rw [h1]; rfl, fun g => ?_⟩
      simp only [changeFirst, if_neg he, h2 g]
      rfl

/-! ### One getter -/

private theorem mem_optEnt {k : Scalar} {o : Option Node} {e : Scalar × Node} :
    e ∈ OM.optEnt k o ↔ e.1 = k ∧ o = some e.2 := by
  obtain ⟨a, b⟩ := e
  cases o <;> simp [OM.optEnt, eq_comm]

/-- The written form of a mapping of types in terms of one of them (auxiliary). -/
private theorem types_at (X : Xyml) {m : OM String DT} {k : String} {s : DT}
    (h : m.get k = some s) : ∃ a : Around, a.key = Node.str k ∧
      (∀ g, typeMapNode X (m.change k g) = a.fill ((g s).toYAML X)) := by
  obtain ⟨A, B, -, h2⟩ := change_at h
  refine ⟨⟨m.omap, A.map fun e => (Node.str e.1, e.2.toYAML X), Node.str k,
    B.map fun e => (Node.str e.1, e.2.toYAML X)⟩, rfl, fun g => ?_⟩
  have h3 : m.change k g = ⟨A ++ (k, g s) :: B, m.omap⟩ := by rw [← h2 g]; rfl
  rw [h3, typeMapNode, typeEnts_eq, List.map_append, List.map_cons]
  rfl

private theorem map_at {X : Xyml} (hX : Lawful X) (A B : List (Scalar × Node)) (k : String)
    (hk : Scalar.str k ∉ B.map Prod.fst) :
    ∃ a : Around, a.key = Node.str k ∧ ∀ v : Node,
      Node.map (asPairs X (lastWins (A ++ (.str k, v) :: B))) = a.fill v := by
  obtain ⟨P, Q, h⟩ := lastWins_late A B (.str k) hk
  refine ⟨⟨false, asPairs X P, Node.str k, asPairs X Q⟩, rfl, fun v => ?_⟩
  simp [h v, Around.fill, asPairs, hX.ofKey_str]

private theorem entry_at {X : Xyml} (hX : Lawful X) {A B : List (Scalar × Node)} {k : String}
    (hk : Scalar.str k ∉ B.map Prod.fst) (hne : k ≠ "type") :
    ∃ a : Around, a.key = Node.str k ∧ ∀ (t : DT) (v : Node),
      t.ents X = A ++ (.str k, v) :: B → t.toYAML X = a.fill v := by
  obtain ⟨a, ha, h⟩ := map_at hX A B k hk
  refine ⟨a, ha, fun t v ht => ?_⟩
  have hm : Scalar.str k ∈ (t.ents X).map Prod.fst := by rw [ht]; simp
  rw [toYAML_eq, finish_map hm (type_key X t) (by simpa using hne), ht, h v]

private theorem split_props (X : Xyml) (hd : Hdr) (o : ObjectF) (f i : Option Node) :
    ∃ A B, Scalar.str "properties" ∉ B.map Prod.fst ∧ ∀ v,
      dtEnts X hd (.object o) f (some v) i = A ++ (.str "properties", v) :: B := by
  refine ⟨OM.optEnt (.str "default") hd.dflt ++ (hd.headEnts ++ (hd.extra.ents ++ (hd.reqEnts X ++
    (annEnts hd.annotations ++ (OM.optEnt (.str "facets") f ++
    (OM.optEnt (.str "xml") (hd.xml.map XML.toYAML) ++ (Body.object o).ents X none i)))))),
    OM.optEnt (.str "enum") (hd.enum.map (renderList (Val.render X))) ++
    (OM.optEnt (.str "example") (hd.example.map (Example.toYAML X)) ++
    OM.optEnt (.str "examples") (if hd.examples.len > 0 then
      some (renderStrMap (Example.toYAML X) hd.examples) else none)), ?_, fun v => ?_⟩
  · simp [mem_optEnt]
  · simp [dtEnts, Hdr.tailEnts, Body.ents, OM.optEnt]

private theorem split_items (X : Xyml) (hd : Hdr) (o : ArrayF) (f p : Option Node) :
    ∃ A B, Scalar.str "items" ∉ B.map Prod.fst ∧ ∀ v,
      dtEnts X hd (.array o) f p (some v) = A ++ (.str "items", v) :: B := by
  refine ⟨OM.optEnt (.str "default") hd.dflt ++ (hd.headEnts ++ (hd.extra.ents ++ (hd.reqEnts X ++
    (annEnts hd.annotations ++ (OM.optEnt (.str "facets") f ++
    (OM.optEnt (.str "xml") (hd.xml.map XML.toYAML) ++ (Body.array o).ents X p none)))))),
    OM.optEnt (.str "enum") (hd.enum.map (renderList (Val.render X))) ++
    (OM.optEnt (.str "example") (hd.example.map (Example.toYAML X)) ++
    OM.optEnt (.str "examples") (if hd.examples.len > 0 then
      some (renderStrMap (Example.toYAML X) hd.examples) else none)), ?_, fun v => ?_⟩
  · simp [mem_optEnt]
  · simp [dtEnts, Hdr.tailEnts, Body.ents, OM.optEnt]

private theorem split_facets (X : Xyml) (hd : Hdr) (b : Body) (p i : Option Node) :
    ∃ A B, Scalar.str "facets" ∉ B.map Prod.fst ∧ ∀ v,
      dtEnts X hd b (some v) p i = A ++ (.str "facets", v) :: B := by
  refine ⟨OM.optEnt (.str "default") hd.dflt ++ (hd.headEnts ++ (hd.extra.ents ++ (hd.reqEnts X ++
    annEnts hd.annotations))),
    OM.optEnt (.str "xml") (hd.xml.map XML.toYAML) ++ (b.ents X p i ++
    (OM.optEnt (.str "enum") (hd.enum.map (renderList (Val.render X))) ++
    (OM.optEnt (.str "example") (hd.example.map (Example.toYAML X)) ++
    OM.optEnt (.str "examples") (if hd.examples.len > 0 then
      some (renderStrMap (Example.toYAML X) hd.examples) else none)))), ?_, fun v => ?_⟩
  · cases b <;> simp [mem_optEnt, Body.ents]
  · simp [dtEnts, Hdr.tailEnts, OM.optEnt]

private theorem hop_at {X : Xyml} (hX : Lawful X) {t s : DT} {h : Hop}
    (hs : t.hop h = some s) :
    ∃ as : List Around, as.map Around.key = (keysOf h).map Node.str ∧
      ∀ g, (t.through g h).toYAML X = fillAll as ((g s).toYAML X) := by
  cases t with
  | basic => cases h <;> cases hs
  | ext hd b fs ps it =>
    cases h with
    | property k =>
      cases b <;> try cases hs
      rename_i o
      obtain ⟨a, ha, h1⟩ := types_at X hs
      have hpn : ∀ g, propsNode X (ps.change k g) = some (a.fill ((g s).toYAML X)) := by
        intro g
        rw [← h1 g]
        have hne : (ps.change k g).ents.length > 0 := by
          obtain ⟨A, B, -, h2⟩ := change_at hs
          rw [h2 g]; simp; omega
        revert hne
        generalize ps.change k g = m
        intro hne
        obtain ⟨es, b⟩ := m
        rw [propsNode, if_pos hne, typeMapNode]
      obtain ⟨A, B, hB, hE⟩ := split_props X hd o (facetsNode X fs) (itemsNode X it)
      obtain ⟨a', ha', h2⟩ := entry_at hX hB (by decide) (A := A)
      refine ⟨[a', a], by simp [ha, ha', keysOf], fun g => ?_⟩
      refine h2 _ _ ?_
      rw [DT.through, DT.ents, hpn g, hE]
      rfl
    | items =>
      cases b <;> try cases hs
      rename_i o
      obtain ⟨A, B, hB, hE⟩ := split_items X hd o (facetsNode X fs) (propsNode X ps)
      obtain ⟨a', ha', h2⟩ := entry_at hX hB (by decide) (A := A)
      refine ⟨[a'], by simp [ha', keysOf], fun g => ?_⟩
      refine h2 _ _ ?_
      rw [DT.through, DT.ents, Option.map_some, itemsNode, hE]
      rfl
    | facet k k' =>
      obtain ⟨m, hm, hs'⟩ := Option.bind_eq_some_iff.mp hs
      obtain ⟨a, ha, h1⟩ := types_at X hs'
      obtain ⟨A1, B1, -, h3⟩ := change_at hm
      let a1 : Around := ⟨fs.omap, A1.map fun e => (Node.str e.1, typeMapNode X e.2), Node.str k,
        B1.map fun e => (Node.str e.1, typeMapNode X e.2)⟩
      have hpn : ∀ g, facetsNode X (fs.change k fun m => m.change k' g) =
          some (a1.fill (a.fill ((g s).toYAML X))) := by
        intro g
        rw [← h1 g]
        have h4 : (fs.change k fun m => m.change k' g) =
            ⟨A1 ++ (k, m.change k' g) :: B1, fs.omap⟩ := by
          rw [← h3 fun m => m.change k' g]; rfl
        rw [h4, facetsNode, if_pos (by simp; omega), facetEnts_eq, List.map_append, List.map_cons]
        rfl
      obtain ⟨A, B, hB, hE⟩ := split_facets X hd b (propsNode X ps) (itemsNode X it)
      obtain ⟨a', ha', h2⟩ := entry_at hX hB (by decide) (A := A)
      refine ⟨[a', a1, a], by simp [ha, ha', keysOf, a1], fun g => ?_⟩
      refine h2 _ _ ?_
      rw [DT.through, DT.ents, hpn g, hE]
      rfl

/-! ### Getters one after the other -/

private theorem change_self {V : Type} (m : OM String V) (k : String) {g : V → V}
    (hg : ∀ x, g x = x) : m.change k g = m := by
  obtain ⟨es, b⟩ := m
  simp only [OM.change]
  congr 1
  induction es with
  | nil => rfl
  | cons e es ih => simp [changeFirst, hg, ih]

private theorem through_self (t : DT) (h : Hop) : t.through (fun x => x) h = t := by
  unfold DT.through
  split
  · rw [change_self _ _ fun _ => rfl]
  · simp
  · rw [change_self _ _ fun m => change_self m _ fun _ => rfl]
  · rfl

private theorem fillAll_append (as bs : List Around) (n : Node) :
    fillAll (as ++ bs) n = fillAll as (fillAll bs n) := by
  induction as with
  | nil => rfl
  | cons a as ih => simp [fillAll, ih]

private theorem within_self (hs : List Hop) : ∀ t : DT, t.within (fun x => x) hs = t := by
  induction hs with
  | nil => exact fun _ => rfl
  | cons h hs ih =>
    intro t
    rw [DT.within, show DT.within (fun x => x) hs = fun x => x from funext ih]
    exact through_self t h

private theorem walk_at {X : Xyml} (hX : Lawful X) {s : DT} : ∀ {hs : List Hop} {t : DT},
    t.walk hs = some s → ∃ as : List Around,
      as.map Around.key = (hs.flatMap keysOf).map Node.str ∧
      ∀ g, (t.within g hs).toYAML X = fillAll as ((g s).toYAML X)
  | [], t, h => by
    cases h
    exact ⟨[], rfl, fun g => rfl⟩
  | k :: hs, t, h => by
    obtain ⟨u, hu, h'⟩ := Option.bind_eq_some_iff.mp h
    obtain ⟨as, ha, h1⟩ := hop_at hX hu
    obtain ⟨bs, hb, h3⟩ := walk_at hX h'
    refine ⟨as ++ bs, by simp [ha, hb], fun g => ?_⟩
    rw [fillAll_append, ← h3 g, ← h1]
    rfl

private theorem change_val_self (v : RootVal) (w : Way) : v.change (fun x => x) w = v := by
  cases v with
  | type t => cases w <;> simp [RootVal.change, within_self]
  | doc d =>
    cases w with
    | inside => rfl
    | declared k hs =>
      cases d <;> simp only [RootVal.change, DocVal.onTypes, change_self _ _ (within_self hs)]

private theorem section_at {X : Xyml} (hX : Lawful X) (A : List (Scalar × Node))
    {m : OM String DT} {k : String} {hs : List Hop} {s : DT}
    (h : (m.get k).bind (DT.walk hs) = some s) :
    ∃ as : List Around, as.map Around.key = ("types" :: k :: hs.flatMap keysOf).map Node.str ∧
      ∀ g, Node.map (asPairs X (lastWins (A ++ OM.optEnt (.str "types")
        (ifNonEmpty (m.change k (DT.within g hs)) (typeMapNode X (m.change k (DT.within g hs)))))))
        = fillAll as ((g s).toYAML X) := by
  obtain ⟨u, hu, h'⟩ := Option.bind_eq_some_iff.mp h
  obtain ⟨bs, hb, h3⟩ := walk_at hX h'
  obtain ⟨a, ha, h1⟩ := types_at X hu
  obtain ⟨a', ha', h2⟩ := map_at hX A [] "types" (by simp)
  refine ⟨a' :: a :: bs, by simp [ha, ha', hb], fun g => ?_⟩
  have hne : (m.change k (DT.within g hs)).len > 0 := by
    obtain ⟨A, B, -, h2⟩ := change_at hu
    rw [OM.len, h2]; simp; omega
  rw [ifNonEmpty, if_pos hne, h1, h3]
  exact h2 _

/-- C99: a data type that is reached through getters is written at the place that the getters
name, whatever other facets, extra facets and annotations the objects on the way have; a change of
it changes what is written there, and nothing else. -/
theorem C99_place (X : Xyml) (hX : Lawful X) (v : RootVal) (w : Way) (s : DT)
    (h : v.find w = some s) :
    ∃ as : List Around, as.map Around.key = (wayKeys w).map Node.str ∧
      v.toYAML X = fillAll as (s.toYAML X) ∧
      ∀ g, (v.change g w).toYAML X = fillAll as ((g s).toYAML X) := by
  have key : ∃ as : List Around, as.map Around.key = (wayKeys w).map Node.str ∧
      ∀ g, (v.change g w).toYAML X = fillAll as ((g s).toYAML X) := by
    cases v with
    | type t =>
      cases w with
      | inside hs => exact walk_at hX h
      | declared => cases h
    | doc d =>
      cases w with
      | inside => cases d <;> cases h
      | declared k hs =>
        cases d with
        | api a =>
          obtain ⟨as, ha, h1⟩ := section_at hX (a.headEnts ++ (annEnts a.annotations ++
            (a.extra.ents ++ strEnts a.resources))) h
          refine ⟨as, ha, fun g => ?_⟩
          rw [← h1 g]
          refine (api_toYAML_eq X _).trans ?_
          simp [APISpec.ents, APISpec.headEnts, APISpec.typesEnts]
        | lib l =>
          obtain ⟨as, ha, h1⟩ := section_at hX ({ l with types := OM.empty true }.ents X) h
          refine ⟨as, ha, fun g => ?_⟩
          rw [← h1 g]
          refine (lib_toYAML_eq X _).trans ?_
          simp [Library.ents, OM.empty, ifNonEmpty, OM.len, OM.optEnt]
  obtain ⟨as, ha, h1⟩ := key
  refine ⟨as, ha, ?_, h1⟩
  have := h1 fun x => x
  rwa [change_val_self] at this

private theorem get_change {V : Type} {m : OM String V} {k : String} {x : V}
    (h : m.get k = some x) (g : V → V) : (m.change k g).get k = some (g x) := by
  obtain ⟨es, b⟩ := m
  simp only [OM.get, OM.change] at h ⊢
  induction es with
  | nil => cases h
  | cons e es ih =>
    by_cases he : e.1 = k
    · simp [he] at h
      simp [changeFirst, he, h]
    · rw [List.find?_cons_of_neg (by simpa using he)] at h
      simp only [changeFirst, if_neg he]
      rw [List.find?_cons_of_neg (by simpa using he)]
      exact ih h

private theorem hop_through {t s : DT} {h : Hop} (hs : t.hop h = some s) (g : DT → DT) :
    (t.through g h).hop h = some (g s) := by
  cases t with
  | basic => cases h <;> cases hs
  | ext hd b fs ps it =>
    cases h with
    | property k =>
      cases b <;> try cases hs
      exact get_change hs g
    | items =>
      cases b <;> try cases hs
      rfl
    | facet k k' =>
      obtain ⟨m, hm, hs'⟩ := Option.bind_eq_some_iff.mp hs
      simp only [DT.through, DT.hop, get_change hm, Option.bind_some, get_change hs']

private theorem walk_within {s : DT} (g : DT → DT) : ∀ {hs : List Hop} {t : DT},
    t.walk hs = some s → (t.within g hs).walk hs = some (g s)
  | [], t, h => by cases h; rfl
  | k :: hs, t, h => by
    obtain ⟨u, hu, h'⟩ := Option.bind_eq_some_iff.mp h
    simp only [DT.walk, DT.within, hop_through hu, Option.bind_some]
    exact walk_within g h'

/-- C99: the getters lead to the changed type. -/
theorem C99_found (v : RootVal) (w : Way) (s : DT) (h : v.find w = some s) (g : DT → DT) :
    (v.change g w).find w = some (g s) := by
  cases v with
  | type t =>
    cases w with
    | inside hs => exact walk_within g h
    | declared => cases h
  | doc d =>
    cases w with
    | inside => cases d <;> cases h
    | declared k hs =>
      cases d <;>
      · obtain ⟨u, hu, h'⟩ := Option.bind_eq_some_iff.mp h
        simp only [RootVal.change, DocVal.onTypes, RootVal.find, get_change hu, Option.bind_some]
        exact walk_within g h'

private theorem rootVal_mono {H : Heap} {n m : Nat} (hnm : n ≤ m) {r : Root} {v : RootVal}
    (h : H.rootVal n r = some v) : H.rootVal m r = some v := by
  cases r with
  | type a =>
    obtain ⟨t, ht, rfl⟩ := Option.map_eq_some_iff.mp h
    simp only [Heap.rootVal, val_mono hnm ht, Option.map_some]
  | doc x =>
    obtain ⟨d, hd, rfl⟩ := Option.map_eq_some_iff.mp h
    cases x with
    | api a =>
      obtain ⟨s, hs, rfl⟩ := Option.map_eq_some_iff.mp hd
      simp only [Heap.rootVal, Heap.docVal, apiVal_mono hnm hs, Option.map_some]
    | lib a =>
      obtain ⟨s, hs, rfl⟩ := Option.map_eq_some_iff.mp hd
      simp only [Heap.rootVal, Heap.docVal, libVal_mono hnm hs, Option.map_some]

/-- Objects, values and written forms (auxiliary). -/
private theorem written_at {X : Xyml} {H : Heap} {r : Root} {v : RootVal} {w : Way} {s : DT}
    (h : RootSim X r H v) (hv : v.find w = some s) :
    ∃ c n, H.find r w = some c ∧ H.write X n c = some (s.toYAML X) ∧
      H.rootWrite X n r = some (v.toYAML X) := by
  obtain ⟨h1, h2⟩ := find_get h w
  cases hc : H.find r w with
  | none => rw [h2 hc] at hv; cases hv
  | some c =>
    obtain ⟨-, u, hu, ht⟩ := h1 c hc
    obtain rfl : u = s := Option.some.inj (hu.symm.trans hv)
    obtain ⟨n, hn⟩ := ht.val
    obtain ⟨m, hm⟩ := h.val
    refine ⟨c, max n m, rfl, ?_, rootWrite_eq (rootVal_mono (Nat.le_max_right n m) hm)⟩
    rw [write_eq, val_mono (Nat.le_max_left n m) hn, Option.map_some]

/-- C99, for objects: whatever a program has done before, if getters lead from what a variable
holds to a data type object, then the written form of the former contains that of the latter at the
place that the getters name, and a step on the latter leaves everything else in the written form as
it is. -/
theorem C99_program (X : Xyml) (hX : Lawful X) (cs : List Cmd) (i : Nat) (r : Root) (w : Way)
    (c : Addr) (st : TypeStep) (hi : held (runCmds X cs).2 i = some r)
    (hc : (runCmds X cs).1.find r w = some c) :
    ∃ (as : List Around) (n n' : Nat) (y y' : Node) (c' : Addr),
      as.map Around.key = (wayKeys w).map Node.str ∧
      (runCmds X cs).1.write X n c = some y ∧
      (runCmds X cs).1.rootWrite X n r = some (fillAll as y) ∧
      (runCmds X (cs ++ [.work i (wayStep st w)])).1.find r w = some c' ∧
      (runCmds X (cs ++ [.work i (wayStep st w)])).1.write X n' c' = some y' ∧
      (runCmds X (cs ++ [.work i (wayStep st w)])).1.rootWrite X n' r = some (fillAll as y') := by
  have L := live_run X cs
  obtain ⟨v, hv, hs⟩ : ∃ v, held (evalCmds X cs) i = some v ∧ RootSim X r (runCmds X cs).1 v := by
    have := L.sim i
    rw [hi] at this
    exact this.some
  obtain ⟨-, s, hf, -⟩ := (find_get hs w).1 c hc
  obtain ⟨as, ha, h1, h2⟩ := C99_place X hX v w s hf
  obtain ⟨c1, n, e1, e2, e3⟩ := written_at hs hf
  obtain rfl : c1 = c := Option.some.inj (e1.symm.trans hc)
  have hstep : v.step X (wayStep st w) = v.change (fun u => u.alter X st) w := by
    cases v <;> cases w <;> rfl
  have L' := live_run X (cs ++ [.work i (wayStep st w)])
  have hr : held (runCmds X (cs ++ [.work i (wayStep st w)])).2 i = some r := by
    have hi' : held (cs.foldl (Cmd.run X) (Heap.start, [])).2 i = some r := hi
    simp only [runCmds, List.foldl_append, List.foldl_cons, List.foldl_nil, Cmd.run, hi']
  have hv' : held (evalCmds X (cs ++ [.work i (wayStep st w)])) i =
      some (v.change (fun u => u.alter X st) w) := by
    have hv' : held (cs.foldl (Cmd.eval X) []) i = some v := hv
    simp only [evalCmds, List.foldl_append, List.foldl_cons, List.foldl_nil, Cmd.eval, hv',
      held_set_self hv', hstep]
  have hs' : RootSim X r (runCmds X (cs ++ [.work i (wayStep st w)])).1
      (v.change (fun u => u.alter X st) w) := by
    have := L'.sim i
    rw [hr, hv'] at this
    obtain ⟨x, hx, hy⟩ := this.some
    cases hx
    exact hy
  obtain ⟨c', n', f1, f2, f3⟩ := written_at hs' (C99_found v w s hf fun u => u.alter X st)
  exact ⟨as, n, n', _, _, c', ha, e2, h1 ▸ e3, f1, f2, by rw [f3, h2]⟩

/-- C99 and C98 together: a call about a facet of a nested type leaves everything in the written
form except that facet of that type. -/
theorem C99_facet (X : Xyml) (hX : Lawful X) (v : RootVal) (w : Way) (s u : DT) (op : TypeOp)
    (k : String) (h : v.find w = some s) (hop : s.apply op = some u) (hk : opKey op = some k)
    (hs : Scalar.str "type" ∉ ownKeys s) :
    ∃ (as : List Around) (y y' : Node), as.map Around.key = (wayKeys w).map Node.str ∧
      v.toYAML X = fillAll as y ∧
      (v.change (fun t => (t.apply op).getD t) w).toYAML X = fillAll as y' ∧
      without X [.str k] (entriesOf y') = without X [.str k] (entriesOf y) := by
  obtain ⟨as, ha, h1, h2⟩ := C99_place X hX v w s h
  refine ⟨as, _, _, ha, h1, h2 _, ?_⟩
  rw [hop]
  exact C98_type X hX s u [op] [k] (applyAll_cons.mpr ⟨u, hop, applyAll_nil.mpr rfl⟩)
    (by simpa using hk) hs

/-! ### An array type in an object type in a document -/

/-- Strings with an extra facet. -/
def sampleInner : DT := .ext { Hdr.new .string with
    extra := ⟨[(.str "items", .str "x")], false⟩ }
  (.string { pattern := none, minLength := 0, maxLength := none }) (OM.empty true)
  (OM.empty true) none

/-- A library that declares an object type with a property that is an array of these strings; the
array type has an extra facet with the name `items`, too. -/
def sampleOuter : RootVal := .doc (.lib { Library.new with
  usage := some "u"
  types := ⟨[("T", .ext (Hdr.new .object) (.object ⟨none, none, true, none, none⟩)
    (OM.empty true)
    ⟨[("a", .new .string), ("p", .ext { Hdr.new .array with
        extra := ⟨[(.str "items", .str "y")], false⟩ } (.array ⟨false, 0, 2147483647⟩)
      (OM.empty true) (OM.empty true) (some sampleInner))], true⟩ none)], false⟩ })

example : ∃ as : List Around,
    as.map Around.key = ["types", "T", "properties", "p", "items"].map Node.str ∧
    sampleOuter.toYAML Xyml.std = fillAll as (sampleInner.toYAML Xyml.std) ∧
    ∀ g, (sampleOuter.change g (.declared "T" [.property "p", .items])).toYAML Xyml.std =
      fillAll as ((g sampleInner).toYAML Xyml.std) :=
  C99_place Xyml.std Xyml.std_lawful sampleOuter (.declared "T" [.property "p", .items]) sampleInner
    rfl

/-- The written form, in full. -/
example : sampleOuter.toYAML Xyml.std = .map [(.str "usage", .str "u"), (.str "types",
    .map [(.str "T", .map [(.str "type", .str "object"), (.str "properties", .seq "!!omap" [
      .map [(.str "a", .str "string")],
      .map [(.str "p", .map [(.str "type", .str "array"), (.str "items",
        .map [(.str "type", .str "string"), (.str "items", .str "x")])])]])])])] := rfl

example : ∃ (as : List Around) (y y' : Node),
    as.map Around.key = ["types", "T", "properties", "p", "items"].map Node.str ∧
    sampleOuter.toYAML Xyml.std = fillAll as y ∧
    (sampleOuter.change (fun t => (t.apply (.setMinLength 2)).getD t)
      (.declared "T" [.property "p", .items])).toYAML Xyml.std = fillAll as y' ∧
    without Xyml.std [.str "minLength"] (entriesOf y') =
      without Xyml.std [.str "minLength"] (entriesOf y) :=
  C99_facet Xyml.std Xyml.std_lawful sampleOuter (.declared "T" [.property "p", .items]) sampleInner
    _ (.setMinLength 2) "minLength" rfl rfl rfl (by simp [sampleInner, ownKeys, Hdr.new, OM.empty])

example (g : DT → DT) : (sampleOuter.change g (.declared "T" [.property "p", .items])).find
    (.declared "T" [.property "p", .items]) = some (g sampleInner) :=
  C99_found sampleOuter _ _ rfl g

/-- The program of `C82_sessions`: the property of the type that the document declares. -/
example : ∃ (as : List Around) (n n' : Nat) (y y' : Node) (c' : Addr),
    as.map Around.key = ["types", "T", "properties", "p"].map Node.str ∧
    (runCmds Xyml.std (tour.take 8)).1.write Xyml.std n 2 = some y ∧
    (runCmds Xyml.std (tour.take 8)).1.rootWrite Xyml.std n (.doc (.api 3)) =
      some (fillAll as y) ∧
    (runCmds Xyml.std (tour.take 8 ++ [.work 2 (.declared "T" [.property "p"]
      (.call (.setDescription "x")))])).1.find (.doc (.api 3)) (.declared "T" [.property "p"]) =
        some c' ∧
    (runCmds Xyml.std (tour.take 8 ++ [.work 2 (.declared "T" [.property "p"]
      (.call (.setDescription "x")))])).1.write Xyml.std n' c' = some y' ∧
    (runCmds Xyml.std (tour.take 8 ++ [.work 2 (.declared "T" [.property "p"]
      (.call (.setDescription "x")))])).1.rootWrite Xyml.std n' (.doc (.api 3)) =
        some (fillAll as y') :=
  C99_program Xyml.std Xyml.std_lawful (tour.take 8) 2 (.doc (.api 3))
    (.declared "T" [.property "p"]) 2 (.call (.setDescription "x")) rfl (by decide +kernel)

end Verif.Props
