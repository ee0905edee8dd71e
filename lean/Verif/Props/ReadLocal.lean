import Verif.Props.Nested

/-! # C100: a nested data type is read from its place, and another one there changes nothing else -/

namespace Verif.Props
open Verif Verif.Doc Verif.Doc.Spec

/-! ### Loops -/

private theorem loop_at {σ τ : Type} {f : Node → Node → σ → Res σ} {I : σ → Prop}
    {get : σ → τ} {set : τ → σ → σ} {q : Node → Prop} {k : Node} {ld : Node → τ → Res τ}
    (hI : ∀ k v s s', I s → f k v s = .ok s' → I s')
    (hk : ∀ v s, I s → f k v s = (ld v (get s)).map fun y => set y s)
    (ho : ∀ k' v y s, q k' → f k' v (set y s) = (f k' v s).map (set y))
    (hg : ∀ k' v s s', q k' → f k' v s = .ok s' → get s' = get s)
    (h1 : ∀ y s, I s → get (set y s) = y) (h2 : ∀ y z s, set y (set z s) = set y s)
    {pre post : List (Node × Node)} {v : Node} {s0 s : σ} (h0 : I s0)
    (hp : ∀ p ∈ post, q p.1) (h : forPairs f (pre ++ (k, v) :: post) s0 = .ok s) :
    ∃ m, ld v m = .ok (get s) ∧
      ∀ v', forPairs f (pre ++ (k, v') :: post) s0 = (ld v' m).map fun y => set y s := by
  rw [forPairs_append] at h
  obtain ⟨s1, hpre, h⟩ := Res.bind_eq_ok.mp h
  have hs1 : I s1 := forPairs_inv (I := I) hI pre s0 s1 h0 hpre
  obtain ⟨s2, hm, hpost⟩ := Res.bind_eq_ok.mp h
  dsimp only at hm hpost
  rw [hk v s1 hs1] at hm
  obtain ⟨y, hy, rfl⟩ := Res.map_eq_ok.mp hm
  have keep : ∀ (l : List (Node × Node)), (∀ p ∈ l, q p.1) → ∀ a b, forPairs f l a = .ok b →
      get b = get a ∧ ∀ y, forPairs f l (set y a) = .ok (set y b) := by
    intro l
    induction l with
    | nil => intro _ a b h; cases h; exact ⟨rfl, fun _ => rfl⟩
    | cons p l ih =>
      intro hl a b h
      obtain ⟨c, hc, h⟩ := Res.bind_eq_ok.mp h
      obtain ⟨e1, e2⟩ := ih (fun p hp => hl p (by simp [hp])) c b h
      refine ⟨e1.trans (hg _ _ _ _ (hl p (by simp)) hc), fun y => ?_⟩
      show (f p.1 p.2 (set y a)).bind (forPairs f l) = _
      rw [ho _ _ _ _ (hl p (by simp)), hc]
      exact e2 y
  obtain ⟨e1, e2⟩ := keep post hp _ _ hpost
  refine ⟨get s1, ?_, fun v' => ?_⟩
  · rw [e1, h1 y s1 hs1, hy]
  · rw [forPairs_append, hpre]
    show (f k v' s1).bind (forPairs f post) = _
    rw [hk v' s1 hs1]
    cases hl : ld v' (get s1) with
    | ok z =>
      have := e2 z
      rw [h2] at this
      exact this
    | err => rfl
    | panic => rfl

private theorem put_change {V : Type} (m : OM String V) {k s : String} (h : s ≠ k) (c x : V) :
    (m.change k fun _ => c).put s x = (m.put s x).change k fun _ => c := by
  obtain ⟨es, b⟩ := m
  simp only [OM.change, OM.put]
  congr 1
  induction es with
  | nil => simp [changeFirst, h]
  | cons e es ih =>
    by_cases he : e.1 = k
    · have h' : ¬ k = s := fun h' => h h'.symm
      subst he
      simp [changeFirst, h']
    · by_cases hs : e.1 = s
      · simp only [changeFirst, if_neg he]
        rw [List.filter_cons_of_neg (by simpa using hs), List.filter_cons_of_neg (by simpa using hs)]
        exact ih
      · simp only [changeFirst, if_neg he]
        rw [List.filter_cons_of_pos (by simpa using hs), List.filter_cons_of_pos (by simpa using hs)]
        simp only [List.cons_append, changeFirst, if_neg he, ih]

private theorem get_put_ne {V : Type} (m : OM String V) {k s : String} (h : s ≠ k) (x : V) :
    (m.put s x).get k = m.get k := by
  obtain ⟨es, b⟩ := m
  simp only [OM.put, OM.get]
  induction es with
  | nil => simp [h]
  | cons e es ih =>
    by_cases hs : e.1 = s
    · rw [List.filter_cons_of_neg (by simpa using hs), ih, List.find?_cons_of_neg]
      simpa [hs] using h
    · rw [List.filter_cons_of_pos (by simpa using hs), List.cons_append]
      by_cases he : e.1 = k
      · simp [he]
      · rw [List.find?_cons_of_neg (by simpa using he), List.find?_cons_of_neg (by simpa using he)]
        exact ih

private theorem get_put_self {V : Type} (m : OM String V) (k : String) (x : V) :
    (m.put k x).get k = some x := by
  obtain ⟨es, b⟩ := m
  simp only [OM.put, OM.get, List.find?_append]
  rw [List.find?_eq_none.mpr]
  · simp
  · intro e he
    simpa using (List.mem_filter.mp he).2

/-- The loops that read maps of types, of properties and of facets (auxiliary). -/
private def mapStep {V : Type} (read : Node → Res V) (k v : Node) (m : OM String V) :
    Res (OM String V) :=
  (asString k).bind fun s => (read v).map fun x => m.put s x

private theorem map_read {V : Type} {read : Node → Res V} {pre post : List (Node × Node)}
    {k : String} {n : Node} {m m' : OM String V} (hp : ∀ p ∈ post, p.1.value ≠ k)
    (h : forPairs (mapStep read) (pre ++ (.str k, n) :: post) m = .ok m') :
    ∃ x, read n = .ok x ∧ m'.get k = some x ∧
      ∀ n', forPairs (mapStep read) (pre ++ (.str k, n') :: post) m =
        (read n').map fun y => m'.change k fun _ => y := by
  rw [forPairs_append] at h
  obtain ⟨m1, hpre, h⟩ := Res.bind_eq_ok.mp h
  obtain ⟨m2, hm, hpost⟩ := Res.bind_eq_ok.mp h
  have hstep : ∀ v m, mapStep read (.str k) v m = (read v).map fun x => m.put k x := fun _ _ => rfl
  dsimp only at hm hpost
  rw [hstep] at hm
  obtain ⟨x, hx, rfl⟩ := Res.map_eq_ok.mp hm
  have keep : ∀ (l : List (Node × Node)), (∀ p ∈ l, p.1.value ≠ k) → ∀ a b,
      forPairs (mapStep read) l a = .ok b → b.get k = a.get k ∧
        ∀ c, forPairs (mapStep read) l (a.change k fun _ => c) = .ok (b.change k fun _ => c) := by
    intro l
    induction l with
    | nil => intro _ a b h; cases h; exact ⟨rfl, fun _ => rfl⟩
    | cons p l ih =>
      intro hl a b h
      obtain ⟨a', ha, h⟩ := Res.bind_eq_ok.mp h
      obtain ⟨e1, e2⟩ := ih (fun p hp => hl p (by simp [hp])) a' b h
      obtain ⟨s, hs, ha⟩ := Res.bind_eq_ok.mp ha
      obtain ⟨y, hy, rfl⟩ := Res.map_eq_ok.mp ha
      have hne : s ≠ k := by
        unfold asString at hs
        split at hs
        · cases hs; exact hl p (by simp)
        · cases hs
      refine ⟨e1.trans (get_put_ne _ hne _), fun c => ?_⟩
      show (mapStep read p.1 p.2 (a.change k fun _ => c)).bind (forPairs (mapStep read) l) = _
      unfold mapStep
      rw [hs, hy]
      show forPairs (mapStep read) l ((a.change k fun _ => c).put s y) = _
      rw [put_change _ hne]
      exact e2 c
  obtain ⟨e1, e2⟩ := keep post hp _ _ hpost
  refine ⟨x, hx, e1.trans (get_put_self _ _ _), fun n' => ?_⟩
  rw [forPairs_append, hpre]
  show (mapStep read (.str k) n' m1).bind (forPairs (mapStep read) post) = _
  rw [hstep]
  cases hl : read n' with
  | ok z =>
    have := e2 z
    rw [change_put] at this
    exact this
  | err => rfl
  | panic => rfl

/-! ### The entries of a data type -/

private theorem sift_at {key : String} (hk : key ≠ "type") (hk' : key ≠ "schema")
    (pre post : List (Node × Node)) (v v' : Node) :
    siftType (pre ++ (.str key, v) :: post) = siftType (pre ++ (.str key, v') :: post) := by
  have scan : ∀ (pre : List (Node × Node)) p i,
      siftScan (pre ++ (.str key, v) :: post) p i = siftScan (pre ++ (.str key, v') :: post) p i := by
    intro pre
    induction pre with
    | nil => intro p i; simp [siftScan, Node.str, Node.value, hk, hk']
    | cons e pre ih => intro p i; simp only [List.cons_append, siftScan, ih]
  unfold siftType
  rw [scan]

private theorem assign_isProperty {X : Xyml} {k v : Node} {t t' : DT}
    (h : assign X (k, v) t = .ok t') : t'.isProperty = t.isProperty := by
  cases t with
  | basic i s x =>
    unfold assign at h
    obtain ⟨a, _, rfl⟩ := Res.map_eq_ok.mp h
    rfl
  | ext hd b fs ps it =>
    unfold assign at h
    split at h
    · obtain ⟨a, _, rfl⟩ := Res.map_eq_ok.mp h; rfl
    · split at h
      · obtain ⟨a, _, rfl⟩ := Res.map_eq_ok.mp h; rfl
      · split at h
        · obtain ⟨a, _, rfl⟩ := Res.map_eq_ok.mp h; rfl
        · obtain ⟨a, _, rfl⟩ := Res.map_eq_ok.mp h; rfl

private theorem assignAll_isProperty {X : Xyml} {ps : List (Node × Node)} {t t' : DT}
    (hs : assignAll X ps t = .ok t') : t'.isProperty = t.isProperty := by
  rw [assignAll_eq] at hs
  exact forPairs_inv (I := fun u => u.isProperty = t.isProperty)
    (fun k v s s' hI h => (assign_isProperty h).trans hI) ps t t' rfl hs

private def getP : DT → OM String DT
  | .ext _ _ _ ps _ => ps
  | .basic .. => OM.empty true
private def setP (m : OM String DT) : DT → DT
  | .ext h b fs _ it => .ext h b fs m it
  | t => t
private def getI : DT → Option DT
  | .ext _ _ _ _ it => it
  | .basic .. => none
private def setI (m : Option DT) : DT → DT
  | .ext h b fs ps _ => .ext h b fs ps m
  | t => t
private def getF : DT → OM String (OM String DT)
  | .ext _ _ fs _ _ => fs
  | .basic .. => OM.empty true
private def setF (m : OM String (OM String DT)) : DT → DT
  | .ext h b _ ps it => .ext h b m ps it
  | t => t

/-- One entry of a mapping that defines a type (auxiliary). -/
private theorem type_read {X : Xyml} {τ : Type} {key : String} {I : DT → Prop}
    {get : DT → τ} {set : τ → DT → DT} {ld : Node → τ → Res τ}
    (hn : key ≠ "type") (hn' : key ≠ "schema")
    (hI : ∀ k v t t', assign X (k, v) t = .ok t' → (I t ↔ I t'))
    (hk : ∀ v t, I t → assign X (.str key, v) t = (ld v (get t)).map fun y => set y t)
    (ho : ∀ k' v y t, k'.value ≠ key → assign X (k', v) (set y t) =
      (assign X (k', v) t).map (set y))
    (hg : ∀ k' v t t', k'.value ≠ key → assign X (k', v) t = .ok t' → get t' = get t)
    (h1 : ∀ y t, I t → get (set y t) = y) (h2 : ∀ y z t, set y (set z t) = set y t)
    {pre post : List (Node × Node)} {v : Node} {t : DT} (h0 : I t)
    (hp : ∀ p ∈ post, p.1.value ≠ key)
    (h : hat X (.map (pre ++ (.str key, v) :: post)) = .ok t) :
    ∃ m, ld v m = .ok (get t) ∧
      ∀ v', hat X (.map (pre ++ (.str key, v') :: post)) = (ld v' m).map fun y => set y t := by
  unfold hat at h
  obtain ⟨t0, hs, ha⟩ := Res.bind_eq_ok.mp h
  have hI0 : I t0 := by
    rw [assignAll_eq] at ha
    exact (forPairs_inv (I := fun u => I t0 ↔ I u)
      (fun k v s s' h h' => h.trans (hI k v s s' h')) _ _ _ Iff.rfl ha).mpr h0
  rw [assignAll_eq] at ha
  obtain ⟨m, e1, e2⟩ := loop_at (f := fun k v t => assign X (k, v) t) (I := I) (get := get)
    (set := set) (q := fun k => k.value ≠ key) (k := .str key) (ld := ld)
    (fun k v s s' h h' => (hI k v s s' h').mp h) hk ho hg h1 h2 hI0 hp ha
  refine ⟨m, e1, fun v' => ?_⟩
  unfold hat
  rw [← sift_at hn hn' pre post v v', hs]
  show assignAll X _ t0 = _
  rw [assignAll_eq]
  exact e2 v'

private theorem get_other {X : Xyml} {k v : Node} {t t' : DT} (h : assign X (k, v) t = .ok t') :
    (k.value ≠ "properties" → getP t' = getP t) ∧ (k.value ≠ "items" → getI t' = getI t) ∧
      (k.value ≠ "facets" → getF t' = getF t) := by
  cases t with
  | basic i s x =>
    unfold assign at h
    obtain ⟨a, _, rfl⟩ := Res.map_eq_ok.mp h
    exact ⟨fun _ => rfl, fun _ => rfl, fun _ => rfl⟩
  | ext hd b fs ps it =>
    unfold assign at h
    split at h
    · rename_i hk
      obtain ⟨a, _, rfl⟩ := Res.map_eq_ok.mp h
      exact ⟨fun _ => rfl, fun _ => rfl, fun e => absurd hk e⟩
    · split at h
      · rename_i hk
        obtain ⟨a, _, rfl⟩ := Res.map_eq_ok.mp h
        exact ⟨fun e => absurd hk.1 e, fun _ => rfl, fun _ => rfl⟩
      · split at h
        · rename_i hk
          obtain ⟨a, _, rfl⟩ := Res.map_eq_ok.mp h
          exact ⟨fun _ => rfl, fun e => absurd hk.1 e, fun _ => rfl⟩
        · obtain ⟨a, _, rfl⟩ := Res.map_eq_ok.mp h
          exact ⟨fun _ => rfl, fun _ => rfl, fun _ => rfl⟩

private theorem map_map {α β γ : Type} (r : Res α) (f : α → β) (g : β → γ) :
    (r.map f).map g = r.map fun x => g (f x) := by cases r <;> rfl

private theorem ite_map {α β : Type} (c : Prop) [Decidable c] (r r' : Res α) (f : α → β) :
    (if c then r else r').map f = if c then r.map f else r'.map f := by split <;> rfl

private theorem set_other {X : Xyml} {k v : Node} (t : DT) :
    (k.value ≠ "properties" → ∀ y, assign X (k, v) (setP y t) = (assign X (k, v) t).map (setP y)) ∧
    (k.value ≠ "items" → ∀ y, assign X (k, v) (setI y t) = (assign X (k, v) t).map (setI y)) ∧
    (k.value ≠ "facets" → ∀ y, assign X (k, v) (setF y t) = (assign X (k, v) t).map (setF y)) := by
  cases t with
  | basic i s x =>
    simp only [setP, setI, setF]
    unfold assign
    simp [map_map, setP, setI, setF]
  | ext hd b fs ps it =>
    simp only [setP, setI, setF]
    unfold assign
    refine ⟨fun e y => ?_, fun e y => ?_, fun e y => ?_⟩
    all_goals
      simp only [e, false_and, if_false]
      repeat' split
      all_goals simp [map_map, setP, setI, setF]

/-- Reading one property (auxiliary). -/
private def readProp (X : Xyml) (v : Node) : Res DT :=
  (hat X v).bind fun t => if t.isProperty then .ok t else .panic .notProperty

private theorem loadProp_step (X : Xyml) :
    (fun k v m => loadProp X (k, v) m) = mapStep (readProp X) := by
  funext k v m
  unfold loadProp mapStep readProp
  cases asString k <;> try rfl
  cases hat X v <;> try rfl
  rename_i t
  cases h : t.isProperty <;> simp [Res.bind, Res.map, h]

private theorem loadType_step (X : Xyml) :
    (fun k v m => loadType X (k, v) m) = mapStep (hat X) := by
  funext k v m
  unfold loadType mapStep
  cases asString k <;> rfl

private theorem loadFacet_step (X : Xyml) : (fun k v m => loadFacet X (k, v) m) =
    mapStep fun v => loadTypes X v (OM.empty true) := by
  funext k v m
  unfold loadFacet mapStep
  cases asString k <;> rfl

private theorem mapForEach_at {V : Type} {read : Node → Res V} {a : Around} {k : String} {n : Node}
    {m m' : OM String V} (ha : a.key = .str k) (hp : a.last)
    (h : mapForEach (mapStep read) (a.fill n) m = .ok m') :
    ∃ x, read n = .ok x ∧ m'.get k = some x ∧
      ∀ n', mapForEach (mapStep read) (a.fill n') m =
        (read n').map fun y => m'.change k fun _ => y := by
  obtain ⟨o, pre, key, post⟩ := a
  cases ha
  cases o with
  | true => cases h
  | false => exact map_read hp h

private theorem hat_map {X : Xyml} {a : Around} {n : Node} {t : DT} (h : hat X (a.fill n) = .ok t) :
    ∀ n, a.fill n = .map (a.before ++ (a.key, n) :: a.after) := by
  obtain ⟨o, pre, key, post⟩ := a
  cases o with
  | true => simp [Around.fill, hat] at h
  | false => exact fun _ => rfl

private theorem change_congr {V : Type} {m : OM String V} {k : String} {x : V}
    (h : m.get k = some x) {g g' : V → V} (hg : g x = g' x) : m.change k g = m.change k g' := by
  obtain ⟨es, b⟩ := m
  simp only [OM.get, OM.change] at h ⊢
  congr 1
  induction es with
  | nil => rfl
  | cons e es ih =>
    by_cases he : e.1 = k
    · simp [he] at h
      simp [changeFirst, he, h, hg]
    · rw [List.find?_cons_of_neg (by simpa using he)] at h
      simp only [changeFirst, if_neg he, ih h]

private theorem through_congr {t s : DT} {h : Hop} (hs : t.hop h = some s) {g g' : DT → DT}
    (hg : g s = g' s) : t.through g h = t.through g' h := by
  cases t with
  | basic => cases h <;> rfl
  | ext hd b fs ps it =>
    cases h with
    | property k =>
      cases b <;> try cases hs
      simp only [DT.through, change_congr hs hg]
    | items =>
      cases b <;> try cases hs
      simp [DT.through, hg]
    | facet k k' =>
      obtain ⟨m, hm, hs'⟩ := Option.bind_eq_some_iff.mp hs
      simp only [DT.through]
      rw [change_congr hm (g' := fun m => m.change k' g') (change_congr hs' hg)]

private theorem hop_read {X : Xyml} {as : List Around} {h : Hop} {n : Node} {t s : DT}
    (hk : as.map Around.key = (keysOf h).map Node.str) (hl : ∀ a ∈ as, a.last)
    (hr : hat X (fillAll as n) = .ok t) (hs : t.hop h = some s) :
    hat X n = .ok s ∧ ∀ n', hat X (fillAll as n') = (hat X n').bind fun s' =>
      if fits [h] s' then .ok (t.through (fun _ => s') h) else .panic .notProperty := by
  cases h with
  | property k =>
    obtain ⟨a, a', rfl⟩ : ∃ a a', as = [a, a'] := by
      exact List.length_eq_two.mp (by simpa [keysOf] using congrArg List.length hk)
    simp only [List.map_cons, List.map_nil, keysOf, List.cons.injEq, and_true] at hk
    have hm := hat_map hr
    simp only [fillAll] at hr ⊢
    simp only [hm, hk.1] at hr ⊢
    have hkind : t.kind = .object ∧ t.isProperty := by
      cases t with
      | basic => cases hs
      | ext hd b => cases b <;> first | exact ⟨rfl, rfl⟩ | cases hs
    have hlast := hl a (by simp)
    unfold Around.last at hlast
    rw [hk.1] at hlast
    obtain ⟨m, e1, e2⟩ := type_read (X := X) (key := "properties")
      (I := fun t => t.kind = .object ∧ t.isProperty) (get := getP) (set := setP)
      (ld := fun v m => loadProps X v m) (by decide) (by decide)
      (fun k v t t' h => by rw [assign_kind h, assign_isProperty h])
      (fun v t ht => by
        cases t with
        | basic => cases ht.2
        | ext hd b =>
          have : b.isObject = true := (Body.isObject_iff b).mpr ht.1
          unfold assign
          simp [Node.str, Node.value, this, getP, setP])
      (fun k v y t h => (set_other t).1 h y) (fun k v t t' h h' => (get_other h').1 h)
      (fun y t ht => by
        cases t with
        | basic => cases ht.2
        | ext => rfl)
      (fun y z t => by cases t <;> rfl) hkind hlast hr
    simp only [loadProps_eq, loadProp_step] at e1 e2
    obtain ⟨x, f1, f2, f3⟩ := mapForEach_at hk.2 (hl a' (by simp)) e1
    have hts : ∀ y, setP ((getP t).change k fun _ => y) t = t.through (fun _ => y) (.property k) ∧
        (getP t).get k = some s := by
      intro y
      cases t with
      | basic => cases hs
      | ext hd b => cases b <;> first | exact ⟨rfl, hs⟩ | cases hs
    rw [(hts x).2] at f2
    cases f2
    obtain ⟨x', g1, g2⟩ := Res.bind_eq_ok.mp f1
    refine ⟨?_, fun n' => ?_⟩
    · split at g2
      · cases g2; exact g1
      · cases g2
    · rw [e2, f3]
      unfold readProp
      cases hat X n' <;> try rfl
      rename_i z
      cases hz : z.isProperty <;> simp [Res.bind, Res.map, fits, hz, (hts z).1]
  | items =>
    obtain ⟨a, rfl⟩ : ∃ a, as = [a] := by
      exact List.length_eq_one_iff.mp (by simpa [keysOf] using congrArg List.length hk)
    simp only [List.map_cons, List.map_nil, keysOf, List.cons.injEq, and_true] at hk
    have hm := hat_map hr
    simp only [fillAll] at hr ⊢
    simp only [hm, hk] at hr ⊢
    have hkind : t.kind = .array ∧ t.isProperty := by
      cases t with
      | basic => cases hs
      | ext hd b => cases b <;> first | exact ⟨rfl, rfl⟩ | cases hs
    have hlast := hl a (by simp)
    unfold Around.last at hlast
    rw [hk] at hlast
    obtain ⟨m, e1, e2⟩ := type_read (X := X) (key := "items")
      (I := fun t => t.kind = .array ∧ t.isProperty) (get := getI) (set := setI)
      (ld := fun v m => (hat X v).map some) (by decide) (by decide)
      (fun k v t t' h => by rw [assign_kind h, assign_isProperty h])
      (fun v t ht => by
        cases t with
        | basic => cases ht.2
        | ext hd b =>
          have : b.isArray = true := (Body.isArray_iff b).mpr ht.1
          unfold assign
          simp [Node.str, Node.value, this, setI, map_map])
      (fun k v y t h => (set_other t).2.1 h y) (fun k v t t' h h' => (get_other h').2.1 h)
      (fun y t ht => by
        cases t with
        | basic => cases ht.2
        | ext => rfl)
      (fun y z t => by cases t <;> rfl) hkind hlast hr
    obtain ⟨x, f1, f2⟩ := Res.map_eq_ok.mp e1
    have hts : ∀ y, setI (some y) t = t.through (fun _ => y) .items ∧ getI t = some s := by
      intro y
      cases t with
      | basic => cases hs
      | ext hd b => cases b <;> first | (cases hs; exact ⟨rfl, rfl⟩) | cases hs
    rw [(hts x).2] at f2
    cases f2
    refine ⟨f1, fun n' => ?_⟩
    rw [e2, map_map]
    cases hat X n' <;> try rfl
    rename_i z
    simp [Res.bind, Res.map, fits, (hts z).1]
  | facet k k' =>
    obtain ⟨a, a', a'', rfl⟩ : ∃ a a' a'', as = [a, a', a''] := by
      exact List.length_eq_three.mp (by simpa [keysOf] using congrArg List.length hk)
    simp only [List.map_cons, List.map_nil, keysOf, List.cons.injEq, and_true] at hk
    have hm := hat_map hr
    simp only [fillAll] at hr ⊢
    simp only [hm, hk.1] at hr ⊢
    have hkind : t.isProperty := by
      cases t with
      | basic => cases hs
      | ext hd b => rfl
    have hlast := hl a (by simp)
    unfold Around.last at hlast
    rw [hk.1] at hlast
    obtain ⟨m, e1, e2⟩ := type_read (X := X) (key := "facets")
      (I := fun t => t.isProperty) (get := getF) (set := setF)
      (ld := fun v m => loadFacets X v m) (by decide) (by decide)
      (fun k v t t' h => by rw [assign_isProperty h])
      (fun v t ht => by
        cases t with
        | basic => cases ht
        | ext hd b =>
          unfold assign
          simp [Node.str, Node.value, getF, setF])
      (fun k v y t h => (set_other t).2.2 h y) (fun k v t t' h h' => (get_other h').2.2 h)
      (fun y t ht => by
        cases t with
        | basic => cases ht
        | ext => rfl)
      (fun y z t => by cases t <;> rfl) hkind hlast hr
    simp only [loadFacets_eq, loadFacet_step] at e1 e2
    obtain ⟨x, f1, f2, f3⟩ := mapForEach_at hk.2.1 (hl a' (by simp)) e1
    rw [loadTypes_eq, loadType_step] at f1
    obtain ⟨x', g1, g2, g3⟩ := mapForEach_at hk.2.2 (hl a'' (by simp)) f1
    have hts : (getF t).get k = some x → ∀ y,
        setF ((getF t).change k fun _ => x.change k' fun _ => y) t =
          t.through (fun _ => y) (.facet k k') ∧ x.get k' = some s := by
      intro hx y
      cases t with
      | basic => cases hs
      | ext hd b fs ps it =>
        have hx : fs.get k = some x := hx
        simp only [DT.hop, hx] at hs
        refine ⟨?_, hs⟩
        simp only [setF, getF, DT.through]
        rw [change_congr hx (g' := fun m => m.change k' fun _ => y) rfl]
    rw [(hts f2 x').2] at g2
    cases g2
    refine ⟨g1, fun n' => ?_⟩
    rw [e2, f3, loadTypes_eq, loadType_step, g3, map_map, map_map]
    cases hat X n' <;> try rfl
    rename_i z
    simp [Res.bind, Res.map, fits, (hts f2 z).1]

private theorem fillAll_append (as bs : List Around) (n : Node) :
    fillAll (as ++ bs) n = fillAll as (fillAll bs n) := by
  induction as with
  | nil => rfl
  | cons a as ih => simp [fillAll, ih]

private theorem fits_cons (h h' : Hop) (hs : List Hop) (t : DT) :
    fits (h :: h' :: hs) t = fits (h' :: hs) t := by
  simp [fits, List.getLast?_cons_cons]

private theorem hop_isProperty {t s : DT} {h : Hop} (hs : t.hop h = some s) (g : DT → DT) :
    (t.through g h).isProperty = true := by
  cases t with
  | basic => cases h <;> cases hs
  | ext hd b =>
    cases h with
    | property => cases b <;> rfl
    | items => cases b <;> rfl
    | facet => rfl

private theorem fits_of {h : Hop} {t : DT} (ht : t.isProperty = true) : fits [h] t = true := by
  cases h <;> simp [fits, ht]

/-- C100: a data type that is reached through getters from one that has been read has been read
from the place in the mapping that the getters name.  If something else is at that place, then
reading gives the same with another data type at that place, unless the place is that of a property
and the data type is not one; if it cannot be read, the whole cannot, with the same error. -/
theorem C100_type (X : Xyml) (as : List Around) (hs : List Hop) (n : Node) (t s : DT)
    (hk : as.map Around.key = (hs.flatMap keysOf).map Node.str) (hl : ∀ a ∈ as, a.last)
    (hr : hat X (fillAll as n) = .ok t) (hw : t.walk hs = some s) :
    hat X n = .ok s ∧ ∀ n', hat X (fillAll as n') = (hat X n').bind fun s' =>
      if fits hs s' then .ok (t.within (fun _ => s') hs) else .panic .notProperty := by
  induction hs generalizing as t with
  | nil =>
    obtain rfl : as = [] := by simpa using hk
    cases hw
    refine ⟨hr, fun n' => ?_⟩
    show hat X n' = _
    cases hat X n' <;> rfl
  | cons h hs ih =>
    obtain ⟨u, hu, hw⟩ := Option.bind_eq_some_iff.mp hw
    obtain ⟨as1, as2, rfl, k1, k2⟩ : ∃ as1 as2, as = as1 ++ as2 ∧
        as1.map Around.key = (keysOf h).map Node.str ∧
        as2.map Around.key = (hs.flatMap keysOf).map Node.str := by
      rw [List.flatMap_cons, List.map_append] at hk
      exact List.map_eq_append_iff.mp hk
    rw [fillAll_append] at hr
    obtain ⟨e1, e2⟩ := hop_read k1 (fun a ha => hl a (by simp [ha])) hr hu
    obtain ⟨f1, f2⟩ := ih as2 u k2 (fun a ha => hl a (by simp [ha])) e1 hw
    refine ⟨f1, fun n' => ?_⟩
    rw [fillAll_append, e2, f2]
    cases hat X n' <;> try rfl
    rename_i z
    cases hs with
    | nil => rfl
    | cons h' hs =>
      obtain ⟨u', hu', -⟩ := Option.bind_eq_some_iff.mp hw
      show (if fits (h' :: hs) z = true then _ else _ : Res DT).bind _ =
        if fits (h :: h' :: hs) z = true then _ else _
      rw [fits_cons]
      cases fits (h' :: hs) z with
      | false => rfl
      | true =>
        show (if fits [h] (DT.within (fun _ => z) (h' :: hs) u) = true then _ else _ : Res DT) =
          .ok _
        rw [if_pos (fits_of (t := DT.within (fun _ => z) (h' :: hs) u) (hop_isProperty hu' _))]
        exact congrArg Res.ok (through_congr hu rfl)

/-! ### Documents -/

private theorem section_read {X : Xyml} {a : Around} {as : List Around} {k : String}
    {hs : List Hop} {n : Node} {m m' : OM String DT} {s : DT}
    (hk : (a :: as).map Around.key = (k :: hs.flatMap keysOf).map Node.str)
    (hl : ∀ b ∈ a :: as, b.last) (hr : loadTypes X (fillAll (a :: as) n) m = .ok m')
    (hw : (m'.get k).bind (DT.walk hs) = some s) :
    hat X n = .ok s ∧ ∀ n', loadTypes X (fillAll (a :: as) n') m = (hat X n').bind fun s' =>
      if fits hs s' then .ok (m'.change k (DT.within (fun _ => s') hs))
      else .panic .notProperty := by
  simp only [List.map_cons, List.cons.injEq] at hk
  simp only [loadTypes_eq, loadType_step, fillAll] at hr ⊢
  obtain ⟨u, e1, e2, e3⟩ := mapForEach_at hk.1 (hl a (by simp)) hr
  rw [e2] at hw
  obtain ⟨f1, f2⟩ := C100_type X as hs n u s hk.2 (fun b hb => hl b (by simp [hb])) e1 hw
  refine ⟨f1, fun n' => ?_⟩
  rw [e3, f2]
  cases hat X n' <;> try rfl
  rename_i z
  simp only [Res.bind]
  split
  · exact congrArg Res.ok (change_congr e2 rfl)
  · rfl

private theorem api_other {X : Xyml} {k v : Node} (a : APISpec) (hk : k.value ≠ "types")
    (hk' : k.value ≠ "schemas") (m : OM String DT) :
    APISpec.assign X k v { a with types := m } =
      (APISpec.assign X k v a).map fun a => { a with types := m } := by
  unfold APISpec.assign
  split
  · simp [APISpec.putExtra, map_map]
  · split
    · rfl
    · split
      · simp [map_map]
      · split
        · rfl
        · unfold APISpec.assignKey
          simp only [hk, hk', or_self, if_false]
          simp only [APISpec.putExtra, ite_map, map_map]
          rfl

private theorem api_types {X : Xyml} {k v : Node} {a a' : APISpec} (hk : k.value ≠ "types")
    (hk' : k.value ≠ "schemas") (h : APISpec.assign X k v a = .ok a') : a'.types = a.types := by
  have := api_other (X := X) (v := v) a hk hk' a.types
  rw [show { a with types := a.types } = a from rfl, h] at this
  have e := Res.ok.inj this
  rw [e]

private theorem lib_other {X : Xyml} {k v : Node} (l : Library) (hk : k.value ≠ "types")
    (hk' : k.value ≠ "schemas") (m : OM String DT) :
    Library.assign X k v { l with types := m } =
      (Library.assign X k v l).map fun l => { l with types := m } := by
  unfold Library.assign
  simp only [hk, hk', or_self, if_false]
  repeat' split
  all_goals first
    | rw [map_map]
    | (unfold Library.putExtra; rw [map_map])
    | rfl

private theorem lib_types {X : Xyml} {k v : Node} {l l' : Library} (hk : k.value ≠ "types")
    (hk' : k.value ≠ "schemas") (h : Library.assign X k v l = .ok l') : l'.types = l.types := by
  have := lib_other (X := X) (v := v) l hk hk' l.types
  rw [show { l with types := l.types } = l from rfl, h] at this
  have e := Res.ok.inj this
  rw [e]

/-- C100, for the types that an API document declares under `types` or `schemas`: the same. -/
theorem C100_api (X : Xyml) (a : Around) (as : List Around) (w k : String) (hs : List Hop)
    (n : Node) (d : APISpec) (s : DT) (hw : w = "types" ∨ w = "schemas") (ha : a.key = .str w)
    (hk : as.map Around.key = (k :: hs.flatMap keysOf).map Node.str)
    (ht : ∀ p ∈ a.after, p.1.value ≠ "types" ∧ p.1.value ≠ "schemas") (hl : ∀ b ∈ as, b.last)
    (hr : parseApi X (fillAll (a :: as) n) = .ok d)
    (hf : (RootVal.doc (.api d)).find (.declared k hs) = some s) :
    hat X n = .ok s ∧ ∀ n', parseApi X (fillAll (a :: as) n') = (hat X n').bind fun s' =>
      if fits hs s' then .ok { d with types := d.types.change k (DT.within (fun _ => s') hs) }
      else .panic .notProperty := by
  obtain ⟨o, pre, key, post⟩ := a
  cases ha
  cases o with
  | true => cases hr
  | false =>
  obtain ⟨m, e1, e2⟩ := loop_at (f := APISpec.assign X) (I := fun _ => True)
    (get := APISpec.types) (set := fun m d => { d with types := m })
    (q := fun k => k.value ≠ "types" ∧ k.value ≠ "schemas") (k := .str w)
    (ld := fun v m => loadTypes X v m) (fun _ _ _ _ _ _ => trivial)
    (fun v d _ => by rcases hw with rfl | rfl <;> rfl)
    (fun k v y d hk => api_other d hk.1 hk.2 y) (fun k v d d' hk h => api_types hk.1 hk.2 h)
    (fun _ _ _ => rfl) (fun _ _ _ => rfl) trivial ht hr
  obtain ⟨b, bs, rfl⟩ : ∃ b bs, as = b :: bs := by
    cases as with
    | nil => simp at hk
    | cons b bs => exact ⟨b, bs, rfl⟩
  obtain ⟨f1, f2⟩ := section_read hk hl e1 hf
  refine ⟨f1, fun n' => (e2 _).trans ?_⟩
  rw [f2]
  cases hat X n' <;> try rfl
  rename_i z
  simp only [Res.bind]
  split <;> rfl

/-- C100, for the types that a library declares: the same. -/
theorem C100_library (X : Xyml) (a : Around) (as : List Around) (w k : String) (hs : List Hop)
    (n : Node) (d : Library) (s : DT) (hw : w = "types" ∨ w = "schemas") (ha : a.key = .str w)
    (hk : as.map Around.key = (k :: hs.flatMap keysOf).map Node.str)
    (ht : ∀ p ∈ a.after, p.1.value ≠ "types" ∧ p.1.value ≠ "schemas") (hl : ∀ b ∈ as, b.last)
    (hr : parseLibrary X (some (fillAll (a :: as) n)) = .ok d)
    (hf : (RootVal.doc (.lib d)).find (.declared k hs) = some s) :
    hat X n = .ok s ∧ ∀ n', parseLibrary X (some (fillAll (a :: as) n')) =
      (hat X n').bind fun s' =>
        if fits hs s' then .ok { d with types := d.types.change k (DT.within (fun _ => s') hs) }
        else .panic .notProperty := by
  obtain ⟨o, pre, key, post⟩ := a
  cases ha
  cases o with
  | true => cases hr
  | false =>
  obtain ⟨m, e1, e2⟩ := loop_at (f := Library.assign X) (I := fun _ => True)
    (get := Library.types) (set := fun m d => { d with types := m })
    (q := fun k => k.value ≠ "types" ∧ k.value ≠ "schemas") (k := .str w)
    (ld := fun v m => loadTypes X v m) (fun _ _ _ _ _ _ => trivial)
    (fun v d _ => by rcases hw with rfl | rfl <;> rfl)
    (fun k v y d hk => lib_other d hk.1 hk.2 y) (fun k v d d' hk h => lib_types hk.1 hk.2 h)
    (fun _ _ _ => rfl) (fun _ _ _ => rfl) trivial ht hr
  obtain ⟨b, bs, rfl⟩ : ∃ b bs, as = b :: bs := by
    cases as with
    | nil => simp at hk
    | cons b bs => exact ⟨b, bs, rfl⟩
  obtain ⟨f1, f2⟩ := section_read hk hl e1 hf
  refine ⟨f1, fun n' => (e2 _).trans ?_⟩
  rw [f2]
  cases hat X n' <;> try rfl
  rename_i z
  simp only [Res.bind]
  split <;> rfl

/-- C100 and C99 together: an edit of the definition of a nested data type in the text is an edit of
one place in what is written after reading, too; here for a data type. -/
theorem C100_written_type (X : Xyml) (hX : Lawful X) (as : List Around) (hs : List Hop)
    (n n' : Node) (t s s' : DT) (hk : as.map Around.key = (hs.flatMap keysOf).map Node.str)
    (hl : ∀ a ∈ as, a.last) (hr : hat X (fillAll as n) = .ok t) (hw : t.walk hs = some s)
    (hn : hat X n' = .ok s') (hf : fits hs s' = true) :
    ∃ (t' : DT) (bs : List Around), hat X (fillAll as n') = .ok t' ∧ t'.walk hs = some s' ∧
      bs.map Around.key = as.map Around.key ∧ t.toYAML X = fillAll bs (s.toYAML X) ∧
      t'.toYAML X = fillAll bs (s'.toYAML X) := by
  obtain ⟨-, h⟩ := C100_type X as hs n t s hk hl hr hw
  obtain ⟨bs, h1, h2, h3⟩ := C99_place X hX (.type t) (.inside hs) s hw
  refine ⟨_, bs, ?_, C99_found (.type t) (.inside hs) s hw fun _ => s', h1.trans hk.symm, h2,
    h3 fun _ => s'⟩
  rw [h, hn]
  simp [Res.bind, hf]

/-- The same for an API document. -/
theorem C100_written_api (X : Xyml) (hX : Lawful X) (a : Around) (as : List Around) (w k : String)
    (hs : List Hop) (n n' : Node) (d : APISpec) (s s' : DT) (hw : w = "types" ∨ w = "schemas")
    (ha : a.key = .str w) (hk : as.map Around.key = (k :: hs.flatMap keysOf).map Node.str)
    (ht : ∀ p ∈ a.after, p.1.value ≠ "types" ∧ p.1.value ≠ "schemas") (hl : ∀ b ∈ as, b.last)
    (hr : parseApi X (fillAll (a :: as) n) = .ok d)
    (hf : (RootVal.doc (.api d)).find (.declared k hs) = some s)
    (hn : hat X n' = .ok s') (hf' : fits hs s' = true) :
    ∃ (d' : APISpec) (bs : List Around), parseApi X (fillAll (a :: as) n') = .ok d' ∧
      (RootVal.doc (.api d')).find (.declared k hs) = some s' ∧
      bs.map Around.key = ("types" :: k :: hs.flatMap keysOf).map Node.str ∧
      d.toYAML X = fillAll bs (s.toYAML X) ∧ d'.toYAML X = fillAll bs (s'.toYAML X) := by
  obtain ⟨-, h⟩ := C100_api X a as w k hs n d s hw ha hk ht hl hr hf
  obtain ⟨bs, h1, h2, h3⟩ := C99_place X hX (.doc (.api d)) (.declared k hs) s hf
  refine ⟨_, bs, ?_, C99_found (.doc (.api d)) (.declared k hs) s hf fun _ => s', h1, h2,
    h3 fun _ => s'⟩
  rw [h, hn]
  simp [Res.bind, hf']

/-- The same for a library. -/
theorem C100_written_library (X : Xyml) (hX : Lawful X) (a : Around) (as : List Around)
    (w k : String) (hs : List Hop) (n n' : Node) (d : Library) (s s' : DT)
    (hw : w = "types" ∨ w = "schemas") (ha : a.key = .str w)
    (hk : as.map Around.key = (k :: hs.flatMap keysOf).map Node.str)
    (ht : ∀ p ∈ a.after, p.1.value ≠ "types" ∧ p.1.value ≠ "schemas") (hl : ∀ b ∈ as, b.last)
    (hr : parseLibrary X (some (fillAll (a :: as) n)) = .ok d)
    (hf : (RootVal.doc (.lib d)).find (.declared k hs) = some s)
    (hn : hat X n' = .ok s') (hf' : fits hs s' = true) :
    ∃ (d' : Library) (bs : List Around), parseLibrary X (some (fillAll (a :: as) n')) = .ok d' ∧
      (RootVal.doc (.lib d')).find (.declared k hs) = some s' ∧
      bs.map Around.key = ("types" :: k :: hs.flatMap keysOf).map Node.str ∧
      d.toYAML X = fillAll bs (s.toYAML X) ∧ d'.toYAML X = fillAll bs (s'.toYAML X) := by
  obtain ⟨-, h⟩ := C100_library X a as w k hs n d s hw ha hk ht hl hr hf
  obtain ⟨bs, h1, h2, h3⟩ := C99_place X hX (.doc (.lib d)) (.declared k hs) s hf
  refine ⟨_, bs, ?_, C99_found (.doc (.lib d)) (.declared k hs) s hf fun _ => s', h1, h2,
    h3 fun _ => s'⟩
  rw [h, hn]
  simp [Res.bind, hf']

/-! ### An array type in an object type in a document -/

/-- A place in the definition of an object type: the items of the array type of the property `p`. -/
def samplePlace : List Around :=
  [⟨false, [(.str "type", .str "object"), (.str "p", .str "x")], .str "properties",
      [(.str "description", .str "d"), (.str "items", .str "y")]⟩,
    ⟨false, [(.str "p", .str "integer"), (.str "a", .str "nil | string")], .str "p",
      [(.str "z", .str "string")]⟩,
    ⟨false, [(.str "displayName", .str "n")], .str "items",
      [(.str "description", .str "e")]⟩]

/-- The same in a document. -/
def sampleSection : Around := ⟨false, [(.str "title", .str "t"), (.str "types",
  .map [(.str "T", .str "string"), (.str "U", .str "integer")])], .str "schemas", []⟩

example (t s : DT) (h : hat Xyml.std (fillAll samplePlace (.str "number")) = .ok t)
    (hs : t.walk [.property "p", .items] = some s) : hat Xyml.std (.str "number") = .ok s ∧
      ∀ n', hat Xyml.std (fillAll samplePlace n') = (hat Xyml.std n').bind fun s' =>
        if fits [.property "p", .items] s' then
          .ok (t.within (fun _ => s') [.property "p", .items]) else .panic .notProperty :=
  C100_type Xyml.std samplePlace _ _ t s rfl
    (by simp only [Around.last]; decide) h hs

/-- It can be read, and the getters lead to something. -/
example : ∃ t, hat Xyml.std (fillAll samplePlace (.str "number")) = .ok t ∧
    t.walk [.property "p", .items] = some (.new .number) := ⟨_, rfl, rfl⟩

/-- The items of an array type can be of the nil type. -/
example : ∃ t, hat Xyml.std (fillAll samplePlace (.str "nil")) = .ok t ∧
    t.walk [.property "p", .items] = some (.new .nil) := ⟨_, rfl, rfl⟩

/-- A property cannot. -/
example : hat Xyml.std (fillAll (samplePlace.take 2) (.str "nil")) = .panic .notProperty := rfl

/-- Something that is no data type is no data type at this place either. -/
example : hat Xyml.std (.seq "!!seq" []) = .err .multiType ∧
    hat Xyml.std (fillAll samplePlace (.seq "!!seq" [])) = .err .multiType := ⟨rfl, rfl⟩

/-- With a later entry under the same key the place does not count any more. -/
example : ∃ t, hat Xyml.std (fillAll [⟨false, [(.str "type", .str "array")], .str "items",
      [(.str "items", .str "string")]⟩] (.str "number")) = .ok t ∧
    t.walk [.items] = some (.new .string) := ⟨_, rfl, rfl⟩

example (d : APISpec) (s : DT) (h : parseApi Xyml.std (fillAll (sampleSection ::
      ⟨false, [(.str "V", .str "string")], .str "T", []⟩ :: samplePlace) (.str "number")) = .ok d)
    (hs : (RootVal.doc (.api d)).find (.declared "T" [.property "p", .items]) = some s) :
    hat Xyml.std (.str "number") = .ok s ∧ ∀ n', parseApi Xyml.std (fillAll (sampleSection ::
      ⟨false, [(.str "V", .str "string")], .str "T", []⟩ :: samplePlace) n') =
        (hat Xyml.std n').bind fun s' => if fits [.property "p", .items] s' then
          .ok { d with types := d.types.change "T" (DT.within (fun _ => s')
            [.property "p", .items]) } else .panic .notProperty :=
  C100_api Xyml.std sampleSection _ "schemas" "T" _ _ d s (.inr rfl) rfl rfl
    (by simp [sampleSection]) (by simp only [Around.last]; decide) h hs

example : ∃ d, parseApi Xyml.std (fillAll (sampleSection ::
      ⟨false, [(.str "V", .str "string")], .str "T", []⟩ :: samplePlace) (.str "number")) = .ok d ∧
    d.types.keys = ["U", "V", "T"] ∧
    (RootVal.doc (.api d)).find (.declared "T" [.property "p", .items]) = some (.new .number) :=
  ⟨_, rfl, rfl, rfl⟩

example (d : Library) (s : DT) (h : parseLibrary Xyml.std (some (fillAll [⟨false,
      [(.str "usage", .str "u")], .str "types", []⟩, ⟨false, [], .str "T", []⟩, ⟨false, [],
      .str "facets", [(.str "default", .str "x")]⟩, ⟨false, [], .str "f", []⟩,
      ⟨false, [(.str "g", .str "string")], .str "g", []⟩] (.str "number"))) = .ok d)
    (hs : (RootVal.doc (.lib d)).find (.declared "T" [.facet "f" "g"]) = some s) :
    hat Xyml.std (.str "number") = .ok s ∧ ∀ n', parseLibrary Xyml.std (some (fillAll [⟨false,
      [(.str "usage", .str "u")], .str "types", []⟩, ⟨false, [], .str "T", []⟩, ⟨false, [],
      .str "facets", [(.str "default", .str "x")]⟩, ⟨false, [], .str "f", []⟩,
      ⟨false, [(.str "g", .str "string")], .str "g", []⟩] n')) = (hat Xyml.std n').bind fun s' =>
        if fits [.facet "f" "g"] s' then .ok { d with
          types := d.types.change "T" (DT.within (fun _ => s') [.facet "f" "g"]) } else .panic .notProperty :=
  C100_library Xyml.std _ _ "types" "T" _ _ d s (.inl rfl) rfl rfl (by simp)
    (by simp [Around.last, Node.str, Node.value]) h hs

example : ∃ d, parseLibrary Xyml.std (some (fillAll [⟨false,
      [(.str "usage", .str "u")], .str "types", []⟩, ⟨false, [], .str "T", []⟩, ⟨false, [],
      .str "facets", [(.str "default", .str "x")]⟩, ⟨false, [], .str "f", []⟩,
      ⟨false, [(.str "g", .str "string")], .str "g", []⟩] (.str "number"))) = .ok d ∧
    (RootVal.doc (.lib d)).find (.declared "T" [.facet "f" "g"]) = some (.new .number) :=
  ⟨_, rfl, rfl⟩

example : ∃ (t t' : DT) (bs : List Around),
    hat Xyml.std (fillAll samplePlace (.str "number")) = .ok t ∧
    hat Xyml.std (fillAll samplePlace (.str "nil")) = .ok t' ∧
    t'.walk [.property "p", .items] = some (.new .nil) ∧
    bs.map Around.key = ["properties", "p", "items"].map Node.str ∧
    t.toYAML Xyml.std = fillAll bs (.str "number") ∧
    t'.toYAML Xyml.std = fillAll bs (.str "nil") := by
  obtain ⟨t', bs, h1, h2, h3, h4, h5⟩ := C100_written_type Xyml.std Xyml.std_lawful samplePlace
    [.property "p", .items] (.str "number") (.str "nil") _ (.new .number) (.new .nil) rfl
    (by simp only [Around.last]; decide) rfl rfl rfl rfl
  exact ⟨_, t', bs, rfl, h1, h2, h3, h4, h5⟩

example : ∃ (d d' : APISpec) (bs : List Around),
    parseApi Xyml.std (fillAll (sampleSection ::
      ⟨false, [(.str "V", .str "string")], .str "T", []⟩ :: samplePlace) (.str "number")) = .ok d ∧
    parseApi Xyml.std (fillAll (sampleSection ::
      ⟨false, [(.str "V", .str "string")], .str "T", []⟩ :: samplePlace) (.str "nil")) = .ok d' ∧
    bs.map Around.key = ["types", "T", "properties", "p", "items"].map Node.str ∧
    d.toYAML Xyml.std = fillAll bs (.str "number") ∧
    d'.toYAML Xyml.std = fillAll bs (.str "nil") := by
  obtain ⟨d', bs, h1, -, h3, h4, h5⟩ := C100_written_api Xyml.std Xyml.std_lawful sampleSection
    (⟨false, [(.str "V", .str "string")], .str "T", []⟩ :: samplePlace) "schemas" "T"
    [.property "p", .items] (.str "number") (.str "nil") _ (.new .number) (.new .nil) (.inr rfl)
    rfl rfl (by simp [sampleSection]) (by simp only [Around.last]; decide) rfl rfl rfl rfl
  exact ⟨_, d', bs, rfl, h1, h3, h4, h5⟩

example : ∃ (d d' : Library) (bs : List Around),
    parseLibrary Xyml.std (some (fillAll [⟨false, [(.str "usage", .str "u")], .str "types", []⟩,
      ⟨false, [], .str "T", [(.str "U", .str "integer")]⟩] (.str "number"))) = .ok d ∧
    parseLibrary Xyml.std (some (fillAll [⟨false, [(.str "usage", .str "u")], .str "types", []⟩,
      ⟨false, [], .str "T", [(.str "U", .str "integer")]⟩] (.str "nil"))) = .ok d' ∧
    bs.map Around.key = ["types", "T"].map Node.str ∧
    d.toYAML Xyml.std = fillAll bs (.str "number") ∧
    d'.toYAML Xyml.std = fillAll bs (.str "nil") := by
  obtain ⟨d', bs, h1, -, h3, h4, h5⟩ := C100_written_library Xyml.std Xyml.std_lawful
    ⟨false, [(.str "usage", .str "u")], .str "types", []⟩
    [⟨false, [], .str "T", [(.str "U", .str "integer")]⟩] "types" "T" [] (.str "number")
    (.str "nil") _ (.new .number) (.new .nil) (.inl rfl) rfl rfl (by simp)
    (by simp only [Around.last]; decide) rfl rfl rfl rfl
  exact ⟨_, d', bs, rfl, h1, h3, h4, h5⟩

end Verif.Props
