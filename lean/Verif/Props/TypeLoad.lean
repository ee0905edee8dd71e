import Verif.Props.Load
import Verif.Doc.LiveType

/-! # C77: loading a definition into an object that is in use

`UnmarshalRAML` may be called on a data type, an example, XML settings or a documentation entry
that already holds something. -/

namespace Verif.Props
open Verif Verif.Doc Verif.Doc.Spec

/-! ### What a merge is -/

/-- A facet of a type in use after a definition is loaded; `new` is its value when the definition
is loaded into a new type of the same kind, `given` whether the definition has an entry for it.
Dictionaries and the enum grow, everything else is replaced when given. -/
def mergedFacet : (f : Facet) → (given : Bool) → (old new : f.Ty) → f.Ty
  | .enum, _, old, new => mergedList old new
  | .examples, _, old, new => mergedMap old new
  | .facets, _, old, new => mergedMap old new
  | .annotations, _, old, new => mergedMap old new
  | .extra, _, old, new => mergedMap old new
  | .properties, _, old, new => mergedMap old new
  | _, true, _, new => new
  | _, false, old, _ => old

/-- The same for an example; `ps` are the entries of the mapping that is loaded. -/
def mergedExample (ps : List (Node × Node)) (old new : Example) : Example :=
  { kind := old.kind
    displayName := new.displayName.or old.displayName
    description := new.description.or old.description
    annotations := mergedMap old.annotations new.annotations
    value := new.value.or old.value
    strict := if ps.any (fun p => p.1.isStr && p.1.value == "strict") then new.strict
      else old.strict
    extra := mergedMap old.extra new.extra }

/-- The same for XML settings. -/
def mergedXML (old new : XML) : XML :=
  { isAttr := new.isAttr.or old.isAttr
    isWrap := new.isWrap.or old.isWrap
    name := new.name.or old.name
    ns := new.ns.or old.ns
    pref := new.pref.or old.pref
    extra := mergedMap old.extra new.extra }

/-- The same for documentation entries. -/
def mergedDocumentation (ps : List (Node × Node)) (old new : Documentation) : Documentation :=
  { title := if ps.any (fun p => p.1.value == "title") then new.title else old.title
    content := if ps.any (fun p => p.1.value == "content") then new.content else old.content
    extra := mergedMap old.extra new.extra }

/-! ### Loops -/

theorem mergedMap_put {K V : Type} [DecidableEq K] (old new : OM K V) (k : K) (v : V) :
    (mergedMap old new).put k v = mergedMap old (new.put k v) := by
  simp only [mergedMap, OM.put, List.filter_append, List.filter_filter, List.append_assoc,
    OM.mk.injEq, and_true]
  congr 1
  apply List.filter_congr
  intro x _
  rw [Bool.eq_iff_iff]
  simp only [ne_eq, decide_not, Bool.and_eq_true, Bool.not_eq_eq_eq_not, Bool.not_true,
    beq_eq_false_iff_ne, List.all_eq_true, decide_eq_false_iff_not, List.mem_append,
    List.mem_filter, List.mem_singleton]
  constructor
  · rintro ⟨h1, h2⟩ y (⟨hy, _⟩ | rfl)
    · exact h2 y hy
    · exact Ne.symm h1
  · intro h
    refine ⟨fun hx => h (k, v) (.inr rfl) hx.symm, fun y hy hyx => ?_⟩
    by_cases hk : y.1 = k
    · exact h (k, v) (.inr rfl) (hk ▸ hyx)
    · exact h y (.inl ⟨hy, hk⟩) hyx

theorem mergedMap_empty {K V : Type} [DecidableEq K] (m : OM K V) (b : Bool) :
    mergedMap m (OM.empty b) = m := by
  have : m.ents.filter (fun _ => true) = m.ents := List.filter_eq_self.mpr fun _ _ => rfl
  simp [mergedMap, OM.empty, this]

/-- A loop whose steps commute with a merge. -/
theorem forPairs_merge {σ : Type} {f : Node → Node → σ → Res σ} {I : σ → Prop}
    {merge : List (Node × Node) → σ → σ → σ} {old new : σ} (h0 : merge [] old new = old)
    (hnew : I new) (hI : ∀ k v n n', I n → f k v n = .ok n' → I n')
    (h : ∀ ps k v n, I n → f k v (merge ps old n) = (f k v n).map (merge (ps ++ [(k, v)]) old))
    (ps : List (Node × Node)) :
    forPairs f ps old = (forPairs f ps new).map (merge ps old) := by
  induction ps using List.reverseRecOn with
  | nil => simp [forPairs, h0]
  | append_singleton ps p ih =>
    rw [forPairs_append, forPairs_append, ih]
    cases hn : forPairs f ps new with
    | err e => rfl
    | panic c => rfl
    | ok n =>
      have h1 : ∀ s, forPairs f [p] s = f p.1 p.2 s := fun s => Res.bind_ok_right _
      simp only [Res.map_ok, Res.bind_ok, h1]
      exact h ps p.1 p.2 n (forPairs_inv hI ps _ _ hnew hn)

/-- A loop that appends converted elements. -/
theorem items_append {α : Type} (g : Node → Res α) (ns : List Node) :
    ∃ r : Res (List α), ∀ l : Option (List α),
      forItems (fun n l => (g n).map fun x => some (l.getD [] ++ [x])) ns l =
      r.map fun ds => if ds = [] then l else some (l.getD [] ++ ds) := by
  induction ns with
  | nil => exact ⟨.ok [], fun l => by simp [forItems]⟩
  | cons n ns ih =>
    obtain ⟨r, hr⟩ := ih
    refine ⟨(g n).bind fun d => r.map (d :: ·), fun l => ?_⟩
    simp only [forItems]
    cases g n with
    | err e => rfl
    | panic c => rfl
    | ok d =>
      simp only [Res.map_ok, Res.bind_ok, hr]
      cases r with
      | err e => rfl
      | panic c => rfl
      | ok ds =>
        simp only [Res.map_ok, reduceCtorEq, if_false]
        split
        · rename_i h; subst h; rfl
        · simp

theorem lists_append {α : Type} (g : Node → Res α) (ps : List (Node × Node)) :
    ∃ r : Res (List α), ∀ l : Option (List α),
      forPairs (fun _ v l => seqForEach (fun n l => (g n).map fun x => some (l.getD [] ++ [x])) v l)
        ps l = r.map fun ds => if ds = [] then l else some (l.getD [] ++ ds) := by
  induction ps with
  | nil => exact ⟨.ok [], fun l => by simp [forPairs]⟩
  | cons p ps ih =>
    obtain ⟨r, hr⟩ := ih
    have : ∃ q : Res (List α), ∀ l : Option (List α),
        seqForEach (fun n l => (g n).map fun x => some (l.getD [] ++ [x])) p.2 l =
        q.map fun ds => if ds = [] then l else some (l.getD [] ++ ds) := by
      cases p.2 with
      | seq t ns => exact items_append g ns
      | map ps => exact ⟨.err .notSeq, fun _ => rfl⟩
      | scalar a b => exact ⟨.err .notSeq, fun _ => rfl⟩
    obtain ⟨q, hq⟩ := this
    refine ⟨q.bind fun a => r.map (a ++ ·), fun l => ?_⟩
    simp only [forPairs, hq]
    cases q with
    | err e => rfl
    | panic c => rfl
    | ok as =>
      simp only [Res.map_ok, Res.bind_ok, hr]
      cases r with
      | err e => rfl
      | panic c => rfl
      | ok ds =>
        simp only [Res.map_ok, Res.ok.injEq]
        by_cases h1 : as = [] <;> by_cases h2 : ds = [] <;> simp [h1, h2]

theorem merge_enum {X : Xyml} {kd : Kind} {ps : List (Node × Node)} {l x y : Option (List Val)}
    (hx : forPairs (fun _ v l => loadEnum X kd l v) ps none = .ok x)
    (hy : forPairs (fun _ v l => loadEnum X kd l v) ps l = .ok y) : y = mergedList l x := by
  obtain ⟨r, hr⟩ := lists_append (enumVal X kd) ps
  have hr' : ∀ l, forPairs (fun _ v l => loadEnum X kd l v) ps l =
    r.map fun ds => if ds = [] then l else some (l.getD [] ++ ds) := hr
  rw [hr'] at hx hy
  obtain ⟨ds, rfl, rfl⟩ := Res.map_eq_ok.mp hx
  obtain ⟨ds', he, rfl⟩ := Res.map_eq_ok.mp hy
  cases he
  by_cases h : ds = [] <;> simp [h, mergedList]

/-! ### Dictionaries of data types -/

theorem puts_examples (X : Xyml) (kd : Kind) : Puts fun _ v m => loadExamples X kd m v := by
  have : Puts fun k v (m : OM String Example) => (asString k).bind fun s =>
      ((Example.new kd).unmarshal X v).map fun e => m.put s e := by
    have := puts_single fun k v => (asString k).bind fun s =>
      ((Example.new kd).unmarshal X v).map fun e => (s, e)
    refine cast (congrArg Puts ?_) this
    funext k v m
    cases asString k <;> cases (Example.new kd).unmarshal X v <;> rfl
  exact this.mapForEach

theorem puts_props (X : Xyml) : Puts fun _ v m => loadProps X v m := by
  have : Puts fun k v (m : OM String DT) => loadProp X (k, v) m := by
    have := puts_single fun k v => (asString k).bind fun s => (hat X v).bind fun t =>
      if t.isProperty then (.ok (s, t) : Res (String × DT)) else .panic .notProperty
    refine cast (congrArg Puts ?_) this
    funext k v m
    unfold loadProp
    cases asString k with
    | ok s =>
      cases hat X v with
      | ok t => simp only [Res.bind_ok]; split <;> rfl
      | err e => rfl
      | panic c => rfl
    | err e => rfl
    | panic c => rfl
  have := this.mapForEach
  simp only [← loadProps_eq] at this
  exact this

theorem puts_facets (X : Xyml) : Puts fun _ v m => loadFacets X v m := by
  have : Puts fun k v (m : OM String (OM String DT)) => loadFacet X (k, v) m := by
    have := puts_single fun k v => (asString k).bind fun s =>
      (loadTypes X v (OM.empty true)).map fun t => (s, t)
    refine cast (congrArg Puts ?_) this
    funext k v m
    unfold loadFacet
    cases asString k <;> cases loadTypes X v (OM.empty true) <;> rfl
  have := this.mapForEach
  simp only [← loadFacets_eq] at this
  exact this

theorem puts_type_extra (kd : Kind) : Puts fun k v (m : OM Scalar Node) =>
    if !isBasic kd && k.isStr && k.value == "" then .panic .emptyKey
    else .ok (OM.put m (.str k.value) v) := by
  refine ⟨fun k v => if !isBasic kd && k.isStr && k.value == "" then .panic .emptyKey
    else .ok [(.str k.value, v)], fun k v m => ?_⟩
  dsimp only
  split <;> rfl

/-! ### One facet at a time -/

theorem facetStep_ended (X : Xyml) (kd : Kind) (k v : Node) (f : Facet) (x y : f.Ty) :
    ended (facetStep X kd k v f x) = ended (facetStep X kd k v f y) := by
  cases f with
  | enum =>
    show ended (loadEnum X kd x v) = ended (loadEnum X kd y v)
    cases v with
    | seq t ns =>
      exact ended_items (f := fun n l => (enumVal X kd n).map fun x => pushEnum x l)
        (fun v s t => (ended_map _ _).trans (ended_map _ _).symm) ns x y
    | map ps => rfl
    | scalar a b => rfl
  | examples => exact (puts_examples X kd).ended k v x y
  | facets => exact (puts_facets X).ended k v x y
  | properties => exact (puts_props X).ended k v x y
  | annotations => exact (ended_map _ _).trans (ended_map _ _).symm
  | extra => exact (puts_type_extra kd).ended k v x y
  | _ => rfl

theorem assign_ended (X : Xyml) (k v : Node) {s t : DT} (h : s.kind = t.kind) :
    ended (assign X (k, v) s) = ended (assign X (k, v) t) := by
  rw [assign_eq, assign_eq, h]
  unfold DT.step
  rw [ended_map, ended_map, h]
  exact facetStep_ended X _ k v _ _ _

theorem assignAll_ended (X : Xyml) (ps : List (Node × Node)) {s t : DT} (h : s.kind = t.kind) :
    ended (assignAll X ps s) = ended (assignAll X ps t) := by
  induction ps generalizing s t with
  | nil => simp [assignAll, ended]
  | cons p ps ih =>
    have := assign_ended X p.1 p.2 h
    simp only [assignAll]
    revert this
    cases hs : assign X p s <;> cases ht : assign X p t <;> intro h1 <;>
      first | exact ih (((assign_kind (v := p.2) hs).trans h).trans (assign_kind (v := p.2) ht).symm)
            | (cases h1; rfl)
            | cases h1

/-- The entries for one facet are read one after the other. -/
theorem dt_part {X : Xyml} {kd : Kind} (f : Facet) :
    ∀ (ps : List (Node × Node)) (t t' : DT), t.kind = kd → assignAll X ps t = .ok t' →
    forPairs (fun k v x => facetStep X kd k v f x) (ps.filter fun p => facetOf kd p = f)
      (look f t) = .ok (look f t') := by
  intro ps
  induction ps with
  | nil => intro t t' _ h; simp only [assignAll, Res.ok.injEq] at h; subst h; rfl
  | cons p ps ih =>
    intro t t' hk h
    simp only [assignAll] at h
    obtain ⟨t1, h1, h2⟩ := Res.bind_eq_ok.mp h
    have ht1 := (assign_kind (v := p.2) h1).trans hk
    obtain ⟨h3, h4⟩ := assign_ok hk h1
    by_cases hp : facetOf kd p = f
    · subst hp
      simp only [List.filter_cons, decide_true, if_true, forPairs]
      rw [h3]
      exact ih t1 t' ht1 h2
    · simp only [List.filter_cons, hp, decide_false, Bool.false_eq_true, if_false]
      rw [← h4 f (fun h => hp h.symm)]
      exact ih t1 t' ht1 h2

theorem assignAll_dflt {X : Xyml} {ps : List (Node × Node)} {t t' : DT}
    (h : assignAll X ps t = .ok t') : dflt t' = dflt t := by
  rw [assignAll_eq] at h
  exact forPairs_inv (I := fun u => dflt u = dflt t)
    (fun k v s s' hI h => (assign_dflt h).trans hI) ps t t' rfl h

/-! ### C77 -/

/-- C77: whether a definition is accepted by a type in use, and with which error it is rejected,
depends on the kind of the type only, not on what the type holds. -/
theorem C77_ends (X : Xyml) (v : Node) (t : DT) :
    ended (t.unmarshal X v) = ended ((DT.new t.kind).unmarshal X v) := by
  unfold DT.unmarshal
  split
  · rfl
  · cases v with
    | seq a b => rfl
    | scalar a b => rfl
    | map ps => exact assignAll_ended X ps (kind_new _).symm

private theorem facet_merge {X : Xyml} {kd : Kind} (f : Facet) {ps : List (Node × Node)}
    {s x y : f.Ty}
    (hx : forPairs (fun k v x => facetStep X kd k v f x) ps (look f (DT.new kd)) = .ok x)
    (hy : forPairs (fun k v x => facetStep X kd k v f x) ps s = .ok y) :
    y = mergedFacet f (decide (ps ≠ [])) s x := by
  have hrep : (∀ k v a b, facetStep X kd k v f a = facetStep X kd k v f b) →
      y = if ps = [] then s else x := fun h =>
    merge_replaced (fun k v => facetStep X kd k v f s) (fun k v a => h k v a s) hx hy
  have hends : ∀ a b : f.Ty, (if ps = [] then a else b) =
      match decide (ps ≠ []) with | true => b | false => a := by
    intro a b; by_cases h : ps = [] <;> simp [h]
  cases f with
  | enum =>
    have h0 : enum (DT.new kd) = none := by cases kd <;> rfl
    exact merge_enum (by rw [← h0]; exact hx) hy
  | examples =>
    have h0 : examplesMap (DT.new kd) = OM.empty false := by cases kd <;> rfl
    exact (puts_examples X kd).merge (b := false) (by rw [← h0]; exact hx) hy
  | facets =>
    have h0 : facets (DT.new kd) = OM.empty true := by cases kd <;> rfl
    exact (puts_facets X).merge (b := true) (by rw [← h0]; exact hx) hy
  | annotations =>
    have h0 : annotationMap (DT.new kd) = OM.empty true := by cases kd <;> rfl
    exact (Puts.put_entry fun _ v => loadAnn v).merge (b := true) (by rw [← h0]; exact hx) hy
  | extra =>
    have h0 : (DT.new kd).extra = OM.empty true := by cases kd <;> rfl
    exact (puts_type_extra kd).merge (b := true) (by rw [← h0]; exact hx) hy
  | properties =>
    have h0 : properties (DT.new kd) = OM.empty false := by cases kd <;> rfl
    exact (puts_props X).merge (b := false) (by rw [← h0]; exact hx) hy
  | _ =>
    rw [hrep fun k v a b => rfl]
    by_cases h : ps = [] <;> simp [h, mergedFacet]

/-- C77: loading a mapping into a type in use changes neither its kind nor its default, and every
facet becomes the merge of what it was with what the mapping says. -/
theorem C77_type_merge (X : Xyml) (ps : List (Node × Node)) (t t' new : DT)
    (h : t.unmarshal X (.map ps) = .ok t')
    (hn : (DT.new t.kind).unmarshal X (.map ps) = .ok new) :
    t'.kind = t.kind ∧ dflt t' = dflt t ∧ ∀ f, look f t' =
      mergedFacet f (ps.any fun p => facetOf t.kind p = f) (look f t) (look f new) := by
  have h : assignAll X ps t = .ok t' := h
  have hn : assignAll X ps (DT.new t.kind) = .ok new := hn
  refine ⟨assignAll_kind h, assignAll_dflt h, fun f => ?_⟩
  have h1 := facet_merge f (dt_part f ps _ _ (kind_new _) hn) (dt_part f ps _ _ rfl h)
  rw [h1]
  congr 1
  rw [Bool.eq_iff_iff]
  simp [List.filter_eq_nil_iff]

/-- C77: loading a text replaces the type expression and nothing else, not even the kind. -/
theorem C77_type_text (X : Xyml) (s : String) (t : DT) :
    ∃ t', t.unmarshal X (.str s) = .ok t' ∧ t'.type = s ∧ t'.kind = t.kind ∧ dflt t' = dflt t ∧
      ∀ f, f ≠ .type → look f t' = look f t := by
  refine ⟨t.setSchema s, rfl, ?_, ?_, ?_, fun f hf => setSchema_look hf s t⟩ <;> cases t <;> rfl

/-- C77: other nodes are rejected: sequences, and scalars that are no strings, also `!include`
ones, which the parser accepts. -/
theorem C77_type_rejected (X : Xyml) (v : Node) (t : DT) (h1 : v.isStr = false)
    (h2 : isMap v = false) :
    t.unmarshal X v = .err (if isSeq v then .multiType else .badTypeDef) := by
  cases v with
  | seq a b => rfl
  | scalar a b => simp [DT.unmarshal, h1, isSeq]
  | map ps => cases h2

/-- C77: reading a mapping is making a new type of the kind the mapping denotes and loading the
mapping into it. -/
theorem C77_parse (X : Xyml) (ps : List (Node × Node)) (t : DT) :
    hat X (.map ps) = .ok t ↔
      kindOf ps = some t.kind ∧ (DT.new t.kind).unmarshal X (.map ps) = .ok t := by
  have key : ∀ t0 u : DT, siftType ps = .ok t0 → kindOf ps = some t0.kind →
      assignAll X ps t0 = .ok u → (DT.new t0.kind).unmarshal X (.map ps) = .ok u := by
    intro t0 u h0 hk h1
    have he := C77_ends X (.map ps) t0
    obtain ⟨n, hn⟩ := ended_ok he (show t0.unmarshal X (.map ps) = .ok u from h1)
    obtain ⟨k1, d1, m1⟩ := C77_type_merge X ps t0 u n h1 hn
    have hn' : (DT.new (DT.new t0.kind).kind).unmarshal X (.map ps) = .ok n := by
      rw [kind_new]; exact hn
    obtain ⟨k2, d2, m2⟩ := C77_type_merge X ps (DT.new t0.kind) n n hn hn'
    obtain ⟨s, hs⟩ := siftType_form h0
    rw [hn, Res.ok.injEq]
    refine eq_of_look (by rw [k1, k2, kind_new]) ?_ fun f => ?_
    · rw [d1, d2, hs]; generalize t0.kind = kd; cases kd <;> rfl
    · have m3 := m2 f
      rw [kind_new] at m3
      rw [m1]
      by_cases hf : f = .type
      · subst hf
        cases hfind : ps.find? isTypeEntry with
        | none =>
          have : t0 = DT.new t0.kind := by
            have h0' := h0
            rw [(siftType_spec ps).2 hfind] at h0'
            cases h0'
            rw [kind_new]
          rw [← this] at m3
          exact m3
        | some e =>
          have : (ps.any fun p => decide (facetOf t0.kind p = .type)) = true := by
            rw [List.any_eq_true]
            exact ⟨e, List.mem_of_find?_eq_some hfind, by
              simpa using facetOf_type (List.find?_some hfind)⟩
          rw [this]
          rfl
      · have : look f t0 = look f (DT.new t0.kind) := by
          conv_lhs => rw [hs]
          exact setSchema_look hf _ _
        rw [this]
        exact m3
  constructor
  · intro h
    obtain ⟨t0, h0, hk, _, h1, ht⟩ := hat_map_ok h
    rw [ht]
    exact ⟨hk, key t0 t h0 hk h1⟩
  · rintro ⟨hk, h⟩
    have hsift : ∃ t0, siftType ps = .ok t0 ∧ t0.kind = t.kind := by
      unfold kindOf at hk
      cases hfind : ps.find? isTypeEntry with
      | none =>
        rw [hfind] at hk
        exact ⟨_, (siftType_spec ps).2 hfind, by rw [kind_new]; exact Option.some.inj hk⟩
      | some e =>
        rw [hfind] at hk
        dsimp only at hk
        split at hk
        · rename_i hstr
          refine ⟨typeToKind e.2.value, ?_, ?_⟩
          · rw [(siftType_spec ps).1 e hfind, if_pos hstr]
          · rw [(typeToKind_spec e.2.value).1]; exact Option.some.inj hk
        · cases hk
    obtain ⟨t0, h0, hk0⟩ := hsift
    have he := assignAll_ended X ps (s := t0) (t := DT.new t.kind) (by rw [kind_new, hk0])
    obtain ⟨u, hu⟩ := ended_ok he.symm (show assignAll X ps (DT.new t.kind) = .ok t from h)
    have := key t0 u h0 (by rw [hk0]; exact hk) hu
    rw [hk0, h, Res.ok.injEq] at this
    unfold hat
    rw [h0, Res.bind_ok, hu, this]

/-- C77: loading two mappings one after the other is loading all their entries at once. -/
theorem C77_type_split (X : Xyml) (ps qs : List (Node × Node)) (t : DT) :
    t.unmarshal X (.map (ps ++ qs)) =
      (t.unmarshal X (.map ps)).bind fun u => u.unmarshal X (.map qs) :=
  assignAll_append X ps qs t

private theorem any_append_one {q : Node × Node → Bool} (ps : List (Node × Node)) (p : Node × Node) :
    (ps ++ [p]).any q = (ps.any q || q p) := by simp

set_option linter.unusedSimpArgs false in
/-- C77: loading into an example in use ends exactly as reading into a new one, and if it is
accepted the result is the merge. -/
theorem C77_example_merge (X : Xyml) (v : Node) (e : Example) :
    e.unmarshal X v =
      ((Example.new e.kind).unmarshal X v).map (mergedExample (mapEntries v) e) := by
  have hval : ∀ v, isMap v = false → e.unmarshal X v =
      ((Example.new e.kind).unmarshal X v).map (mergedExample [] e) := by
    intro v hv
    have hm : ∀ x, mergedExample [] e { Example.new e.kind with value := some x } =
        { e with value := some x } := by
      intro x
      simp [mergedExample, Example.new, mergedMap_empty]
    cases v with
    | map ps => cases hv
    | seq a b =>
      simp only [Example.unmarshal, Example.new]
      cases exampleVal X e.kind (.seq a b) <;> simp only [Res.map_ok, Res.map_err, Res.map_panic]
      exact congrArg Res.ok (hm _).symm
    | scalar a b =>
      simp only [Example.unmarshal, Example.new]
      cases exampleVal X e.kind (.scalar a b) <;> simp only [Res.map_ok, Res.map_err, Res.map_panic]
      exact congrArg Res.ok (hm _).symm
  cases v with
  | seq a b => exact hval _ rfl
  | scalar a b => exact hval _ rfl
  | map ps =>
    refine forPairs_merge (merge := mergedExample) (I := fun n => n.kind = e.kind)
      (by simp [mergedExample, Example.new, mergedMap_empty]) rfl ?_ ?_ ps
    · intro k v n n' hn h
      rw [← hn]
      unfold Example.assign Example.putExtra at h
      repeat' split at h
      all_goals first
        | cases h
        | (obtain ⟨x, _, rfl⟩ := Res.map_eq_ok.mp h; rfl)
    · intro ps k v n hn
      have hk : (mergedExample ps e n).kind = e.kind := rfl
      unfold Example.assign Example.putExtra
      rw [hk, hn]
      split
      · rename_i hs
        have hs : k.isStr = false := by simpa using hs
        rw [Res.map_map]
        congr 1
        funext x
        simp only [mergedExample, any_append_one, hs, mergedMap_put, Bool.false_and, Bool.and_false,
          Bool.or_false, Bool.true_and, String.reduceBEq, beq_self_eq_true, Bool.or_true, if_true,
          Option.some_or, Bool.and_true]
      · rename_i hs
        have hs : k.isStr = true := by simpa using hs
        split
        · rfl
        · rename_i c hc
          split
          · rename_i hc'
            have hns : (k.value == "strict") = false := by
              rw [beq_eq_false_iff_ne]
              rintro h
              rw [h] at hc
              cases hc
              exact absurd hc' (by decide)
            rw [Res.map_map]
            congr 1
            funext x
            simp only [mergedExample, any_append_one, hns, mergedMap_put, Bool.false_and, Bool.and_false,
              Bool.or_false, Bool.true_and, String.reduceBEq, beq_self_eq_true, Bool.or_true, if_true,
              Option.some_or, Bool.and_true]
          · split
            · rename_i hv
              rw [Res.map_map]; congr 1; funext x
              simp only [mergedExample, any_append_one, hv, Bool.false_and, Bool.and_false,
                Bool.or_false, Bool.true_and, String.reduceBEq, beq_self_eq_true, Bool.or_true, if_true,
                Option.some_or, Bool.and_true]
            · split
              · rename_i hv
                rw [Res.map_map]; congr 1; funext x
                simp only [mergedExample, any_append_one, hv, Bool.false_and, Bool.and_false,
                  Bool.or_false, Bool.true_and, String.reduceBEq, beq_self_eq_true, Bool.or_true, if_true,
                  Option.some_or, Bool.and_true]
              · split
                · rename_i hv
                  rw [Res.map_map]; congr 1; funext x
                  simp only [mergedExample, any_append_one, hv, hs, Bool.false_and, Bool.and_false,
                    Bool.or_false, Bool.true_and, String.reduceBEq, beq_self_eq_true, Bool.or_true, if_true,
                    Option.some_or, Bool.and_true]
                · split
                  · rename_i hv
                    rw [Res.map_map]; congr 1; funext x
                    simp only [mergedExample, any_append_one, hv, Bool.false_and, Bool.and_false,
                      Bool.or_false, Bool.true_and, String.reduceBEq, beq_self_eq_true, Bool.or_true, if_true,
                      Option.some_or, Bool.and_true]
                  · rename_i hv _
                    have hv : (k.value == "strict") = false := by simpa using hv
                    rw [Res.map_map]; congr 1; funext x
                    simp only [mergedExample, any_append_one, hv, mergedMap_put, Bool.false_and, Bool.and_false,
                      Bool.or_false, Bool.true_and, String.reduceBEq, beq_self_eq_true, Bool.or_true, if_true,
                      Option.some_or, Bool.and_true]

/-- C77: the same for XML settings. -/
theorem C77_xml_merge (X : Xyml) (v : Node) (x : XML) :
    x.unmarshal X v = (loadXML X v).map (mergedXML x) := by
  cases v with
  | seq a b => rfl
  | scalar a b => rfl
  | map ps =>
    refine forPairs_merge (merge := fun _ => mergedXML) (I := fun _ => True)
      (by simp [mergedXML, XML.new, mergedMap_empty]) trivial (fun _ _ _ _ _ _ => trivial) ?_ ps
    intro ps k v n _
    unfold XML.assign
    repeat' split
    · rw [Res.map_map]; congr 1
    · rw [Res.map_map]; congr 1
    · rw [Res.map_map]; congr 1
    · rw [Res.map_map]; congr 1
    · rw [Res.map_map]; congr 1
    · rw [Res.map_map]; congr 1; funext y
      simp [mergedXML, mergedMap_put]

/-- C77: the same for documentation entries. -/
theorem C77_documentation_merge (X : Xyml) (v : Node) (d : Documentation) :
    d.unmarshal X v = (loadDocumentation X v).map (mergedDocumentation (mapEntries v) d) := by
  cases v with
  | seq a b => rfl
  | scalar a b => rfl
  | map ps =>
    refine forPairs_merge (merge := mergedDocumentation) (I := fun _ => True)
      (by simp [mergedDocumentation, Documentation.new, mergedMap_empty]) trivial
      (fun _ _ _ _ _ _ => trivial) ?_ ps
    intro ps k v n _
    unfold Documentation.assign
    split
    · rename_i h
      simp only [mergedDocumentation, any_append_one, h, Res.map_ok, beq_self_eq_true, Bool.or_true,
        if_true, String.reduceBEq, Bool.or_false]
    · split
      · rename_i h
        simp only [mergedDocumentation, any_append_one, h, Res.map_ok, beq_self_eq_true,
          Bool.or_true, if_true, String.reduceBEq, Bool.or_false]
      · rename_i h1 h2
        have h1 : (k.value == "title") = false := by simpa using h1
        have h2 : (k.value == "content") = false := by simpa using h2
        rw [Res.map_map]; congr 1; funext y
        simp only [mergedDocumentation, any_append_one, h1, h2, Bool.or_false, mergedMap_put]

/-! ### Concrete cases -/

/-- A string type in use, as the parser makes it. -/
def usedType : List (Node × Node) :=
  [(.str "type", .str "string"), (.str "description", .str "old"), (.str "pattern", .str "a*"),
   (.str "enum", .seq seqTag [.str "a"]), (.str "(note)", .map []),
   (.str "x", .str "one"), (.str "y", .str "two"),
   (.str "examples", .map [(.str "e", .str "a"), (.str "f", .str "b")])]

/-- A definition to load into it. -/
def moreType : List (Node × Node) :=
  [(.str "description", .str "new"), (.str "enum", .seq seqTag [.str "b", .str "c"]),
   (.str "x", .str "three"), (.str "examples", .map [(.str "e", .str "c")]),
   (.str "schema", .str "integer")]

/-- Loading it is accepted, so the hypotheses of `C77_type_merge` are met. -/
example : ∃ t t' new, hat Xyml.std (.map usedType) = .ok t ∧
    t.unmarshal Xyml.std (.map moreType) = .ok t' ∧
    (DT.new t.kind).unmarshal Xyml.std (.map moreType) = .ok new ∧ t.kind = .string := by
  obtain ⟨t, ht⟩ : ∃ t, hat Xyml.std (.map usedType) = .ok t :=
    Res.isOk_iff.mp (by decide +kernel)
  have hk : t.kind = .string := by
    obtain ⟨t0, _, hk, _, _, h⟩ := hat_map_ok ht
    rw [h]
    exact (Option.some.inj ((by decide +kernel : kindOf usedType = some .string).symm.trans hk)).symm
  obtain ⟨n, hn⟩ : ∃ n, (DT.new .string).unmarshal Xyml.std (.map moreType) = .ok n :=
    Res.isOk_iff.mp (by decide +kernel)
  have he := C77_ends Xyml.std (.map moreType) t
  rw [hk] at he
  obtain ⟨t', ht'⟩ := ended_ok he.symm hn
  exact ⟨t, t', n, ht, ht', by rw [hk]; exact hn, hk⟩

/-- What was given replaces or adds, the rest stays; the kind stays a string type although the
type expression now names another. -/
example : ((hat Xyml.std (.map usedType)).bind fun t =>
      (t.unmarshal Xyml.std (.map moreType)).map fun r =>
        (r.kind, r.type, description r, pattern r, (annotations r).map (·.1))) =
    .ok (.string, "integer", some "new", some "a*", ["(note)"]) := by
  decide +kernel

example : ((hat Xyml.std (.map usedType)).bind fun t =>
      (t.unmarshal Xyml.std (.map moreType)).map fun r =>
        (r.extra.ents.map fun (p : Scalar × Node) => (p.1, p.2.value),
         (examples r).map (·.1),
         ((enum r).getD []).map fun (x : Val) => match x with | .str s => s | _ => "?")) =
    .ok ([(.str "y", "two"), (.str "x", "three")], ["f", "e"], ["a", "b", "c"]) := by
  decide +kernel

/-- A text replaces the type expression; an `!include` is rejected here though the parser takes
it. -/
example : ((DT.new .object).unmarshal Xyml.std (.str "integer")).map (fun t => (t.kind, t.type)) =
    .ok (.object, "integer") := by
  decide +kernel

example : ended ((DT.new .object).unmarshal Xyml.std (.scalar "!include" "t.raml")) =
      .err .badTypeDef ∧
    (hat Xyml.std (.scalar "!include" "t.raml")).map (·.kind) = .ok .include := by
  decide +kernel

/-- An example in use keeps its display name, its value is replaced. -/
example : (((Example.new .string).unmarshal Xyml.std (.map [(.str "value", .str "a"),
      (.str "displayName", .str "d"), (.str "strict", .scalar "!!bool" "false")])).bind fun e =>
      (e.unmarshal Xyml.std (.str "b")).map fun r =>
        (r.displayName, r.strict, match r.value with | some (.str s) => s | _ => "?")) =
    .ok (some "d", false, "b") := by
  decide +kernel

/-- XML settings and documentation entries in use. -/
example : ((loadXML Xyml.std (.map [(.str "name", .str "n"), (.str "prefix", .str "p")])).bind
      fun x => (x.unmarshal Xyml.std (.map [(.str "name", .str "m"), (.str "z", .str "q")])).map
        fun r => (r.name, r.pref, r.ns, r.extra.keys)) =
    .ok (some "m", some "p", none, [.str "z"]) := by
  decide +kernel

example : ((loadDocumentation Xyml.std (.map [(.str "title", .str "t"),
      (.str "content", .str "c")])).bind fun d =>
      (d.unmarshal Xyml.std (.map [(.str "content", .str "new")])).map fun r =>
        (r.title, r.content)) = .ok ("t", "new") := by
  decide +kernel

end Verif.Props
