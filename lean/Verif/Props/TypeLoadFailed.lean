import Verif.Props.TypeLoad
import Verif.Props.LoadFailed

/-! # C78: what a failed load of a definition leaves behind -/

namespace Verif.Props
open Verif Verif.Doc Verif.Doc.Spec

/-! ### Data types -/

/-- Entries of a type definition that are read entry by entry from a mapping. -/
def typeIsDict (kd : Kind) (k : Node) : Bool :=
  (!isBasic kd && (k.value == "facets" || k.value == "examples")) ||
    (kd == .object && k.value == "properties")

/-- Entries of a type definition that are read item by item from a sequence. -/
def typeIsList (kd : Kind) (k : Node) : Bool := !isBasic kd && k.value == "enum"

theorem fails_list {α : Type} (r : Node → Res α) (push : α → Option (List α) → Option (List α)) :
    Fails false true
      (fun v l => liveSeq (fun n l => store (r n) (fun l x => push x l) l) v l)
      (fun v l => seqForEach (fun n l => (r n).map fun x => push x l) v l) := by
  have ho : ∀ n l, outcome (store (r n) (fun (l : Option (List α)) x => push x l) l) =
      (r n).map fun x => push x l := fun n l => outcome_store _ _ _
  intro v m m' q hL hq
  cases v with
  | map ns => exact .inr (.inr ⟨⟨nofun, fun _ => rfl⟩, (Prod.mk.inj hL).1.symm⟩)
  | scalar a b => exact .inr (.inr ⟨⟨nofun, fun _ => rfl⟩, (Prod.mk.inj hL).1.symm⟩)
  | seq t ns =>
    obtain ⟨pre, p, post, s1, rfl, h1, h2⟩ := items_failed ho hL hq
    have h3 := store_failed h2 hq
    subst h3
    refine .inr (.inl ⟨t, pre, p, post, rfl, rfl, h1, ?_⟩)
    show ended (forItems _ (pre ++ [p]) m) = q
    rw [forItems_append, h1, Res.bind_ok]
    have : forItems (fun n l => (r n).map fun x => push x l) [p] m' =
      (r p).map fun x => push x m' := Res.bind_ok_right _
    rw [this, ← ho, ended_outcome, h2]

theorem fails_examples (X : Xyml) (kd : Kind) :
    Fails true false (liveExamples X kd) (fun v m => loadExamples X kd m v) :=
  fails_dict _ (fun m _ (e : String × Example) => m.put e.1 e.2) _
    (fun k v m => by cases asString k <;> cases (Example.new kd).unmarshal X v <;> rfl)

theorem prop_step (X : Xyml) (k v : Node) (m : OM String DT) :
    (((asString k).bind fun s => (hat X v).bind fun t =>
      if t.isProperty then (.ok (s, t) : Res (String × DT)) else .panic .notProperty).map
        fun e => m.put e.1 e.2) = loadProp X (k, v) m := by
  unfold loadProp
  cases asString k with
  | ok s =>
    cases hat X v with
    | ok t => simp only [Res.bind_ok]; split <;> rfl
    | err e => rfl
    | panic c => rfl
  | err e => rfl
  | panic c => rfl

theorem facet_step (X : Xyml) (k v : Node) (m : OM String (OM String DT)) :
    (((asString k).bind fun s => (loadTypes X v (OM.empty true)).map fun f => (s, f)).map
      fun e => m.put e.1 e.2) = loadFacet X (k, v) m := by
  unfold loadFacet
  cases asString k <;> cases loadTypes X v (OM.empty true) <;> rfl

theorem fails_props (X : Xyml) : Fails true false (liveProps X) (loadProps X) := by
  have : loadProps X = fun v m => mapForEach (fun k v m => loadProp X (k, v) m) v m := by
    funext v m; exact loadProps_eq X v m
  rw [this]
  exact fails_dict _ (fun m _ (e : String × DT) => m.put e.1 e.2) _ (prop_step X)

theorem fails_facets (X : Xyml) : Fails true false (liveFacets X) (loadFacets X) := by
  have : loadFacets X = fun v m => mapForEach (fun k v m => loadFacet X (k, v) m) v m := by
    funext v m; exact loadFacets_eq X v m
  rw [this]
  exact fails_dict _ (fun m _ (e : String × OM String DT) => m.put e.1 e.2) _ (facet_step X)

theorem outcome_examples (X : Xyml) (kd : Kind) (v : Node) (m : OM String Example) :
    outcome (liveExamples X kd v m) = loadExamples X kd m v :=
  outcome_map (fun k v m => (outcome_store _ _ _).trans
    (by cases asString k <;> cases (Example.new kd).unmarshal X v <;> rfl)) v m

theorem outcome_props (X : Xyml) (v : Node) (m : OM String DT) :
    outcome (liveProps X v m) = loadProps X v m := by
  rw [loadProps_eq]
  exact outcome_map (fun k v m => (outcome_store _ _ _).trans (prop_step X k v m)) v m

theorem outcome_facets (X : Xyml) (v : Node) (m : OM String (OM String DT)) :
    outcome (liveFacets X v m) = loadFacets X v m := by
  rw [loadFacets_eq]
  exact outcome_map (fun k v m => (outcome_store _ _ _).trans (facet_step X k v m)) v m

theorem outcome_enum (X : Xyml) (kd : Kind) (v : Node) (l : Option (List Val)) :
    outcome (liveEnum X kd v l) = loadEnum X kd l v :=
  outcome_seq (fun _ _ => outcome_store _ _ _) v l

theorem dt_live_outcome (X : Xyml) (k v : Node) (t : DT) :
    outcome (t.liveAssign X k v) = assign X (k, v) t := by
  rcases t with ⟨i, s, x⟩ | ⟨h, b, fs, ps, it⟩
  · simp only [DT.liveAssign, assign]
    exact outcome_store _ _ _
  · simp only [DT.liveAssign, assign]
    by_cases h1 : k.value = "facets"
    · simp only [h1, if_true, outcome_within, outcome_facets]
    · by_cases h2 : k.value = "properties" ∧ b.isObject = true
      · rw [if_neg h1, if_neg h1, if_pos h2, if_pos h2, outcome_within, outcome_props]
      · by_cases h3 : k.value = "items" ∧ b.isArray = true
        · rw [if_neg h1, if_neg h1, if_neg h2, if_neg h2, if_pos h3, if_pos h3]
          exact outcome_store _ _ _
        · rw [if_neg h1, if_neg h1, if_neg h2, if_neg h2, if_neg h3, if_neg h3]
          by_cases h4 : k.value = "examples"
          · rw [if_pos h4, outcome_within, outcome_examples]
            simp only [assignFlat, Hdr.assignCommon, h4, String.reduceEq, if_false, if_true]
            cases loadExamples X b.kind h.examples v <;> rfl
          · rw [if_neg h4]
            by_cases h5 : k.value = "enum"
            · rw [if_pos h5, outcome_within, outcome_enum]
              simp only [assignFlat, Hdr.assignCommon, h5, String.reduceEq, if_false, if_true]
              cases loadEnum X b.kind h.enum v <;> rfl
            · rw [if_neg h5]
              exact outcome_store _ _ _

theorem body_not_basic (b : Body) : isBasic b.kind = false := by cases b <;> rfl

theorem isObject_kind (b : Body) : b.isObject = (b.kind == .object) := by cases b <;> rfl

/-- What one bad entry leaves. -/
theorem dt_live_failed (X : Xyml) (k v : Node) (t t' : DT) (q : Res Unit)
    (h : t.liveAssign X k v = (t', q)) (hq : q ≠ .ok ()) :
    (∃ inner e rest, typeIsDict t.kind k = true ∧ v = .map (inner ++ e :: rest) ∧
      assign X (k, .map inner) t = .ok t' ∧
      ended (assign X (k, .map (inner ++ [e])) t) = q) ∨
    (∃ tag inner e rest, typeIsList t.kind k = true ∧ v = .seq tag (inner ++ e :: rest) ∧
      assign X (k, .seq tag inner) t = .ok t' ∧
      ended (assign X (k, .seq tag (inner ++ [e])) t) = q) ∨
    (((typeIsDict t.kind k = true → isMap v = false) ∧
      (typeIsList t.kind k = true → isSeq v = false)) ∧ t' = t) := by
  rcases t with ⟨i, s, x⟩ | ⟨hd, b, fs, ps, it⟩
  · have hb : isBasic (DT.basic i s x).kind = true ∧ (DT.basic i s x).kind ≠ .object := by
      cases i <;> exact ⟨rfl, nofun⟩
    have h1 : typeIsDict (DT.basic i s x).kind k = false := by simp [typeIsDict, hb]
    have h2 : typeIsList (DT.basic i s x).kind k = false := by simp [typeIsList, hb]
    refine .inr (.inr ⟨⟨fun h => ?_, fun h => ?_⟩, ?_⟩)
    · rw [h1] at h; cases h
    · rw [h2] at h; cases h
    · unfold DT.liveAssign at h
      exact store_failed h hq
  · have hb := body_not_basic b
    have ho := isObject_kind b
    have hkd : (DT.ext hd b fs ps it).kind = b.kind := rfl
    rw [hkd]
    -- the four parts that are filled in place
    have dict : ∀ {τ : Type} (L : Node → τ → Live τ) (G : Node → τ → Res τ) (m : τ)
        (set : τ → DT), Fails true false L G →
        (∀ w, DT.liveAssign X k w (.ext hd b fs ps it) = (L w m).within set) →
        (∀ w, assign X (k, w) (.ext hd b fs ps it) = (G w m).map set) →
        set m = .ext hd b fs ps it → typeIsDict b.kind k = true → typeIsList b.kind k = false →
        (∃ inner e rest, typeIsDict b.kind k = true ∧ v = .map (inner ++ e :: rest) ∧
          assign X (k, .map inner) (.ext hd b fs ps it) = .ok t' ∧
          ended (assign X (k, .map (inner ++ [e])) (.ext hd b fs ps it)) = q) ∨
        (∃ tag inner e rest, typeIsList b.kind k = true ∧ v = .seq tag (inner ++ e :: rest) ∧
          assign X (k, .seq tag inner) (.ext hd b fs ps it) = .ok t' ∧
          ended (assign X (k, .seq tag (inner ++ [e])) (.ext hd b fs ps it)) = q) ∨
        (((typeIsDict b.kind k = true → isMap v = false) ∧
          (typeIsList b.kind k = true → isSeq v = false)) ∧ t' = .ext hd b fs ps it) := by
      intro τ L G m set hF hL hG hm hd1 hd2
      rw [hL] at h
      rcases hl : L v m with ⟨m', r⟩
      rw [hl] at h
      obtain ⟨rfl, rfl⟩ := Prod.mk.inj h
      rcases hF v m m' _ hl hq with ⟨inner, e, rest, _, rfl, g1, g2⟩ | ⟨_, _, _, _, hn, _⟩ |
        ⟨h1, rfl⟩
      · exact .inl ⟨inner, e, rest, hd1, rfl, by rw [hG, g1]; rfl, by rw [hG, ended_map]; exact g2⟩
      · cases hn
      · exact .inr (.inr ⟨⟨fun _ => h1.1 rfl, fun h => absurd h (by simp [hd2])⟩, hm⟩)
    by_cases h1 : k.value = "facets"
    · exact dict (liveFacets X) (loadFacets X) fs (fun x => .ext hd b x ps it) (fails_facets X)
        (fun w => by simp [DT.liveAssign, h1]) (fun w => by simp [assign, h1]) rfl
        (by simp [typeIsDict, h1, hb]) (by simp [typeIsList, h1])
    · by_cases h2 : k.value = "properties" ∧ b.isObject = true
      · have hk : b.kind = .object := by rw [ho] at h2; simpa using h2.2
        exact dict (liveProps X) (loadProps X) ps (fun x => .ext hd b fs x it) (fails_props X)
          (fun w => by simp [DT.liveAssign, h2]) (fun w => by simp [assign, h2]) rfl
          (by simp [typeIsDict, h2, hk]) (by simp [typeIsList, h2])
      · by_cases h3 : k.value = "examples"
        · exact dict (liveExamples X b.kind) (fun v m => loadExamples X b.kind m v) hd.examples
            (fun x => .ext { hd with examples := x } b fs ps it) (fails_examples X _)
            (fun w => by simp [DT.liveAssign, h3])
            (fun w => by
              simp only [assign, h3, assignFlat, Hdr.assignCommon, String.reduceEq, if_false,
                if_true, false_and]
              cases loadExamples X b.kind hd.examples w <;> rfl) rfl
            (by simp [typeIsDict, h3, hb]) (by simp [typeIsList, h3])
        · have hnd : typeIsDict b.kind k = false := by
            have h2' : ¬ (k.value = "properties" ∧ b.kind = .object) := by
              rw [ho] at h2; simpa using h2
            simp only [typeIsDict, hb, Bool.not_false, Bool.true_and, Bool.or_eq_false_iff,
              beq_eq_false_iff_ne, Bool.and_eq_false_iff]
            refine ⟨⟨h1, h3⟩, ?_⟩
            by_cases hk : b.kind = .object
            · exact .inr fun h => h2' ⟨h, hk⟩
            · exact .inl hk
          by_cases h4 : k.value = "enum"
          · have hL : ∀ w, DT.liveAssign X k w (.ext hd b fs ps it) =
                (liveEnum X b.kind w hd.enum).within
                  fun l => .ext { hd with enum := l } b fs ps it :=
              fun w => by simp [DT.liveAssign, h4]
            have hG : ∀ w, assign X (k, w) (.ext hd b fs ps it) =
                (loadEnum X b.kind hd.enum w).map
                  fun l => .ext { hd with enum := l } b fs ps it := by
              intro w
              simp only [assign, h4, assignFlat, Hdr.assignCommon, String.reduceEq, if_false,
                if_true, false_and]
              cases loadEnum X b.kind hd.enum w <;> rfl
            have hF : Fails false true (liveEnum X b.kind) (fun v l => loadEnum X b.kind l v) :=
              fails_list (enumVal X b.kind) pushEnum
            have hd1 : typeIsList b.kind k = true := by simp [typeIsList, h4, hb]
            rw [hL] at h
            rcases hl : liveEnum X b.kind v hd.enum with ⟨m', r⟩
            rw [hl] at h
            obtain ⟨rfl, rfl⟩ := Prod.mk.inj h
            rcases hF v _ m' _ hl hq with ⟨_, _, _, hn, _⟩ |
              ⟨tag, inner, e, rest, _, rfl, g1, g2⟩ | ⟨g, rfl⟩
            · cases hn
            · exact .inr (.inl ⟨tag, inner, e, rest, hd1, rfl, (hG _).trans (congrArg (Res.map _) g1),
                by rw [hG, ended_map]; exact g2⟩)
            · exact .inr (.inr ⟨⟨fun h => absurd h (by simp [hnd]), fun _ => g.2 rfl⟩, rfl⟩)
          · have hnl : typeIsList b.kind k = false := by simp [typeIsList, h4]
            refine .inr (.inr ⟨⟨fun h => absurd h (by simp [hnd]),
              fun h => absurd h (by simp [hnl])⟩, ?_⟩)
            unfold DT.liveAssign at h
            simp only [h1, h2, h3, h4, if_false] at h
            split at h
            · exact store_failed h hq
            · exact store_failed h hq

/-- C78: the model with states agrees with the model without. -/
theorem C78_type_refines (X : Xyml) (v : Node) (t : DT) :
    outcome (t.load X v) = t.unmarshal X v := by
  unfold DT.load DT.unmarshal
  split
  · rfl
  · cases v with
    | seq a b => rfl
    | scalar a b => rfl
    | map ps =>
      dsimp only
      rw [assignAll_eq]
      exact outcome_pairs (dt_live_outcome X) ps t

/-- C78: a load of a mapping into a data type that fails — error or panic — leaves exactly what
loading the mapping up to the first bad place would have left, and it is that place that is
bad. -/
theorem C78_type_failed_load (X : Xyml) (ps : List (Node × Node)) (t t' : DT) (q : Res Unit)
    (h : t.load X (.map ps) = (t', q)) (hq : q ≠ .ok ()) :
    ∃ pre k v post kept bad, ps = pre ++ (k, v) :: post ∧
      Cut (typeIsDict t.kind k) (typeIsList t.kind k) k v kept bad ∧
      t.unmarshal X (.map (pre ++ kept)) = .ok t' ∧
      ended (t.unmarshal X (.map (pre ++ bad))) = q := by
  obtain ⟨pre, ⟨k, v⟩, post, t1, rfl, h1, h2⟩ := pairs_failed (dt_live_outcome X) h hq
  have h1' : assignAll X pre t = .ok t1 := by rw [assignAll_eq]; exact h1
  have hk : t1.kind = t.kind := assignAll_kind h1'
  have hun : ∀ qs, t.unmarshal X (.map (pre ++ qs)) = assignAll X qs t1 := by
    intro qs
    show assignAll X (pre ++ qs) t = _
    rw [assignAll_append, h1', Res.bind_ok]
  have hone : ∀ w, t.unmarshal X (.map (pre ++ [(k, w)])) = assign X (k, w) t1 := by
    intro w
    rw [hun]
    simp only [assignAll]
    exact Res.bind_ok_right _
  rcases dt_live_failed X k v t1 t' q h2 hq with ⟨inner, e, rest, hd, rfl, g1, g2⟩ |
    ⟨tag, inner, e, rest, hd, rfl, g1, g2⟩ | ⟨hd, rfl⟩
  · rw [hk] at hd
    exact ⟨pre, k, _, post, _, _, rfl, .inl ⟨inner, e, rest, hd, rfl, rfl, rfl⟩,
      by rw [hone]; exact g1, by rw [hone]; exact g2⟩
  · rw [hk] at hd
    exact ⟨pre, k, _, post, _, _, rfl, .inr (.inl ⟨tag, inner, e, rest, hd, rfl, rfl, rfl⟩),
      by rw [hone]; exact g1, by rw [hone]; exact g2⟩
  · rw [hk] at hd
    refine ⟨pre, k, v, post, [], _, rfl, .inr (.inr ⟨hd, rfl, rfl⟩), ?_, ?_⟩
    · rw [hun]; simp [assignAll]
    · rw [hone, ← dt_live_outcome, ended_outcome]
      exact congrArg Prod.snd h2

/-- C78: what is no mapping and is rejected leaves the type as it was. -/
theorem C78_type_other_node (X : Xyml) (v : Node) (t t' : DT) (q : Res Unit)
    (h : t.load X v = (t', q)) (hq : q ≠ .ok ()) (hv : isMap v = false) : t' = t := by
  unfold DT.load at h
  split at h
  · cases h; exact absurd rfl hq
  · cases v with
    | seq a b => cases h; rfl
    | scalar a b => cases h; rfl
    | map ps => cases hv

/-- C78: what follows the first bad entry has no influence at all. -/
theorem C78_type_rest_ignored (X : Xyml) (ps qs : List (Node × Node)) (t t' : DT) (q : Res Unit)
    (h : t.load X (.map ps) = (t', q)) (hq : q ≠ .ok ()) :
    t.load X (.map (ps ++ qs)) = (t', q) := pairs_stop h hq qs

private theorem live_entry (X : Xyml) (k v : Node) (t : DT) :
    (t.liveAssign X k v).1.kind = t.kind ∧ dflt (t.liveAssign X k v).1 = dflt t ∧
      ∀ f, f ≠ facetOf t.kind (k, v) → look f (t.liveAssign X k v).1 = look f t := by
  have hok : ∀ w t', facetOf t.kind (k, w) = facetOf t.kind (k, v) → assign X (k, w) t = .ok t' →
      t'.kind = t.kind ∧ dflt t' = dflt t ∧
        ∀ f, f ≠ facetOf t.kind (k, v) → look f t' = look f t := by
    intro w t' hf h
    exact ⟨assign_kind h, assign_dflt h, fun f hn => (assign_ok rfl h).2 f (by rw [hf]; exact hn)⟩
  rcases hl : t.liveAssign X k v with ⟨t', q⟩
  by_cases hq : q = .ok ()
  · subst hq
    have := dt_live_outcome X k v t
    rw [hl] at this
    exact hok v t' rfl this.symm
  · rcases dt_live_failed X k v t t' q hl hq with ⟨inner, e, rest, _, rfl, g1, _⟩ |
      ⟨tag, inner, e, rest, _, rfl, g1, _⟩ | ⟨_, rfl⟩
    · exact hok (.map inner) t' rfl g1
    · exact hok (.seq tag inner) t' rfl g1
    · exact ⟨rfl, rfl, fun _ _ => rfl⟩

/-- C78: no load, successful or not, changes the kind or the default of a type, nor a facet the
mapping does not mention. -/
theorem C78_type_untouched (X : Xyml) (ps : List (Node × Node)) (t : DT) :
    (t.load X (.map ps)).1.kind = t.kind ∧ dflt (t.load X (.map ps)).1 = dflt t ∧
      ∀ f, (∀ p ∈ ps, facetOf t.kind p ≠ f) → look f (t.load X (.map ps)).1 = look f t := by
  show (livePairs (DT.liveAssign X) ps t).1.kind = t.kind ∧
    dflt (livePairs (DT.liveAssign X) ps t).1 = dflt t ∧ ∀ f, (∀ p ∈ ps, facetOf t.kind p ≠ f) →
      look f (livePairs (DT.liveAssign X) ps t).1 = look f t
  induction ps generalizing t with
  | nil => exact ⟨rfl, rfl, fun _ _ => rfl⟩
  | cons p ps ih =>
    obtain ⟨e1, e2, e3⟩ := live_entry X p.1 p.2 t
    simp only [livePairs]
    rcases hl : t.liveAssign X p.1 p.2 with ⟨t1, r⟩
    rw [hl] at e1 e2 e3
    cases r with
    | ok u =>
      obtain ⟨i1, i2, i3⟩ := ih t1
      refine ⟨i1.trans e1, i2.trans e2, fun f hf => ?_⟩
      rw [i3 f (fun p' hp' => by rw [e1]; exact hf p' (by simp [hp']))]
      exact e3 f fun h => hf p (by simp) h.symm
    | err e => exact ⟨e1, e2, fun f hf => e3 f fun h => hf p (by simp) h.symm⟩
    | panic c => exact ⟨e1, e2, fun f hf => e3 f fun h => hf p (by simp) h.symm⟩

/-- C78: loading is not all-or-nothing: every data type can be changed by a load that fails. -/
theorem C78_type_atomic_false (X : Xyml) (t : DT) :
    ∃ ps t' q, t.load X (.map ps) = (t', q) ∧ q ≠ .ok () ∧ t' ≠ t := by
  have hT : ∀ (w : Node) (u : DT), u.liveAssign X (.str "type") w =
      store (asString w) (fun u s => u.setSchema s) u := by
    intro w u
    rcases u with ⟨i, s, x⟩ | ⟨h, b, fs, ps, it⟩
    · simp only [DT.liveAssign, assignBase, Node.str, Node.value, true_or, if_true]
      cases asString w <;> rfl
    · have hb : b.assign X "type" w = none := by cases b <;> rfl
      simp only [DT.liveAssign, Node.str, Node.value, String.reduceEq, if_false, false_and,
        assignFlat, Hdr.assignCommon, hb, Hdr.assignExt, Node.isStr, beq_self_eq_true, if_true]
      have ha : annIn "type" w h.annotations = .ok none := by rfl
      simp only [ha, Res.bind_ok, Hdr.assignBase, assignBase, Node.value, true_or, if_true]
      cases asString w <;> rfl
  refine ⟨[(.str "type", .str (t.type ++ "!")), (.str "type", .map [])],
    t.setSchema (t.type ++ "!"), .err .notString, ?_, nofun, ?_⟩
  · show livePairs (DT.liveAssign X) _ t = _
    simp only [livePairs, hT]
    rfl
  intro h
  have h2 : ∀ s, (t.setSchema s).type = s := by intro s; cases t <;> rfl
  have := congrArg DT.type h
  rw [h2] at this
  have := congrArg String.length this
  rw [String.length_append] at this
  exact absurd this (by simp [String.length])

/-! ### Examples -/

theorem example_val_outcome (X : Xyml) (v : Node) (e : Example) :
    outcome (e.liveVal X v) = (exampleVal X e.kind v).map fun x => { e with value := some x } := by
  unfold Example.liveVal
  split
  · rename_i h; rw [h]; exact outcome_store _ _ _
  · exact outcome_store _ _ _

theorem example_live_outcome (X : Xyml) (k v : Node) (e : Example) :
    outcome (e.liveAssign X k v) = e.assign X k v := by
  unfold Example.liveAssign
  split
  · rename_i h
    simp only [Bool.and_eq_true, beq_iff_eq] at h
    rw [example_val_outcome]
    have hc : firstChar "value" = some 'v' := rfl
    unfold Example.assign
    simp only [h.1, h.2, hc, Bool.not_true, Bool.false_eq_true, if_false, Char.reduceEq,
      String.reduceEq, if_true]
  · exact outcome_store_id _ _

/-- C78: the model with states agrees with the model without, for examples. -/
theorem C78_example_refines (X : Xyml) (v : Node) (e : Example) :
    outcome (e.load X v) = e.unmarshal X v := by
  cases v with
  | map ps => exact outcome_pairs (example_live_outcome X) ps e
  | seq a b => exact example_val_outcome X _ e
  | scalar a b => exact example_val_outcome X _ e

/-- What a value that is rejected leaves of an example: an array example loses its value, any
other is as it was. -/
def afterBadValue (e : Example) : Example :=
  if e.kind = .array then { e with value := some (.list []) } else e

theorem example_val_failed {X : Xyml} {v : Node} {e e' : Example} {q : Res Unit}
    (h : e.liveVal X v = (e', q)) (hq : q ≠ .ok ()) : e' = afterBadValue e := by
  unfold Example.liveVal at h
  unfold afterBadValue
  split at h
  · rename_i hk; rw [if_pos hk]; exact store_failed h hq
  · rename_i hk; rw [if_neg hk]; exact store_failed h hq

/-- C78: a value that is rejected. -/
theorem C78_example_bad_value (X : Xyml) (v : Node) (e e' : Example) (q : Res Unit)
    (h : e.load X v = (e', q)) (hq : q ≠ .ok ()) (hv : isMap v = false) : e' = afterBadValue e := by
  cases v with
  | map ps => cases hv
  | seq a b => exact example_val_failed h hq
  | scalar a b => exact example_val_failed h hq

/-- C78: a mapping that is rejected: everything before the first bad entry has been taken over,
and a bad value also erases the value of an array example. -/
theorem C78_example_failed_load (X : Xyml) (ps : List (Node × Node)) (e e' : Example)
    (q : Res Unit) (h : e.load X (.map ps) = (e', q)) (hq : q ≠ .ok ()) :
    ∃ pre k v post e1, ps = pre ++ (k, v) :: post ∧ e.unmarshal X (.map pre) = .ok e1 ∧
      ended (e.unmarshal X (.map (pre ++ [(k, v)]))) = q ∧
      e' = if k.isStr && k.value == "value" then afterBadValue e1 else e1 := by
  obtain ⟨pre, ⟨k, v⟩, post, e1, rfl, h1, h2⟩ := pairs_failed (example_live_outcome X) h hq
  refine ⟨pre, k, v, post, e1, rfl, h1, ?_, ?_⟩
  · show ended (forPairs (Example.assign X) (pre ++ [(k, v)]) e) = q
    rw [forPairs_append, h1, Res.bind_ok]
    have : forPairs (Example.assign X) [(k, v)] e1 = e1.assign X k v := Res.bind_ok_right _
    rw [this, ← example_live_outcome, ended_outcome]
    exact congrArg Prod.snd h2
  · have h2 : e1.liveAssign X k v = (e', q) := h2
    unfold Example.liveAssign at h2
    split at h2
    · rename_i hk; rw [if_pos hk]; exact example_val_failed h2 hq
    · rename_i hk; rw [if_neg hk]; exact store_failed h2 hq

/-- C78: what follows the first bad entry has no influence, for examples. -/
theorem C78_example_rest_ignored (X : Xyml) (ps qs : List (Node × Node)) (e e' : Example)
    (q : Res Unit) (h : e.load X (.map ps) = (e', q)) (hq : q ≠ .ok ()) :
    e.load X (.map (ps ++ qs)) = (e', q) := pairs_stop h hq qs

/-! ### XML settings and documentation entries -/

private theorem simple_failed {σ : Type} {f : Node → Node → σ → Res σ} {ps : List (Node × Node)}
    {s s' : σ} {q : Res Unit}
    (h : livePairs (fun k v s => store (f k v s) (fun _ s' => s') s) ps s = (s', q))
    (hq : q ≠ .ok ()) :
    ∃ pre p post, ps = pre ++ p :: post ∧ forPairs f pre s = .ok s' ∧
      ended (forPairs f (pre ++ [p]) s) = q := by
  have ho : ∀ k v s, outcome (store (f k v s) (fun _ s' => s') s) = f k v s :=
    fun k v s => outcome_store_id _ _
  obtain ⟨pre, p, post, s1, rfl, h1, h2⟩ := pairs_failed ho h hq
  have h3 := store_failed h2 hq
  subst h3
  refine ⟨pre, p, post, rfl, h1, ?_⟩
  rw [forPairs_append, h1, Res.bind_ok]
  have : forPairs f [p] s' = f p.1 p.2 s' := Res.bind_ok_right _
  rw [this, ← ho, ended_outcome, h2]

/-- C78: the model with states agrees with the model without, for XML settings. -/
theorem C78_xml_refines (X : Xyml) (v : Node) (x : XML) :
    outcome (x.load X v) = x.unmarshal X v := outcome_map (fun _ _ _ => outcome_store_id _ _) v x

/-- C78: a failed load leaves XML settings as the entries before the bad one made them. -/
theorem C78_xml_failed_load (X : Xyml) (v : Node) (x x' : XML) (q : Res Unit)
    (h : x.load X v = (x', q)) (hq : q ≠ .ok ()) :
    (isMap v = false ∧ x' = x) ∨ ∃ pre p post, v = .map (pre ++ p :: post) ∧
      x.unmarshal X (.map pre) = .ok x' ∧ ended (x.unmarshal X (.map (pre ++ [p]))) = q := by
  cases v with
  | seq a b => cases h; exact .inl ⟨rfl, rfl⟩
  | scalar a b => cases h; exact .inl ⟨rfl, rfl⟩
  | map ps =>
    obtain ⟨pre, p, post, rfl, h1, h2⟩ := simple_failed (f := fun k v x => XML.assign X k v x) h hq
    exact .inr ⟨pre, p, post, rfl, h1, h2⟩

/-- C78: the model with states agrees with the model without, for documentation entries. -/
theorem C78_documentation_refines (X : Xyml) (v : Node) (d : Documentation) :
    outcome (d.load X v) = d.unmarshal X v := outcome_map (fun _ _ _ => outcome_store_id _ _) v d

/-- C78: the same for documentation entries. -/
theorem C78_documentation_failed_load (X : Xyml) (v : Node) (d d' : Documentation) (q : Res Unit)
    (h : d.load X v = (d', q)) (hq : q ≠ .ok ()) :
    (isMap v = false ∧ d' = d) ∨ ∃ pre p post, v = .map (pre ++ p :: post) ∧
      d.unmarshal X (.map pre) = .ok d' ∧ ended (d.unmarshal X (.map (pre ++ [p]))) = q := by
  cases v with
  | seq a b => cases h; exact .inl ⟨rfl, rfl⟩
  | scalar a b => cases h; exact .inl ⟨rfl, rfl⟩
  | map ps =>
    obtain ⟨pre, p, post, rfl, h1, h2⟩ :=
      simple_failed (f := fun k v d => Documentation.assign X k v d) h hq
    exact .inr ⟨pre, p, post, rfl, h1, h2⟩

/-! ### Concrete cases -/

/-- An object type loaded with a definition whose second property is a nil type: a panic, after
the description and the first property have been taken over. -/
example : (let r := (DT.new .object).load Xyml.std (.map
      [(.str "description", .str "d"),
       (.str "properties", .map [(.str "a", .str "string"), (.str "b", .str "nil"),
         (.str "c", .str "string")]),
       (.str "displayName", .str "n")])
    (description r.1, (properties r.1).keys, displayName r.1, r.2)) =
    (some "d", ["a"], none, .panic .notProperty) := by
  decide +kernel

/-- An enum with a bad element keeps the elements before it, file types do not. -/
example : (let r := (DT.new .boolean).load Xyml.std (.map
      [(.str "enum", .seq seqTag [.scalar "!!bool" "true", .str "no", .scalar "!!bool" "false"])])
    (((enum r.1).getD []).map fun (x : Val) => match x with | .bool b => b | _ => false, r.2)) =
    ([true], .err .notBool) := by
  decide +kernel

example : (let r := (DT.new .file).load Xyml.std (.map
      [(.str "fileTypes", .seq seqTag [.str "a/b", .map []])])
    (fileTypes r.1, r.2)) = (none, .err .notString) := by
  decide +kernel

/-- So the hypotheses of `C78_type_failed_load` are met. -/
example : ∃ ps t' q, (DT.new .object).load Xyml.std (.map ps) = (t', q) ∧ q ≠ .ok () ∧
    t'.kind = .object :=
  ⟨[(.str "facets", .map [(.str "f", .map []), (.str "g", .str "bad")])], _, _, rfl,
    by decide +kernel, by decide +kernel⟩

/-- An array example with a value loses it when a value that is no sequence is loaded; a string
example keeps its value. -/
example : (((Example.new .array).unmarshal Xyml.std (.seq seqTag [.str "a", .str "b"])).map
      fun e => let r := e.load Xyml.std (.str "bad")
        (match r.1.value with | some (.list ns) => some ns.length | _ => none, r.2)) =
    .ok (some 0, .err .notSeq) := by
  decide +kernel

example : (((Example.new .string).unmarshal Xyml.std (.str "a")).map
      fun e => let r := e.load Xyml.std (.map [(.str "displayName", .str "d"),
          (.str "value", .seq seqTag []), (.str "description", .str "e")])
        (match r.1.value with | some (.str s) => s | _ => "", r.1.displayName, r.1.description,
          r.2)) =
    .ok ("a", some "d", none, .err .notString) := by
  decide +kernel

/-- XML settings: the name stays, the bad attribute and what follows does not. -/
example : (let r := XML.new.load Xyml.std (.map [(.str "name", .str "n"),
      (.str "attribute", .str "yes"), (.str "prefix", .str "p")])
    (r.1.name, r.1.isAttr, r.1.pref, r.2)) = (some "n", none, none, .err .notBool) := by
  decide +kernel

/-- A documentation entry: a key that is no scalar stops the load. -/
example : (let r := Documentation.new.load Xyml.std (.map [(.str "title", .str "t"),
      (.map [], .str "x"), (.str "content", .str "c")])
    (r.1.title, r.1.content, r.2)) = ("t", "", .err .notScalar) := by
  decide +kernel

end Verif.Props
