import Verif.Props.Depth

/-! # C110: documents, and writing -/

namespace Verif.Props
open Verif Verif.Doc Verif.Doc.Spec

/-! ### Reading documents -/

theorem depth_doc {X : Xyml} {n : Node} {d : Documentation}
    (h : Documentation.new.unmarshal X n = .ok d) : docDepth d ≤ nodeDepth n := by
  have := depth_map (μ := fun d : Documentation => mapDepth nodeDepth d.extra) 0
    (fun p _ s s' hs => by
      unfold Documentation.assign at hs
      split_ifs at hs
      · cases hs; exact Nat.le_max_left _ _
      · cases hs; exact Nat.le_max_left _ _
      · obtain ⟨y, _, rfl⟩ := Res.map_eq_ok.mp hs
        exact mapDepth_put nodeDepth s.extra y p.2) h
  rw [show mapDepth nodeDepth Documentation.new.extra = 0 from rfl] at this
  have := nodeDepth_pos n
  simp only [docDepth]
  omega

theorem depth_docs {X : Xyml} {v : Node} {l l' : Option (List Documentation)}
    (h : seqForEach (pushDoc X) v l = .ok l') :
    listDepth docDepth l' ≤ max (listDepth docDepth l) (nodeDepth v) := by
  have := depth_seq (μ := listDepth docDepth) 1 (fun n s s' hs => by
    obtain ⟨d, hd, rfl⟩ := Res.map_eq_ok.mp hs
    have := depth_doc hd
    have := listDepth_push docDepth s d
    omega) h
  omega

theorem depth_types {X : Xyml} {v : Node} {m m' : OM String DT} (h : loadTypes X v m = .ok m') :
    partDepth typeDepth m' ≤ max (partDepth typeDepth m) (nodeDepth v) := by
  rw [loadTypes_eq, loadType_form] at h
  exact depth_loader (w := typeDepth) (fun p _ t ht => C110_type X p.2 t ht) h

theorem depth_anns {v : Node} {m m' : OM String Ann} (h : loadAnns m v = .ok m') :
    annsDepth m' ≤ max (annsDepth m) (nodeDepth v) := by
  have := depth_map (μ := annsDepth) 0 (fun p hp s s' hs => by
    obtain ⟨k, _, h2⟩ := Res.bind_eq_ok.mp hs
    obtain ⟨x, hx, rfl⟩ := Res.map_eq_ok.mp h2
    have := mapDepth_put (fun a => 1 + mapDepth nodeDepth a) s k x
    have := depth_ann hx
    simp only [annsDepth] at *
    omega) h
  omega

/-- The levels of one part of an API document. -/
def apiPartDepth : (s : ApiSection) → s.Ty → Nat
  | .protocols, x => top (fun _ => 1) (Option.getD (α := List String) x [])
  | .mediaType, x => top (fun _ => 1) (Option.getD (α := List String) x [])
  | .documentation, x => listDepth docDepth x
  | .securedBy, x => top (fun _ => 1) (Option.getD (α := List String) x [])
  | .uses, x => partDepth (fun _ => 1) x
  | .securitySchemes, x => partDepth nodeDepth x
  | .baseUriParameters, x => partDepth nodeDepth x
  | .traits, x => partDepth nodeDepth x
  | .annotationTypes, x => partDepth nodeDepth x
  | .resourceTypes, x => partDepth nodeDepth x
  | .types, x => partDepth typeDepth x
  | .annotations, x => annsDepth x
  | .resources, x => mapDepth nodeDepth x
  | .extra, x => mapDepth nodeDepth x
  | _, _ => 0

/-- The levels of one part of a library. -/
def libPartDepth : (s : LibSection) → s.Ty → Nat
  | .usage, _ => 0
  | .uses, x => partDepth (fun _ => 1) x
  | .types, x => partDepth typeDepth x
  | .resourceTypes, x => partDepth nodeDepth x
  | .traits, x => partDepth nodeDepth x
  | .securitySchemes, x => partDepth nodeDepth x
  | .annotations, x => annsDepth x
  | .extra, x => mapDepth nodeDepth x

theorem apiDepth_set (s : ApiSection) (x : s.Ty) (a : APISpec) :
    apiDepth (a.setPart s x) ≤ max (apiDepth a) (1 + apiPartDepth s x) := by
  have h1 := Nat.le_max_left (apiDepth a) (1 + apiPartDepth s x)
  have h2 := Nat.le_max_right (apiDepth a) (1 + apiPartDepth s x)
  generalize max (apiDepth a) (1 + apiPartDepth s x) = d at h1 h2
  cases s <;> simp only [apiDepth, APISpec.setPart, apiPartDepth, one_add_max, Nat.max_le] at * <;>
    first | exact h1 | omega

theorem apiGet_depth (s : ApiSection) (a : APISpec) :
    1 + apiPartDepth s (apiGet s a) ≤ apiDepth a := by
  have h2 : 1 ≤ apiDepth a := by simp only [apiDepth]; exact Nat.le_add_right _ _
  generalize hd : apiDepth a = d at h2 ⊢
  replace hd := Nat.le_of_eq hd
  cases s <;> simp only [apiDepth, apiPartDepth, apiGet, one_add_max, Nat.max_le] at * <;>
    first | exact h2 | omega

theorem libDepth_set (s : LibSection) (x : s.Ty) (a : Library) :
    libDepth (a.setPart s x) ≤ max (libDepth a) (1 + libPartDepth s x) := by
  have h1 := Nat.le_max_left (libDepth a) (1 + libPartDepth s x)
  have h2 := Nat.le_max_right (libDepth a) (1 + libPartDepth s x)
  generalize max (libDepth a) (1 + libPartDepth s x) = d at h1 h2
  cases s <;> simp only [libDepth, Library.setPart, libPartDepth, one_add_max, Nat.max_le] at * <;>
    first | exact h1 | omega

theorem libGet_depth (s : LibSection) (a : Library) :
    1 + libPartDepth s (libGet s a) ≤ libDepth a := by
  have h2 : 1 ≤ libDepth a := by simp only [libDepth]; exact Nat.le_add_right _ _
  generalize hd : libDepth a = d at h2 ⊢
  replace hd := Nat.le_of_eq hd
  cases s <;> simp only [libDepth, libPartDepth, libGet, one_add_max, Nat.max_le] at * <;>
    first | exact h2 | omega

theorem depth_api_step {X : Xyml} {k v : Node} (s : ApiSection) (x y : s.Ty)
    (h : apiStep X k v s x = .ok y) : apiPartDepth s y ≤ max (apiPartDepth s x) (nodeDepth v) := by
  have hv := nodeDepth_pos v
  have hl : ∀ (o : Option (List String)) (a : Nat),
      top (fun _ => 1) (o.getD []) ≤ max a (nodeDepth v) := by
    intro o a
    have := top_ones (o.getD [])
    omega
  cases s <;> simp only [apiStep] at h <;> simp only [apiPartDepth] <;>
    try exact Nat.zero_le _
  case protocols => exact hl _ _
  case mediaType => exact hl _ _
  case securedBy => exact hl _ _
  case documentation => exact depth_docs h
  case uses => exact depth_strings h
  case types => exact depth_types h
  case annotations =>
    obtain ⟨a, ha, rfl⟩ := Res.map_eq_ok.mp h
    have := depth_ann ha
    have := mapDepth_put (fun a => 1 + mapDepth nodeDepth a) x k.value a
    simp only [annsDepth]
    omega
  case resources => cases h; exact mapDepth_put nodeDepth x k.value v
  case extra =>
    split at h
    · cases h
    · obtain ⟨y, _, rfl⟩ := Res.map_eq_ok.mp h
      exact mapDepth_put nodeDepth x y v
  all_goals exact depth_untyped h

theorem depth_lib_step {X : Xyml} {k v : Node} (s : LibSection) (x y : s.Ty)
    (h : libStep X k v s x = .ok y) : libPartDepth s y ≤ max (libPartDepth s x) (nodeDepth v) := by
  cases s <;> simp only [libStep] at h <;> simp only [libPartDepth] <;>
    try exact Nat.zero_le _
  case uses => exact depth_strings h
  case types => exact depth_types h
  case annotations =>
    by_cases hk : k.value = "annotationTypes"
    · replace h := (if_pos hk).symm.trans h
      exact depth_anns h
    · replace h := (if_neg hk).symm.trans h
      obtain ⟨a, ha, rfl⟩ := Res.map_eq_ok.mp h
      have := depth_ann ha
      have := mapDepth_put (fun a => 1 + mapDepth nodeDepth a) x k.value a
      simp only [annsDepth]
      omega
  case extra =>
    split at h
    · cases h
    · obtain ⟨y, _, rfl⟩ := Res.map_eq_ok.mp h
      exact mapDepth_put nodeDepth x y v
  all_goals exact depth_untyped h

/-- C110: loading into an API document in use makes it no deeper than the deeper of the two. -/
theorem C110_api_load (X : Xyml) (n : Node) (a a' : APISpec) (h : a.unmarshal X n = .ok a') :
    apiDepth a' ≤ max (apiDepth a) (nodeDepth n) := by
  have := depth_map (μ := apiDepth) 1 (fun p _ s s' hs => by
    rw [api_assign_eq] at hs
    obtain ⟨x, hx, rfl⟩ := Res.map_eq_ok.mp hs
    have := depth_api_step _ _ _ hx
    have := apiDepth_set _ x s
    have := apiGet_depth (apiSectionOf (p.1, p.2)) s
    omega) h
  omega

/-- C110: loading into a library in use makes it no deeper than the deeper of the two. -/
theorem C110_library_load (X : Xyml) (n : Node) (a a' : Library) (h : a.unmarshal X n = .ok a') :
    libDepth a' ≤ max (libDepth a) (nodeDepth n) := by
  have := depth_map (μ := libDepth) 1 (fun p _ s s' hs => by
    rw [lib_assign_eq] at hs
    obtain ⟨x, hx, rfl⟩ := Res.map_eq_ok.mp hs
    have := depth_lib_step _ _ _ hx
    have := libDepth_set _ x s
    have := libGet_depth (libSectionOf (p.1, p.2)) s
    omega) h
  omega

/-- C110: a parsed API document nests no deeper than the text it was read from. -/
theorem C110_api (X : Xyml) (n : Node) (a : APISpec) (h : parseApi X n = .ok a) :
    apiDepth a ≤ nodeDepth n := by
  have := C110_api_load X n _ a h
  rw [show apiDepth APISpec.new = 1 from rfl] at this
  have := nodeDepth_pos n
  omega

/-- Concrete case: a type with an example, and a resource. -/
example : let n : Node := .map [(.str "types", .map [(.str "A", .map [(.str "example", .str "x")])]),
      (.str "/r", .map [(.str "get", .str "")])]
    nodeDepth n = 4 ∧ ∃ a, parseApi Xyml.std n = .ok a ∧ apiDepth a = 4 :=
  ⟨rfl, _, rfl, rfl⟩

/-- C110: a parsed library nests no deeper than the text it was read from; an input without a
document gives the one level of a new library. -/
theorem C110_library (X : Xyml) (o : Option Node) (l : Library) (h : parseLibrary X o = .ok l) :
    libDepth l ≤ (o.map nodeDepth).getD 1 := by
  cases o with
  | none => cases h; exact Nat.le_refl _
  | some n =>
    have := C110_library_load X n _ l h
    rw [show libDepth Library.new = 1 from rfl] at this
    have := nodeDepth_pos n
    simp only [Option.map_some, Option.getD_some]
    omega

/-- Concrete case: a library with a trait. -/
example : let n : Node := .map [(.str "traits", .map [(.str "a", .map [(.str "k", .str "v")])])]
    nodeDepth n = 4 ∧ ∃ l, parseLibrary Xyml.std (some n) = .ok l ∧ libDepth l = 4 :=
  ⟨rfl, _, rfl, rfl⟩

/-! ### Maps on the way to being written -/

/-- The standard conversions do so. -/
theorem flat_std : Flat Xyml.std where
  int _ := rfl
  flt _ := rfl
  bool b := by cases b <;> rfl
  key k := by cases k <;> rfl

theorem pairs_depth_le {ps : List (Node × Node)} {d : Nat} :
    pairsDepth ps ≤ d ↔ ∀ p ∈ ps, nodeDepth p.1 ≤ d ∧ nodeDepth p.2 ≤ d := by
  induction ps with
  | nil => simp [pairsDepth]
  | cons p ps ih =>
    obtain ⟨k, v⟩ := p
    simp only [pairsDepth, pairDepth, List.mem_cons, forall_eq_or_imp, ← ih]
    omega

theorem renderPairs_depth (b : Bool) (ps : List (Node × Node)) :
    nodeDepth (renderPairs b ps) ≤ 1 + pairsDepth ps + min 1 (pairsDepth ps) := by
  cases b with
  | false => simp only [renderPairs, nodeDepth, Bool.false_eq_true, if_false]; omega
  | true =>
    have : nodesDepth (ps.map fun p => .map [p]) ≤ pairsDepth ps + min 1 (pairsDepth ps) := by
      induction ps with
      | nil => exact Nat.le_refl _
      | cons p ps ih =>
        obtain ⟨k, v⟩ := p
        have := nodeDepth_pos k
        simp only [List.map_cons, nodesDepth, nodeDepth, pairsDepth, pairDepth]
        omega
    simp only [renderPairs, nodeDepth, if_true]
    omega

/-- A written dictionary under a key of its own. -/
theorem renderStrMap_depth {V : Type} {vn : V → Node} {w : V → Nat}
    (h : ∀ x, nodeDepth (vn x) ≤ 1 + 2 * w x) (m : OM String V) :
    nodeDepth (renderStrMap vn m) ≤ 2 * partDepth w m + 1 := by
  have h1 := renderPairs_depth m.omap (m.ents.map fun e => (Node.str e.1, vn e.2))
  have h2 : pairsDepth (m.ents.map fun e => (Node.str e.1, vn e.2)) ≤ 2 * partDepth w m - 1 := by
    refine pairs_depth_le.mpr (fun p hp => ?_)
    obtain ⟨e, he, rfl⟩ := List.mem_map.mp hp
    have h3 : 1 + w e.2 ≤ partDepth w m := top_le.mp (Nat.le_refl (partDepth w m)) e he
    have h4 := h e.2
    refine ⟨?_, ?_⟩
    · rw [show nodeDepth (Node.str e.1) = 1 from rfl]; omega
    · dsimp only; omega
  simp only [renderStrMap]
  omega

theorem renderAny_depth {X : Xyml} (hX : Flat X) {m : OM Scalar Node} (h : m.omap = false) {d : Nat}
    (hd : 1 ≤ d) (hm : mapDepth nodeDepth m ≤ d) : nodeDepth (renderAny X m) ≤ 1 + d := by
  have : pairsDepth (m.ents.map fun e => (X.ofKey e.1, e.2)) ≤ d := by
    refine pairs_depth_le.mpr (fun p hp => ?_)
    obtain ⟨e, he, rfl⟩ := List.mem_map.mp hp
    exact ⟨by rw [hX.key]; exact hd, top_le.mp hm e he⟩
  simp only [renderAny, h, renderPairs, nodeDepth, Bool.false_eq_true, if_false]
  omega

theorem putOpt_depth {m : OM Scalar Node} {k : Scalar} {o : Option Node} {d : Nat}
    (h1 : mapDepth nodeDepth m ≤ d) (h2 : optDepth nodeDepth o ≤ d) :
    mapDepth nodeDepth (m.putOpt k o) ≤ d := by
  cases o with
  | none => exact h1
  | some n =>
    have := mapDepth_put nodeDepth m k n
    simp only [OM.putOpt, optDepth] at *
    omega

theorem put_depth {m : OM Scalar Node} {k : Scalar} {n : Node} {d : Nat}
    (h1 : mapDepth nodeDepth m ≤ d) (h2 : nodeDepth n ≤ d) :
    mapDepth nodeDepth (m.put k n) ≤ d := by
  have := mapDepth_put nodeDepth m k n
  omega

theorem putAll_depth {es : List (Scalar × Node)} {m : OM Scalar Node} {d : Nat}
    (h1 : mapDepth nodeDepth m ≤ d) (h2 : top (fun e => nodeDepth e.2) es ≤ d) :
    mapDepth nodeDepth (m.putAll es) ≤ d := by
  induction es generalizing m with
  | nil => exact h1
  | cons e es ih =>
    have h3 := top_le.mp h2
    exact ih (put_depth (k := e.1) h1 (h3 e (by simp)))
      (top_le.mpr (fun x hx => h3 x (by simp [hx])))

theorem anns_depth (m : OM String Ann) :
    top (fun e => nodeDepth e.2) (annEnts m) ≤ 2 * annsDepth m + 1 := by
  refine top_le.mpr (fun e he => ?_)
  obtain ⟨x, hx, rfl⟩ := List.mem_map.mp he
  have h1 : 1 + mapDepth nodeDepth x.2 ≤ annsDepth m :=
    top_le.mp (Nat.le_refl (annsDepth m)) x hx
  have h2 := renderPairs_depth x.2.omap (x.2.ents.map fun e => (Node.str e.1, id e.2))
  have h3 : pairsDepth (x.2.ents.map fun e => (Node.str e.1, id e.2)) ≤
      mapDepth nodeDepth x.2 := by
    refine pairs_depth_le.mpr (fun p hp => ?_)
    obtain ⟨e, he, rfl⟩ := List.mem_map.mp hp
    have := top_le.mp (Nat.le_refl (mapDepth nodeDepth x.2)) e he
    have h := nodeDepth_pos e.2
    exact ⟨by rw [show nodeDepth (Node.str e.1) = 1 from rfl]; omega, this⟩
  simp only [renderStrMap]
  omega

theorem plain_depth {α : Type} {g : α → Node} (h : ∀ x, nodeDepth (g x) = 1) (o : Option α) :
    optDepth nodeDepth (o.map g) ≤ 1 := by
  cases o with
  | none => exact Nat.zero_le _
  | some x => exact Nat.le_of_eq (h x)

theorem cond_depth {c : Prop} [Decidable c] {n : Node} (hn : nodeDepth n = 1) :
    optDepth nodeDepth (if c then some n else none) ≤ 1 := by
  by_cases hc : c
  · simp [hc, optDepth, hn]
  · simp [hc, optDepth]

theorem list_depth {V : Type} {g : V → Node} {w : V → Nat} (h : ∀ x, nodeDepth (g x) ≤ 2 * w x)
    (o : Option (List V)) : optDepth nodeDepth (o.map (renderList g)) ≤ 2 * listDepth w o + 1 := by
  cases o with
  | none => exact Nat.zero_le _
  | some l =>
    have h1 : nodesDepth (l.map g) ≤ 2 * listDepth w (some l) := by
      rw [nodes_top]
      refine top_le.mpr (fun n hn => ?_)
      obtain ⟨x, hx, rfl⟩ := List.mem_map.mp hn
      have h2 := top_le.mp (Nat.le_refl (listDepth w (some l))) x hx
      have h3 := h x
      omega
    simp only [Option.map_some, optDepth, renderList, nodeDepth]
    omega

theorem strs_depth (o : Option (List String)) :
    optDepth nodeDepth (o.map (renderList Node.str)) ≤ 2 * top (fun _ => 1) (o.getD []) + 1 := by
  cases o with
  | none => exact Nat.zero_le _
  | some l =>
    have h1 : nodesDepth (l.map Node.str) ≤ top (fun _ => 1) l := by
      rw [nodes_top]
      refine top_le.mpr (fun n hn => ?_)
      obtain ⟨x, hx, rfl⟩ := List.mem_map.mp hn
      exact top_le.mp (Nat.le_refl (top (fun _ => 1) l)) x hx
    simp only [Option.map_some, optDepth, renderList, nodeDepth, Option.getD_some]
    omega

theorem val_depth {X : Xyml} (hX : Flat X) (x : Val) : nodeDepth (x.render X) ≤ valDepth x := by
  cases x <;> simp [Val.render, valDepth, hX.int, hX.flt, hX.bool, nodeDepth, Node.str]

theorem exampleDepth_pos (e : Example) : 1 ≤ exampleDepth e := by
  simp only [exampleDepth]; omega

/-- C110: a written example. -/
theorem C110_example_written {X : Xyml} (hX : Flat X) (e : Example) :
    nodeDepth (e.toYAML X) ≤ 2 * exampleDepth e := by
  have hf : (e.marshal X).omap = false := by
    unfold Example.marshal
    split
    · dsimp only
      split <;> simp [OM.empty]
    · rfl
  have hp := exampleDepth_pos e
  have hv : optDepth nodeDepth (e.value.map (Val.render X)) ≤ exampleDepth e := by
    cases h : e.value with
    | none => exact Nat.zero_le _
    | some x =>
      have := val_depth hX x
      simp only [exampleDepth, h, Option.map_some, optDepth]
      omega
  have ha := anns_depth e.annotations
  have h2 : 1 + annsDepth e.annotations ≤ exampleDepth e := by simp only [exampleDepth]; omega
  have h3 : 1 + mapDepth nodeDepth e.extra ≤ exampleDepth e := by simp only [exampleDepth]; omega
  have hs : ∀ s : String, nodeDepth (Node.str s) = 1 := fun _ => rfl
  have hd : 2 * exampleDepth e = 1 + (2 * exampleDepth e - 1) := by omega
  have h1 : ∀ {n : Nat}, n ≤ 1 → n ≤ 2 * exampleDepth e - 1 := fun h => by omega
  have h0 : mapDepth nodeDepth (OM.empty false : OM Scalar Node) ≤ 2 * exampleDepth e - 1 :=
    Nat.zero_le _
  have hx : top (fun e : Scalar × Node => nodeDepth e.2) e.extra.ents = mapDepth nodeDepth e.extra := rfl
  rw [hd]
  refine renderAny_depth hX hf (by omega) ?_
  unfold Example.marshal
  split
  · dsimp only
    have h4 : mapDepth nodeDepth ((((OM.empty false : OM Scalar Node).putOpt (.str "displayName")
        (e.displayName.map .str)).putOpt (.str "description") (e.description.map .str)).putOpt
        (.str "value") (e.value.map (Val.render X))) ≤ 2 * exampleDepth e - 1 :=
      putOpt_depth (putOpt_depth (putOpt_depth h0 (h1 (plain_depth hs _))) (h1 (plain_depth hs _)))
        (by omega)
    refine putAll_depth (putAll_depth ?_ (by omega)) (by omega)
    split
    · exact h4
    · exact put_depth h4 (h1 (Nat.le_of_eq (hX.bool _)))
  · refine put_depth h0 ?_
    cases h : e.value with
    | none => exact h1 (Nat.le_refl 1)
    | some x =>
      rw [h] at hv
      simp only [Option.map_some, optDepth, Option.getD_some] at hv ⊢
      omega

/-- The bound is reached: an example given by its value alone is written as a mapping. -/
example : ∃ e, (Example.new .string).unmarshal Xyml.std (.str "a") = .ok e ∧
    exampleDepth e = 1 ∧ nodeDepth (e.toYAML Xyml.std) = 2 := ⟨_, rfl, rfl, rfl⟩

/-! ### Writing types -/

theorem body_depth {X : Xyml} (hX : Flat X) {props items : Option Node} {b : Body}
    {out : OM Scalar Node} {d : Nat} (h1 : 1 ≤ d) (ho : mapDepth nodeDepth out ≤ d)
    (hb : 2 * bodyDepth b + 1 ≤ d) (hp : optDepth nodeDepth props ≤ d)
    (hi : optDepth nodeDepth items ≤ d) : mapDepth nodeDepth (b.marshal X props items out) ≤ d := by
  have le : ∀ {n : Nat}, n ≤ 1 → n ≤ d := fun h => Nat.le_trans h h1
  have hs : ∀ s : String, nodeDepth (Node.str s) = 1 := fun _ => rfl
  cases b with
  | string f =>
    exact putOpt_depth (putOpt_depth (putOpt_depth ho (le (plain_depth hs _)))
      (le (cond_depth (hX.int _)))) (le (plain_depth (fun n : Nat => hX.int n) _))
  | file f =>
    have hl := list_depth (g := Node.str) (w := fun _ => 1) (fun s => by rw [hs]; omega) f.fileTypes
    simp only [bodyDepth] at hb
    exact putOpt_depth (putOpt_depth (putOpt_depth ho (Nat.le_trans hl hb))
      (le (cond_depth (hX.int _)))) (le (cond_depth (hX.int _)))
  | array f =>
    exact putOpt_depth (putOpt_depth (putOpt_depth (putOpt_depth ho (le (cond_depth (hX.bool _))))
      (le (cond_depth (hX.int _)))) (le (cond_depth (hX.int _)))) hi
  | object f =>
    have ha : optDepth nodeDepth (if f.addtlProps = true then none
        else some (X.ofBool f.addtlProps)) ≤ 1 := by
      cases f.addtlProps with
      | true => exact Nat.zero_le _
      | false => exact Nat.le_of_eq (hX.bool _)
    simp only [bodyDepth] at hb
    exact putOpt_depth (putOpt_depth (putOpt_depth (putOpt_depth (putOpt_depth (putOpt_depth ho
      (le ha)) (le (plain_depth (fun n : Nat => hX.int n) _)))
      (le (plain_depth (fun n : Nat => hX.int n) _))) (le (plain_depth hs _))) (by omega)) hp
  | datetime f => exact putOpt_depth ho (le (plain_depth hs _))
  | number f =>
    exact putOpt_depth (putOpt_depth (putOpt_depth (putOpt_depth ho (le (plain_depth hs _)))
      (le (plain_depth hX.flt _))) (le (plain_depth hX.flt _))) (le (plain_depth hX.flt _))
  | integer f =>
    exact putOpt_depth (putOpt_depth (putOpt_depth (putOpt_depth ho (le (plain_depth hs _)))
      (le (plain_depth hX.int _))) (le (plain_depth hX.int _))) (le (plain_depth hX.flt _))
  | _ => exact ho

theorem marshalDT_depth {X : Xyml} (hX : Flat X) {h : Hdr} {b : Body}
    {facets props items : Option Node} {d : Nat} (hh : 2 * hdrDepth h + 1 ≤ d)
    (hb : 2 * bodyDepth b + 1 ≤ d) (hf : optDepth nodeDepth facets ≤ d)
    (hp : optDepth nodeDepth props ≤ d) (hi : optDepth nodeDepth items ≤ d) :
    mapDepth nodeDepth (marshalDT X h b facets props items) ≤ d := by
  have h1 : 1 ≤ d := by omega
  have le : ∀ {n : Nat}, n ≤ 1 → n ≤ d := fun h => Nat.le_trans h h1
  have hs : ∀ s : String, nodeDepth (Node.str s) = 1 := fun _ => rfl
  have h0 := Nat.le_refl (hdrDepth h)
  generalize hD : hdrDepth h = D at hh h0
  replace hD := Nat.le_of_eq hD
  simp only [hdrDepth, Nat.max_le] at hD
  obtain ⟨e1, e2, e3, e4, e5, e6, e7⟩ := hD
  have ha := anns_depth h.annotations
  have hx : optDepth nodeDepth (h.xml.map XML.toYAML) ≤ 1 := plain_depth (fun _ => rfl) _
  have hen := list_depth (g := Val.render X) (w := valDepth) (fun x => by
    have := val_depth hX x; omega) h.enum
  have hex : optDepth nodeDepth (h.example.map (Example.toYAML X)) ≤
      2 * optDepth exampleDepth h.example := by
    cases h.example with
    | none => exact Nat.le_refl _
    | some e => exact C110_example_written hX e
  have hes : optDepth nodeDepth (if h.examples.len > 0 then
      some (renderStrMap (Example.toYAML X) h.examples) else none) ≤
        2 * partDepth exampleDepth h.examples + 1 := by
    by_cases hl : h.examples.len > 0
    · simp only [hl, if_true, optDepth]
      exact renderStrMap_depth (fun e => by have := C110_example_written hX e; omega) _
    · simp [hl, optDepth]
  have hex' : top (fun e : Scalar × Node => nodeDepth e.2) h.extra.ents =
    mapDepth nodeDepth h.extra := rfl
  unfold marshalDT
  dsimp only
  refine putOpt_depth (putOpt_depth (putOpt_depth (body_depth hX h1 ?_ hb hp hi) (by omega))
    (by omega)) (by omega)
  unfold Hdr.marshalExt marshalBase
  dsimp only
  have h4 : mapDepth nodeDepth (((((OM.empty false : OM Scalar Node).putOpt (.str "default")
      h.dflt).putOpt (.str "displayName") (h.displayName.map .str)).putOpt (.str "description")
      (h.description.map .str)).put (.str "type") (.str h.schema) |>.putAll h.extra.ents) ≤ d := by
    refine putAll_depth (put_depth (putOpt_depth (putOpt_depth (putOpt_depth (Nat.zero_le _)
      (by omega)) (le (plain_depth hs _))) (le (plain_depth hs _))) (le (Nat.le_refl 1))) (by omega)
  refine putOpt_depth (putOpt_depth (putAll_depth ?_ (by omega)) hf) (le hx)
  split
  · exact h4
  · exact put_depth h4 (le (Nat.le_of_eq (hX.bool _)))

theorem finish_depth {X : Xyml} (hX : Flat X) {m : OM Scalar Node} (h : m.omap = false) {d : Nat}
    (hd : 1 ≤ d) (hm : mapDepth nodeDepth m ≤ d) : nodeDepth (finish X m) ≤ 1 + d := by
  unfold finish
  split
  · rename_i h
    obtain ⟨es, b⟩ := m
    match es, h with
    | [e], h =>
      have h2 : (OM.mk [e] b).get (.str "type") = some e.2 := by
        have h3 := h.2
        simp only [OM.has, List.any_cons, List.any_nil, Bool.or_false] at h3
        simp [OM.get, h3]
      rw [h2]
      have := top_le.mp hm e (by simp)
      simp only [Option.getD_some]
      omega
  · exact renderAny_depth hX h hd hm

theorem basic_depth {X : Xyml} (hX : Flat X) (n : Node) (hn : nodeDepth n = 1)
    (x : OM Scalar Node) : nodeDepth (finish X (marshalBase n x (OM.empty false))) ≤
      2 * (1 + mapDepth nodeDepth x) := by
  have := finish_depth hX (m := marshalBase n x (OM.empty false)) (by simp [marshalBase, OM.empty])
    (d := 1 + mapDepth nodeDepth x) (by omega) (by
      have hx : top (fun e : Scalar × Node => nodeDepth e.2) x.ents = mapDepth nodeDepth x := rfl
      unfold marshalBase
      exact putAll_depth (put_depth (Nat.zero_le _) (by omega)) (by omega))
  omega

mutual

theorem type_deep {X : Xyml} (hX : Flat X) : ∀ t : DT, nodeDepth (t.toYAML X) ≤ 2 * typeDepth t
  | .basic i s x => by
    have := basic_depth hX (if i then .scalar "!include" s else .str s) (by cases i <;> rfl) x
    simpa only [DT.toYAML, typeDepth] using this
  | .ext h b fs ps it => by
    have h3 := facets_deep_write hX fs
    have h4 := props_deep hX ps
    have h5 := items_deep_write hX it
    generalize hd : max (hdrDepth h) (max (bodyDepth b) (max (facetsDepth fs)
      (max (typesDepth ps) (itemsDepth it)))) = d
    have h6 := Nat.le_of_eq hd
    simp only [Nat.max_le] at h6
    obtain ⟨h7, h8, h9, h10, h11⟩ := h6
    have h2 := marshalDT_depth hX (h := h) (b := b) (facets := facetsNode X fs)
      (props := propsNode X ps) (items := itemsNode X it) (d := 2 * d + 1) (by omega) (by omega)
      (by omega) (by omega) (by omega)
    have h1 := finish_depth hX (marshalDT_omap X h b (facetsNode X fs) (propsNode X ps)
      (itemsNode X it)) (by omega) h2
    simp only [DT.toYAML, typeDepth, hd]
    omega

theorem items_deep_write {X : Xyml} (hX : Flat X) : ∀ o : Option DT,
    optDepth nodeDepth (itemsNode X o) ≤ 2 * itemsDepth o
  | none => by simp [itemsNode, optDepth]
  | some t => by
    have := type_deep hX t
    simpa only [itemsNode, optDepth, itemsDepth] using this

theorem props_deep {X : Xyml} (hX : Flat X) : ∀ m : OM String DT,
    optDepth nodeDepth (propsNode X m) ≤ 2 * typesDepth m + 1
  | ⟨[], b⟩ => by simp [propsNode, optDepth]
  | ⟨e :: es, b⟩ => by
    have h1 := typeEnts_deep hX (e :: es)
    have h2 := renderPairs_depth b (typeEnts X (e :: es))
    simp only [propsNode, List.length_cons, Nat.zero_lt_succ, if_true, optDepth, typesDepth,
      gt_iff_lt] at h1 h2 ⊢
    omega

theorem typeEnts_deep {X : Xyml} (hX : Flat X) : ∀ es : List (String × DT),
    pairsDepth (typeEnts X es) ≤ 2 * typeEntsDepth es - 1
  | [] => by simp [typeEnts, pairsDepth]
  | e :: es => by
    have h1 := typeEnt_deep hX e
    have h2 := typeEnts_deep hX es
    simp only [typeEnts, pairsDepth, typeEntsDepth]
    omega

theorem typeEnt_deep {X : Xyml} (hX : Flat X) : ∀ e : String × DT,
    pairDepth (typeEnt X e) ≤ 2 * typeEntDepth e - 1
  | (k, t) => by
    have := type_deep hX t
    simp only [typeEnt, pairDepth, typeEntDepth, show nodeDepth (Node.str k) = 1 from rfl]
    omega

theorem facets_deep_write {X : Xyml} (hX : Flat X) : ∀ m : OM String (OM String DT),
    optDepth nodeDepth (facetsNode X m) ≤ 2 * facetsDepth m + 1
  | ⟨[], b⟩ => by simp [facetsNode, optDepth]
  | ⟨e :: es, b⟩ => by
    have h1 := facetEnts_deep hX (e :: es)
    have h2 := renderPairs_depth b (facetEnts X (e :: es))
    simp only [facetsNode, List.length_cons, Nat.zero_lt_succ, if_true, optDepth, facetsDepth,
      gt_iff_lt] at h1 h2 ⊢
    omega

theorem facetEnts_deep {X : Xyml} (hX : Flat X) : ∀ es : List (String × OM String DT),
    pairsDepth (facetEnts X es) ≤ 2 * facetEntsDepth es - 1
  | [] => by simp [facetEnts, pairsDepth]
  | e :: es => by
    have h1 := facetEnt_deep hX e
    have h2 := facetEnts_deep hX es
    simp only [facetEnts, pairsDepth, facetEntsDepth]
    omega

theorem facetEnt_deep {X : Xyml} (hX : Flat X) : ∀ e : String × OM String DT,
    pairDepth (facetEnt X e) ≤ 2 * facetEntDepth e - 1
  | (k, ⟨es, b⟩) => by
    have h1 := typeEnts_deep hX es
    have h2 := renderPairs_depth b (typeEnts X es)
    simp only [facetEnt, pairDepth, facetEntDepth, show nodeDepth (Node.str k) = 1 from rfl,
      typeMapNode, typesDepth]
    omega

end

/-- C110: a written type nests at most twice as deep as the type. -/
theorem C110_type_written {X : Xyml} (hX : Flat X) (t : DT) :
    nodeDepth (t.toYAML X) ≤ 2 * typeDepth t := type_deep hX t

/-- C110: reading a type and writing it again makes the definition at most twice as deep. -/
theorem C110_type_rewritten {X : Xyml} (hX : Flat X) {n : Node} {t : DT} (h : hat X n = .ok t) :
    nodeDepth (t.toYAML X) ≤ 2 * nodeDepth n := by
  have := C110_type_written hX t
  have := C110_type X n t h
  omega

/-- Concrete case: facet declarations and a property are written with more levels. -/
example : ∃ t, hat Xyml.std (.map [(.str "facets", .map [(.str "f", .map [(.str "p",
      .map [(.str "properties", .map [(.str "q", .map [(.str "example", .str "x")])])])])])]) = .ok t ∧
    typeDepth t = 7 ∧ nodeDepth (t.toYAML Xyml.std) = 10 := ⟨_, rfl, rfl, rfl⟩

/-! ### Writing documents -/

theorem part_depth {V : Type} {m : OM String V} {n : Node} {d : Nat} (h : nodeDepth n ≤ d) :
    optDepth nodeDepth (ifNonEmpty m n) ≤ d := by
  unfold ifNonEmpty
  split
  · exact h
  · exact Nat.zero_le _

theorem typeMap_depth {X : Xyml} (hX : Flat X) (m : OM String DT) :
    nodeDepth (typeMapNode X m) ≤ 2 * partDepth typeDepth m + 1 := by
  rw [← types_deep]
  obtain ⟨es, b⟩ := m
  have h1 := typeEnts_deep hX es
  have h2 := renderPairs_depth b (typeEnts X es)
  simp only [typeMapNode, typesDepth]
  omega

theorem untyped_depth (m : OM String Node) :
    nodeDepth (renderStrMap id m) ≤ 2 * partDepth nodeDepth m + 1 :=
  renderStrMap_depth (fun x => by simp only [id]; omega) m

theorem strings_depth (m : OM String String) :
    nodeDepth (renderStrMap Node.str m) ≤ 2 * partDepth (fun _ => 1) m + 1 :=
  renderStrMap_depth (vn := Node.str) (w := fun _ => 1) (fun s => by
    rw [show nodeDepth (Node.str s) = 1 from rfl]; omega) m

/-- C110: a written API document. -/
theorem C110_api_written {X : Xyml} (hX : Flat X) (a : APISpec) :
    nodeDepth (a.toYAML X) ≤ 2 * apiDepth a := by
  have hf : (a.marshal X).omap = false := by simp [APISpec.marshal, OM.empty]
  obtain ⟨d, hd⟩ : ∃ d, apiDepth a = 1 + d := ⟨_, rfl⟩
  have h6 := Nat.le_of_eq hd
  simp only [apiDepth, Nat.add_le_add_iff_left, Nat.max_le] at h6
  obtain ⟨⟨⟨g1, g2⟩, g3, g4⟩, ⟨⟨g5, g6⟩, g7, g8⟩, ⟨g9, g10⟩, ⟨g11, g12⟩, g13, g14⟩ := h6
  have le : ∀ {n c : Nat}, n ≤ 2 * c + 1 → c ≤ d → n ≤ 2 * d + 1 := fun h h' => by omega
  have le1 : ∀ {n : Nat}, n ≤ 1 → n ≤ 2 * d + 1 := fun h => by omega
  have hs : ∀ s : String, nodeDepth (Node.str s) = 1 := fun _ => rfl
  have hr : top (fun e : Scalar × Node => nodeDepth e.2) (strEnts a.resources) =
      mapDepth nodeDepth a.resources := by
    simp only [strEnts, top, List.map_map, mapDepth, Function.comp_def]
  have hx : top (fun e : Scalar × Node => nodeDepth e.2) a.extra.ents =
    mapDepth nodeDepth a.extra := rfl
  have hdoc := list_depth (g := Documentation.toYAML) (w := docDepth) (fun d => by
    simp only [Documentation.toYAML, nodeDepth, pairsDepth, docDepth]; omega) a.documentation
  have main : mapDepth nodeDepth (a.marshal X) ≤ 2 * d + 1 :=
    putOpt_depth (putAll_depth (putAll_depth (putAll_depth (putOpt_depth (putOpt_depth
      (putOpt_depth (putOpt_depth (putOpt_depth (putOpt_depth (putOpt_depth (putOpt_depth
      (putOpt_depth (putOpt_depth (putOpt_depth (putOpt_depth (putOpt_depth
      (put_depth (Nat.zero_le _) (le1 (Nat.le_of_eq (hs a.title))))
      (le1 (plain_depth hs _))) (le1 (plain_depth hs _))) (le1 (plain_depth hs _)))
      (le (strs_depth _) (by assumption))) (le (strs_depth _) (by assumption)))
      (le hdoc (by assumption))) (le (strs_depth _) (by assumption)))
      (part_depth (le (strings_depth _) (by assumption))))
      (part_depth (le (untyped_depth _) (by assumption))))
      (part_depth (le (untyped_depth _) (by assumption))))
      (part_depth (le (untyped_depth _) (by assumption))))
      (part_depth (le (untyped_depth _) (by assumption))))
      (part_depth (le (untyped_depth _) (by assumption))))
      (le (anns_depth _) (by assumption))) (by omega)) (by omega))
      (part_depth (le (typeMap_depth hX _) (by assumption)))
  have := renderAny_depth hX hf (by omega) main
  simp only [APISpec.toYAML, hd]
  omega

/-- C110: reading an API document and writing it again makes it at most twice as deep. -/
theorem C110_api_rewritten {X : Xyml} (hX : Flat X) {n : Node} {a : APISpec}
    (h : parseApi X n = .ok a) : nodeDepth (a.toYAML X) ≤ 2 * nodeDepth n := by
  have := C110_api_written hX a
  have := C110_api X n a h
  omega

/-- The bound is reached: the title is always written. -/
example : ∃ a, parseApi Xyml.std (.map []) = .ok a ∧ nodeDepth (a.toYAML Xyml.std) = 2 ∧
    nodeDepth (.map []) = 1 := ⟨_, rfl, rfl, rfl⟩

/-- C110: a written library. -/
theorem C110_library_written {X : Xyml} (hX : Flat X) (l : Library) :
    nodeDepth (l.toYAML X) ≤ 2 * libDepth l := by
  have hf : (l.marshal X).omap = false := by simp [Library.marshal, OM.empty]
  obtain ⟨d, hd⟩ : ∃ d, libDepth l = 1 + d := ⟨_, rfl⟩
  have h6 := Nat.le_of_eq hd
  simp only [libDepth, Nat.add_le_add_iff_left, Nat.max_le] at h6
  obtain ⟨⟨⟨g1, g2⟩, g3, g4⟩, ⟨g5, g6⟩, g7, g8⟩ := h6
  have le : ∀ {n c : Nat}, n ≤ 2 * c + 1 → c ≤ d → n ≤ 2 * d + 1 := fun h h' => by omega
  have le1 : ∀ {n : Nat}, n ≤ 1 → n ≤ 2 * d + 1 := fun h => by omega
  have hx : top (fun e : Scalar × Node => nodeDepth e.2) l.extra.ents =
    mapDepth nodeDepth l.extra := rfl
  have main : mapDepth nodeDepth (l.marshal X) ≤ 2 * d + 1 :=
    putOpt_depth (putAll_depth (putOpt_depth (putAll_depth (putOpt_depth (putOpt_depth
      (putOpt_depth (putOpt_depth (putOpt_depth (Nat.zero_le _)
      (le1 (plain_depth (fun _ => rfl) _)))
      (part_depth (le (strings_depth _) (by assumption))))
      (part_depth (le (untyped_depth _) (by assumption))))
      (part_depth (le (untyped_depth _) (by assumption))))
      (part_depth (le (untyped_depth _) (by assumption))))
      (le (anns_depth _) (by assumption)))
      (part_depth (le (untyped_depth _) (by assumption)))) (by omega))
      (part_depth (le (typeMap_depth hX _) (by assumption)))
  have := renderAny_depth hX hf (by omega) main
  simp only [Library.toYAML, hd]
  omega

/-- C110: reading a library and writing it again makes it at most twice as deep. -/
theorem C110_library_rewritten {X : Xyml} (hX : Flat X) {o : Option Node} {l : Library}
    (h : parseLibrary X o = .ok l) :
    nodeDepth (l.toYAML X) ≤ 2 * (o.map nodeDepth).getD 1 := by
  have := C110_library_written hX l
  have := C110_library X o l h
  omega

/-- Concrete case: a library with an include in a dictionary that is written in order. -/
example : ∃ l, parseLibrary Xyml.std (some (.map [(.str "uses", .map [(.str "a", .str "f")])])) =
      .ok l ∧ libDepth l = 3 ∧ nodeDepth (l.toYAML Xyml.std) = 3 := ⟨_, rfl, rfl, rfl⟩

end Verif.Props
