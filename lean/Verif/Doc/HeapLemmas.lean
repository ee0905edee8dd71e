import Verif.Doc.Heap
import Verif.Doc.RoundTrip

/-! # Lemmas about objects and pointers -/

namespace Verif.Doc

/-! ### Following pointers in lists -/

section lists
variable {α β γ : Type}

theorem mapM_congr {f g : α → Option β} {l : List α} (h : ∀ e ∈ l, f e = g e) :
    l.mapM f = l.mapM g := by
  induction l with
  | nil => rfl
  | cons e l ih =>
    rw [List.mapM_cons, List.mapM_cons, h e List.mem_cons_self,
      ih fun x hx => h x (List.mem_cons_of_mem _ hx)]

theorem mapM_isSome {f : α → Option β} {l : List α} :
    (l.mapM f).isSome = true ↔ ∀ e ∈ l, (f e).isSome = true := by
  induction l with
  | nil => simp [List.mapM_nil]
  | cons e l ih =>
    rw [List.mapM_cons]
    cases hf : f e with
    | none => simp [hf]
    | some y =>
      cases hl : l.mapM f with
      | none =>
        rw [hl] at ih
        simp only [Option.isSome_none, Bool.false_eq_true, false_iff] at ih
        simp only [Option.bind_eq_bind, Option.bind_some, Option.bind_none, Option.isSome_none,
          Bool.false_eq_true, false_iff]
        exact fun h => ih fun e he => h e (List.mem_cons_of_mem _ he)
      | some ys =>
        rw [hl] at ih
        simp only [Option.isSome_some, true_iff] at ih
        simpa [hf] using ih

theorem mapM_map {f : α → Option β} {g : β → γ} {l : List α} :
    (l.mapM fun e => (f e).map g) = (l.mapM f).map (List.map g) := by
  induction l with
  | nil => rfl
  | cons e l ih =>
    rw [List.mapM_cons, List.mapM_cons, ih]
    cases f e with
    | none => rfl
    | some y => cases l.mapM f <;> rfl

theorem mapM_mono {f g : α → Option β} {l : List α} {ys : List β}
    (h : ∀ e ∈ l, ∀ y, f e = some y → g e = some y) (hl : l.mapM f = some ys) :
    l.mapM g = some ys := by
  have hs := mapM_isSome.mp (show (l.mapM f).isSome = true by rw [hl]; rfl)
  rw [← hl]
  apply mapM_congr
  intro e he
  obtain ⟨y, hy⟩ := Option.isSome_iff_exists.mp (hs e he)
  rw [hy]; exact h e he y hy

theorem mapM_total {f : α → β} {l : List α} : (l.mapM fun e => some (f e)) = some (l.map f) := by
  induction l with
  | nil => rfl
  | cons e l ih => rw [List.mapM_cons, ih]; rfl

theorem mapM_some_length {f : α → Option β} {l : List α} {ys : List β} (h : l.mapM f = some ys) :
    ys.length = l.length := by
  induction l generalizing ys with
  | nil => cases h; rfl
  | cons e l ih =>
    rw [List.mapM_cons] at h
    cases hf : f e with
    | none => rw [hf] at h; cases h
    | some y =>
      cases hl : l.mapM f with
      | none => rw [hf, hl] at h; cases h
      | some zs => rw [hf, hl] at h; cases h; simp [ih hl]

theorem followMap_congr {r r' : α → Option β} {m : OM String α}
    (h : ∀ e ∈ m.ents, r e.2 = r' e.2) : followMap r m = followMap r' m := by
  unfold followMap
  rw [mapM_congr fun e he => by rw [h e he]]

theorem followMap_isSome {r : α → Option β} {m : OM String α} :
    (followMap r m).isSome = true ↔ ∀ e ∈ m.ents, (r e.2).isSome = true := by
  unfold followMap
  rw [Option.isSome_map, mapM_isSome]
  simp only [Option.isSome_map]

theorem followMap_mono {r r' : α → Option β} {m : OM String α} {y : OM String β}
    (h : ∀ e ∈ m.ents, ∀ y, r e.2 = some y → r' e.2 = some y) (hm : followMap r m = some y) :
    followMap r' m = some y := by
  unfold followMap at *
  cases hl : m.ents.mapM fun e => (r e.2).map fun y => (e.1, y) with
  | none => rw [hl] at hm; cases hm
  | some ys =>
    rw [hl] at hm
    rw [mapM_mono (g := fun e => (r' e.2).map fun y => (e.1, y)) ?_ hl]
    · exact hm
    · intro e he y hy
      obtain ⟨z, hz, rfl⟩ := Option.map_eq_some_iff.mp hy
      simp only [h e he z hz, Option.map_some]

theorem followOpt_mono {r r' : α → Option β} {o : Option α} {y : Option β}
    (h : ∀ c ∈ o, ∀ y, r c = some y → r' c = some y) (ho : followOpt r o = some y) :
    followOpt r' o = some y := by
  cases o with
  | none => exact ho
  | some c =>
    obtain ⟨z, hz, rfl⟩ := Option.map_eq_some_iff.mp ho
    show (r' c).map some = _
    rw [h c rfl z hz]; rfl

end lists

/-! ### What a data type points to -/

/-- The data types in a map. -/
def Heap.inMap (H : Heap) (m : Addr) : List Addr := (H.tm m).ents.map Prod.snd

/-- The data types directly inside a data type. -/
def Heap.children (H : Heap) (a : Addr) : List Addr :=
  match H.ty a with
  | .basic _ _ _ => []
  | .ext _ _ _ f ps it =>
    ((H.fm f).ents.flatMap fun e => H.inMap e.2) ++ ((ps.map H.inMap).getD [] ++ it.toList)

theorem view_mono {H : Heap} {r r' : Addr → Option DT} {a : Addr} {t : DT}
    (h : ∀ c ∈ H.children a, ∀ t, r c = some t → r' c = some t) (hv : H.view r a = some t) :
    H.view r' a = some t := by
  unfold Heap.view at *
  unfold Heap.children at h
  cases ho : H.ty a with
  | basic i s x => rw [ho] at hv; exact hv
  | ext hd p b f ps it =>
    rw [ho] at hv h
    simp only [List.mem_append, List.mem_flatMap, Option.mem_toList] at h
    obtain ⟨fs, h1, hv⟩ := Option.bind_eq_some_iff.mp hv
    obtain ⟨ps', h2, hv⟩ := Option.bind_eq_some_iff.mp hv
    obtain ⟨it', h3, hv⟩ := Option.map_eq_some_iff.mp hv
    have e1 : followMap (fun m => followMap r' (H.tm m)) (H.fm f) = some fs := by
      refine followMap_mono (fun e he y hy => ?_) h1
      exact followMap_mono (fun e' he' z hz =>
        h e'.2 (Or.inl ⟨e, he, List.mem_map_of_mem he'⟩) z hz) hy
    have e2 : H.propsView r' ps = some ps' := by
      cases ps with
      | none => exact h2
      | some m =>
        exact followMap_mono (fun e' he' z hz =>
          h e'.2 (Or.inr (Or.inl (List.mem_map_of_mem he'))) z hz) h2
    have e3 : followOpt r' it = some it' :=
      followOpt_mono (fun c hc => h c (Or.inr (Or.inr hc))) h3
    simp only [e1, e2, e3, Option.bind_some, Option.map_some, hv]

theorem view_isSome {H : Heap} {r : Addr → Option DT} {a : Addr} :
    (H.view r a).isSome = true ↔ ∀ c ∈ H.children a, (r c).isSome = true := by
  constructor
  · intro hv
    obtain ⟨t, ht⟩ := Option.isSome_iff_exists.mp hv
    unfold Heap.view at ht
    unfold Heap.children
    cases ho : H.ty a with
    | basic i s x => intro c hc; cases hc
    | ext hd p b f ps it =>
      rw [ho] at ht
      obtain ⟨fs, h1, ht⟩ := Option.bind_eq_some_iff.mp ht
      obtain ⟨ps', h2, ht⟩ := Option.bind_eq_some_iff.mp ht
      obtain ⟨it', h3, ht⟩ := Option.map_eq_some_iff.mp ht
      simp only [List.mem_append, List.mem_flatMap, Option.mem_toList]
      rintro c (⟨e, he, hc⟩ | hc | hc)
      · obtain ⟨e', he', rfl⟩ := List.mem_map.mp hc
        have := followMap_isSome.mp (Option.isSome_iff_exists.mpr ⟨_, h1⟩) e he
        exact followMap_isSome.mp this e' he'
      · cases ps with
        | none => cases hc
        | some m =>
          obtain ⟨e', he', rfl⟩ := List.mem_map.mp hc
          exact followMap_isSome.mp (Option.isSome_iff_exists.mpr ⟨_, h2⟩) e' he'
      · cases it with
        | none => cases hc
        | some c' =>
          cases hc
          obtain ⟨z, hz, -⟩ := Option.map_eq_some_iff.mp h3
          rw [hz]; rfl
  · intro h
    unfold Heap.view
    unfold Heap.children at h
    cases ho : H.ty a with
    | basic i s x => rfl
    | ext hd p b f ps it =>
      rw [ho] at h
      simp only [List.mem_append, List.mem_flatMap, Option.mem_toList] at h
      have e1 : (followMap (fun m => followMap r (H.tm m)) (H.fm f)).isSome = true :=
        followMap_isSome.mpr fun e he => followMap_isSome.mpr fun e' he' =>
          h e'.2 (Or.inl ⟨e, he, List.mem_map_of_mem he'⟩)
      obtain ⟨fs, e1⟩ := Option.isSome_iff_exists.mp e1
      have e3 : (followOpt r it).isSome = true := by
        cases it with
        | none => rfl
        | some c =>
          show ((r c).map some).isSome = true
          rw [Option.isSome_map]
          exact h c (Or.inr (Or.inr rfl))
      obtain ⟨it', e3⟩ := Option.isSome_iff_exists.mp e3
      simp only [e1, Option.bind_some, e3, Option.map_some]
      cases ps with
      | none => rfl
      | some m =>
        have e2 : (followMap r (H.tm m)).isSome = true := followMap_isSome.mpr fun e' he' =>
          h e'.2 (Or.inr (Or.inl (List.mem_map_of_mem he')))
        obtain ⟨ps', e2⟩ := Option.isSome_iff_exists.mp e2
        simp only [Heap.propsView, e2, Option.bind_some]; rfl

theorem val_mono {H : Heap} {n m : Nat} (hnm : n ≤ m) {a : Addr} {t : DT}
    (h : H.val n a = some t) : H.val m a = some t := by
  induction n generalizing m a t with
  | zero => cases h
  | succ n ih =>
    cases m with
    | zero => omega
    | succ m => exact view_mono (fun c _ t ht => ih (by omega) ht) h

theorem val_unique {H : Heap} {n m : Nat} {a : Addr} {t u : DT} (h : H.val n a = some t)
    (h' : H.val m a = some u) : t = u := by
  have h1 := val_mono (Nat.le_max_left n m) h
  have h2 := val_mono (Nat.le_max_right n m) h'
  exact Option.some.inj (h1.symm.trans h2)

/-! ### Writing gives what the value is written as -/

theorem typesNode_eq (H : Heap) (X : Xyml) (r : Addr → Option DT) (m : Addr) :
    H.typesNode (fun a => (r a).map (DT.toYAML X)) m =
      (followMap r (H.tm m)).map (typeMapNode X) := by
  unfold Heap.typesNode followMap
  have : (fun e : String × Addr => ((r e.2).map (DT.toYAML X)).map fun y => (Node.str e.1, y)) =
      fun e => ((r e.2).map fun y => (e.1, y)).map fun e => (Node.str e.1, e.2.toYAML X) := by
    funext e; cases r e.2 <;> rfl
  rw [this, mapM_map, Option.map_map, Option.map_map]
  congr 1
  funext es
  show renderPairs _ _ = typeMapNode X ⟨es, _⟩
  rw [typeMapNode, typeEnts_eq]

theorem writeStep_eq (H : Heap) (X : Xyml) (r : Addr → Option DT) (a : Addr) :
    H.writeStep X (fun a => (r a).map (DT.toYAML X)) a = (H.view r a).map (DT.toYAML X) := by
  unfold Heap.writeStep Heap.view
  cases ho : H.ty a with
  | basic i s x => show some _ = some _; rw [DT.toYAML]
  | ext hd p b f ps it =>
    have e1 : H.facetsNode (fun a => (r a).map (DT.toYAML X)) f =
        (followMap (fun m => followMap r (H.tm m)) (H.fm f)).map (facetsNode X) := by
      unfold Heap.facetsNode
      have hf : (fun e : String × Addr =>
          (H.typesNode (fun a => (r a).map (DT.toYAML X)) e.2).map fun y => (Node.str e.1, y)) =
          fun e => ((followMap r (H.tm e.2)).map fun y => (e.1, y)).map
            fun e => (Node.str e.1, typeMapNode X e.2) := by
        funext e; rw [typesNode_eq]; cases followMap r (H.tm e.2) <;> rfl
      rw [hf, mapM_map]
      unfold followMap
      generalize hl : ((H.fm f).ents.mapM fun e =>
        ((followMap r (H.tm e.2)).map fun y => (e.1, y))) = o
      have hl' : ((H.fm f).ents.mapM fun e =>
        ((Option.map (fun es => (⟨es, (H.tm e.2).omap⟩ : OM String DT))
          ((H.tm e.2).ents.mapM fun e => (r e.2).map fun y => (e.1, y))).map
            fun y => (e.1, y))) = o := hl
      rw [hl']
      cases o with
      | none =>
        split
        · rfl
        · rename_i h
          have : (H.fm f).ents = [] := by
            cases he : (H.fm f).ents with
            | nil => rfl
            | cons x l => rw [he] at h; simp at h
          rw [this] at hl; cases hl
      | some es =>
        have hlen := mapM_some_length hl
        simp only [Option.map_some]
        rw [facetsNode, facetEnts_eq, hlen]
        split <;> rfl
    have e2 : H.propsNode (fun a => (r a).map (DT.toYAML X)) ps =
        (H.propsView r ps).map (propsNode X) := by
      cases ps with
      | none => show some none = some _; rw [OM.empty, propsNode]; rfl
      | some m =>
        unfold Heap.propsNode Heap.propsView
        simp only [typesNode_eq]
        cases hm : followMap r (H.tm m) with
        | none =>
          split
          · rfl
          · rename_i h
            have : (H.tm m).ents = [] := by
              cases he : (H.tm m).ents with
              | nil => rfl
              | cons x l => rw [he] at h; simp at h
            unfold followMap at hm
            rw [this] at hm; cases hm
        | some y =>
          unfold followMap at hm
          obtain ⟨es, hl, rfl⟩ := Option.map_eq_some_iff.mp hm
          have hlen := mapM_some_length hl
          simp only [Option.map_some]
          rw [propsNode, typeMapNode, hlen]
          split <;> rfl
    have e3 : followOpt (fun a => (r a).map (DT.toYAML X)) it =
        (followOpt r it).map (itemsNode X) := by
      cases it with
      | none => show some none = some _; rw [itemsNode]
      | some c =>
        show ((r c).map (DT.toYAML X)).map some = ((r c).map some).map (itemsNode X)
        cases r c with
        | none => rfl
        | some t => show some _ = some _; rw [itemsNode]
    simp only [e1, e2, e3]
    cases followMap (fun m => followMap r (H.tm m)) (H.fm f) with
    | none => rfl
    | some fs =>
      simp only [Option.map_some, Option.bind_some]
      cases H.propsView r ps with
      | none => rfl
      | some ps' =>
        simp only [Option.map_some, Option.bind_some]
        cases followOpt r it with
        | none => rfl
        | some it' => simp only [Option.map_some]; rw [DT.toYAML]

theorem write_eq (H : Heap) (X : Xyml) (n : Nat) (a : Addr) :
    H.write X n a = (H.val n a).map (DT.toYAML X) := by
  induction n generalizing a with
  | zero => rfl
  | succ n ih =>
    rw [Heap.write, Heap.val, ← writeStep_eq]
    congr 1
    funext c
    exact ih c

end Verif.Doc
