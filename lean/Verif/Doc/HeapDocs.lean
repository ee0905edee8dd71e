import Verif.Doc.HeapSteps

/-! # Lemmas about writing object graphs and documents -/

namespace Verif.Doc
open Relation

/-! ### How deep writing goes -/

theorem no_val_chain {H : Heap} {n : Nat} {a : Addr} (h : H.val n a = none) :
    ∃ s : Nat → Addr, s 0 = a ∧ ∀ i < n, H.Child (s i) (s (i + 1)) := by
  induction n generalizing a with
  | zero => exact ⟨fun _ => a, rfl, fun i hi => absurd hi (Nat.not_lt_zero _)⟩
  | succ n ih =>
    have : ∃ c, H.Child a c ∧ H.val n c = none := by
      by_contra hn
      simp only [not_exists, not_and] at hn
      have hs : (H.val (n + 1) a).isSome = true := view_isSome.mpr fun c hc => by
        cases hv : H.val n c with
        | none => exact absurd hv (hn c hc)
        | some t => rfl
      rw [h] at hs; cases hs
    obtain ⟨c, hc, hv⟩ := this
    obtain ⟨s, h0, hs⟩ := ih hv
    refine ⟨fun i => if i = 0 then a else s (i - 1), rfl, fun i hi => ?_⟩
    cases i with
    | zero => simpa [h0] using hc
    | succ i => simpa using hs i (by omega)

/-- A stack for as many nested calls as there are addresses is enough, if any is. -/
theorem val_bound {H : Heap} (hw : H.Closed) {a : Addr} (ha : a < H.next) {n : Nat} {t : DT}
    (h : H.val n a = some t) : H.val H.next a = some t := by
  cases hv : H.val H.next a with
  | some u => rw [val_unique h hv]
  | none =>
    exfalso
    obtain ⟨N, hN⟩ : ∃ N : Nat, N = H.next := ⟨_, rfl⟩
    rw [← hN] at hv ha
    obtain ⟨s, h0, hs⟩ := no_val_chain hv
    have hp : ∀ i k, i + k ≤ N → ReflTransGen H.Child (s i) (s (i + k)) := by
      intro i k
      induction k with
      | zero => intro _; exact .refl
      | succ k ih => intro hk; exact (ih (by omega)).tail (hs (i + k) (by omega))
    have hb : ∀ i ≤ N, s i < N := by
      intro i hi
      have := hp 0 i (by omega)
      rw [Nat.zero_add, h0] at this
      exact hN ▸ closed_reaches hw (childs_reaches this) (hN ▸ ha)
    obtain ⟨i, j, hij, he⟩ := Fintype.exists_ne_map_eq_of_card_lt
      (fun i : Fin (N + 1) => (⟨s i, hb i (by omega)⟩ : Fin N)) (by simp)
    have he : s i = s j := by simpa using he
    have main : ∀ i j : Nat, i < j → j ≤ N → s i = s j → False := by
      intro i j hlt hj he
      have h1 := hp (i + 1) (j - (i + 1)) (by omega)
      rw [show i + 1 + (j - (i + 1)) = j by omega, ← he] at h1
      have hc := cycle_no_val (TransGen.head' (hs i (by omega)) h1)
      have hr := hp 0 i (by omega)
      rw [Nat.zero_add, h0] at hr
      rw [reaches_no_val hr hc n] at h; cases h
    rcases Nat.lt_or_gt_of_ne (fun h => hij (Fin.ext h) : (i : Nat) ≠ j) with h' | h'
    · exact main i j h' (by omega) he
    · exact main j i h' (by omega) he.symm

/-! ### Documents -/

theorem typesPart_eq (H : Heap) (X : Xyml) (n : Nat) (m : Addr) :
    (if (H.tm m).ents.length > 0 then (H.typesNode (H.write X n) m).map some else some none) =
      (followMap (H.val n) (H.tm m)).map fun ts => ifNonEmpty ts (typeMapNode X ts) := by
  have hw : H.write X n = fun a => (H.val n a).map (DT.toYAML X) := funext fun a => write_eq H X n a
  rw [hw, typesNode_eq]
  cases hm : followMap (H.val n) (H.tm m) with
  | none =>
    split
    · rfl
    · rename_i h
      have : (H.tm m).ents = [] := by
        cases he : (H.tm m).ents with
        | nil => rfl
        | cons x l => rw [he] at h; simp at h
      unfold followMap at hm
      rw [this] at hm; cases hm
  | some y =>
    unfold followMap at hm
    obtain ⟨es, hl, rfl⟩ := Option.map_eq_some_iff.mp hm
    have hlen := mapM_some_length hl
    simp only [Option.map_some, ifNonEmpty, OM.len, hlen]
    split <;> rfl

theorem apiWrite_eq (H : Heap) (X : Xyml) (n : Nat) (d : Addr) :
    H.apiWrite X n d = (H.apiVal n d).map (APISpec.toYAML X) := by
  unfold Heap.apiWrite Heap.apiVal
  simp only [typesPart_eq, Option.map_map]
  rfl

theorem libWrite_eq (H : Heap) (X : Xyml) (n : Nat) (d : Addr) :
    H.libWrite X n d = (H.libVal n d).map (Library.toYAML X) := by
  unfold Heap.libWrite Heap.libVal
  simp only [typesPart_eq, Option.map_map]
  rfl

theorem apiVal_mono {H : Heap} {n m : Nat} (hnm : n ≤ m) {d : Addr} {s : APISpec}
    (h : H.apiVal n d = some s) : H.apiVal m d = some s := by
  obtain ⟨ts, hts, rfl⟩ := Option.map_eq_some_iff.mp h
  exact Option.map_eq_some_iff.mpr ⟨ts, mapMono hnm hts, rfl⟩

theorem libVal_mono {H : Heap} {n m : Nat} (hnm : n ≤ m) {d : Addr} {s : Library}
    (h : H.libVal n d = some s) : H.libVal m d = some s := by
  obtain ⟨ts, hts, rfl⟩ := Option.map_eq_some_iff.mp h
  exact Option.map_eq_some_iff.mpr ⟨ts, mapMono hnm hts, rfl⟩

/-- The pointer from a document to its map of types. -/
theorem api_points (H : Heap) (d : Addr) : H.Points (.api d) (.tm (H.api d).types) := by
  simp [Heap.Points, Heap.refs]

theorem lib_points (H : Heap) (d : Addr) : H.Points (.lib d) (.tm (H.lib d).types) := by
  simp [Heap.Points, Heap.refs]

theorem leaf_reaches {H : Heap} {o o' : Obj} (hl : H.refs o = []) (h : H.Reaches o o') : o' = o := by
  rcases ReflTransGen.cases_head h with rfl | ⟨x, hx, _⟩
  · rfl
  · rw [Heap.Points, hl] at hx; cases hx

theorem api_reaches_ty {H : Heap} {d c : Addr} (h : H.Reaches (.api d) (.ty c)) :
    ∃ e ∈ (H.tm (H.api d).types).ents, H.Reaches (.ty e.2) (.ty c) := by
  rcases ReflTransGen.cases_head h with h | ⟨x, hx, hr⟩
  · cases h
  · simp only [Heap.Points, Heap.refs, List.mem_cons, List.not_mem_nil, or_false] at hx
    rcases hx with rfl | hx
    · rcases ReflTransGen.cases_head hr with h | ⟨y, hy, hr'⟩
      · cases h
      · simp only [Heap.Points, Heap.refs, List.mem_map] at hy
        obtain ⟨e, he, rfl⟩ := hy
        exact ⟨e, he, hr'⟩
    · exfalso
      have hl : H.refs x = [] := by
        rcases hx with rfl | rfl | rfl | rfl | rfl | rfl | rfl | rfl | rfl <;> rfl
      have := leaf_reaches hl hr
      rcases hx with rfl | rfl | rfl | rfl | rfl | rfl | rfl | rfl | rfl <;> cases this

theorem lib_reaches_ty {H : Heap} {d c : Addr} (h : H.Reaches (.lib d) (.ty c)) :
    ∃ e ∈ (H.tm (H.lib d).types).ents, H.Reaches (.ty e.2) (.ty c) := by
  rcases ReflTransGen.cases_head h with h | ⟨x, hx, hr⟩
  · cases h
  · simp only [Heap.Points, Heap.refs, List.mem_cons, List.not_mem_nil, or_false] at hx
    rcases hx with rfl | hx
    · rcases ReflTransGen.cases_head hr with h | ⟨y, hy, hr'⟩
      · cases h
      · simp only [Heap.Points, Heap.refs, List.mem_map] at hy
        obtain ⟨e, he, rfl⟩ := hy
        exact ⟨e, he, hr'⟩
    · exfalso
      have hl : H.refs x = [] := by
        rcases hx with rfl | rfl | rfl | rfl | rfl | rfl | rfl <;> rfl
      have := leaf_reaches hl hr
      rcases hx with rfl | rfl | rfl | rfl | rfl | rfl | rfl <;> cases this

theorem reaches_entry {H : Heap} {m : Addr} {e : String × Addr} (he : e ∈ (H.tm m).ents) :
    H.Points (.tm m) (.ty e.2) :=
  List.mem_map_of_mem (f := fun e : String × Addr => Obj.ty e.2) he

theorem followMap_bound {H : Heap} (hw : H.Closed) {m : Addr} {n : Nat} {y : OM String DT}
    (h : followMap (H.val n) (H.tm m) = some y) : followMap (H.val H.next) (H.tm m) = some y :=
  followMap_mono (fun _ he _ hy => val_bound hw (hw _ _ (reaches_entry he)) hy) h

theorem followMap_never {H : Heap} (hw : H.Closed) {m : Addr}
    (h : ∀ n, followMap (H.val n) (H.tm m) = none) :
    ∃ e ∈ (H.tm m).ents, ∀ n, H.val n e.2 = none := by
  have : ¬ (followMap (H.val H.next) (H.tm m)).isSome = true := by rw [h]; simp
  rw [followMap_isSome] at this
  push Not at this
  obtain ⟨e, he, hn⟩ := this
  refine ⟨e, he, fun n => ?_⟩
  cases hv : H.val n e.2 with
  | none => rfl
  | some t => rw [val_bound hw (show e.2 < H.next from hw _ _ (reaches_entry he)) hv] at hn; exact absurd rfl hn

theorem followMap_none {H : Heap} {m : Addr} {n : Nat} {e : String × Addr}
    (he : e ∈ (H.tm m).ents) (h : H.val n e.2 = none) : followMap (H.val n) (H.tm m) = none := by
  cases hf : followMap (H.val n) (H.tm m) with
  | none => rfl
  | some y =>
    have := followMap_isSome.mp (show (followMap (H.val n) (H.tm m)).isSome = true by rw [hf]; rfl)
      e he
    rw [h] at this; cases this

/-! ### Heaps that agree on a document -/

theorem sameFrom_apiVal {H H' : Heap} (n : Nat) {d : Addr} (hs : SameFrom H H' (.api d)) :
    H.apiVal n d = H'.apiVal n d := by
  have h0 : H.api d = H'.api d := hs _ .refl
  have hr : ∀ o ∈ H.refs (.api d), Same H H' o := fun o ho => hs o (.single ho)
  simp only [Heap.refs, List.mem_cons, List.not_mem_nil, or_false] at hr
  have h1 := hr (.um (H.api d).traits) (by simp)
  have h2 := hr (.um (H.api d).resourceTypes) (by simp)
  have h3 := hr (.um (H.api d).annotationTypes) (by simp)
  have h4 := hr (.am (H.api d).annotations) (by simp)
  have h5 := hr (.um (H.api d).securitySchemes) (by simp)
  have h6 := hr (.um (H.api d).baseURIParameters) (by simp)
  have h7 := hr (.sm (H.api d).uses) (by simp)
  have h8 := hr (.um (H.api d).resources) (by simp)
  have h9 := hr (.xm (H.api d).extra) (by simp)
  have ht : followMap (H.val n) (H.tm (H.api d).types) =
      followMap (H'.val n) (H'.tm (H.api d).types) :=
    sameFrom_tm (hs.step (api_points H d)) fun c hc => sameFrom_val n hc
  simp only [Same] at h1 h2 h3 h4 h5 h6 h7 h8 h9
  unfold Heap.apiVal
  rw [ht, h0]
  congr 1
  funext ts
  rw [h0] at h1 h2 h3 h4 h5 h6 h7 h8 h9
  simp only [Heap.apiWith, h0, h1, h2, h3, h4, h5, h6, h7, h8, h9]

theorem sameFrom_libVal {H H' : Heap} (n : Nat) {d : Addr} (hs : SameFrom H H' (.lib d)) :
    H.libVal n d = H'.libVal n d := by
  have h0 : H.lib d = H'.lib d := hs _ .refl
  have hr : ∀ o ∈ H.refs (.lib d), Same H H' o := fun o ho => hs o (.single ho)
  simp only [Heap.refs, List.mem_cons, List.not_mem_nil, or_false] at hr
  have h1 := hr (.um (H.lib d).traits) (by simp)
  have h2 := hr (.um (H.lib d).resourceTypes) (by simp)
  have h3 := hr (.um (H.lib d).annotationTypes) (by simp)
  have h4 := hr (.am (H.lib d).annotations) (by simp)
  have h5 := hr (.um (H.lib d).securitySchemes) (by simp)
  have h7 := hr (.sm (H.lib d).uses) (by simp)
  have h9 := hr (.xm (H.lib d).extra) (by simp)
  have ht : followMap (H.val n) (H.tm (H.lib d).types) =
      followMap (H'.val n) (H'.tm (H.lib d).types) :=
    sameFrom_tm (hs.step (lib_points H d)) fun c hc => sameFrom_val n hc
  simp only [Same] at h1 h2 h3 h4 h5 h7 h9
  unfold Heap.libVal
  rw [ht, h0]
  congr 1
  funext ts
  rw [h0] at h1 h2 h3 h4 h5 h7 h9
  simp only [Heap.libWith, h0, h1, h2, h3, h4, h5, h7, h9]

/-! ### Programs -/

theorem run_nil (X : Xyml) (H : Heap) : H.run X [] = H := rfl

theorem run_cons (X : Xyml) (H : Heap) (s : Act) (ss : List Act) :
    H.run X (s :: ss) = (H.act X s).run X ss := rfl

theorem reachable_run {X : Xyml} {H : Heap} (h : Reachable X H) {ss : List Act}
    (hl : H.LegalAll X ss) : Reachable X (H.run X ss) := by
  induction ss generalizing H with
  | nil => exact h
  | cons s ss ih => exact ih (.act s h hl.1) hl.2

theorem quiet_run {X : Xyml} {H : Heap} {ss : List Act} (hl : H.LegalAll X ss) :
    Quiet (H.touchesAll X ss) H (H.run X ss) := by
  induction ss generalizing H with
  | nil => exact Quiet.refl _ H
  | cons s ss ih =>
    exact ((quiet_act X hl.1).mono fun o ho => List.mem_append_left _ ho).trans
      ((ih hl.2).mono fun o ho => List.mem_append_right _ ho)

/-- What is out of reach of the changes stays the same. -/
theorem only_sameFrom {H H' : Heap} {T : List Obj} (hw : H.Closed) (hq : Only T H H') {o : Obj}
    (ho : o.addr < H.next) (hT : ∀ x ∈ T, ¬ H.Reaches o x) : SameFrom H H' o := fun o' hr =>
  hq.same o' (closed_reaches hw hr ho) fun hm => hT o' hm hr

end Verif.Doc
