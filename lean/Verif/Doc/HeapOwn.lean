import Verif.Doc.HeapExact

/-! # Lemmas: documents that own their sections -/

namespace Verif.Doc
open Relation

/-- Nothing points to a document. -/
theorem no_doc_points {H : Heap} {o : Obj} (x : Holder) : ¬ H.Points o x.obj := by
  intro h
  cases x with
  | api d =>
    cases o with
    | ty a =>
      simp only [Heap.Points, Heap.refs] at h
      split at h <;> simp [Holder.obj] at h
    | _ => simp [Heap.Points, Heap.refs, Holder.obj] at h
  | lib d =>
    cases o with
    | ty a =>
      simp only [Heap.Points, Heap.refs] at h
      split at h <;> simp [Holder.obj] at h
    | _ => simp [Heap.Points, Heap.refs, Holder.obj] at h

theorem not_inside_doc {H : Heap} {o : Obj} (x : Holder) : ¬ H.Inside o x.obj := fun h => by
  obtain ⟨y, _, hy⟩ := TransGen.tail'_iff.mp h
  exact no_doc_points x hy

section own
variable {H H' : Heap} {x : Holder}

/-- A section that the document alone points to cannot be reached from below the document. -/
theorem docOwned_below {s : Obj} (ho : H.OwnedBy x.obj s) {o : Obj} (h1 : H.Inside x.obj o) :
    ¬ H.Inside o s := by
  intro h2
  obtain ⟨y, hy, hp⟩ := TransGen.tail'_iff.mp h2
  have := ho y (h1.to_reflTransGen.trans hy) hp
  subst this
  exact not_inside_doc x (h1.trans_left hy)

theorem docOwned_kept (hw : H.Closed) {s : Obj} (ho : H.OwnedBy x.obj s) (hq : Only [s] H H')
    {o : Obj} (hp : H.Points x.obj o) (hne : o ≠ s) : SameFrom H H' o :=
  only_sameFrom hw hq (hw _ _ hp) fun y hy hr => by
    rw [List.mem_singleton.mp hy] at hr
    rcases reflTransGen_iff_eq_or_transGen.mp hr with h | h
    · exact hne h.symm
    · exact docOwned_below ho (.single hp) h

theorem docOwned_kept' (hw : H.Closed) {s : Obj} (ho : H.OwnedBy x.obj s) (hq : Only [s] H H')
    {o : Obj} (hp : H.Points x.obj s) (hp' : H.Points s o) : SameFrom H H' o :=
  only_sameFrom hw hq (hw _ _ hp') fun y hy hr => by
    rw [List.mem_singleton.mp hy] at hr
    exact docOwned_below ho (.single hp) (TransGen.head' hp' hr)

/-- Owning depends on pointers only. -/
theorem own_congr (h : ∀ o, H'.refs o = H.refs o) (ho : H.Own x) : H'.Own x := by
  have hp : H'.Points = H.Points := by
    funext o o'
    simp only [Heap.Points, h]
  refine ⟨by rw [h]; exact ho.1, fun s hs o' hr hpt => ?_⟩
  rw [h] at hs
  have hr : H.Reaches x.obj o' := by
    unfold Heap.Reaches at hr ⊢
    rw [← hp]; exact hr
  rw [hp] at hpt
  exact ho.2 s hs o' hr hpt

/-- New data types do not point to old sections. -/
theorem own_grows (hg : GrowsBy H H') (hw : H.Closed) (hx : x.obj.addr < H.next)
    (hr : H'.refs x.obj = H.refs x.obj) (ho : H.Own x) : H'.Own x := by
  refine ⟨by rw [hr]; exact ho.1, fun s hs o' hre hpt => ?_⟩
  rw [hr] at hs
  have hlt : s.addr < H.next := hw _ _ hs
  rcases hg.reaches hw hx hre with h1 | h1
  · rcases hg.ptr _ _ (closed_reaches hw h1 hx) hpt with h2 | h2
    · exact ho.2 s hs o' h1 h2
    · exact absurd hlt (Nat.not_lt.mpr h2.self.1)
  · exact absurd hlt (Nat.not_lt.mpr (h1.step hpt).self.1)

end own

/-- Putting a new data type into an owned section of types shows as putting its value. -/
theorem putType_typeMap {H : Heap} (hw : H.Closed) {x : Holder} {m : Addr}
    (ho : H.OwnedBy x.obj (.tm m)) (hp : H.Points x.obj (.tm m)) {n : Nat} {ts : OM String DT}
    (hts : followMap (H.val n) (H.tm m) = some ts) (k : String) (t : DT) :
    ∃ n', followMap ((H.putType m k t).val n') ((H.putType m k t).tm m) = some (ts.put k t) := by
  have h := storeT_ok t H
  have hm : m < H.next := hw _ _ hp
  have hq := (quiet_putType H m k t).only
  have hs : SameFrom (H.storeT t).2 (H.putType m k t) (.ty (H.storeT t).1) := by
    intro x hx
    have hb := (h.above x hx).1
    cases x with
    | tm a =>
      refine (upd_ne _ _ fun e => ?_).symm
      subst e
      exact absurd hm (Nat.not_lt.mpr hb)
    | _ => rfl
  obtain ⟨n2, hn2⟩ := h.val
  refine ⟨max n n2, ?_⟩
  have hsm : H.tm m = (H.storeT t).2.tm m := h.ext.same (.tm m) hm
  have e1 : followMap ((H.putType m k t).val (max n n2)) (H.tm m) = some ts := by
    rw [← mapMono (Nat.le_max_left n n2) hts]
    refine followMap_congr fun e he => (sameFrom_val _ (docOwned_kept' hw ho hq hp ?_)).symm
    exact List.mem_map.mpr ⟨e, he, rfl⟩
  have e2 : (H.putType m k t).val (max n n2) (H.storeT t).1 = some t := by
    rw [← sameFrom_val _ hs]
    exact val_mono (Nat.le_max_right n n2) hn2
  have := followMap_put (k := k) e1 e2
  simpa only [Heap.putType, upd_self, ← hsm] using this

/-! ### Runs that go the same way -/

/-- The two runs end in states that belong together, and in the same way. -/
def LiveSim {σ τ : Type} (R : σ → τ → Prop) (p : Live σ) (q : Live τ) : Prop :=
  R p.1 q.1 ∧ p.2 = q.2

theorem livePairs_sim {σ τ : Type} {R : σ → τ → Prop} {f : Node → Node → σ → Live σ}
    {g : Node → Node → τ → Live τ} (h : ∀ k v s t, R s t → LiveSim R (f k v s) (g k v t))
    (ps : List (Node × Node)) {s : σ} {t : τ} (hst : R s t) :
    LiveSim R (livePairs f ps s) (livePairs g ps t) := by
  induction ps generalizing s t with
  | nil => exact ⟨hst, rfl⟩
  | cons p ps ih =>
    have hs := h p.1 p.2 s t hst
    unfold livePairs
    obtain ⟨h1, h2⟩ := hs
    generalize f p.1 p.2 s = a at h1 h2
    generalize g p.1 p.2 t = b at h1 h2
    obtain ⟨a1, a2⟩ := a
    obtain ⟨b1, b2⟩ := b
    simp only at h1 h2
    subst h2
    cases a2 with
    | ok u => exact ih h1
    | err e => exact ⟨h1, rfl⟩
    | panic c => exact ⟨h1, rfl⟩

theorem liveMap_sim {σ τ : Type} {R : σ → τ → Prop} {f : Node → Node → σ → Live σ}
    {g : Node → Node → τ → Live τ} (h : ∀ k v s t, R s t → LiveSim R (f k v s) (g k v t))
    (v : Node) {s : σ} {t : τ} (hst : R s t) : LiveSim R (liveMap f v s) (liveMap g v t) := by
  cases v with
  | map ps => exact livePairs_sim h ps hst
  | scalar a b => exact ⟨hst, rfl⟩
  | seq a b => exact ⟨hst, rfl⟩

theorem store_sim {σ τ α : Type} {R : σ → τ → Prop} {r : Res α} {f : σ → α → σ} {g : τ → α → τ}
    {s : σ} {t : τ} (hst : R s t) (h : ∀ a, r = .ok a → R (f s a) (g t a)) :
    LiveSim R (store r f s) (store r g t) := by
  cases r with
  | ok a => exact ⟨h a rfl, rfl⟩
  | err e => exact ⟨hst, rfl⟩
  | panic c => exact ⟨hst, rfl⟩

/-! ### API documents -/

/-- The object owns its sections and stands for the value. -/
structure ApiSim (d : Addr) (H : Heap) (s : APISpec) : Prop where
  closed : H.Closed
  lt : d < H.next
  own : H.Own (.api d)
  val : ∃ n, H.apiVal n d = some s

theorem ApiSim.types {d : Addr} {H : Heap} {s : APISpec} (h : ApiSim d H s) :
    ∃ n ts, followMap (H.val n) (H.tm (H.api d).types) = some ts ∧ s = H.apiWith d ts := by
  obtain ⟨n, hn⟩ := h.val
  obtain ⟨ts, hts, rfl⟩ := Option.map_eq_some_iff.mp hn
  exact ⟨n, ts, hts, rfl⟩

/-- The sections of untyped values are different. -/
theorem ApiSim.um {d : Addr} {H : Heap} {s : APISpec} (h : ApiSim d H s) :
    [(H.api d).traits, (H.api d).resourceTypes, (H.api d).annotationTypes,
      (H.api d).securitySchemes, (H.api d).baseURIParameters, (H.api d).resources].Nodup := by
  have := h.own.1
  simp only [Holder.obj, Heap.refs, List.nodup_cons, List.mem_cons, List.not_mem_nil, or_false,
    Obj.um.injEq, reduceCtorEq, false_or, not_or, List.nodup_nil, not_false_eq_true, and_true,
    true_and] at this ⊢
  tauto

theorem refs_um (H : Heap) (m : Addr) (x : OM String Node) (o : Obj) :
    Heap.refs { H with um := upd H.um m x } o = H.refs o := by cases o <;> rfl
theorem refs_sm (H : Heap) (m : Addr) (x : OM String String) (o : Obj) :
    Heap.refs { H with sm := upd H.sm m x } o = H.refs o := by cases o <;> rfl
theorem refs_am (H : Heap) (m : Addr) (x : OM String Ann) (o : Obj) :
    Heap.refs { H with am := upd H.am m x } o = H.refs o := by cases o <;> rfl
theorem refs_xm (H : Heap) (m : Addr) (x : OM Scalar Node) (o : Obj) :
    Heap.refs { H with xm := upd H.xm m x } o = H.refs o := by cases o <;> rfl
theorem refs_setApiV (H : Heap) (d : Addr) (f : APISpec → APISpec) (o : Obj) :
    (H.setApiV d f).refs o = H.refs o := by
  cases o with
  | api a =>
    by_cases ha : a = d
    · subst ha; simp only [Heap.refs, Heap.setApiV, upd_self]
    · simp only [Heap.refs, Heap.setApiV, upd_ne _ _ ha]
  | _ => rfl

theorem closed_congr {H H' : Heap} (hw : H.Closed) (hn : H'.next = H.next)
    (h : ∀ o, H'.refs o = H.refs o) : H'.Closed := by
  intro o o' hp
  rw [hn]
  exact hw o o' (by rw [Heap.Points, ← h]; exact hp)

/-- A change of a section other than the types. -/
theorem ApiSim.leaf {d : Addr} {H H' : Heap} {s s' : APISpec} (h : ApiSim d H s) {o : Obj}
    (ho : H.Points (.api d) o) (hne : o ≠ .tm (H.api d).types) (hq : Only [o] H H')
    (hn : H'.next = H.next) (hr : ∀ o, H'.refs o = H.refs o) (hapi : H'.api d = H.api d)
    (hs : ∀ ts, s = H.apiWith d ts → s' = H'.apiWith d ts) : ApiSim d H' s' := by
  obtain ⟨n, ts, hts, rfl⟩ := h.types
  refine ⟨closed_congr h.closed hn hr, hn.symm ▸ h.lt, own_congr hr h.own, n, ?_⟩
  rw [hs ts rfl]
  unfold Heap.apiVal
  have hk := docOwned_kept (x := .api d) h.closed (h.own.2 o ho) hq (api_points H d) (Ne.symm hne)
  have := sameFrom_typeMap hk n
  unfold Heap.typeMap at this
  rw [hapi, this, hts]
  rfl

theorem ApiSim.setV {d : Addr} {H : Heap} {s : APISpec} (h : ApiSim d H s) {f : APISpec → APISpec}
    (hf : ∀ ts, f (H.apiWith d ts) = (H.setApiV d f).apiWith d ts) :
    ApiSim d (H.setApiV d f) (f s) := by
  obtain ⟨n, ts, hts, rfl⟩ := h.types
  refine ⟨closed_congr h.closed rfl (refs_setApiV H d f), h.lt, own_congr (refs_setApiV H d f) h.own,
    n, ?_⟩
  rw [hf]
  have hk : SameFrom H (H.setApiV d f) (.tm (H.api d).types) :=
    only_sameFrom h.closed (quiet_setApiV H d f).only (h.closed _ _ (api_points H d))
      fun x hx hr => by
        rw [List.mem_singleton.mp hx] at hr
        rcases reflTransGen_iff_eq_or_transGen.mp hr with h | h
        · cases h
        · exact not_inside_doc (.api d) h
  have e := sameFrom_typeMap hk n
  unfold Heap.typeMap at e
  have ha : ((H.setApiV d f).api d).types = (H.api d).types := by
    simp only [Heap.setApiV, upd_self]
  unfold Heap.apiVal
  rw [ha, e, hts]
  rfl

theorem ApiSim.put {d : Addr} {H : Heap} {s : APISpec} (h : ApiSim d H s) (k : String) (t : DT) :
    ApiSim d (H.putType (H.api d).types k t) { s with types := s.types.put k t } := by
  obtain ⟨n, ts, hts, rfl⟩ := h.types
  have hp := api_points H d
  have hg := (grows_putType h.closed (h.closed _ _ hp) k t).by h.closed
  have hdoc := putType_docs H (H.api d).types k t
  have hrefs : (H.putType (H.api d).types k t).refs (.api d) = H.refs (.api d) := by
    simp only [Heap.refs, hdoc.1]
  obtain ⟨n', hn'⟩ := putType_typeMap (x := .api d) h.closed (h.own.2 _ hp) hp hts k t
  refine ⟨hg.closed, Nat.lt_of_lt_of_le h.lt hg.next,
    own_grows (x := .api d) hg h.closed h.lt hrefs h.own, n', ?_⟩
  have hq := (quiet_putType H (H.api d).types k t).only
  have hsame : ∀ o, H.Points (.api d) o → o ≠ .tm (H.api d).types →
      Same H (H.putType (H.api d).types k t) o := fun o ho hne =>
    hq.same o (h.closed _ _ ho) (by simpa using hne)
  unfold Heap.apiVal
  rw [hdoc.1, hn']
  have e : ∀ o ∈ H.refs (.api d), o ≠ .tm (H.api d).types →
      Same H (H.putType (H.api d).types k t) o := hsame
  simp only [Heap.refs, List.mem_cons, List.not_mem_nil, or_false, forall_eq_or_imp, forall_eq,
    ne_eq, not_true_eq_false, false_imp_iff, reduceCtorEq, not_false_eq_true, true_imp_iff,
    true_and, Same] at e
  obtain ⟨e1, e2, e3, e4, e5, e6, e7, e8, e9⟩ := e
  simp only [Option.map_some, Heap.apiWith, hdoc.1, ← e1, ← e2, ← e3, ← e4, ← e5, ← e6, ← e7,
    ← e8, ← e9]

/-- Loading types. -/
theorem ApiSim.loadTypes {X : Xyml} {d : Addr} {H : Heap} {s : APISpec} (h : ApiSim d H s)
    (v : Node) : LiveSim (ApiSim d) (H.loadTm X (H.api d).types v)
      ((liveTypes X v s.types).within fun m => { s with types := m }) := by
  have key : ∀ m0, LiveSim (fun H' (m : OM String DT) => ApiSim d H' { s with types := m } ∧
      (H'.api d).types = m0) (H.loadTm X m0 v) (liveTypes X v s.types) ∨
      (H.api d).types ≠ m0 := by
    intro m0
    by_cases hm : (H.api d).types = m0
    · refine Or.inl ?_
      unfold Heap.loadTm liveTypes
      refine liveMap_sim (R := fun H' (m : OM String DT) => ApiSim d H' { s with types := m } ∧
        (H'.api d).types = m0) (fun k v H' m hR => ?_) v ⟨h, hm⟩
      refine store_sim (R := fun H' (m : OM String DT) => ApiSim d H' { s with types := m } ∧
        (H'.api d).types = m0) hR fun e _ => ⟨?_, ?_⟩
      · have := hR.1.put e.1 e.2
        rw [hR.2] at this
        exact this
      · rw [(putType_docs H' m0 e.1 e.2).1]
        exact hR.2
    · exact Or.inr hm
  rcases key (H.api d).types with hk | hk
  · exact ⟨hk.1.1, hk.2⟩
  · exact absurd rfl hk

theorem api_mem (H : Heap) (d : Addr) (o : Obj) : H.Points (.api d) o ↔
    o ∈ [Obj.tm (H.api d).types, .um (H.api d).traits, .um (H.api d).resourceTypes,
      .um (H.api d).annotationTypes, .am (H.api d).annotations, .um (H.api d).securitySchemes,
      .um (H.api d).baseURIParameters, .sm (H.api d).uses, .um (H.api d).resources,
      .xm (H.api d).extra] := Iff.rfl

/-- Loading one entry. -/
theorem apiAssign_sim {X : Xyml} {d : Addr} {H : Heap} {s : APISpec} (h : ApiSim d H s)
    (k v : Node) : LiveSim (ApiSim d) (H.apiAssign X d k v) (s.liveAssign X k v) := by
  have hum := h.um
  simp only [List.nodup_cons, List.mem_cons, List.not_mem_nil, or_false, not_or, List.nodup_nil,
    not_false_eq_true, and_true] at hum
  obtain ⟨⟨n1, n2, n3, n4, n5⟩, ⟨n6, n7, n8, n9⟩, ⟨n10, n11, n12⟩, ⟨n13, n14⟩, n15⟩ := hum
  have um : ∀ {m x} {s' : APISpec}, H.Points (.api d) (.um m) →
      (∀ ts, s = H.apiWith d ts → s' = Heap.apiWith { H with um := upd H.um m x } d ts) →
      ApiSim d { H with um := upd H.um m x } s' := fun hp hs =>
    h.leaf hp (by simp) (quiet_um H _).only rfl (refs_um H _ _) rfl hs
  have hxm : ∀ {r : Res Scalar}, LiveSim (ApiSim d)
      (store r (fun H' c => H'.putXm (H.api d).extra c v) H)
      (store r (fun a c => { a with extra := a.extra.put c v }) s) := by
    intro r
    refine store_sim h fun c _ => ?_
    refine h.leaf (o := .xm (H.api d).extra) (by simp [api_mem]) (by simp) (quiet_xm H _).only rfl
      (refs_xm H _ _) rfl ?_
    rintro ts rfl
    simp only [Heap.apiWith, Heap.putXm, upd_self]
  have hV : ∀ {α : Type} {r : Res α} (f : α → APISpec → APISpec),
      (∀ c ts, f c (H.apiWith d ts) = (H.setApiV d (f c)).apiWith d ts) →
      LiveSim (ApiSim d) (store r (fun H c => H.setApiV d (f c)) H)
        (store r (fun a c => f c a) s) := fun f hf =>
    store_sim h fun c _ => h.setV (hf c)
  unfold Heap.apiAssign APISpec.liveAssign
  by_cases hk : k.isStr
  · simp only [hk, Bool.not_true, Bool.false_eq_true, if_false]
    cases firstChar k.value with
    | none => exact ⟨h, rfl⟩
    | some c =>
      dsimp only
      by_cases hc : c = '('
      · rw [if_pos hc, if_pos hc]
        refine store_sim h fun x _ => ?_
        refine h.leaf (o := .am (H.api d).annotations) (by simp [api_mem]) (by simp)
          (quiet_am H _).only rfl (refs_am H _ _) rfl ?_
        rintro ts rfl
        simp only [Heap.apiWith, Heap.putAm, upd_self]
      rw [if_neg hc, if_neg hc]
      by_cases hc' : c = '/'
      · rw [if_pos hc', if_pos hc']
        refine ⟨um (by simp [api_mem]) ?_, rfl⟩
        rintro ts rfl
        simp only [Heap.apiWith, upd_self, upd_ne _ _ n5, upd_ne _ _ n9, upd_ne _ _ n12,
          upd_ne _ _ n14, upd_ne _ _ n15]
      rw [if_neg hc', if_neg hc']
      unfold Heap.apiKey APISpec.liveKey
      by_cases hk1 : k.value = "title"
      · rw [if_pos hk1, if_pos hk1]
        exact hV (fun c a => { a with title := c }) fun c ts => by
          simp only [Heap.apiWith, Heap.setApiV, upd_self]
      rw [if_neg hk1, if_neg hk1]
      clear hk1
      by_cases hk1 : k.value = "version"
      · rw [if_pos hk1, if_pos hk1]
        exact hV (fun c a => { a with version := some c }) fun c ts => by
          simp only [Heap.apiWith, Heap.setApiV, upd_self]
      rw [if_neg hk1, if_neg hk1]
      clear hk1
      by_cases hk1 : k.value = "baseUri"
      · rw [if_pos hk1, if_pos hk1]
        exact hV (fun c a => { a with baseURI := some c }) fun c ts => by
          simp only [Heap.apiWith, Heap.setApiV, upd_self]
      rw [if_neg hk1, if_neg hk1]
      clear hk1
      by_cases hk1 : k.value = "description"
      · rw [if_pos hk1, if_pos hk1]
        exact hV (fun c a => { a with description := some c }) fun c ts => by
          simp only [Heap.apiWith, Heap.setApiV, upd_self]
      rw [if_neg hk1, if_neg hk1]
      clear hk1
      by_cases hk1 : k.value = "protocols"
      · rw [if_pos hk1, if_pos hk1]
        exact hV (fun c a => { a with protocols := some c }) fun c ts => by
          simp only [Heap.apiWith, Heap.setApiV, upd_self]
      rw [if_neg hk1, if_neg hk1]
      clear hk1
      by_cases hk1 : k.value = "mediaType"
      · rw [if_pos hk1, if_pos hk1]
        by_cases hv : v.isStr
        · rw [if_pos hv, if_pos hv]
          exact ⟨h.setV (f := fun a =>
            { a with mediaType := some (a.mediaType.getD [] ++ [v.value]) }) fun ts => by
              simp only [Heap.apiWith, Heap.setApiV, upd_self], rfl⟩
        · rw [if_neg hv, if_neg hv]
          exact hV (fun c a => { a with mediaType := some c }) fun c ts => by
            simp only [Heap.apiWith, Heap.setApiV, upd_self]
      rw [if_neg hk1, if_neg hk1]
      clear hk1
      by_cases hk1 : k.value = "documentation"
      · rw [if_pos hk1, if_pos hk1]
        have hd : (H.api d).v.documentation = s.documentation := by
          obtain ⟨n, ts, _, rfl⟩ := h.types
          rfl
        rw [hd]
        exact ⟨h.setV (f := fun a => { a with documentation := (liveDocs X v s.documentation).1 })
          fun ts => by simp only [Heap.apiWith, Heap.setApiV, upd_self], rfl⟩
      rw [if_neg hk1, if_neg hk1]
      clear hk1
      by_cases hk1 : k.value = "securedBy"
      · rw [if_pos hk1, if_pos hk1]
        exact hV (fun c a => { a with securedBy := some c }) fun c ts => by
          simp only [Heap.apiWith, Heap.setApiV, upd_self]
      rw [if_neg hk1, if_neg hk1]
      clear hk1
      by_cases hk1 : k.value = "uses"
      · rw [if_pos hk1, if_pos hk1]
        have hd : H.sm (H.api d).uses = s.uses := by
          obtain ⟨n, ts, _, rfl⟩ := h.types
          rfl
        unfold Heap.loadSm
        rw [hd]
        refine ⟨h.leaf (o := .sm (H.api d).uses) (by simp [api_mem]) (by simp)
          (quiet_sm H _).only rfl (refs_sm H _ _) rfl ?_, rfl⟩
        rintro ts rfl
        simp only [Heap.apiWith, Live.within, upd_self]
      rw [if_neg hk1, if_neg hk1]
      clear hk1
      by_cases hk1 : k.value = "securitySchemes"
      · rw [if_pos hk1, if_pos hk1]
        have hd : H.um (H.api d).securitySchemes = s.securitySchemes := by
          obtain ⟨n, ts, _, rfl⟩ := h.types
          rfl
        unfold Heap.loadUm
        rw [hd]
        refine ⟨um (by simp [api_mem]) ?_, rfl⟩
        rintro ts rfl
        simp only [Heap.apiWith, Live.within, upd_self, upd_ne _ _ n3, upd_ne _ _ n7, upd_ne _ _ n10,
          upd_ne _ _ (Ne.symm n13), upd_ne _ _ (Ne.symm n14)]
      rw [if_neg hk1, if_neg hk1]
      clear hk1
      by_cases hk1 : k.value = "baseUriParameters"
      · rw [if_pos hk1, if_pos hk1]
        have hd : H.um (H.api d).baseURIParameters = s.baseURIParameters := by
          obtain ⟨n, ts, _, rfl⟩ := h.types
          rfl
        unfold Heap.loadUm
        rw [hd]
        refine ⟨um (by simp [api_mem]) ?_, rfl⟩
        rintro ts rfl
        simp only [Heap.apiWith, Live.within, upd_self, upd_ne _ _ n4, upd_ne _ _ n8, upd_ne _ _ n11,
          upd_ne _ _ n13, upd_ne _ _ (Ne.symm n15)]
      rw [if_neg hk1, if_neg hk1]
      clear hk1
      by_cases hk1 : k.value = "traits"
      · rw [if_pos hk1, if_pos hk1]
        have hd : H.um (H.api d).traits = s.traits := by
          obtain ⟨n, ts, _, rfl⟩ := h.types
          rfl
        unfold Heap.loadUm
        rw [hd]
        refine ⟨um (by simp [api_mem]) ?_, rfl⟩
        rintro ts rfl
        simp only [Heap.apiWith, Live.within, upd_self, upd_ne _ _ (Ne.symm n1), upd_ne _ _ (Ne.symm n2), upd_ne _ _ (Ne.symm n3),
          upd_ne _ _ (Ne.symm n4), upd_ne _ _ (Ne.symm n5)]
      rw [if_neg hk1, if_neg hk1]
      clear hk1
      by_cases hk1 : k.value = "annotationTypes"
      · rw [if_pos hk1, if_pos hk1]
        have hd : H.um (H.api d).annotationTypes = s.annotationTypes := by
          obtain ⟨n, ts, _, rfl⟩ := h.types
          rfl
        unfold Heap.loadUm
        rw [hd]
        refine ⟨um (by simp [api_mem]) ?_, rfl⟩
        rintro ts rfl
        simp only [Heap.apiWith, Live.within, upd_self, upd_ne _ _ n2, upd_ne _ _ n6, upd_ne _ _ (Ne.symm n10),
          upd_ne _ _ (Ne.symm n11), upd_ne _ _ (Ne.symm n12)]
      rw [if_neg hk1, if_neg hk1]
      clear hk1
      by_cases hk1 : k.value = "resourceTypes"
      · rw [if_pos hk1, if_pos hk1]
        have hd : H.um (H.api d).resourceTypes = s.resourceTypes := by
          obtain ⟨n, ts, _, rfl⟩ := h.types
          rfl
        unfold Heap.loadUm
        rw [hd]
        refine ⟨um (by simp [api_mem]) ?_, rfl⟩
        rintro ts rfl
        simp only [Heap.apiWith, Live.within, upd_self, upd_ne _ _ n1, upd_ne _ _ (Ne.symm n6), upd_ne _ _ (Ne.symm n7),
          upd_ne _ _ (Ne.symm n8), upd_ne _ _ (Ne.symm n9)]
      rw [if_neg hk1, if_neg hk1]
      clear hk1
      by_cases hk1 : k.value = "types" ∨ k.value = "schemas"
      · rw [if_pos hk1, if_pos hk1]
        exact h.loadTypes v
      rw [if_neg hk1, if_neg hk1]
      clear hk1
      exact hxm
  · simp only [hk, Bool.not_false, if_true]
    exact hxm

theorem apiLoad_sim {X : Xyml} {d : Addr} {H : Heap} {s : APISpec} (h : ApiSim d H s) (v : Node) :
    LiveSim (ApiSim d) (H.apiLoad X d v) (s.load X v) :=
  liveMap_sim (fun k v _ _ h => apiAssign_sim h k v) v h

/-! ### Libraries -/

/-- The object owns its sections and stands for the value. -/
structure LibSim (d : Addr) (H : Heap) (s : Library) : Prop where
  closed : H.Closed
  lt : d < H.next
  own : H.Own (.lib d)
  val : ∃ n, H.libVal n d = some s

theorem LibSim.types {d : Addr} {H : Heap} {s : Library} (h : LibSim d H s) :
    ∃ n ts, followMap (H.val n) (H.tm (H.lib d).types) = some ts ∧ s = H.libWith d ts := by
  obtain ⟨n, hn⟩ := h.val
  obtain ⟨ts, hts, rfl⟩ := Option.map_eq_some_iff.mp hn
  exact ⟨n, ts, hts, rfl⟩

/-- The sections of untyped values are different. -/
theorem LibSim.um {d : Addr} {H : Heap} {s : Library} (h : LibSim d H s) :
    [(H.lib d).traits, (H.lib d).resourceTypes, (H.lib d).annotationTypes,
      (H.lib d).securitySchemes].Nodup := by
  have := h.own.1
  simp only [Holder.obj, Heap.refs, List.nodup_cons, List.mem_cons, List.not_mem_nil, or_false,
    Obj.um.injEq, reduceCtorEq, false_or, not_or, List.nodup_nil, not_false_eq_true, and_true,
    true_and] at this ⊢
  tauto

theorem refs_setLibV (H : Heap) (d : Addr) (f : Library → Library) (o : Obj) :
    (H.setLibV d f).refs o = H.refs o := by
  cases o with
  | lib a =>
    by_cases ha : a = d
    · subst ha; simp only [Heap.refs, Heap.setLibV, upd_self]
    · simp only [Heap.refs, Heap.setLibV, upd_ne _ _ ha]
  | _ => rfl

/-- A change of a section other than the types. -/
theorem LibSim.leaf {d : Addr} {H H' : Heap} {s s' : Library} (h : LibSim d H s) {o : Obj}
    (ho : H.Points (.lib d) o) (hne : o ≠ .tm (H.lib d).types) (hq : Only [o] H H')
    (hn : H'.next = H.next) (hr : ∀ o, H'.refs o = H.refs o) (hlib : H'.lib d = H.lib d)
    (hs : ∀ ts, s = H.libWith d ts → s' = H'.libWith d ts) : LibSim d H' s' := by
  obtain ⟨n, ts, hts, rfl⟩ := h.types
  refine ⟨closed_congr h.closed hn hr, hn.symm ▸ h.lt, own_congr hr h.own, n, ?_⟩
  rw [hs ts rfl]
  unfold Heap.libVal
  have hk := docOwned_kept (x := .lib d) h.closed (h.own.2 o ho) hq (lib_points H d) (Ne.symm hne)
  have := sameFrom_typeMap hk n
  unfold Heap.typeMap at this
  rw [hlib, this, hts]
  rfl

theorem LibSim.setV {d : Addr} {H : Heap} {s : Library} (h : LibSim d H s) {f : Library → Library}
    (hf : ∀ ts, f (H.libWith d ts) = (H.setLibV d f).libWith d ts) :
    LibSim d (H.setLibV d f) (f s) := by
  obtain ⟨n, ts, hts, rfl⟩ := h.types
  refine ⟨closed_congr h.closed rfl (refs_setLibV H d f), h.lt, own_congr (refs_setLibV H d f) h.own,
    n, ?_⟩
  rw [hf]
  have hk : SameFrom H (H.setLibV d f) (.tm (H.lib d).types) :=
    only_sameFrom h.closed (quiet_setLibV H d f).only (h.closed _ _ (lib_points H d))
      fun x hx hr => by
        rw [List.mem_singleton.mp hx] at hr
        rcases reflTransGen_iff_eq_or_transGen.mp hr with h | h
        · cases h
        · exact not_inside_doc (.lib d) h
  have e := sameFrom_typeMap hk n
  unfold Heap.typeMap at e
  have ha : ((H.setLibV d f).lib d).types = (H.lib d).types := by
    simp only [Heap.setLibV, upd_self]
  unfold Heap.libVal
  rw [ha, e, hts]
  rfl

theorem LibSim.put {d : Addr} {H : Heap} {s : Library} (h : LibSim d H s) (k : String) (t : DT) :
    LibSim d (H.putType (H.lib d).types k t) { s with types := s.types.put k t } := by
  obtain ⟨n, ts, hts, rfl⟩ := h.types
  have hp := lib_points H d
  have hg := (grows_putType h.closed (h.closed _ _ hp) k t).by h.closed
  have hdoc := putType_docs H (H.lib d).types k t
  have hrefs : (H.putType (H.lib d).types k t).refs (.lib d) = H.refs (.lib d) := by
    simp only [Heap.refs, hdoc.2]
  obtain ⟨n', hn'⟩ := putType_typeMap (x := .lib d) h.closed (h.own.2 _ hp) hp hts k t
  refine ⟨hg.closed, Nat.lt_of_lt_of_le h.lt hg.next,
    own_grows (x := .lib d) hg h.closed h.lt hrefs h.own, n', ?_⟩
  have hq := (quiet_putType H (H.lib d).types k t).only
  have hsame : ∀ o, H.Points (.lib d) o → o ≠ .tm (H.lib d).types →
      Same H (H.putType (H.lib d).types k t) o := fun o ho hne =>
    hq.same o (h.closed _ _ ho) (by simpa using hne)
  unfold Heap.libVal
  rw [hdoc.2, hn']
  have e : ∀ o ∈ H.refs (.lib d), o ≠ .tm (H.lib d).types →
      Same H (H.putType (H.lib d).types k t) o := hsame
  simp only [Heap.refs, List.mem_cons, List.not_mem_nil, or_false, forall_eq_or_imp, forall_eq,
    ne_eq, not_true_eq_false, false_imp_iff, reduceCtorEq, not_false_eq_true, true_imp_iff,
    true_and, Same] at e
  obtain ⟨e1, e2, e3, e4, e5, e6, e7⟩ := e
  simp only [Option.map_some, Heap.libWith, hdoc.2, ← e1, ← e2, ← e3, ← e4, ← e5, ← e6, ← e7]

/-- Loading types. -/
theorem LibSim.loadTypes {X : Xyml} {d : Addr} {H : Heap} {s : Library} (h : LibSim d H s)
    (v : Node) : LiveSim (LibSim d) (H.loadTm X (H.lib d).types v)
      ((liveTypes X v s.types).within fun m => { s with types := m }) := by
  have key : ∀ m0, LiveSim (fun H' (m : OM String DT) => LibSim d H' { s with types := m } ∧
      (H'.lib d).types = m0) (H.loadTm X m0 v) (liveTypes X v s.types) ∨
      (H.lib d).types ≠ m0 := by
    intro m0
    by_cases hm : (H.lib d).types = m0
    · refine Or.inl ?_
      unfold Heap.loadTm liveTypes
      refine liveMap_sim (R := fun H' (m : OM String DT) => LibSim d H' { s with types := m } ∧
        (H'.lib d).types = m0) (fun k v H' m hR => ?_) v ⟨h, hm⟩
      refine store_sim (R := fun H' (m : OM String DT) => LibSim d H' { s with types := m } ∧
        (H'.lib d).types = m0) hR fun e _ => ⟨?_, ?_⟩
      · have := hR.1.put e.1 e.2
        rw [hR.2] at this
        exact this
      · rw [(putType_docs H' m0 e.1 e.2).2]
        exact hR.2
    · exact Or.inr hm
  rcases key (H.lib d).types with hk | hk
  · exact ⟨hk.1.1, hk.2⟩
  · exact absurd rfl hk

theorem lib_mem (H : Heap) (d : Addr) (o : Obj) : H.Points (.lib d) o ↔
    o ∈ [Obj.tm (H.lib d).types, .um (H.lib d).traits, .um (H.lib d).resourceTypes,
      .um (H.lib d).annotationTypes, .am (H.lib d).annotations, .um (H.lib d).securitySchemes,
      .sm (H.lib d).uses, .xm (H.lib d).extra] := Iff.rfl

/-- Loading one entry. -/
theorem libAssign_sim {X : Xyml} {d : Addr} {H : Heap} {s : Library} (h : LibSim d H s)
    (k v : Node) : LiveSim (LibSim d) (H.libAssign X d k v) (s.liveAssign X k v) := by
  have hum := h.um
  simp only [List.nodup_cons, List.mem_cons, List.not_mem_nil, or_false, not_or, List.nodup_nil,
    not_false_eq_true, and_true] at hum
  obtain ⟨⟨n1, n2, n3⟩, ⟨n4, n5⟩, n6⟩ := hum
  have um : ∀ {m x} {s' : Library}, H.Points (.lib d) (.um m) →
      (∀ ts, s = H.libWith d ts → s' = Heap.libWith { H with um := upd H.um m x } d ts) →
      LibSim d { H with um := upd H.um m x } s' := fun hp hs =>
    h.leaf hp (by simp) (quiet_um H _).only rfl (refs_um H _ _) rfl hs
  have hxm : ∀ {r : Res Scalar}, LiveSim (LibSim d)
      (store r (fun H' c => H'.putXm (H.lib d).extra c v) H)
      (store r (fun a c => { a with extra := a.extra.put c v }) s) := by
    intro r
    refine store_sim h fun c _ => ?_
    refine h.leaf (o := .xm (H.lib d).extra) (by simp [lib_mem]) (by simp) (quiet_xm H _).only rfl
      (refs_xm H _ _) rfl ?_
    rintro ts rfl
    simp only [Heap.libWith, Heap.putXm, upd_self]
  unfold Heap.libAssign Library.liveAssign
  by_cases hk1 : k.value = "annotationTypes"
  · rw [if_pos hk1, if_pos hk1]
    have hd : H.am (H.lib d).annotations = s.annotations := by
      obtain ⟨n, ts, _, rfl⟩ := h.types
      rfl
    unfold Heap.loadAm
    rw [hd]
    refine ⟨h.leaf (o := .am (H.lib d).annotations) (by simp [lib_mem]) (by simp)
      (quiet_am H _).only rfl (refs_am H _ _) rfl ?_, rfl⟩
    rintro ts rfl
    simp only [Heap.libWith, Live.within, upd_self]
  rw [if_neg hk1, if_neg hk1]
  clear hk1
  by_cases hk1 : k.value = "resourceTypes"
  · rw [if_pos hk1, if_pos hk1]
    have hd : H.um (H.lib d).resourceTypes = s.resourceTypes := by
      obtain ⟨n, ts, _, rfl⟩ := h.types
      rfl
    unfold Heap.loadUm
    rw [hd]
    refine ⟨um (by simp [lib_mem]) ?_, rfl⟩
    rintro ts rfl
    simp only [Heap.libWith, Live.within, upd_self, upd_ne _ _ n1, upd_ne _ _ (Ne.symm n4), upd_ne _ _ (Ne.symm n5)]
  rw [if_neg hk1, if_neg hk1]
  clear hk1
  by_cases hk1 : k.value = "types" ∨ k.value = "schemas"
  · rw [if_pos hk1, if_pos hk1]
    exact h.loadTypes v
  rw [if_neg hk1, if_neg hk1]
  clear hk1
  by_cases hk1 : k.value = "traits"
  · rw [if_pos hk1, if_pos hk1]
    have hd : H.um (H.lib d).traits = s.traits := by
      obtain ⟨n, ts, _, rfl⟩ := h.types
      rfl
    unfold Heap.loadUm
    rw [hd]
    refine ⟨um (by simp [lib_mem]) ?_, rfl⟩
    rintro ts rfl
    simp only [Heap.libWith, Live.within, upd_self, upd_ne _ _ (Ne.symm n1), upd_ne _ _ (Ne.symm n2), upd_ne _ _ (Ne.symm n3)]
  rw [if_neg hk1, if_neg hk1]
  clear hk1
  by_cases hk1 : k.value = "uses"
  · rw [if_pos hk1, if_pos hk1]
    have hd : H.sm (H.lib d).uses = s.uses := by
      obtain ⟨n, ts, _, rfl⟩ := h.types
      rfl
    unfold Heap.loadSm
    rw [hd]
    refine ⟨h.leaf (o := .sm (H.lib d).uses) (by simp [lib_mem]) (by simp)
      (quiet_sm H _).only rfl (refs_sm H _ _) rfl ?_, rfl⟩
    rintro ts rfl
    simp only [Heap.libWith, Live.within, upd_self]
  rw [if_neg hk1, if_neg hk1]
  clear hk1
  by_cases hk1 : k.value = "usage"
  · rw [if_pos hk1, if_pos hk1]
    exact store_sim h fun c _ => h.setV (f := fun l => { l with usage := some c }) fun ts => by
      simp only [Heap.libWith, Heap.setLibV, upd_self]
  rw [if_neg hk1, if_neg hk1]
  clear hk1
  by_cases hk1 : k.value = "securitySchemes"
  · rw [if_pos hk1, if_pos hk1]
    have hd : H.um (H.lib d).securitySchemes = s.securitySchemes := by
      obtain ⟨n, ts, _, rfl⟩ := h.types
      rfl
    unfold Heap.loadUm
    rw [hd]
    refine ⟨um (by simp [lib_mem]) ?_, rfl⟩
    rintro ts rfl
    simp only [Heap.libWith, Live.within, upd_self, upd_ne _ _ n3, upd_ne _ _ n5, upd_ne _ _ n6]
  rw [if_neg hk1, if_neg hk1]
  clear hk1
  by_cases hk : k.isStr
  · rw [if_pos hk, if_pos hk]
    cases firstChar k.value with
    | none => exact ⟨h, rfl⟩
    | some c =>
      dsimp only
      by_cases hc : c = '('
      · rw [if_pos hc, if_pos hc]
        refine store_sim h fun x _ => ?_
        refine h.leaf (o := .am (H.lib d).annotations) (by simp [lib_mem]) (by simp)
          (quiet_am H _).only rfl (refs_am H _ _) rfl ?_
        rintro ts rfl
        simp only [Heap.libWith, Heap.putAm, upd_self]
      · rw [if_neg hc, if_neg hc]
        exact hxm
  · rw [if_neg hk, if_neg hk]
    exact hxm

theorem libLoad_sim {X : Xyml} {d : Addr} {H : Heap} {s : Library} (h : LibSim d H s) (v : Node) :
    LiveSim (LibSim d) (H.libLoad X d v) (s.load X v) :=
  liveMap_sim (fun k v _ _ h => libAssign_sim h k v) v h

end Verif.Doc
