import Verif.Doc.HeapAlloc
import Verif.Doc.Parsed

/-! # Lemmas about what a step of a program changes -/

namespace Verif.Doc
open Relation

/-- What was there is unchanged, except for the objects listed. -/
structure Only (T : List Obj) (H H' : Heap) : Prop where
  next : H.next ≤ H'.next
  same : ∀ o, o.addr < H.next → o ∉ T → Same H H' o

theorem Only.refl (T : List Obj) (H : Heap) : Only T H H :=
  ⟨Nat.le_refl _, fun o _ _ => same_refl H o⟩

theorem Only.trans {T : List Obj} {H H' H'' : Heap} (h : Only T H H') (h' : Only T H' H'') :
    Only T H H'' :=
  ⟨Nat.le_trans h.next h'.next, fun o ho hT =>
    same_trans (h.same o ho hT) (h'.same o (Nat.lt_of_lt_of_le ho h.next) hT)⟩

theorem Only.mono {T T' : List Obj} {H H' : Heap} (h : Only T H H') (hT : ∀ o ∈ T, o ∈ T') :
    Only T' H H' :=
  ⟨h.next, fun o ho hn => h.same o ho fun hm => hn (hT o hm)⟩

theorem Extends.only {T : List Obj} {H H' : Heap} (h : Extends H H') : Only T H H' :=
  ⟨h.next, fun o ho _ => h.same o ho⟩

theorem Only.extends {H H' : Heap} (h : Only [] H H') : Extends H H' :=
  ⟨h.next, fun o ho => h.same o ho (by simp)⟩

/-- Changing some objects, and new addresses, and pointing only to addresses in use. -/
structure Quiet (T : List Obj) (H H' : Heap) : Prop where
  only : Only T H H'
  closed : H.Closed → H'.Closed

theorem Quiet.refl (T : List Obj) (H : Heap) : Quiet T H H := ⟨.refl T H, id⟩

theorem Quiet.trans {T : List Obj} {H H' H'' : Heap} (h : Quiet T H H') (h' : Quiet T H' H'') :
    Quiet T H H'' := ⟨h.only.trans h'.only, fun hw => h'.closed (h.closed hw)⟩

theorem Quiet.mono {T T' : List Obj} {H H' : Heap} (h : Quiet T H H') (hT : ∀ o ∈ T, o ∈ T') :
    Quiet T' H H' := ⟨h.only.mono hT, h.closed⟩

theorem StoredT.quiet {H : Heap} {t : DT} {r : Addr × Heap} (h : StoredT H t r) (T : List Obj) :
    Quiet T H r.2 := ⟨h.ext.only, h.closed⟩

/-! ### Writing one object -/

section
variable (H : Heap) (m : Addr)

theorem quiet_ty {o : TypeObj}
    (h : ∀ o' ∈ Heap.refs { H with ty := upd H.ty m o } (.ty m), o'.addr < H.next) :
    Quiet [.ty m] H { H with ty := upd H.ty m o } := by
  refine ⟨⟨Nat.le_refl _, fun x _ hx => ?_⟩, fun hw => closed_of hw (Nat.le_refl _) fun x => ?_⟩
  · cases x with
    | ty a => exact (upd_ne _ _ fun e => hx (by simp [e])).symm
    | _ => rfl
  · cases x with
    | ty a =>
      by_cases ha : a = m
      · subst ha; exact Or.inr h
      · exact Or.inl (by simp only [Heap.refs, upd_ne _ _ ha])
    | _ => exact Or.inl rfl

theorem quiet_tm {x : OM String Addr} (h : ∀ e ∈ x.ents, e.2 < H.next) :
    Quiet [.tm m] H { H with tm := upd H.tm m x } := by
  refine ⟨⟨Nat.le_refl _, fun x _ hx => ?_⟩, fun hw => closed_of hw (Nat.le_refl _) fun x => ?_⟩
  · cases x with
    | tm a => exact (upd_ne _ _ fun e => hx (by simp [e])).symm
    | _ => rfl
  · cases x with
    | tm a =>
      by_cases ha : a = m
      · subst ha
        refine Or.inr fun o ho => ?_
        simp only [Heap.refs, upd_self, List.mem_map] at ho
        obtain ⟨e, he, rfl⟩ := ho
        exact h e he
      · exact Or.inl (by simp only [Heap.refs, upd_ne _ _ ha])
    | _ => exact Or.inl rfl

theorem quiet_fm {x : OM String Addr} (h : ∀ e ∈ x.ents, e.2 < H.next) :
    Quiet [.fm m] H { H with fm := upd H.fm m x } := by
  refine ⟨⟨Nat.le_refl _, fun x _ hx => ?_⟩, fun hw => closed_of hw (Nat.le_refl _) fun x => ?_⟩
  · cases x with
    | fm a => exact (upd_ne _ _ fun e => hx (by simp [e])).symm
    | _ => rfl
  · cases x with
    | fm a =>
      by_cases ha : a = m
      · subst ha
        refine Or.inr fun o ho => ?_
        simp only [Heap.refs, upd_self, List.mem_map] at ho
        obtain ⟨e, he, rfl⟩ := ho
        exact h e he
      · exact Or.inl (by simp only [Heap.refs, upd_ne _ _ ha])
    | _ => exact Or.inl rfl

theorem quiet_em {x : OM String Addr} (h : ∀ e ∈ x.ents, e.2 < H.next) :
    Quiet [.em m] H { H with em := upd H.em m x } := by
  refine ⟨⟨Nat.le_refl _, fun x _ hx => ?_⟩, fun hw => closed_of hw (Nat.le_refl _) fun x => ?_⟩
  · cases x with
    | em a => exact (upd_ne _ _ fun e => hx (by simp [e])).symm
    | _ => rfl
  · cases x with
    | em a =>
      by_cases ha : a = m
      · subst ha
        refine Or.inr fun o ho => ?_
        simp only [Heap.refs, upd_self, List.mem_map] at ho
        obtain ⟨e, he, rfl⟩ := ho
        exact h e he
      · exact Or.inl (by simp only [Heap.refs, upd_ne _ _ ha])
    | _ => exact Or.inl rfl

theorem quiet_am {x : OM String Ann} : Quiet [.am m] H { H with am := upd H.am m x } := by
  refine ⟨⟨Nat.le_refl _, fun x _ hx => ?_⟩,
    fun hw => closed_of hw (Nat.le_refl _) fun x => Or.inl (by cases x <;> rfl)⟩
  cases x with
  | am a => exact (upd_ne _ _ fun e => hx (by simp [e])).symm
  | _ => rfl

theorem quiet_ex {x : Example} : Quiet [.ex m] H { H with ex := upd H.ex m x } := by
  refine ⟨⟨Nat.le_refl _, fun x _ hx => ?_⟩,
    fun hw => closed_of hw (Nat.le_refl _) fun x => Or.inl (by cases x <;> rfl)⟩
  cases x with
  | ex a => exact (upd_ne _ _ fun e => hx (by simp [e])).symm
  | _ => rfl

theorem quiet_xo {x : XML} : Quiet [.xo m] H { H with xo := upd H.xo m x } := by
  refine ⟨⟨Nat.le_refl _, fun x _ hx => ?_⟩,
    fun hw => closed_of hw (Nat.le_refl _) fun x => Or.inl (by cases x <;> rfl)⟩
  cases x with
  | xo a => exact (upd_ne _ _ fun e => hx (by simp [e])).symm
  | _ => rfl

theorem quiet_xm {x : OM Scalar Node} : Quiet [.xm m] H { H with xm := upd H.xm m x } := by
  refine ⟨⟨Nat.le_refl _, fun x _ hx => ?_⟩,
    fun hw => closed_of hw (Nat.le_refl _) fun x => Or.inl (by cases x <;> rfl)⟩
  cases x with
  | xm a => exact (upd_ne _ _ fun e => hx (by simp [e])).symm
  | _ => rfl

theorem quiet_sm {x : OM String String} : Quiet [.sm m] H { H with sm := upd H.sm m x } := by
  refine ⟨⟨Nat.le_refl _, fun x _ hx => ?_⟩,
    fun hw => closed_of hw (Nat.le_refl _) fun x => Or.inl (by cases x <;> rfl)⟩
  cases x with
  | sm a => exact (upd_ne _ _ fun e => hx (by simp [e])).symm
  | _ => rfl

theorem quiet_um {x : OM String Node} : Quiet [.um m] H { H with um := upd H.um m x } := by
  refine ⟨⟨Nat.le_refl _, fun x _ hx => ?_⟩,
    fun hw => closed_of hw (Nat.le_refl _) fun x => Or.inl (by cases x <;> rfl)⟩
  cases x with
  | um a => exact (upd_ne _ _ fun e => hx (by simp [e])).symm
  | _ => rfl

theorem quiet_api {o : ApiObj}
    (h : H.Closed →
      ∀ o' ∈ Heap.refs { H with api := upd H.api m o } (.api m), o'.addr < H.next) :
    Quiet [.api m] H { H with api := upd H.api m o } := by
  refine ⟨⟨Nat.le_refl _, fun x _ hx => ?_⟩, fun hw => closed_of hw (Nat.le_refl _) fun x => ?_⟩
  · cases x with
    | api a => exact (upd_ne _ _ fun e => hx (by simp [e])).symm
    | _ => rfl
  · cases x with
    | api a =>
      by_cases ha : a = m
      · subst ha; exact Or.inr (h hw)
      · exact Or.inl (by simp only [Heap.refs, upd_ne _ _ ha])
    | _ => exact Or.inl rfl

theorem quiet_lib {o : LibObj}
    (h : H.Closed →
      ∀ o' ∈ Heap.refs { H with lib := upd H.lib m o } (.lib m), o'.addr < H.next) :
    Quiet [.lib m] H { H with lib := upd H.lib m o } := by
  refine ⟨⟨Nat.le_refl _, fun x _ hx => ?_⟩, fun hw => closed_of hw (Nat.le_refl _) fun x => ?_⟩
  · cases x with
    | lib a => exact (upd_ne _ _ fun e => hx (by simp [e])).symm
    | _ => rfl
  · cases x with
    | lib a =>
      by_cases ha : a = m
      · subst ha; exact Or.inr (h hw)
      · exact Or.inl (by simp only [Heap.refs, upd_ne _ _ ha])
    | _ => exact Or.inl rfl

end

theorem quiet_setApiV (H : Heap) (d : Addr) (f : APISpec → APISpec) :
    Quiet [.api d] H (H.setApiV d f) := by
  refine quiet_api H d fun hw o ho => ?_
  simp only [Heap.refs, upd_self] at ho
  exact hw (.api d) o ho

theorem quiet_setLibV (H : Heap) (d : Addr) (f : Library → Library) :
    Quiet [.lib d] H (H.setLibV d f) := by
  refine quiet_lib H d fun hw o ho => ?_
  simp only [Heap.refs, upd_self] at ho
  exact hw (.lib d) o ho

/-! ### Loading -/

theorem live_inv {R : Heap → Heap → Prop} (refl : ∀ H, R H H)
    (trans : ∀ {H H' H''}, R H H' → R H' H'' → R H H'')
    {f : Node → Node → Heap → Live Heap} (hf : ∀ k v H, R H (f k v H).1) (ps : List (Node × Node))
    (H : Heap) : R H (livePairs f ps H).1 := by
  induction ps generalizing H with
  | nil => exact refl H
  | cons p ps ih =>
    have h1 := hf p.1 p.2 H
    rw [livePairs]
    split
    · rename_i s' u he
      rw [he] at h1
      exact trans h1 (ih s')
    · rename_i s' r _ he
      rw [he] at h1
      exact h1

theorem liveMap_inv {R : Heap → Heap → Prop} (refl : ∀ H, R H H)
    (trans : ∀ {H H' H''}, R H H' → R H' H'' → R H H'')
    {f : Node → Node → Heap → Live Heap} (hf : ∀ k v H, R H (f k v H).1) (v : Node) (H : Heap) :
    R H (liveMap f v H).1 := by
  cases v with
  | map ps => exact live_inv refl trans hf ps H
  | scalar t s => exact refl H
  | seq t l => exact refl H

theorem store_inv {R : Heap → Heap → Prop} (refl : ∀ H, R H H) {α : Type} (r : Res α)
    {set : Heap → α → Heap} (hs : ∀ H a, R H (set H a)) (H : Heap) : R H (store r set H).1 := by
  cases r with
  | ok a => exact hs H a
  | err e => exact refl H
  | panic c => exact refl H

theorem quiet_putType (H : Heap) (m : Addr) (k : String) (t : DT) :
    Quiet [.tm m] H (H.putType m k t) := by
  have h := storeT_ok t H
  refine ⟨?_, fun hw => ?_⟩
  · refine (h.quiet [.tm m]).only.trans ⟨Nat.le_refl _, fun x _ hx => ?_⟩
    cases x with
    | tm a => exact (upd_ne _ _ fun e => hx (by simp [e])).symm
    | _ => rfl
  · refine closed_of (h.closed hw) (Nat.le_refl _) fun x => ?_
    cases x with
    | tm a =>
      by_cases ha : a = m
      · subst ha
        refine Or.inr fun o ho => ?_
        simp only [Heap.refs, Heap.putType, upd_self, List.mem_map] at ho
        obtain ⟨e, he, rfl⟩ := ho
        rcases mem_put he with he | rfl
        · exact h.closed hw (.tm a) (.ty e.2)
            (List.mem_map_of_mem (f := fun e : String × Addr => Obj.ty e.2) he)
        · exact h.above.self.2
      · exact Or.inl (by simp only [Heap.refs, Heap.putType, upd_ne _ _ ha])
    | _ => exact Or.inl rfl

theorem quiet_loadTm (X : Xyml) (m : Addr) (v : Node) (H : Heap) :
    Quiet [.tm m] H (H.loadTm X m v).1 := by
  unfold Heap.loadTm
  refine liveMap_inv (R := Quiet [.tm m]) (Quiet.refl _) Quiet.trans (fun k v H => ?_) v H
  exact store_inv (Quiet.refl _) _ (fun H (e : String × DT) => quiet_putType H m e.1 e.2) H

/-- What loading may do to an API document: its section maps stay the same objects. -/
structure QuietApi (d : Addr) (H H' : Heap) : Prop where
  quiet : Quiet (.api d :: H.refs (.api d)) H H'
  ptrs : ∃ w, H'.api d = { H.api d with v := w }

theorem QuietApi.refs {d : Addr} {H H' : Heap} (h : QuietApi d H H') :
    H'.refs (.api d) = H.refs (.api d) := by
  obtain ⟨w, hw⟩ := h.ptrs
  simp only [Heap.refs, hw]

theorem QuietApi.refl (d : Addr) (H : Heap) : QuietApi d H H := ⟨.refl _ H, ⟨(H.api d).v, rfl⟩⟩

theorem QuietApi.trans {d : Addr} {H H' H'' : Heap} (h : QuietApi d H H')
    (h' : QuietApi d H' H'') : QuietApi d H H'' := by
  have hq := h'.quiet
  rw [h.refs] at hq
  obtain ⟨w, hw⟩ := h.ptrs
  obtain ⟨w', hw'⟩ := h'.ptrs
  exact ⟨h.quiet.trans hq, ⟨w', by rw [hw', hw]⟩⟩

theorem QuietApi.of_section {d : Addr} {H H' : Heap} {s : Obj} (hs : s ∈ H.refs (.api d))
    (h : Quiet [s] H H') (ha : H'.api d = H.api d) : QuietApi d H H' :=
  ⟨h.mono fun o ho => by rw [List.mem_singleton.mp ho]; exact List.mem_cons_of_mem _ hs,
    ⟨(H.api d).v, ha⟩⟩

theorem quietApi_setV (H : Heap) (d : Addr) (f : APISpec → APISpec) :
    QuietApi d H (H.setApiV d f) :=
  ⟨(quiet_setApiV H d f).mono fun o ho => by rw [List.mem_singleton.mp ho]; exact List.mem_cons_self,
    ⟨_, upd_self _ _ _⟩⟩

/-- The documents of two heaps are the same objects. -/
def SameDocs (H H' : Heap) : Prop := H'.api = H.api ∧ H'.lib = H.lib

theorem SameDocs.trans {H H' H'' : Heap} (h : SameDocs H H') (h' : SameDocs H' H'') :
    SameDocs H H'' := ⟨h'.1.trans h.1, h'.2.trans h.2⟩

theorem storeExs_docs (es : List (String × Example)) (H : Heap) :
    SameDocs H (H.storeExs es).2 := by
  induction es generalizing H with
  | nil => exact ⟨rfl, rfl⟩
  | cons e es ih => rw [Heap.storeExs]; exact ih _

mutual

theorem storeT_docs : ∀ (t : DT) (H : Heap), SameDocs H (H.storeT t).2
  | .basic i s x, H => by rw [Heap.storeT]; exact ⟨rfl, rfl⟩
  | .ext h b ⟨fs, fo⟩ ⟨ps, po⟩ it, H => by
    rw [Heap.storeT, Heap.storeF, Heap.storeM, Heap.storeExt]
    exact (storeFL_docs fs H).trans ((storeL_docs ps _).trans ((storeI_docs it _).trans
      (storeExs_docs h.examples.ents _)))

theorem storeI_docs : ∀ (it : Option DT) (H : Heap), SameDocs H (H.storeI it).2
  | none, H => by rw [Heap.storeI]; exact ⟨rfl, rfl⟩
  | some t, H => by rw [Heap.storeI]; exact storeT_docs t H

theorem storeL_docs : ∀ (es : List (String × DT)) (H : Heap), SameDocs H (H.storeL es).2
  | [], H => by rw [Heap.storeL]; exact ⟨rfl, rfl⟩
  | (k, t) :: es, H => by
    rw [Heap.storeL, Heap.storeE]
    exact (storeT_docs t H).trans (storeL_docs es _)

theorem storeFL_docs : ∀ (es : List (String × OM String DT)) (H : Heap),
    SameDocs H (H.storeFL es).2
  | [], H => by rw [Heap.storeFL]; exact ⟨rfl, rfl⟩
  | (k, ⟨ts, o⟩) :: es, H => by
    rw [Heap.storeFL, Heap.storeFE, Heap.storeM]
    exact (storeL_docs ts H).trans (storeFL_docs es _)

end

theorem putType_docs (H : Heap) (m : Addr) (k : String) (t : DT) : SameDocs H (H.putType m k t) :=
  storeT_docs t H

theorem loadTm_docs (X : Xyml) (m : Addr) (v : Node) (H : Heap) :
    SameDocs H (H.loadTm X m v).1 := by
  unfold Heap.loadTm
  refine liveMap_inv (R := SameDocs) (fun _ => ⟨rfl, rfl⟩) SameDocs.trans (fun k v H => ?_) v H
  exact store_inv (fun _ => ⟨rfl, rfl⟩) _
    (fun H (e : String × DT) => putType_docs H m e.1 e.2) H

theorem quietApi_assign (X : Xyml) (d : Addr) (k v : Node) (H : Heap) :
    QuietApi d H (H.apiAssign X d k v).1 := by
  have hst : ∀ {α : Type} (r : Res α) (set : α → APISpec → APISpec),
      QuietApi d H (store r (fun H x => H.setApiV d (set x)) H).1 := fun r set =>
    store_inv (R := QuietApi d) (QuietApi.refl d) r (fun H a => quietApi_setV H d (set a)) H
  have hx : ∀ r : Res Scalar,
      QuietApi d H (store r (fun H' s => H'.putXm (H.api d).extra s v) H).1 := by
    intro r
    cases r with
    | ok s => exact .of_section (by simp [Heap.refs]) (quiet_xm H (H.api d).extra) rfl
    | err e => exact .refl d H
    | panic c => exact .refl d H
  have hu : ∀ m, Obj.um m ∈ H.refs (.api d) → QuietApi d H (H.loadUm m v).1 := fun m hm =>
    .of_section hm (quiet_um H m) rfl
  unfold Heap.apiAssign
  dsimp only
  split
  · exact hx _
  · split
    · exact .refl d H
    · split
      · generalize loadAnn v = r
        cases r with
        | ok s => exact .of_section (by simp [Heap.refs]) (quiet_am H (H.api d).annotations) rfl
        | err e => exact .refl d H
        | panic c => exact .refl d H
      · split
        · exact .of_section (by simp [Heap.refs]) (quiet_um H (H.api d).resources) rfl
        · unfold Heap.apiKey
          dsimp only
          by_cases hk : k.value = "title"
          · rw [if_pos hk]
            exact hst _ fun s a => { a with title := s }
          rw [if_neg hk]
          clear hk
          by_cases hk : k.value = "version"
          · rw [if_pos hk]
            exact hst _ fun s a => { a with version := some s }
          rw [if_neg hk]
          clear hk
          by_cases hk : k.value = "baseUri"
          · rw [if_pos hk]
            exact hst _ fun s a => { a with baseURI := some s }
          rw [if_neg hk]
          clear hk
          by_cases hk : k.value = "description"
          · rw [if_pos hk]
            exact hst _ fun s a => { a with description := some s }
          rw [if_neg hk]
          clear hk
          by_cases hk : k.value = "protocols"
          · rw [if_pos hk]
            exact hst _ fun s a => { a with protocols := some s }
          rw [if_neg hk]
          clear hk
          by_cases hk : k.value = "mediaType"
          · rw [if_pos hk]
            split
            · exact quietApi_setV H d fun a =>
                { a with mediaType := some (a.mediaType.getD [] ++ [v.value]) }
            · exact hst _ fun s a => { a with mediaType := some s }
          rw [if_neg hk]
          clear hk
          by_cases hk : k.value = "documentation"
          · rw [if_pos hk]
            exact quietApi_setV H d fun a =>
              { a with documentation := (liveDocs X v (H.api d).v.documentation).1 }
          rw [if_neg hk]
          clear hk
          by_cases hk : k.value = "securedBy"
          · rw [if_pos hk]
            exact hst _ fun s a => { a with securedBy := some s }
          rw [if_neg hk]
          clear hk
          by_cases hk : k.value = "uses"
          · rw [if_pos hk]
            exact .of_section (by simp [Heap.refs]) (quiet_sm H (H.api d).uses) rfl
          rw [if_neg hk]
          clear hk
          by_cases hk : k.value = "securitySchemes"
          · rw [if_pos hk]
            exact hu _ (by simp [Heap.refs])
          rw [if_neg hk]
          clear hk
          by_cases hk : k.value = "baseUriParameters"
          · rw [if_pos hk]
            exact hu _ (by simp [Heap.refs])
          rw [if_neg hk]
          clear hk
          by_cases hk : k.value = "traits"
          · rw [if_pos hk]
            exact hu _ (by simp [Heap.refs])
          rw [if_neg hk]
          clear hk
          by_cases hk : k.value = "annotationTypes"
          · rw [if_pos hk]
            exact hu _ (by simp [Heap.refs])
          rw [if_neg hk]
          clear hk
          by_cases hk : k.value = "resourceTypes"
          · rw [if_pos hk]
            exact hu _ (by simp [Heap.refs])
          rw [if_neg hk]
          clear hk
          by_cases hk : k.value = "types" ∨ k.value = "schemas"
          · rw [if_pos hk]
            exact .of_section (by simp [Heap.refs]) (quiet_loadTm X _ v H)
              (by rw [(loadTm_docs X _ v H).1])
          rw [if_neg hk]
          exact hx _

theorem quietApi_load (X : Xyml) (d : Addr) (v : Node) (H : Heap) :
    QuietApi d H (H.apiLoad X d v).1 :=
  liveMap_inv (R := QuietApi d) (QuietApi.refl d) QuietApi.trans (quietApi_assign X d) v H

/-- What loading may do to a library. -/
structure QuietLib (d : Addr) (H H' : Heap) : Prop where
  quiet : Quiet (.lib d :: H.refs (.lib d)) H H'
  ptrs : ∃ w, H'.lib d = { H.lib d with v := w }

theorem QuietLib.refs {d : Addr} {H H' : Heap} (h : QuietLib d H H') :
    H'.refs (.lib d) = H.refs (.lib d) := by
  obtain ⟨w, hw⟩ := h.ptrs
  simp only [Heap.refs, hw]

theorem QuietLib.refl (d : Addr) (H : Heap) : QuietLib d H H := ⟨.refl _ H, ⟨(H.lib d).v, rfl⟩⟩

theorem QuietLib.trans {d : Addr} {H H' H'' : Heap} (h : QuietLib d H H')
    (h' : QuietLib d H' H'') : QuietLib d H H'' := by
  have hq := h'.quiet
  rw [h.refs] at hq
  obtain ⟨w, hw⟩ := h.ptrs
  obtain ⟨w', hw'⟩ := h'.ptrs
  exact ⟨h.quiet.trans hq, ⟨w', by rw [hw', hw]⟩⟩

theorem QuietLib.of_section {d : Addr} {H H' : Heap} {s : Obj} (hs : s ∈ H.refs (.lib d))
    (h : Quiet [s] H H') (ha : H'.lib d = H.lib d) : QuietLib d H H' :=
  ⟨h.mono fun o ho => by rw [List.mem_singleton.mp ho]; exact List.mem_cons_of_mem _ hs,
    ⟨(H.lib d).v, ha⟩⟩

theorem quietLib_setV (H : Heap) (d : Addr) (f : Library → Library) :
    QuietLib d H (H.setLibV d f) :=
  ⟨(quiet_setLibV H d f).mono fun o ho => by rw [List.mem_singleton.mp ho]; exact List.mem_cons_self,
    ⟨_, upd_self _ _ _⟩⟩

theorem quietLib_assign (X : Xyml) (d : Addr) (k v : Node) (H : Heap) :
    QuietLib d H (H.libAssign X d k v).1 := by
  have hx : ∀ r : Res Scalar,
      QuietLib d H (store r (fun H' s => H'.putXm (H.lib d).extra s v) H).1 := by
    intro r
    cases r with
    | ok s => exact .of_section (by simp [Heap.refs]) (quiet_xm H (H.lib d).extra) rfl
    | err e => exact .refl d H
    | panic c => exact .refl d H
  have hu : ∀ m, Obj.um m ∈ H.refs (.lib d) → QuietLib d H (H.loadUm m v).1 := fun m hm =>
    .of_section hm (quiet_um H m) rfl
  unfold Heap.libAssign
  dsimp only
  split
  · exact .of_section (by simp [Heap.refs]) (quiet_am H (H.lib d).annotations) rfl
  split
  · exact hu _ (by simp [Heap.refs])
  split
  · exact .of_section (by simp [Heap.refs]) (quiet_loadTm X _ v H)
      (by rw [(loadTm_docs X _ v H).2])
  split
  · exact hu _ (by simp [Heap.refs])
  split
  · exact .of_section (by simp [Heap.refs]) (quiet_sm H (H.lib d).uses) rfl
  split
  · exact store_inv (R := QuietLib d) (QuietLib.refl d) _
      (fun H a => quietLib_setV H d fun l => { l with usage := some a }) H
  split
  · exact hu _ (by simp [Heap.refs])
  split
  · split
    · exact .refl d H
    · split
      · generalize loadAnn v = r
        cases r with
        | ok s => exact .of_section (by simp [Heap.refs]) (quiet_am H (H.lib d).annotations) rfl
        | err e => exact .refl d H
        | panic c => exact .refl d H
      · exact hx _
  · exact hx _

theorem quietLib_load (X : Xyml) (d : Addr) (v : Node) (H : Heap) :
    QuietLib d H (H.libLoad X d v).1 :=
  liveMap_inv (R := QuietLib d) (QuietLib.refl d) QuietLib.trans (quietLib_assign X d) v H

/-! ### Steps -/

/-- A heap with one more free address taken, by an empty map. -/
theorem quiet_fresh (H H' : Heap) (hn : H'.next = H.next + 1)
    (hty : H'.ty = H.ty) (hap : H'.api = H.api) (hli : H'.lib = H.lib)
    (h : ∀ o, o.addr ≠ H.next → Same H H' o)
    (he : H'.tm H.next = H.tm H.next ∨ (H'.tm H.next).ents = [])
    (hf : H'.fm H.next = H.fm H.next ∨ (H'.fm H.next).ents = [])
    (hm : H'.em H.next = H.em H.next ∨ (H'.em H.next).ents = []) (T : List Obj) :
    Quiet T H H' := by
  refine ⟨⟨by rw [hn]; exact Nat.le_succ _, fun o ho _ => h o (Nat.ne_of_lt ho)⟩,
    fun hw => closed_of hw (by rw [hn]; exact Nat.le_succ _) fun o => ?_⟩
  by_cases ho : o.addr = H.next
  · cases o with
    | ty a => exact Or.inl (by simp only [Heap.refs, hty])
    | api a => exact Or.inl (by simp only [Heap.refs, hap])
    | lib a => exact Or.inl (by simp only [Heap.refs, hli])
    | tm a =>
      rw [show a = H.next from ho]
      rcases he with he | he
      · exact Or.inl (by simp only [Heap.refs, he])
      · exact Or.inr (by simp only [Heap.refs, he]; simp)
    | fm a =>
      rw [show a = H.next from ho]
      rcases hf with he | he
      · exact Or.inl (by simp only [Heap.refs, he])
      · exact Or.inr (by simp only [Heap.refs, he]; simp)
    | em a =>
      rw [show a = H.next from ho]
      rcases hm with he | he
      · exact Or.inl (by simp only [Heap.refs, he])
      · exact Or.inr (by simp only [Heap.refs, he]; simp)
    | _ => exact Or.inl rfl
  · exact Or.inl (same_refs (h o ho)).symm

/-- Taking one more address. -/
theorem quiet_next (H : Heap) (T : List Obj) : Quiet T H { H with next := H.next + 1 } :=
  quiet_fresh H { H with next := H.next + 1 } rfl rfl rfl rfl (fun o _ => by cases o <;> rfl) (Or.inl rfl) (Or.inl rfl)
    (Or.inl rfl) T

theorem pick_lt {H : Heap} {m : Option Addr} (h : ∀ x, m = some x → x < H.next) :
    H.pick m < H.after m := by
  cases m with
  | none => exact Nat.lt_succ_self _
  | some x => exact h x rfl

end Verif.Doc
