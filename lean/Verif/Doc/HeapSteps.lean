import Verif.Doc.HeapLoad

/-! # What each step of a program changes -/

namespace Verif.Doc
open Relation

section
variable (H : Heap) (m : Option Addr) (T : List Obj)

theorem quiet_freshTm : Quiet T H { H with tm := freshIn H m H.tm, next := H.after m } := by
  cases m with
  | some x => exact Quiet.refl T H
  | none =>
    exact quiet_fresh H { H with tm := upd H.tm H.next (OM.empty true), next := H.next + 1 } rfl
      rfl rfl rfl (fun o ho => by
        cases o with
        | tm a => exact (upd_ne _ _ ho).symm
        | _ => rfl)
      (Or.inr (by simp only [upd_self]; rfl)) (Or.inl rfl) (Or.inl rfl) T

theorem quiet_freshFm : Quiet T H { H with fm := freshIn H m H.fm, next := H.after m } := by
  cases m with
  | some x => exact Quiet.refl T H
  | none =>
    exact quiet_fresh H { H with fm := upd H.fm H.next (OM.empty true), next := H.next + 1 } rfl
      rfl rfl rfl (fun o ho => by
        cases o with
        | fm a => exact (upd_ne _ _ ho).symm
        | _ => rfl)
      (Or.inl rfl) (Or.inr (by simp only [upd_self]; rfl)) (Or.inl rfl) T

theorem quiet_freshEm : Quiet T H { H with em := freshIn H m H.em, next := H.after m } := by
  cases m with
  | some x => exact Quiet.refl T H
  | none =>
    exact quiet_fresh H { H with em := upd H.em H.next (OM.empty true), next := H.next + 1 } rfl
      rfl rfl rfl (fun o ho => by
        cases o with
        | em a => exact (upd_ne _ _ ho).symm
        | _ => rfl)
      (Or.inl rfl) (Or.inl rfl) (Or.inr (by simp only [upd_self]; rfl)) T

theorem quiet_freshAm : Quiet T H { H with am := freshIn H m H.am, next := H.after m } := by
  cases m with
  | some x => exact Quiet.refl T H
  | none =>
    exact quiet_fresh H { H with am := upd H.am H.next (OM.empty true), next := H.next + 1 } rfl
      rfl rfl rfl (fun o ho => by
        cases o with
        | am a => exact (upd_ne _ _ ho).symm
        | _ => rfl)
      (Or.inl rfl) (Or.inl rfl) (Or.inl rfl) T

theorem quiet_freshXm : Quiet T H { H with xm := freshIn H m H.xm, next := H.after m } := by
  cases m with
  | some x => exact Quiet.refl T H
  | none =>
    exact quiet_fresh H { H with xm := upd H.xm H.next (OM.empty true), next := H.next + 1 } rfl
      rfl rfl rfl (fun o ho => by
        cases o with
        | xm a => exact (upd_ne _ _ ho).symm
        | _ => rfl)
      (Or.inl rfl) (Or.inl rfl) (Or.inl rfl) T

theorem quiet_freshSm : Quiet T H { H with sm := freshIn H m H.sm, next := H.after m } := by
  cases m with
  | some x => exact Quiet.refl T H
  | none =>
    exact quiet_fresh H { H with sm := upd H.sm H.next (OM.empty true), next := H.next + 1 } rfl
      rfl rfl rfl (fun o ho => by
        cases o with
        | sm a => exact (upd_ne _ _ ho).symm
        | _ => rfl)
      (Or.inl rfl) (Or.inl rfl) (Or.inl rfl) T

theorem quiet_freshUm : Quiet T H { H with um := freshIn H m H.um, next := H.after m } := by
  cases m with
  | some x => exact Quiet.refl T H
  | none =>
    exact quiet_fresh H { H with um := upd H.um H.next (OM.empty true), next := H.next + 1 } rfl
      rfl rfl rfl (fun o ho => by
        cases o with
        | um a => exact (upd_ne _ _ ho).symm
        | _ => rfl)
      (Or.inl rfl) (Or.inl rfl) (Or.inl rfl) T

end

theorem le_after (H : Heap) (m : Option Addr) : H.next ≤ H.after m := by
  cases m with
  | none => exact Nat.le_succ _
  | some x => exact Nat.le_refl _

/-- Changing the pointers of an API document, after a step that takes new addresses. -/
theorem quiet_reapi {H H1 : Heap} {d : Addr} {o : ApiObj} (h : Quiet [.api d] H H1)
    (hr : H.Closed →
      ∀ o' ∈ Heap.refs { H1 with api := upd H1.api d o } (.api d), o'.addr < H1.next) :
    Quiet [.api d] H { H1 with api := upd H1.api d o } := by
  refine ⟨h.only.trans ⟨Nat.le_refl _, fun x _ hx => ?_⟩,
    fun hw => closed_of (h.closed hw) (Nat.le_refl _) fun x => ?_⟩
  · cases x with
    | api b => exact (upd_ne _ _ fun e => hx (by simp [e])).symm
    | _ => rfl
  · cases x with
    | api b =>
      by_cases hb : b = d
      · subst hb; exact Or.inr (hr hw)
      · exact Or.inl (by simp only [Heap.refs, upd_ne _ _ hb])
    | _ => exact Or.inl rfl

/-- The same for libraries. -/
theorem quiet_relib {H H1 : Heap} {d : Addr} {o : LibObj} (h : Quiet [.lib d] H H1)
    (hr : H.Closed →
      ∀ o' ∈ Heap.refs { H1 with lib := upd H1.lib d o } (.lib d), o'.addr < H1.next) :
    Quiet [.lib d] H { H1 with lib := upd H1.lib d o } := by
  refine ⟨h.only.trans ⟨Nat.le_refl _, fun x _ hx => ?_⟩,
    fun hw => closed_of (h.closed hw) (Nat.le_refl _) fun x => ?_⟩
  · cases x with
    | lib b => exact (upd_ne _ _ fun e => hx (by simp [e])).symm
    | _ => rfl
  · cases x with
    | lib b =>
      by_cases hb : b = d
      · subst hb; exact Or.inr (hr hw)
      · exact Or.inl (by simp only [Heap.refs, upd_ne _ _ hb])
    | _ => exact Or.inl rfl

theorem quiet_setPtr {H H' : Heap} {a : Addr} {op : PtrOp} (hl : H.Legal (.onType a (.ptr op)))
    (h : H.setPtr a op = some H') : Quiet [.ty a] H H' := by
  have up : ∀ {x m}, x < H.next → x < H.after m := fun hx => Nat.lt_of_lt_of_le hx (le_after H _)
  have upo : ∀ {o : Option Addr} {m}, (∀ x, o = some x → x < H.next) →
      ∀ x, o = some x → x < H.after m := fun ho x hx => up (ho x hx)
  cases op with
  | setExample m =>
    simp only [Heap.setPtr] at h
    split at h
    · rename_i hh p b f ps it hty
      cases h
      refine quiet_retype (Quiet.refl _ H) fun hw => ?_
      obtain ⟨h1, h2, h3, h4, h5, h6, h7, h8⟩ := closed_ext hw hty
      exact ext_bound (upd_self _ _ _) ⟨h1, h2, h3, h4, h5, hl.2, h7, h8⟩
    · cases h
  | setXML m =>
    simp only [Heap.setPtr] at h
    split at h
    · rename_i hh p b f ps it hty
      cases h
      refine quiet_retype (Quiet.refl _ H) fun hw => ?_
      obtain ⟨h1, h2, h3, h4, h5, h6, h7, h8⟩ := closed_ext hw hty
      exact ext_bound (upd_self _ _ _) ⟨h1, h2, h3, h4, hl.2, h6, h7, h8⟩
    · cases h
  | setItems m =>
    simp only [Heap.setPtr] at h
    split at h
    · rename_i hh p b f ps it hty
      cases h
      refine quiet_retype (Quiet.refl _ H) fun hw => ?_
      obtain ⟨h1, h2, h3, h4, h5, h6, h7, h8⟩ := closed_ext hw hty
      exact ext_bound (upd_self _ _ _) ⟨h1, h2, h3, h4, h5, h6, h7, hl.2⟩
    · cases h
  | setExamples m =>
    simp only [Heap.setPtr] at h
    split at h
    · rename_i hh p b f ps it hty
      cases h
      refine quiet_retype (quiet_freshEm H m _) fun hw => ?_
      obtain ⟨h1, h2, h3, h4, h5, h6, h7, h8⟩ := closed_ext hw hty
      exact ext_bound (upd_self _ _ _)
        ⟨up h1, up h2, pick_lt hl.2, up h4, upo h5, upo h6, upo h7, upo h8⟩
    · cases h
  | setAnnotations m =>
    simp only [Heap.setPtr] at h
    split at h
    · rename_i hh p b f ps it hty
      cases h
      refine quiet_retype (quiet_freshAm H m _) fun hw => ?_
      obtain ⟨h1, h2, h3, h4, h5, h6, h7, h8⟩ := closed_ext hw hty
      exact ext_bound (upd_self _ _ _)
        ⟨up h1, pick_lt hl.2, up h3, up h4, upo h5, upo h6, upo h7, upo h8⟩
    · cases h
  | setExtraFacets m =>
    simp only [Heap.setPtr] at h
    split at h
    · rename_i hh p b f ps it hty
      cases h
      refine quiet_retype (quiet_freshXm H m _) fun hw => ?_
      obtain ⟨h1, h2, h3, h4, h5, h6, h7, h8⟩ := closed_ext hw hty
      exact ext_bound (upd_self _ _ _)
        ⟨pick_lt hl.2, up h2, up h3, up h4, upo h5, upo h6, upo h7, upo h8⟩
    · cases h
  | setFacetDefinitions m =>
    simp only [Heap.setPtr] at h
    split at h
    · rename_i hh p b f ps it hty
      cases h
      refine quiet_retype (quiet_freshFm H m _) fun hw => ?_
      obtain ⟨h1, h2, h3, h4, h5, h6, h7, h8⟩ := closed_ext hw hty
      exact ext_bound (upd_self _ _ _)
        ⟨up h1, up h2, up h3, pick_lt hl.2, upo h5, upo h6, upo h7, upo h8⟩
    · cases h
  | setProperties m =>
    simp only [Heap.setPtr] at h
    split at h
    · rename_i hh p b f ps it hty
      cases h
      refine quiet_retype (quiet_freshTm H m _) fun hw => ?_
      obtain ⟨h1, h2, h3, h4, h5, h6, h7, h8⟩ := closed_ext hw hty
      exact ext_bound (upd_self _ _ _)
        ⟨up h1, up h2, up h3, up h4, upo h5, upo h6,
          (fun x hx => by cases hx; exact pick_lt hl.2), upo h8⟩
    · cases h

theorem quiet_plain {H : Heap} {a : Addr} {op : TypeOp} {o : TypeObj}
    (h : (H.ty a).apply op = some o) : Quiet [.ty a] H { H with ty := upd H.ty a o } := by
  refine quiet_retype (Quiet.refl _ H) fun hw => ?_
  have hr : ∀ o ∈ H.refs (.ty a), o.addr < H.next := fun o ho => hw _ o ho
  have e : Heap.refs { H with ty := upd H.ty a o } (.ty a) = H.refs (.ty a) := by
    simp only [Heap.refs, upd_self]
    cases hty : H.ty a with
    | basic i s x =>
      rw [hty] at h
      cases op <;> simp only [TypeObj.apply, Option.some.injEq, reduceCtorEq] at h
      subst h; rfl
    | ext hh p b f ps it =>
      rw [hty] at h
      simp only [TypeObj.apply] at h
      split at h
      · cases h; rfl
      · cases hb : b.apply op with
        | none => rw [hb] at h; cases h
        | some b' => rw [hb] at h; cases h; rfl
  rw [e]
  exact hr

theorem quiet_typeCall {H H' : Heap} {a : Addr} {c : TypeCall} (hl : H.Legal (.onType a c))
    (h : H.typeCall a c = some H') : Quiet [.ty a] H H' := by
  cases c with
  | plain op =>
    simp only [Heap.typeCall] at h
    split at h
    · cases ho : (H.ty a).apply op with
      | none => rw [ho] at h; cases h
      | some o => rw [ho] at h; cases h; exact quiet_plain ho
    · cases h
  | ptr op => exact quiet_setPtr hl h

theorem api_bound {H : Heap} {n : Nat} {d : Addr} {o : ApiObj} (hd : H.api d = o)
    (hb : o.types < n ∧ o.traits < n ∧ o.resourceTypes < n ∧ o.annotationTypes < n ∧
      o.annotations < n ∧ o.securitySchemes < n ∧ o.baseURIParameters < n ∧ o.uses < n ∧
      o.resources < n ∧ o.extra < n) : ∀ x ∈ H.refs (.api d), x.addr < n := by
  obtain ⟨h1, h2, h3, h4, h5, h6, h7, h8, h9, h10⟩ := hb
  intro x hx
  simp only [Heap.refs, hd, List.mem_cons, List.not_mem_nil, or_false] at hx
  rcases hx with rfl | rfl | rfl | rfl | rfl | rfl | rfl | rfl | rfl | rfl <;> assumption

theorem closed_api {H : Heap} (hw : H.Closed) (d : Addr) :
    (H.api d).types < H.next ∧ (H.api d).traits < H.next ∧ (H.api d).resourceTypes < H.next ∧
      (H.api d).annotationTypes < H.next ∧ (H.api d).annotations < H.next ∧
      (H.api d).securitySchemes < H.next ∧ (H.api d).baseURIParameters < H.next ∧
      (H.api d).uses < H.next ∧ (H.api d).resources < H.next ∧ (H.api d).extra < H.next := by
  have hr : ∀ o ∈ H.refs (.api d), o.addr < H.next := fun o ho => hw _ o ho
  simp only [Heap.refs] at hr
  exact ⟨hr (.tm _) (by simp), hr (.um _) (by simp), hr (.um _) (by simp), hr (.um _) (by simp),
    hr (.am _) (by simp), hr (.um _) (by simp), hr (.um _) (by simp), hr (.sm _) (by simp),
    hr (.um _) (by simp), hr (.xm _) (by simp)⟩

theorem lib_bound {H : Heap} {n : Nat} {d : Addr} {o : LibObj} (hd : H.lib d = o)
    (hb : o.types < n ∧ o.traits < n ∧ o.resourceTypes < n ∧ o.annotationTypes < n ∧
      o.annotations < n ∧ o.securitySchemes < n ∧ o.uses < n ∧ o.extra < n) :
    ∀ x ∈ H.refs (.lib d), x.addr < n := by
  obtain ⟨h1, h2, h3, h4, h5, h6, h7, h8⟩ := hb
  intro x hx
  simp only [Heap.refs, hd, List.mem_cons, List.not_mem_nil, or_false] at hx
  rcases hx with rfl | rfl | rfl | rfl | rfl | rfl | rfl | rfl <;> assumption

theorem closed_lib {H : Heap} (hw : H.Closed) (d : Addr) :
    (H.lib d).types < H.next ∧ (H.lib d).traits < H.next ∧ (H.lib d).resourceTypes < H.next ∧
      (H.lib d).annotationTypes < H.next ∧ (H.lib d).annotations < H.next ∧
      (H.lib d).securitySchemes < H.next ∧ (H.lib d).uses < H.next ∧ (H.lib d).extra < H.next := by
  have hr : ∀ o ∈ H.refs (.lib d), o.addr < H.next := fun o ho => hw _ o ho
  simp only [Heap.refs] at hr
  exact ⟨hr (.tm _) (by simp), hr (.um _) (by simp), hr (.um _) (by simp), hr (.um _) (by simp),
    hr (.am _) (by simp), hr (.um _) (by simp), hr (.sm _) (by simp), hr (.xm _) (by simp)⟩

theorem quiet_setApi {H : Heap} {d : Addr} {op : ApiPtrOp} (hl : H.Legal (.setApi d op)) :
    Quiet [.api d] H (H.setApi d op) := by
  have up : ∀ {x m}, x < H.next → x < H.after m := fun hx => Nat.lt_of_lt_of_le hx (le_after H _)
  cases op with
  | types m =>
    refine quiet_reapi (quiet_freshTm H m _) fun hw => api_bound (upd_self _ _ _) ?_
    obtain ⟨h1, h2, h3, h4, h5, h6, h7, h8, h9, h10⟩ := closed_api hw d
    exact ⟨pick_lt hl.2, up h2, up h3, up h4, up h5, up h6, up h7, up h8, up h9, up h10⟩
  | traits m =>
    refine quiet_reapi (quiet_freshUm H m _) fun hw => api_bound (upd_self _ _ _) ?_
    obtain ⟨h1, h2, h3, h4, h5, h6, h7, h8, h9, h10⟩ := closed_api hw d
    exact ⟨up h1, pick_lt hl.2, up h3, up h4, up h5, up h6, up h7, up h8, up h9, up h10⟩
  | resourceTypes m =>
    refine quiet_reapi (quiet_freshUm H m _) fun hw => api_bound (upd_self _ _ _) ?_
    obtain ⟨h1, h2, h3, h4, h5, h6, h7, h8, h9, h10⟩ := closed_api hw d
    exact ⟨up h1, up h2, pick_lt hl.2, up h4, up h5, up h6, up h7, up h8, up h9, up h10⟩
  | annotationTypes m =>
    refine quiet_reapi (quiet_freshUm H m _) fun hw => api_bound (upd_self _ _ _) ?_
    obtain ⟨h1, h2, h3, h4, h5, h6, h7, h8, h9, h10⟩ := closed_api hw d
    exact ⟨up h1, up h2, up h3, pick_lt hl.2, up h5, up h6, up h7, up h8, up h9, up h10⟩
  | annotations m =>
    refine quiet_reapi (quiet_freshAm H m _) fun hw => api_bound (upd_self _ _ _) ?_
    obtain ⟨h1, h2, h3, h4, h5, h6, h7, h8, h9, h10⟩ := closed_api hw d
    exact ⟨up h1, up h2, up h3, up h4, pick_lt hl.2, up h6, up h7, up h8, up h9, up h10⟩
  | securitySchemes m =>
    refine quiet_reapi (quiet_freshUm H m _) fun hw => api_bound (upd_self _ _ _) ?_
    obtain ⟨h1, h2, h3, h4, h5, h6, h7, h8, h9, h10⟩ := closed_api hw d
    exact ⟨up h1, up h2, up h3, up h4, up h5, pick_lt hl.2, up h7, up h8, up h9, up h10⟩
  | uses m =>
    refine quiet_reapi (quiet_freshSm H m _) fun hw => api_bound (upd_self _ _ _) ?_
    obtain ⟨h1, h2, h3, h4, h5, h6, h7, h8, h9, h10⟩ := closed_api hw d
    exact ⟨up h1, up h2, up h3, up h4, up h5, up h6, up h7, pick_lt hl.2, up h9, up h10⟩

theorem quiet_setLib {H : Heap} {d : Addr} {op : LibPtrOp} (hl : H.Legal (.setLib d op)) :
    Quiet [.lib d] H (H.setLib d op) := by
  have up : ∀ {x m}, x < H.next → x < H.after m := fun hx => Nat.lt_of_lt_of_le hx (le_after H _)
  cases op with
  | types m =>
    refine quiet_relib (quiet_freshTm H m _) fun hw => lib_bound (upd_self _ _ _) ?_
    obtain ⟨h1, h2, h3, h4, h5, h6, h7, h8⟩ := closed_lib hw d
    exact ⟨pick_lt hl.2, up h2, up h3, up h4, up h5, up h6, up h7, up h8⟩
  | traits m =>
    refine quiet_relib (quiet_freshUm H m _) fun hw => lib_bound (upd_self _ _ _) ?_
    obtain ⟨h1, h2, h3, h4, h5, h6, h7, h8⟩ := closed_lib hw d
    exact ⟨up h1, pick_lt hl.2, up h3, up h4, up h5, up h6, up h7, up h8⟩
  | resourceTypes m =>
    refine quiet_relib (quiet_freshUm H m _) fun hw => lib_bound (upd_self _ _ _) ?_
    obtain ⟨h1, h2, h3, h4, h5, h6, h7, h8⟩ := closed_lib hw d
    exact ⟨up h1, up h2, pick_lt hl.2, up h4, up h5, up h6, up h7, up h8⟩
  | annotations m =>
    refine quiet_relib (quiet_freshAm H m _) fun hw => lib_bound (upd_self _ _ _) ?_
    obtain ⟨h1, h2, h3, h4, h5, h6, h7, h8⟩ := closed_lib hw d
    exact ⟨up h1, up h2, up h3, up h4, pick_lt hl.2, up h6, up h7, up h8⟩
  | uses m =>
    refine quiet_relib (quiet_freshSm H m _) fun hw => lib_bound (upd_self _ _ _) ?_
    obtain ⟨h1, h2, h3, h4, h5, h6, h7, h8⟩ := closed_lib hw d
    exact ⟨up h1, up h2, up h3, up h4, up h5, up h6, pick_lt hl.2, up h8⟩

theorem quiet_edit {H : Heap} {e : MapEdit} (hl : H.Legal (.edit e)) :
    Quiet (H.touches (.edit e)) H (H.edit e) := by
  cases e with
  | tm m f => exact quiet_tm H m hl.2
  | fm m f => exact quiet_fm H m hl.2
  | em m f => exact quiet_em H m hl.2
  | am m f => exact quiet_am H m
  | ex m f => exact quiet_ex H m
  | xo m f => exact quiet_xo H m
  | xm m f => exact quiet_xm H m
  | sm m f => exact quiet_sm H m
  | um m f => exact quiet_um H m

theorem quiet_newApi (H : Heap) : Quiet [] H H.newApi.2 := by
  refine ⟨⟨Nat.le_add_right _ _, fun o ho _ => ?_⟩,
    fun hw => closed_of hw (Nat.le_add_right _ _) fun o => ?_⟩
  · have hne := Nat.ne_of_lt ho
    cases o with
    | um a =>
      have hk : ∀ k, a ≠ H.next + k := fun k =>
        Nat.ne_of_lt (Nat.lt_of_lt_of_le ho (Nat.le_add_right _ _))
      show H.um a = _
      simp only [Heap.newApi, upd]
      rw [if_neg (hk 5), if_neg (hk 4), if_neg (hk 3), if_neg (hk 2), if_neg (hk 1), if_neg (show a ≠ H.next from hk 0)]
    | ty a => rfl
    | fm a => rfl
    | em a => rfl
    | ex a => rfl
    | xo a => rfl
    | lib a => rfl
    | _ => exact (upd_ne _ _ hne).symm
  · cases o with
    | api a =>
      by_cases ha : a = H.next
      · subst ha
        exact Or.inr (api_bound (upd_self _ _ _)
          ⟨by simp [Heap.newApi], by simp [Heap.newApi], by simp [Heap.newApi],
            by simp [Heap.newApi], by simp [Heap.newApi], by simp [Heap.newApi],
            by simp [Heap.newApi], by simp [Heap.newApi], by simp [Heap.newApi],
            by simp [Heap.newApi]⟩)
      · exact Or.inl (by simp only [Heap.refs, Heap.newApi, upd_ne _ _ ha])
    | tm a =>
      by_cases ha : a = H.next
      · subst ha
        refine Or.inr fun o ho => ?_
        simp only [Heap.refs, Heap.newApi, upd_self, OM.empty, List.map_nil] at ho
        cases ho
      · exact Or.inl (by simp only [Heap.refs, Heap.newApi, upd_ne _ _ ha])
    | _ => exact Or.inl rfl

theorem quiet_newLib (H : Heap) : Quiet [] H H.newLib.2 := by
  refine ⟨⟨Nat.le_add_right _ _, fun o ho _ => ?_⟩,
    fun hw => closed_of hw (Nat.le_add_right _ _) fun o => ?_⟩
  · have hne := Nat.ne_of_lt ho
    cases o with
    | um a =>
      have hk : ∀ k, a ≠ H.next + k := fun k =>
        Nat.ne_of_lt (Nat.lt_of_lt_of_le ho (Nat.le_add_right _ _))
      show H.um a = _
      simp only [Heap.newLib, upd]
      rw [if_neg (hk 3), if_neg (hk 2), if_neg (hk 1), if_neg (show a ≠ H.next from hk 0)]
    | ty a => rfl
    | fm a => rfl
    | em a => rfl
    | ex a => rfl
    | xo a => rfl
    | api a => rfl
    | _ => exact (upd_ne _ _ hne).symm
  · cases o with
    | lib a =>
      by_cases ha : a = H.next
      · subst ha
        exact Or.inr (lib_bound (upd_self _ _ _)
          ⟨by simp [Heap.newLib], by simp [Heap.newLib], by simp [Heap.newLib],
            by simp [Heap.newLib], by simp [Heap.newLib], by simp [Heap.newLib],
            by simp [Heap.newLib], by simp [Heap.newLib]⟩)
      · exact Or.inl (by simp only [Heap.refs, Heap.newLib, upd_ne _ _ ha])
    | tm a =>
      by_cases ha : a = H.next
      · subst ha
        refine Or.inr fun o ho => ?_
        simp only [Heap.refs, Heap.newLib, upd_self, OM.empty, List.map_nil] at ho
        cases ho
      · exact Or.inl (by simp only [Heap.refs, Heap.newLib, upd_ne _ _ ha])
    | _ => exact Or.inl rfl

theorem quiet_newMap (H : Heap) : Quiet [] H H.newMap :=
  quiet_fresh H H.newMap rfl rfl rfl rfl
    (fun o ho => by
      cases o with
      | ty a => rfl
      | ex a => rfl
      | xo a => rfl
      | api a => rfl
      | lib a => rfl
      | _ => exact (upd_ne _ _ ho).symm)
    (Or.inr (by simp only [Heap.newMap, upd_self]; rfl))
    (Or.inr (by simp only [Heap.newMap, upd_self]; rfl))
    (Or.inr (by simp only [Heap.newMap, upd_self]; rfl)) []

/-- A step changes only what it touches, and takes new addresses. -/
theorem quiet_act (X : Xyml) {H : Heap} {s : Act} (hl : H.Legal s) :
    Quiet (H.touches s) H (H.act X s) := by
  cases s with
  | newType k => exact (storeT_ok (DT.new k) H).quiet _
  | parseType v =>
    simp only [Heap.act]
    split
    · rename_i t _
      exact (storeT_ok t H).quiet _
    · exact Quiet.refl _ H
  | newMap => exact quiet_newMap H
  | newExample k =>
    exact quiet_fresh H { H with ex := upd H.ex H.next (Example.new k), next := H.next + 1 } rfl
      rfl rfl rfl (fun o ho => by
        cases o with
        | ex a => exact (upd_ne _ _ ho).symm
        | _ => rfl)
      (Or.inl rfl) (Or.inl rfl) (Or.inl rfl) _
  | newXML =>
    exact quiet_fresh H { H with xo := upd H.xo H.next XML.new, next := H.next + 1 } rfl
      rfl rfl rfl (fun o ho => by
        cases o with
        | xo a => exact (upd_ne _ _ ho).symm
        | _ => rfl)
      (Or.inl rfl) (Or.inl rfl) (Or.inl rfl) _
  | newApi => exact quiet_newApi H
  | newLib => exact quiet_newLib H
  | onType a c =>
    simp only [Heap.act]
    cases h : H.typeCall a c with
    | none => exact Quiet.refl _ H
    | some H' => exact quiet_typeCall hl h
  | edit e => exact quiet_edit hl
  | onApi d op =>
    simp only [Heap.act]
    split
    · exact quiet_setApiV H d _
    · exact Quiet.refl _ H
  | setApi d op => exact quiet_setApi hl
  | loadApi d v => exact (quietApi_load X d v H).quiet
  | onLib d op =>
    simp only [Heap.act]
    split
    · exact quiet_setLibV H d _
    · exact Quiet.refl _ H
  | setLib d op => exact quiet_setLib hl
  | loadLib d v => exact (quietLib_load X d v H).quiet
  | loadType a v => exact (loads_typeLoad X a v H hl).quiet
  | loadEx m v => exact quiet_ex H m
  | loadXML m v => exact quiet_xo H m

/-- The heaps that programs can make have no dangling pointers. -/
theorem Reachable.closed {X : Xyml} {H : Heap} (h : Reachable X H) : H.Closed := by
  induction h with
  | start =>
    intro o o' hp
    cases o with
    | ty a => exact (List.mem_singleton.mp hp) ▸ Nat.zero_lt_one
    | tm a => cases hp
    | fm a => cases hp
    | em a => cases hp
    | api a => exact api_bound (n := 1) rfl (by simp [Heap.start]) o' hp
    | lib a => exact lib_bound (n := 1) rfl (by simp [Heap.start]) o' hp
    | _ => cases hp
  | act s _ hl ih => exact (quiet_act X hl).closed ih

end Verif.Doc
