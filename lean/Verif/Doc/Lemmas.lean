import Verif.Doc.Api

/-! # Lemmas about outcomes, dictionaries and loops -/

namespace Verif.Doc

/-! ### Outcomes -/

namespace Res
variable {α β γ : Type}

@[simp] theorem bind_ok (a : α) (f : α → Res β) : (Res.ok a).bind f = f a := rfl
@[simp] theorem bind_err (e : Err) (f : α → Res β) : (Res.err e).bind f = .err e := rfl
@[simp] theorem bind_panic (c : Crash) (f : α → Res β) : (Res.panic c).bind f = .panic c := rfl
@[simp] theorem map_ok (a : α) (f : α → β) : (Res.ok a).map f = .ok (f a) := rfl
@[simp] theorem map_err (e : Err) (f : α → β) : (Res.err e).map f = .err e := rfl
@[simp] theorem map_panic (c : Crash) (f : α → β) : (Res.panic c).map f = .panic c := rfl

theorem bind_assoc (r : Res α) (f : α → Res β) (g : β → Res γ) :
    (r.bind f).bind g = r.bind fun a => (f a).bind g := by
  cases r <;> rfl

theorem bind_eq_ok {r : Res α} {f : α → Res β} {b : β} :
    r.bind f = .ok b ↔ ∃ a, r = .ok a ∧ f a = .ok b := by
  cases r <;> simp

theorem map_eq_ok {r : Res α} {f : α → β} {b : β} :
    r.map f = .ok b ↔ ∃ a, r = .ok a ∧ f a = b := by
  cases r <;> simp [Res.map]

theorem bind_eq_panic {r : Res α} {f : α → Res β} {c : Crash} :
    r.bind f = .panic c ↔ r = .panic c ∨ ∃ a, r = .ok a ∧ f a = .panic c := by
  cases r <;> simp

theorem map_eq_panic {r : Res α} {f : α → β} {c : Crash} :
    r.map f = .panic c ↔ r = .panic c := by
  cases r <;> simp [Res.map]

theorem isOk_iff {r : Res α} : r.isOk = true ↔ ∃ a, r = .ok a := by
  cases r <;> simp [isOk]

theorem isPanic_iff {r : Res α} : r.isPanic = true ↔ ∃ c, r = .panic c := by
  cases r <;> simp [isPanic]

theorem bind_ok_right (r : Res α) : r.bind .ok = r := by cases r <;> rfl

@[simp] theorem isPanic_map {r : Res α} {f : α → β} : (r.map f).isPanic = r.isPanic := by
  cases r <;> rfl

theorem isPanic_bind_false {r : Res α} {f : α → Res β} (h : r.isPanic = false)
    (h2 : ∀ a, r = .ok a → (f a).isPanic = false) : (r.bind f).isPanic = false := by
  cases r with
  | ok a => exact h2 a rfl
  | err e => rfl
  | panic c => simp [isPanic] at h

end Res

/-! ### Dictionaries -/

namespace OM
variable {K V : Type}

/-- The keys, in order. -/
def keys (m : OM K V) : List K := m.ents.map Prod.fst

@[simp] theorem keys_empty (b : Bool) : (empty b : OM K V).keys = [] := rfl
@[simp] theorem ents_empty (b : Bool) : (empty b : OM K V).ents = [] := rfl
@[simp] theorem omap_empty (b : Bool) : (empty b : OM K V).omap = b := rfl

variable [DecidableEq K]

@[simp] theorem omap_put (m : OM K V) (k : K) (v : V) : (m.put k v).omap = m.omap := rfl

/-- Layer 2's `put` is the specification that layer 1 refines to. -/
theorem put_ents_eq_spec [OMap.GoKey K] [OMap.StrictGoKey K] (m : OM K V) (k : K) (v : V) :
    (m.put k v).ents = OMap.Spec.put k v m.ents := by
  have : (fun e : K × V => !(instBEqOfDecidableEq.beq e.1 k)) =
      fun e => !(OMap.GoKey.toBEq.beq e.1 k) := by
    funext e
    have h1 : (instBEqOfDecidableEq.beq e.1 k) = true ↔ e.1 = k := by
      show decide (e.1 = k) = true ↔ _
      exact decide_eq_true_iff
    have h2 : (OMap.GoKey.toBEq.beq e.1 k) = true ↔ e.1 = k := OMap.StrictGoKey.eq_iff
    rw [Bool.eq_iff_iff.mpr (h1.trans h2.symm)]
  simp only [put, OMap.Spec.put, OMap.Spec.remove]
  exact congrArg (fun f => m.ents.filter f ++ [(k, v)]) this

theorem put_of_not_mem {m : OM K V} {k : K} (v : V) (h : k ∉ m.keys) :
    m.put k v = ⟨m.ents ++ [(k, v)], m.omap⟩ := by
  have : m.ents.filter (fun e => !(e.1 == k)) = m.ents := by
    rw [List.filter_eq_self]
    intro e he
    have : e.1 ≠ k := fun hk => h (hk ▸ List.mem_map_of_mem he)
    simp [this]
  simp [put, this]

theorem keys_put (m : OM K V) (k : K) (v : V) :
    (m.put k v).keys = m.keys.filter (fun x => !(x == k)) ++ [k] := by
  simp only [keys, put, List.map_append, List.map_cons, List.map_nil]
  congr 1
  rw [List.filter_map]
  rfl

theorem nodup_put {m : OM K V} (k : K) (v : V) (h : m.keys.Nodup) : (m.put k v).keys.Nodup := by
  rw [keys_put]
  refine List.nodup_append.mpr ⟨h.filter _, by simp, ?_⟩
  intro a ha b hb
  simp only [List.mem_filter, Bool.not_eq_eq_eq_not, Bool.not_true, beq_eq_false_iff_ne] at ha
  simp only [List.mem_singleton] at hb
  exact hb ▸ ha.2

theorem putAll_append (m : OM K V) (a b : List (K × V)) :
    m.putAll (a ++ b) = (m.putAll a).putAll b := List.foldl_append

@[simp] theorem putAll_nil (m : OM K V) : m.putAll [] = m := rfl

theorem putAll_cons (m : OM K V) (e : K × V) (es : List (K × V)) :
    m.putAll (e :: es) = (m.put e.1 e.2).putAll es := rfl

/-- Puts with fresh, distinct keys append. -/
theorem putAll_eq_append {m : OM K V} {es : List (K × V)}
    (h : (m.keys ++ es.map Prod.fst).Nodup) : m.putAll es = ⟨m.ents ++ es, m.omap⟩ := by
  induction es generalizing m with
  | nil => simp
  | cons e es ih =>
    have hk : e.1 ∉ m.keys := by
      intro hm
      exact (List.nodup_append.mp h).2.2 _ hm e.1 (by simp) rfl
    rw [putAll_cons, put_of_not_mem e.2 hk, ih]
    · simp
    · simpa [keys, List.append_assoc] using h

/-- The entries of an optional put. -/
def optEnt (k : K) : Option V → List (K × V)
  | some v => [(k, v)]
  | none => []

theorem putOpt_eq (m : OM K V) (k : K) (o : Option V) : m.putOpt k o = m.putAll (optEnt k o) := by
  cases o <;> rfl

theorem put_eq (m : OM K V) (k : K) (v : V) : m.put k v = m.putAll [(k, v)] := rfl

theorem nodup_putAll {m : OM K V} (es : List (K × V)) (h : m.keys.Nodup) :
    (m.putAll es).keys.Nodup := by
  induction es generalizing m with
  | nil => exact h
  | cons e es ih => exact ih (nodup_put _ _ h)

theorem nodup_putOpt {m : OM K V} (k : K) (o : Option V) (h : m.keys.Nodup) :
    (m.putOpt k o).keys.Nodup := by
  cases o with
  | none => exact h
  | some v => exact nodup_put _ _ h

@[simp] theorem omap_putAll (m : OM K V) (es : List (K × V)) : (m.putAll es).omap = m.omap := by
  induction es generalizing m with
  | nil => rfl
  | cons e es ih => rw [putAll_cons, ih]; rfl

@[simp] theorem omap_putOpt (m : OM K V) (k : K) (o : Option V) :
    (m.putOpt k o).omap = m.omap := by cases o <;> rfl

theorem get_put (m : OM K V) (k k' : K) (v : V) :
    (m.put k v).get k' = if k = k' then some v else m.get k' := by
  unfold get put
  induction m.ents with
  | nil => by_cases h : k = k' <;> simp [h]
  | cons e es ih =>
    by_cases h : k = k'
    · subst h
      by_cases he : e.1 = k
      · simp only [List.filter_cons, he, beq_self_eq_true, Bool.not_true, Bool.false_eq_true,
          if_false]
        simpa using ih
      · simp only [List.filter_cons, he, Bool.not_eq_eq_eq_not, Bool.not_true,
          beq_eq_false_iff_ne, ne_eq, not_false_eq_true, if_true, List.cons_append]
        rw [List.find?_cons_of_neg (by simpa using he)]
        simpa using ih
    · rw [if_neg h] at ih ⊢
      by_cases he : e.1 = k
      · have h2 : ¬ e.1 = k' := fun h3 => h (he ▸ h3)
        simp only [List.filter_cons, he, beq_self_eq_true, Bool.not_true, Bool.false_eq_true,
          if_false]
        rw [ih, List.find?_cons_of_neg (by simpa using h2)]
      · simp only [List.filter_cons, he, Bool.not_eq_eq_eq_not, Bool.not_true,
          beq_eq_false_iff_ne, ne_eq, not_false_eq_true, if_true, List.cons_append]
        by_cases h2 : e.1 = k'
        · rw [List.find?_cons_of_pos (by simpa using h2),
            List.find?_cons_of_pos (by simpa using h2)]
        · rw [List.find?_cons_of_neg (by simpa using h2),
            List.find?_cons_of_neg (by simpa using h2)]
          exact ih

end OM

/-! ### Loops -/

section Loops
variable {σ τ : Type}

theorem forPairs_append (f : Node → Node → σ → Res σ) (ps qs : List (Node × Node)) (s : σ) :
    forPairs f (ps ++ qs) s = (forPairs f ps s).bind (forPairs f qs) := by
  induction ps generalizing s with
  | nil => rfl
  | cons p ps ih =>
    simp only [List.cons_append, forPairs, Res.bind_assoc]
    congr 1
    funext s'
    exact ih s'

theorem forItems_append (f : Node → σ → Res σ) (ps qs : List Node) (s : σ) :
    forItems f (ps ++ qs) s = (forItems f ps s).bind (forItems f qs) := by
  induction ps generalizing s with
  | nil => rfl
  | cons p ps ih =>
    simp only [List.cons_append, forItems, Res.bind_assoc]
    congr 1
    funext s'
    exact ih s'

/-- An invariant of the body is an invariant of the loop. -/
theorem forPairs_inv {f : Node → Node → σ → Res σ} {I : σ → Prop}
    (h : ∀ k v s s', I s → f k v s = .ok s' → I s') :
    ∀ ps s s', I s → forPairs f ps s = .ok s' → I s' := by
  intro ps
  induction ps with
  | nil => intro s s' hI hs; cases hs; exact hI
  | cons p ps ih =>
    intro s s' hI hs
    obtain ⟨s1, h1, h2⟩ := Res.bind_eq_ok.mp hs
    exact ih _ _ (h _ _ _ _ hI h1) h2

/-- What a loop needs in order to split into independent sections: `c` says which section an
entry belongs to, `R i` that two states agree on section `i`. -/
structure Sections (f : Node → Node → σ → Res σ) (ι : Type) [DecidableEq ι]
    (I : σ → Prop) (c : Node × Node → ι) (R : ι → σ → σ → Prop) : Prop where
  inv : ∀ {k v s s'}, I s → f k v s = .ok s' → I s'
  refl : ∀ i s, R i s s
  symm : ∀ {i s t}, R i s t → R i t s
  trans : ∀ {i s t u}, R i s t → R i t u → R i s u
  /-- an entry leaves the other sections alone -/
  frame : ∀ {k v s s' i}, I s → f k v s = .ok s' → i ≠ c (k, v) → R i s s'
  /-- an entry's effect on its section depends on that section only -/
  loc : ∀ {k v s s' t}, I s → I t → R (c (k, v)) s t → f k v s = .ok s' →
    ∃ t', f k v t = .ok t' ∧ R (c (k, v)) s' t'

namespace Sections
variable {f : Node → Node → σ → Res σ} {ι : Type} [DecidableEq ι] {I : σ → Prop}
  {c : Node × Node → ι} {R : ι → σ → σ → Prop}

theorem project (H : Sections f ι I c R) (i : ι) :
    ∀ ps s s' t, I s → I t → R i s t → forPairs f ps s = .ok s' →
    ∃ t', forPairs f (ps.filter fun p => c p = i) t = .ok t' ∧ R i s' t' := by
  intro ps
  induction ps with
  | nil => intro s s' t _ _ hR hs; cases hs; exact ⟨t, rfl, hR⟩
  | cons p ps ih =>
    intro s s' t hs ht hR h
    obtain ⟨s1, h1, h2⟩ := Res.bind_eq_ok.mp h
    by_cases hc : c p = i
    · subst hc
      obtain ⟨t1, ht1, hR1⟩ := H.loc (k := p.1) (v := p.2) hs ht hR h1
      obtain ⟨t', ht', hR'⟩ := ih s1 s' t1 (H.inv hs h1) (H.inv ht ht1) hR1 h2
      refine ⟨t', ?_, hR'⟩
      simp only [List.filter_cons, decide_true, if_true, forPairs]
      rw [ht1]; exact ht'
    · have hfr := H.frame (k := p.1) (v := p.2) (i := i) hs h1 (Ne.symm hc)
      obtain ⟨t', ht', hR'⟩ := ih s1 s' t (H.inv hs h1) ht (H.trans (H.symm hfr) hR) h2
      refine ⟨t', ?_, hR'⟩
      simpa [List.filter_cons, hc] using ht'

theorem assemble (H : Sections f ι I c R) :
    ∀ ps s (t : ι → σ), I s → (∀ i, I (t i)) → (∀ i, R i s (t i)) →
    (∀ i, ∃ t', forPairs f (ps.filter fun p => c p = i) (t i) = .ok t') →
    ∃ s', forPairs f ps s = .ok s' := by
  intro ps
  induction ps with
  | nil => intro s _ _ _ _ _; exact ⟨s, rfl⟩
  | cons p ps ih =>
    intro s t hs ht hR h
    obtain ⟨t', ht'⟩ := h (c p)
    simp only [List.filter_cons, decide_true, if_true, forPairs] at ht'
    obtain ⟨u, hu, hu2⟩ := Res.bind_eq_ok.mp ht'
    obtain ⟨s1, hs1, hR1⟩ := H.loc (k := p.1) (v := p.2) (ht _) hs (H.symm (hR _)) hu
    have := ih s1 (fun i => if i = c p then u else t i) (H.inv hs hs1)
      (by intro i; by_cases hi : i = c p
          · simp only [hi, if_true]; exact H.inv (ht _) hu
          · simp only [hi, if_false]; exact ht i)
      (by intro i; by_cases hi : i = c p
          · subst hi; simp only [if_true]; exact H.symm hR1
          · simp only [hi, if_false]
            exact H.trans (H.symm (H.frame (k := p.1) (v := p.2) hs hs1 hi)) (hR i))
      (by intro i; by_cases hi : i = c p
          · subst hi; simp only [if_true]; exact ⟨t', hu2⟩
          · simp only [hi, if_false]
            obtain ⟨x, hx⟩ := h i
            refine ⟨x, ?_⟩
            simpa [List.filter_cons, Ne.symm hi] using hx)
    obtain ⟨s', hs'⟩ := this
    exact ⟨s', by simp only [forPairs]; rw [hs1]; exact hs'⟩

/-- The loop succeeds iff it succeeds on each section's entries alone. -/
theorem ok_iff (H : Sections f ι I c R) {ps : List (Node × Node)} {s : σ} (hs : I s) :
    (∃ s', forPairs f ps s = .ok s') ↔
      ∀ i, ∃ t', forPairs f (ps.filter fun p => c p = i) s = .ok t' := by
  constructor
  · rintro ⟨s', h⟩ i
    obtain ⟨t', ht, _⟩ := H.project i ps s s' s hs hs (H.refl i s) h
    exact ⟨t', ht⟩
  · exact H.assemble ps s (fun _ => s) hs (fun _ => hs) (fun i => H.refl i s)

/-- Two lists of entries with the same entries per section, in the same order within each
section, are read alike. -/
theorem reorder (H : Sections f ι I c R) {ps qs : List (Node × Node)} {s s' : σ} (hs : I s)
    (hpq : ∀ i, (ps.filter fun p => c p = i) = qs.filter fun p => c p = i)
    (h : forPairs f ps s = .ok s') : ∃ t', forPairs f qs s = .ok t' ∧ ∀ i, R i s' t' := by
  obtain ⟨t', ht'⟩ := (H.ok_iff (ps := qs) hs).mpr fun i => by
    rw [← hpq i]; exact (H.ok_iff hs).mp ⟨s', h⟩ i
  refine ⟨t', ht', fun i => ?_⟩
  obtain ⟨a, ha, hRa⟩ := H.project i ps s s' s hs hs (H.refl i s) h
  obtain ⟨b, hb, hRb⟩ := H.project i qs s t' s hs hs (H.refl i s) ht'
  rw [hpq i, hb] at ha
  cases ha
  exact H.trans hRa (H.symm hRb)

end Sections
end Loops

/-! ### The recursive loops are the generic loop -/

theorem assignAll_eq (X : Xyml) (ps : List (Node × Node)) (t : DT) :
    assignAll X ps t = forPairs (fun k v t => assign X (k, v) t) ps t := by
  induction ps generalizing t with
  | nil => simp [assignAll, forPairs]
  | cons p ps ih =>
    simp only [assignAll, forPairs]
    congr 1
    funext t'
    exact ih t'

theorem loadPropsL_eq (X : Xyml) (ps : List (Node × Node)) (m : OM String DT) :
    loadPropsL X ps m = forPairs (fun k v m => loadProp X (k, v) m) ps m := by
  induction ps generalizing m with
  | nil => simp [loadPropsL, forPairs]
  | cons p ps ih =>
    simp only [loadPropsL, forPairs]
    congr 1
    funext t'
    exact ih t'

theorem loadTypesL_eq (X : Xyml) (ps : List (Node × Node)) (m : OM String DT) :
    loadTypesL X ps m = forPairs (fun k v m => loadType X (k, v) m) ps m := by
  induction ps generalizing m with
  | nil => simp [loadTypesL, forPairs]
  | cons p ps ih =>
    simp only [loadTypesL, forPairs]
    congr 1
    funext t'
    exact ih t'

theorem loadFacetsL_eq (X : Xyml) (ps : List (Node × Node)) (m : OM String (OM String DT)) :
    loadFacetsL X ps m = forPairs (fun k v m => loadFacet X (k, v) m) ps m := by
  induction ps generalizing m with
  | nil => simp [loadFacetsL, forPairs]
  | cons p ps ih =>
    simp only [loadFacetsL, forPairs]
    congr 1
    funext t'
    exact ih t'

theorem loadProps_eq (X : Xyml) (v : Node) (m : OM String DT) :
    loadProps X v m = mapForEach (fun k v m => loadProp X (k, v) m) v m := by
  cases v <;> simp [loadProps, mapForEach, loadPropsL_eq]

theorem loadTypes_eq (X : Xyml) (v : Node) (m : OM String DT) :
    loadTypes X v m = mapForEach (fun k v m => loadType X (k, v) m) v m := by
  cases v <;> simp [loadTypes, mapForEach, loadTypesL_eq]

theorem loadFacets_eq (X : Xyml) (v : Node) (m : OM String (OM String DT)) :
    loadFacets X v m = mapForEach (fun k v m => loadFacet X (k, v) m) v m := by
  cases v <;> simp [loadFacets, mapForEach, loadFacetsL_eq]

theorem assignAll_append (X : Xyml) (ps qs : List (Node × Node)) (t : DT) :
    assignAll X (ps ++ qs) t = (assignAll X ps t).bind (assignAll X qs) := by
  rw [assignAll_eq, forPairs_append, ← assignAll_eq]
  congr 1
  funext t'
  exact (assignAll_eq X qs t').symm

end Verif.Doc
