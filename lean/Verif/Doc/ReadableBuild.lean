import Verif.Doc.Readable

/-! # Every readable value is read from some document -/

namespace Verif.Doc
open Verif Verif.Doc.Spec

/-! ### Reachable by a list of entries -/

/-- Some list of entries, all satisfying `Q`, takes the loop from one state to the other
(auxiliary). -/
def Leads {σ : Type} (Q : Node × Node → Prop) (f : Node → Node → σ → Res σ) (s s' : σ) : Prop :=
  ∃ ps, (∀ p ∈ ps, Q p) ∧ forPairs f ps s = .ok s'

section Leads
variable {σ : Type} {Q : Node × Node → Prop} {f : Node → Node → σ → Res σ}

theorem Leads.refl (s : σ) : Leads Q f s s := ⟨[], fun _ hp => (nomatch hp), rfl⟩

theorem Leads.trans {s t u : σ} (h1 : Leads Q f s t) (h2 : Leads Q f t u) : Leads Q f s u := by
  obtain ⟨ps, hp, h1⟩ := h1
  obtain ⟨qs, hq, h2⟩ := h2
  refine ⟨ps ++ qs, fun p h => ?_, ?_⟩
  · rcases List.mem_append.mp h with h | h
    · exact hp p h
    · exact hq p h
  · rw [forPairs_append, h1]
    exact h2

theorem Leads.one {s t : σ} (k v : Node) (hq : Q (k, v)) (h : f k v s = .ok t) :
    Leads Q f s t := by
  refine ⟨[(k, v)], fun p hp => ?_, ?_⟩
  · rw [List.mem_singleton] at hp; subst hp; exact hq
  · simp only [forPairs, h]; rfl

/-- A dictionary is built entry by entry. -/
theorem Leads.fill {K V : Type} [DecidableEq K] (set : OM K V → σ) (l : List (K × V))
    (h : ∀ e ∈ l, ∃ k v, Q (k, v) ∧ ∀ m, f k v (set m) = .ok (set (m.put e.1 e.2))) :
    ∀ (es : List (K × V)) (b : Bool), Distinct (es ++ l) →
      Leads Q f (set ⟨es, b⟩) (set ⟨es ++ l, b⟩) := by
  induction l with
  | nil => intro es b _; rw [List.append_nil]; exact .refl _
  | cons e l ih =>
    intro es b hd
    obtain ⟨k, v, hq, hs⟩ := h e (by simp)
    have hk : e.1 ∉ OM.keys (⟨es, b⟩ : OM K V) := by
      intro hm
      unfold Distinct at hd
      rw [List.map_append, List.map_cons, List.nodup_append] at hd
      exact hd.2.2 e.1 hm e.1 (by simp) rfl
    have h1 := Leads.one k v hq (hs ⟨es, b⟩)
    rw [OM.put_of_not_mem e.2 hk] at h1
    have h2 := ih (fun e' he' => h e' (by simp [he'])) (es ++ [e]) b (by simpa using hd)
    rw [List.append_assoc] at h2
    exact h1.trans h2

theorem Leads.fill_empty {K V : Type} [DecidableEq K] (set : OM K V → σ) {m : OM K V}
    (hd : Distinct m.ents)
    (h : ∀ e ∈ m.ents, ∃ k v, Q (k, v) ∧ ∀ m, f k v (set m) = .ok (set (m.put e.1 e.2))) :
    Leads Q f (set ⟨[], m.omap⟩) (set m) := Leads.fill set m.ents h [] m.omap hd

/-- As a mapping node. -/
theorem Leads.mapNode {s t : σ} (h : Leads Q f s t) : ∃ n, mapForEach f n s = .ok t := by
  obtain ⟨ps, _, h⟩ := h
  exact ⟨.map ps, h⟩

end Leads

/-! ### Scalars -/

theorem asUint_any {X : Xyml} (hX : Lawful X) {n : Nat} (h : IsUint64 n) :
    ∃ v, asUint X v = .ok n := by
  unfold IsUint64 at h
  by_cases hs : n < 9223372036854775808
  · refine ⟨X.ofInt n, ?_⟩
    unfold asUint
    rw [asInt_ofInt hX (by constructor <;> omega)]
    show Res.ok (Int.toNat (_ % 18446744073709551616)) = _
    congr 1
    omega
  · refine ⟨X.ofInt ((n : Int) - 18446744073709551616), ?_⟩
    unfold asUint
    rw [asInt_ofInt hX (by constructor <;> omega)]
    show Res.ok (Int.toNat (_ % 18446744073709551616)) = _
    congr 1
    omega

theorem asStringList_any (l : List String) : asStringList (.seq seqTag (l.map .str)) = .ok l := by
  show forItems _ _ _ = _
  have : ∀ (l acc : List String), forItems (fun n acc => (asString n).map fun s => acc ++ [s])
      (l.map Node.str) acc = .ok (acc ++ l) := by
    intro l
    induction l with
    | nil => intro acc; simp [forItems]
    | cons a l ih =>
      intro acc
      show forItems _ (l.map Node.str) (acc ++ [a]) = _
      rw [ih]
      simp
  exact this l []

theorem loadAnn_any {a : Ann} (h1 : a.omap = true) (h2 : Distinct a.ents) :
    ∃ v, loadAnn v = .ok a := by
  have := (Leads.fill_empty (Q := fun _ => True)
    (f := fun k v (m : OM String Node) => (asString k).map fun s => m.put s v) id h2
    (fun e _ => ⟨.str e.1, e.2, trivial, fun m => rfl⟩)).mapNode
  rw [h1] at this
  exact this

theorem enumVal_any {X : Xyml} (hX : Lawful X) {kd : Kind} {v : Val} (h : FitsEnum kd v) :
    ∃ n, enumVal X kd n = .ok v := by
  cases kd <;> simp only [FitsEnum] at h <;> simp only [enumVal]
  all_goals first
    | (obtain ⟨n, rfl⟩ := h; exact ⟨n, rfl⟩)
    | (obtain ⟨i, rfl, hi⟩ := h; exact ⟨X.ofInt i, by rw [asInt_ofInt hX hi]; rfl⟩)
    | (obtain ⟨b, rfl⟩ := h; exact ⟨X.ofBool b, by rw [asBool_ofBool hX]; rfl⟩)
    | (obtain ⟨b, rfl⟩ := h; exact ⟨X.ofFlt b, by rw [asFlt_ofFlt hX]; rfl⟩)
    | (obtain ⟨s, rfl⟩ := h; exact ⟨.str s, by rw [hX.toStr_str]⟩)

theorem exampleVal_any {X : Xyml} (hX : Lawful X) {kd : Kind} {v : Val} (h : FitsExample kd v) :
    ∃ n, exampleVal X kd n = .ok v := by
  cases kd <;> simp only [FitsExample] at h <;> simp only [exampleVal]
  all_goals first
    | (obtain ⟨i, rfl, hi⟩ := h; exact ⟨X.ofInt i, by rw [asInt_ofInt hX hi]; rfl⟩)
    | (obtain ⟨b, rfl⟩ := h; exact ⟨X.ofBool b, by rw [asBool_ofBool hX]; rfl⟩)
    | (obtain ⟨b, rfl⟩ := h; exact ⟨X.ofFlt b, by rw [asFlt_ofFlt hX]; rfl⟩)
    | (obtain ⟨s, rfl⟩ := h; exact ⟨.str s, rfl⟩)
    | (obtain ⟨s, rfl⟩ := h; exact ⟨.seq seqTag s, rfl⟩)
    | (obtain ⟨n, rfl⟩ := h; exact ⟨n, rfl⟩)

theorem loadEnum_any {X : Xyml} (hX : Lawful X) {kd : Kind} {l : List Val} (hl : l ≠ [])
    (h : ∀ v ∈ l, FitsEnum kd v) : ∃ n, loadEnum X kd none n = .ok (some l) := by
  have key : ∀ (l : List Val), (∀ v ∈ l, FitsEnum kd v) → ∀ acc, ∃ ns,
      forItems (fun n l => (enumVal X kd n).map fun x => pushEnum x l) ns (some acc) =
        .ok (some (acc ++ l)) := by
    intro l
    induction l with
    | nil => intro _ acc; exact ⟨[], by simp [forItems]⟩
    | cons v l ih =>
      intro h acc
      obtain ⟨n, hn⟩ := enumVal_any hX (h v (by simp))
      obtain ⟨ns, hns⟩ := ih (fun w hw => h w (by simp [hw])) (acc ++ [v])
      refine ⟨n :: ns, ?_⟩
      simp only [forItems, hn]
      show forItems _ ns (some (acc ++ [v])) = _
      rw [hns]
      simp
  cases l with
  | nil => exact absurd rfl hl
  | cons v l =>
    obtain ⟨n, hn⟩ := enumVal_any hX (h v (by simp))
    obtain ⟨ns, hns⟩ := key l (fun w hw => h w (by simp [hw])) [v]
    refine ⟨.seq seqTag (n :: ns), ?_⟩
    simp only [loadEnum, seqForEach, forItems, hn]
    exact hns

/-! ### Examples and XML settings -/

private theorem plain_first {s : String} (h : PlainKey s) : ∃ c, firstChar s = some c ∧ c ≠ '(' := by
  cases hc : firstChar s with
  | none => exact absurd (firstChar_none.mp hc) h.1
  | some c =>
    refine ⟨c, rfl, ?_⟩
    rintro rfl
    exact h.2 hc

theorem example_any {X : Xyml} (hX : Lawful X) {kd : Kind} {e : Example}
    (h : ReadableExample X kd e) : ∃ n, (Example.new kd).unmarshal X n = .ok e := by
  obtain ⟨hp, hk⟩ := h
  obtain ⟨ek, dn, de, an, va, st, ex⟩ := e
  obtain ⟨hkind, hval, hann, hef, hed⟩ := hp
  simp only at hkind hval hann hef hed hk
  subst hkind
  suffices hh : Leads (fun _ => True) (Example.assign X) (Example.new ek)
      ⟨ek, dn, de, an, va, st, ex⟩ by
    obtain ⟨ps, _, h⟩ := hh
    exact ⟨.map ps, h⟩
  have h1 : Leads (fun _ => True) (Example.assign X) (Example.new ek)
      ⟨ek, dn, none, OM.empty false, none, true, OM.empty false⟩ := by
    cases dn with
    | none => exact .refl _
    | some s => exact .one (.str "displayName") (.str s) trivial rfl
  have h2 : Leads (fun _ => True) (Example.assign X)
      ⟨ek, dn, none, OM.empty false, none, true, OM.empty false⟩
      ⟨ek, dn, de, OM.empty false, none, true, OM.empty false⟩ := by
    cases de with
    | none => exact .refl _
    | some s => exact .one (.str "description") (.str s) trivial rfl
  have h3 : Leads (fun _ => True) (Example.assign X)
      ⟨ek, dn, de, OM.empty false, none, true, OM.empty false⟩
      ⟨ek, dn, de, OM.empty false, none, st, OM.empty false⟩ := by
    refine .one (.str "strict") (X.ofBool st) trivial ?_
    show (asBool X (X.ofBool st)).map _ = _
    rw [asBool_ofBool hX]
    rfl
  have h4 : Leads (fun _ => True) (Example.assign X)
      ⟨ek, dn, de, OM.empty false, none, st, OM.empty false⟩
      ⟨ek, dn, de, OM.empty false, va, st, OM.empty false⟩ := by
    cases va with
    | none => exact .refl _
    | some v =>
      obtain ⟨n, hn⟩ := exampleVal_any hX (hval v rfl)
      refine .one (.str "value") n trivial ?_
      show (exampleVal X ek n).map _ = _
      rw [hn]
      rfl
  have h5 : Leads (fun _ => True) (Example.assign X)
      ⟨ek, dn, de, OM.empty false, va, st, OM.empty false⟩
      ⟨ek, dn, de, an, va, st, OM.empty false⟩ := by
    have := Leads.fill_empty (Q := fun _ => True) (f := Example.assign X)
      (fun m => (⟨ek, dn, de, m, va, st, OM.empty false⟩ : Example)) hann.distinct ?_
    · rw [hann.omap] at this
      exact this
    · intro x hx
      obtain ⟨v, hv⟩ := loadAnn_any (hann.values x hx).1 (hann.values x hx).2
      refine ⟨.str x.1, v, trivial, fun m => ?_⟩
      have hf : firstChar x.1 = some '(' := hann.keys x hx
      unfold Example.assign
      have : (Node.str x.1).isStr = true := rfl
      have hv' : (Node.str x.1).value = x.1 := rfl
      simp only [this, hv', hf, hv]
      rfl
  have h6 : Leads (fun _ => True) (Example.assign X)
      ⟨ek, dn, de, an, va, st, OM.empty false⟩ ⟨ek, dn, de, an, va, st, ex⟩ := by
    have := Leads.fill_empty (Q := fun _ => True) (f := Example.assign X)
      (fun m => (⟨ek, dn, de, an, va, st, m⟩ : Example)) hed ?_
    · rw [hef] at this
      exact this
    · intro x hx
      obtain ⟨k, hk1, hk2⟩ := hk x hx
      refine ⟨k, x.2, trivial, fun m => ?_⟩
      have hput : ∀ e : Example, e.putExtra X k x.2 = .ok { e with extra := e.extra.put x.1 x.2 } := by
        intro e
        unfold Example.putExtra asScalar
        rw [hk1]
        rfl
      unfold Example.assign
      cases hs : k.isStr with
      | false => simp only [Bool.not_false, if_true, hput]
      | true =>
        obtain ⟨hpl, hn⟩ := hk2 hs
        obtain ⟨c, hc, hcp⟩ := plain_first hpl
        simp only [exampleKeys, List.mem_cons, List.not_mem_nil, or_false, not_or] at hn
        simp [hc, hcp, hn, hput]
  exact h1.trans (h2.trans (h3.trans (h4.trans (h5.trans h6))))

theorem xml_any {X : Xyml} (hX : Lawful X) {x : XML} (h : ReadableXML X x) :
    ∃ n, loadXML X n = .ok x := by
  obtain ⟨at', wr, na, ns, pr, ex⟩ := x
  obtain ⟨hf, hd, hk⟩ := h
  simp only at hf hd hk
  refine Leads.mapNode (Q := fun _ => True) ?_
  have h1 : Leads (fun _ => True) (XML.assign X) XML.new
      ⟨at', none, none, none, none, OM.empty false⟩ := by
    cases at' with
    | none => exact .refl _
    | some b =>
      refine .one (.str "attribute") (X.ofBool b) trivial ?_
      show (asBool X (X.ofBool b)).map _ = _
      rw [asBool_ofBool hX]
      rfl
  have h2 : Leads (fun _ => True) (XML.assign X) ⟨at', none, none, none, none, OM.empty false⟩
      ⟨at', wr, none, none, none, OM.empty false⟩ := by
    cases wr with
    | none => exact .refl _
    | some b =>
      refine .one (.str "wrapped") (X.ofBool b) trivial ?_
      show (asBool X (X.ofBool b)).map _ = _
      rw [asBool_ofBool hX]
      rfl
  have h3 : Leads (fun _ => True) (XML.assign X) ⟨at', wr, none, none, none, OM.empty false⟩
      ⟨at', wr, na, none, none, OM.empty false⟩ := by
    cases na with
    | none => exact .refl _
    | some s => exact .one (.str "name") (.str s) trivial rfl
  have h4 : Leads (fun _ => True) (XML.assign X) ⟨at', wr, na, none, none, OM.empty false⟩
      ⟨at', wr, na, ns, none, OM.empty false⟩ := by
    cases ns with
    | none => exact .refl _
    | some s => exact .one (.str "namespace") (.str s) trivial rfl
  have h5 : Leads (fun _ => True) (XML.assign X) ⟨at', wr, na, ns, none, OM.empty false⟩
      ⟨at', wr, na, ns, pr, OM.empty false⟩ := by
    cases pr with
    | none => exact .refl _
    | some s => exact .one (.str "prefix") (.str s) trivial rfl
  have h6 : Leads (fun _ => True) (XML.assign X) ⟨at', wr, na, ns, pr, OM.empty false⟩
      ⟨at', wr, na, ns, pr, ex⟩ := by
    have := Leads.fill_empty (Q := fun _ => True) (f := XML.assign X)
      (fun m => (⟨at', wr, na, ns, pr, m⟩ : XML)) hd ?_
    · rw [hf] at this
      exact this
    · intro p hp
      obtain ⟨k, hk1, hk2⟩ := hk p hp
      refine ⟨k, p.2, trivial, fun m => ?_⟩
      simp only [xmlKeys, List.mem_cons, List.not_mem_nil, or_false, not_or] at hk2
      unfold XML.assign asScalar
      simp only [hk2, if_false, hk1]
      rfl
  exact h1.trans (h2.trans (h3.trans (h4.trans (h5.trans h6))))

theorem loadExample_any {X : Xyml} (hX : Lawful X) {kd : Kind} {e : Example} (hk : kd ≠ .any)
    (hb : isBasic kd = false) (h : ReadableExample X kd e) : ∃ n, loadExample X kd n = .ok e := by
  obtain ⟨n, hn⟩ := example_any hX h
  refine ⟨n, ?_⟩
  have : exampleSortingHat kd = .ok (Example.new kd) := by
    cases kd <;> first | rfl | exact absurd rfl hk | (cases hb)
  unfold loadExample
  rw [this]
  exact hn

theorem loadExamples_any {X : Xyml} (hX : Lawful X) {kd : Kind} {m : OM String Example}
    (h1 : m.omap = false) (h2 : Distinct m.ents) (h : ∀ e ∈ m.ents, ReadableExample X kd e.2) :
    ∃ n, loadExamples X kd ⟨[], false⟩ n = .ok m := by
  have := (Leads.fill_empty (Q := fun _ => True)
    (f := fun k v (m : OM String Example) => (asString k).bind fun s =>
      ((Example.new kd).unmarshal X v).map fun e => m.put s e) id h2 ?_).mapNode
  · rw [h1] at this
    exact this
  · intro e he
    obtain ⟨n, hn⟩ := example_any hX (h e he)
    refine ⟨.str e.1, n, trivial, fun m => ?_⟩
    simp only [asString_str, hn]
    rfl

/-! ### Types -/

/-- The loop over the entries of one facet (auxiliary). -/
abbrev FacetLeads (X : Xyml) (kd : Kind) (f : Facet) (x y : f.Ty) : Prop :=
  Leads (fun p => facetOf kd p = f) (fun k v x => facetStep X kd k v f x) x y

theorem FacetLeads.named {X : Xyml} {kd : Kind} {f : Facet} {x y : f.Ty} (s : String) (v : Node)
    (h1 : (facetNames kd).contains s = true) (h2 : facetNamed.lookup s = some f)
    (h : facetStep X kd (.str s) v f x = .ok y) : FacetLeads X kd f x y :=
  Leads.one (.str s) v (facetOf_eq rfl h1 h2) h

theorem contains_common (b : Body) {s : String} (h : facetNames.common.contains s = true) :
    (facetNames b.kind).contains s = true := by
  have h' : s ∈ facetNames.common := by simpa using h
  have : s ∈ facetNames b.kind := by cases b <;> simp [facetNames, Body.kind, h']
  simpa using this

theorem loadTypes_any {X : Xyml} {m : OM String DT} (h1 : Distinct m.ents)
    (h : ∀ e ∈ m.ents, ∃ n, hat X n = .ok e.2) : ∃ n, loadTypes X n ⟨[], m.omap⟩ = .ok m := by
  simp only [loadTypes_eq]
  refine (Leads.fill_empty (Q := fun _ => True) id h1 fun e he => ?_).mapNode
  obtain ⟨n, hn⟩ := h e he
  refine ⟨.str e.1, n, trivial, fun m => ?_⟩
  unfold loadType
  rw [asString_str, hn]
  rfl

theorem loadProps_any {X : Xyml} {m : OM String DT} (h1 : Distinct m.ents)
    (hp : ∀ e ∈ m.ents, e.2.isProperty = true)
    (h : ∀ e ∈ m.ents, ∃ n, hat X n = .ok e.2) : ∃ n, loadProps X n ⟨[], m.omap⟩ = .ok m := by
  simp only [loadProps_eq]
  refine (Leads.fill_empty (Q := fun _ => True) id h1 fun e he => ?_).mapNode
  obtain ⟨n, hn⟩ := h e he
  refine ⟨.str e.1, n, trivial, fun m => ?_⟩
  unfold loadProp
  rw [asString_str, hn]
  show (if e.2.isProperty then Res.ok _ else _) = _
  rw [if_pos (hp e he)]
  rfl

theorem loadFacets_any {X : Xyml} {m : OM String (OM String DT)} (h1 : Distinct m.ents)
    (hf : ∀ f ∈ m.ents, f.2.omap = true ∧ Distinct f.2.ents)
    (h : ∀ f ∈ m.ents, ∀ e ∈ f.2.ents, ∃ n, hat X n = .ok e.2) :
    ∃ n, loadFacets X n ⟨[], m.omap⟩ = .ok m := by
  simp only [loadFacets_eq]
  refine (Leads.fill_empty (Q := fun _ => True) id h1 fun f hm => ?_).mapNode
  obtain ⟨n, hn⟩ := loadTypes_any (hf f hm).2 (h f hm)
  rw [(hf f hm).1] at hn
  refine ⟨.str f.1, n, trivial, fun m => ?_⟩
  unfold loadFacet
  rw [asString_str]
  show (loadTypes X n ⟨[], true⟩).bind _ = _
  rw [hn]
  rfl

theorem OM.eta {K V : Type} {m : OM K V} {b : Bool} (h : m.omap = b) : m = ⟨m.ents, b⟩ := by
  cases m; cases h; rfl

theorem extra_any {X : Xyml} {kd : Kind} {m : OM Scalar Node} (h : ParsedExtra kd m) :
    FacetLeads X kd .extra (⟨[], true⟩ : OM Scalar Node) m := by
  have := Leads.fill_empty (Q := fun p => facetOf kd p = .extra)
    (f := fun k v x => facetStep X kd k v .extra x) id h.distinct ?_
  · rw [h.omap] at this
    exact this
  · intro p hp
    obtain ⟨s, hs, hn⟩ := h.keys p hp
    refine ⟨.scalar "!!null" s, p.2, ?_, fun m => ?_⟩
    · rw [facetOf_extra_iff]
      have h1 : (Node.scalar "!!null" s).value = s := rfl
      have h2 : startsWith '(' (.scalar "!!null" s) = false := rfl
      simp [isExtra, h1, h2, hn]
    · have h2 : (Node.scalar "!!null" s).isStr = false := rfl
      simp only [facetStep, h2, Bool.and_false, Bool.false_and]
      rw [hs]
      rfl

theorem anns_any {X : Xyml} {kd : Kind} (hb : isBasic kd = false) {m : OM String Ann}
    (h : ParsedAnns true m) : FacetLeads X kd .annotations (⟨[], true⟩ : OM String Ann) m := by
  have := Leads.fill_empty (Q := fun p => facetOf kd p = .annotations)
    (f := fun k v x => facetStep X kd k v .annotations x) id h.distinct ?_
  · rw [h.omap] at this
    exact this
  · intro p hp
    obtain ⟨v, hv⟩ := loadAnn_any (h.values p hp).1 (h.values p hp).2
    refine ⟨.str p.1, v, ?_, fun m => ?_⟩
    · rw [facetOf_annotations_iff]
      refine ⟨hb, ?_⟩
      have h1 : (Node.str p.1).value = p.1 := rfl
      have h2 : (Node.str p.1).isStr = true := rfl
      simp [startsWith, h1, h2, h.keys p hp]
    · simp only [facetStep, hv]
      rfl

/-- Every facet of a readable type can be given by entries of that facet. -/
theorem facet_any {X : Xyml} (hX : Lawful X) {t : DT} {f : Facet} (ht : f ≠ .type)
    (hok : FacetOK t.kind (fun t => ∃ n, hat X n = .ok t) f (look f t))
    (hm : FacetMore X t.kind f (look f t)) :
    FacetLeads X t.kind f (look f (DT.new t.kind)) (look f t) := by
  rcases t with ⟨i, s, e⟩ | ⟨h, b, fs, ps, it⟩
  · cases f with
    | type => exact absurd rfl ht
    | extra =>
      have hn : look .extra (DT.new (DT.basic i s e).kind) = (⟨[], true⟩ : OM Scalar Node) := by
        cases i <;> rfl
      rw [hn]
      exact extra_any hok
    | _ => cases i <;> exact .refl _
  have hkd : (DT.ext h b fs ps it).kind = b.kind := rfl
  rw [hkd] at hok hm ⊢
  have hbasic : isBasic b.kind = false := by cases b <;> rfl
  cases f with
  | type => exact absurd rfl ht
  | extra =>
    have hn : look .extra (DT.new b.kind) = (⟨[], true⟩ : OM Scalar Node) := by cases b <;> rfl
    rw [hn]
    exact extra_any hok
  | annotations =>
    have hn : look .annotations (DT.new b.kind) = (⟨[], true⟩ : OM String Ann) := by
      cases b <;> rfl
    rw [hn]
    exact anns_any hbasic hok
  | required =>
    refine .named "required" (X.ofBool h.required) (contains_common b (by decide)) (by decide) ?_
    exact asBool_ofBool hX _
  | examples =>
    have hn : look .examples (DT.new b.kind) = (⟨[], false⟩ : OM String Example) := by
      cases b <;> rfl
    rw [hn]
    obtain ⟨n, hn⟩ := loadExamples_any hX hok.1 hok.2.1 hm
    exact .named "examples" n (contains_common b (by decide)) (by decide) hn
  | facets =>
    have hn : look .facets (DT.new b.kind) = (⟨[], true⟩ : OM String (OM String DT)) := by
      cases b <;> rfl
    rw [hn]
    obtain ⟨h1, h2, h3⟩ : fs.omap = true ∧ Distinct fs.ents ∧ ∀ f ∈ fs.ents,
      f.2.omap = true ∧ Distinct f.2.ents ∧ ∀ e ∈ f.2.ents, ∃ n, hat X n = .ok e.2 := hok
    obtain ⟨n, hn⟩ := loadFacets_any h2 (fun f hf => ⟨(h3 f hf).1, (h3 f hf).2.1⟩)
      (fun f hf => (h3 f hf).2.2)
    rw [h1] at hn
    exact .named "facets" n (contains_common b (by decide)) (by decide) hn
  | properties =>
    have hn : look .properties (DT.new b.kind) = (⟨[], false⟩ : OM String DT) := by
      cases b <;> rfl
    rw [hn]
    obtain ⟨h1, h2, h3, h4⟩ : ps.omap = false ∧ Distinct ps.ents ∧
      (ps.ents ≠ [] → b.kind = .object) ∧ ∀ e ∈ ps.ents, e.2.isProperty = true ∧
        ∃ n, hat X n = .ok e.2 := hok
    show Leads _ _ _ ps
    by_cases he : ps.ents = []
    · rw [OM.eta h1, he]
      exact .refl _
    · obtain ⟨n, hn⟩ := loadProps_any h2 (fun e he => (h4 e he).1) (fun e he => (h4 e he).2)
      rw [h1] at hn
      rw [h3 he]
      exact FacetLeads.named (f := .properties) "properties" n (by decide) (by decide) hn
  | items =>
    have hn : look .items (DT.new b.kind) = (none : Option DT) := by cases b <;> rfl
    rw [hn]
    obtain ⟨h1, h2⟩ : (it ≠ none → b.kind = .array) ∧ ∀ t, it = some t → ∃ n, hat X n = .ok t :=
      hok
    show Leads _ _ _ it
    cases it with
    | none => exact .refl _
    | some u =>
      obtain ⟨n, hn⟩ := h2 u rfl
      rw [h1 (by simp)]
      refine FacetLeads.named (f := .items) "items" n (by decide) (by decide) ?_
      show (hat X n).map some = _
      rw [hn]
      rfl
  | displayName =>
    have hn : look .displayName (DT.new b.kind) = none := by cases b <;> rfl
    rw [hn]
    show Leads _ _ _ h.displayName
    cases hv : h.displayName with
    | none => exact .refl _
    | some x =>
      refine FacetLeads.named (f := .displayName) "displayName" (.str x) (contains_common b (by decide)) (by decide) ?_
      rfl
  | description =>
    have hn : look .description (DT.new b.kind) = none := by cases b <;> rfl
    rw [hn]
    show Leads _ _ _ h.description
    cases hv : h.description with
    | none => exact .refl _
    | some x =>
      refine FacetLeads.named (f := .description) "description" (.str x) (contains_common b (by decide)) (by decide) ?_
      rfl
  | enum =>
    have hn : look .enum (DT.new b.kind) = none := by cases b <;> rfl
    rw [hn]
    show Leads _ _ _ h.enum
    cases hv : h.enum with
    | none => exact .refl _
    | some x =>
      obtain ⟨h1, h2⟩ := hok x hv
      obtain ⟨n, hn⟩ := loadEnum_any hX h1 h2
      refine FacetLeads.named (f := .enum) "enum" n (contains_common b (by decide)) (by decide) ?_
      exact hn
  | «example» =>
    have hn : look .example (DT.new b.kind) = none := by cases b <;> rfl
    rw [hn]
    show Leads _ _ _ h.«example»
    cases hv : h.«example» with
    | none => exact .refl _
    | some x =>
      obtain ⟨n, hn⟩ := loadExample_any hX (hok x hv).1 hbasic (hm x hv)
      refine FacetLeads.named (f := .example) "example" n (contains_common b (by decide)) (by decide) ?_
      show (loadExample X b.kind n).map some = _
      rw [hn]
      rfl
  | xml =>
    have hn : look .xml (DT.new b.kind) = none := by cases b <;> rfl
    rw [hn]
    show Leads _ _ _ h.xml
    cases hv : h.xml with
    | none => exact .refl _
    | some x =>
      obtain ⟨n, hn⟩ := xml_any hX (hm x hv)
      refine FacetLeads.named (f := .xml) "xml" n (contains_common b (by decide)) (by decide) ?_
      show (loadXML X n).map some = _
      rw [hn]
      rfl
  | pattern =>
    cases b with
    | string g =>
      show Leads _ _ none g.pattern
      cases hv : g.pattern with
      | none => exact .refl _
      | some x =>
        refine FacetLeads.named (f := .pattern) "pattern" (.str x) rfl rfl ?_
        rfl
    | _ => exact .refl _
  | minLength =>
    cases b with
    | string g =>
      obtain ⟨n, hn⟩ := asUint_any hX ((show UintOK (some g.minLength) from hm) _ rfl)
      refine FacetLeads.named (f := .minLength) "minLength" n rfl rfl ?_
      show (asUint X n).map some = _
      rw [hn]
      rfl
    | file g =>
      obtain ⟨n, hn⟩ := asUint_any hX ((show UintOK (some g.minLength) from hm) _ rfl)
      refine FacetLeads.named (f := .minLength) "minLength" n rfl rfl ?_
      show (asUint X n).map some = _
      rw [hn]
      rfl
    | _ => exact .refl _
  | maxLength =>
    cases b with
    | string g =>
      show Leads _ _ none g.maxLength
      cases hv : g.maxLength with
      | none => exact .refl _
      | some x =>
        obtain ⟨n, hn⟩ := asUint_any hX ((show UintOK g.maxLength from hm) _ hv)
        refine FacetLeads.named (f := .maxLength) "maxLength" n rfl rfl ?_
        show (asUint X n).map some = _
        rw [hn]
        rfl
    | file g =>
      obtain ⟨n, hn⟩ := asUint_any hX ((show UintOK (some g.maxLength) from hm) _ rfl)
      refine FacetLeads.named (f := .maxLength) "maxLength" n rfl rfl ?_
      show (asUint X n).map some = _
      rw [hn]
      rfl
    | _ => exact .refl _
  | fileTypes =>
    cases b with
    | file g =>
      show Leads _ _ none g.fileTypes
      cases hv : g.fileTypes with
      | none => exact .refl _
      | some x =>
        refine FacetLeads.named (f := .fileTypes) "fileTypes" (.seq seqTag (x.map .str)) rfl rfl ?_
        show (asStringList _).map some = _
        rw [asStringList_any]
        rfl
    | _ => exact .refl _
  | uniqueItems =>
    cases b with
    | array g =>
      refine FacetLeads.named (f := .uniqueItems) "uniqueItems" (X.ofBool g.uniqueItems) rfl rfl ?_
      show (asBool X _).map some = _
      rw [asBool_ofBool hX]
      rfl
    | _ => exact .refl _
  | minItems =>
    cases b with
    | array g =>
      obtain ⟨n, hn⟩ := asUint_any hX ((show UintOK (some g.minItems) from hm) _ rfl)
      refine FacetLeads.named (f := .minItems) "minItems" n rfl rfl ?_
      show (asUint X n).map some = _
      rw [hn]
      rfl
    | _ => exact .refl _
  | maxItems =>
    cases b with
    | array g =>
      obtain ⟨n, hn⟩ := asUint_any hX ((show UintOK (some g.maxItems) from hm) _ rfl)
      refine FacetLeads.named (f := .maxItems) "maxItems" n rfl rfl ?_
      show (asUint X n).map some = _
      rw [hn]
      rfl
    | _ => exact .refl _
  | minProperties =>
    cases b with
    | object g =>
      show Leads _ _ none g.minProps
      cases hv : g.minProps with
      | none => exact .refl _
      | some x =>
        obtain ⟨n, hn⟩ := asUint_any hX ((show UintOK g.minProps from hm) _ hv)
        refine FacetLeads.named (f := .minProperties) "minProperties" n rfl rfl ?_
        show (asUint X n).map some = _
        rw [hn]
        rfl
    | _ => exact .refl _
  | maxProperties =>
    cases b with
    | object g =>
      show Leads _ _ none g.maxProps
      cases hv : g.maxProps with
      | none => exact .refl _
      | some x =>
        obtain ⟨n, hn⟩ := asUint_any hX ((show UintOK g.maxProps from hm) _ hv)
        refine FacetLeads.named (f := .maxProperties) "maxProperties" n rfl rfl ?_
        show (asUint X n).map some = _
        rw [hn]
        rfl
    | _ => exact .refl _
  | additionalProperties =>
    cases b with
    | object g =>
      refine FacetLeads.named (f := .additionalProperties) "additionalProperties" (X.ofBool g.addtlProps) rfl rfl ?_
      show (asBool X _).map some = _
      rw [asBool_ofBool hX]
      rfl
    | _ => exact .refl _
  | discriminator =>
    cases b with
    | object g =>
      show Leads _ _ none g.discrim
      cases hv : g.discrim with
      | none => exact .refl _
      | some x =>
        refine FacetLeads.named (f := .discriminator) "discriminator" (.str x) rfl rfl ?_
        rfl
    | _ => exact .refl _
  | discriminatorValue =>
    cases b with
    | object g =>
      show Leads _ _ none g.discrimVal
      cases hv : g.discrimVal with
      | none => exact .refl _
      | some x =>
        refine FacetLeads.named (f := .discriminatorValue) "discriminatorValue" x rfl rfl ?_
        rfl
    | _ => exact .refl _
  | minimum =>
    cases b with
    | number g =>
      show Leads _ _ (Bound.flt none) (Bound.flt g.minimum)
      cases hv : g.minimum with
      | none => exact .refl _
      | some x =>
        refine FacetLeads.named (f := .minimum) "minimum" (X.ofFlt x) rfl rfl ?_
        show (asFlt X _).map (fun x => Bound.flt (some x)) = _
        rw [asFlt_ofFlt hX]
        rfl
    | integer g =>
      show Leads _ _ (Bound.int none) (Bound.int g.minimum)
      cases hv : g.minimum with
      | none => exact .refl _
      | some x =>
        have hr : IsInt64 x := (show ∀ n, Bound.int g.minimum = Bound.int (some n) → IsInt64 n from
          hok) x (by rw [hv])
        refine FacetLeads.named (f := .minimum) "minimum" (X.ofInt x) rfl rfl ?_
        show (asInt X _).map (fun x => Bound.int (some x)) = _
        rw [asInt_ofInt hX hr]
        rfl
    | _ => exact .refl _
  | maximum =>
    cases b with
    | number g =>
      show Leads _ _ (Bound.flt none) (Bound.flt g.maximum)
      cases hv : g.maximum with
      | none => exact .refl _
      | some x =>
        refine FacetLeads.named (f := .maximum) "maximum" (X.ofFlt x) rfl rfl ?_
        show (asFlt X _).map (fun x => Bound.flt (some x)) = _
        rw [asFlt_ofFlt hX]
        rfl
    | integer g =>
      show Leads _ _ (Bound.int none) (Bound.int g.maximum)
      cases hv : g.maximum with
      | none => exact .refl _
      | some x =>
        have hr : IsInt64 x := (show ∀ n, Bound.int g.maximum = Bound.int (some n) → IsInt64 n from
          hok) x (by rw [hv])
        refine FacetLeads.named (f := .maximum) "maximum" (X.ofInt x) rfl rfl ?_
        show (asInt X _).map (fun x => Bound.int (some x)) = _
        rw [asInt_ofInt hX hr]
        rfl
    | _ => exact .refl _
  | format =>
    cases b with
    | number g =>
      show Leads _ _ none g.format
      cases hv : g.format with
      | none => exact .refl _
      | some x =>
        refine FacetLeads.named (f := .format) "format" (.str x) rfl rfl ?_
        rfl
    | integer g =>
      show Leads _ _ none g.format
      cases hv : g.format with
      | none => exact .refl _
      | some x =>
        refine FacetLeads.named (f := .format) "format" (.str x) rfl rfl ?_
        rfl
    | datetime g =>
      show Leads _ _ none g
      cases hv : g with
      | none => exact .refl _
      | some x =>
        refine FacetLeads.named (f := .format) "format" (.str x) rfl rfl ?_
        rfl
    | _ => exact .refl _
  | multipleOf =>
    cases b with
    | number g =>
      show Leads _ _ none g.multipleOf
      cases hv : g.multipleOf with
      | none => exact .refl _
      | some x =>
        refine FacetLeads.named (f := .multipleOf) "multipleOf" (X.ofFlt x) rfl rfl ?_
        show (asFlt X _).map some = _
        rw [asFlt_ofFlt hX]
        rfl
    | integer g =>
      show Leads _ _ none g.multipleOf
      cases hv : g.multipleOf with
      | none => exact .refl _
      | some x =>
        refine FacetLeads.named (f := .multipleOf) "multipleOf" (X.ofFlt x) rfl rfl ?_
        show (asFlt X _).map some = _
        rw [asFlt_ofFlt hX]
        rfl
    | _ => exact .refl _

/-- Entries of one facet change that facet only. -/
theorem segment {X : Xyml} {kd : Kind} {f : Facet} : ∀ {ps : List (Node × Node)} {t : DT} {y : f.Ty},
    t.kind = kd → (∀ p ∈ ps, facetOf kd p = f) →
    forPairs (fun k v x => facetStep X kd k v f x) ps (look f t) = .ok y →
    ∃ t', assignAll X ps t = .ok t' ∧ t'.kind = kd ∧ dflt t' = dflt t ∧ look f t' = y ∧
      ∀ i, i ≠ f → look i t' = look i t := by
  intro ps
  induction ps with
  | nil =>
    intro t y hk _ h
    cases h
    exact ⟨t, by unfold assignAll; rfl, hk, rfl, rfl, fun _ _ => rfl⟩
  | cons p ps ih =>
    intro t y hk hp h
    obtain ⟨x, h1, h2⟩ := Res.bind_eq_ok.mp h
    have hf : facetOf kd p = f := hp p (by simp)
    have ha : assign X p t = .ok (t.setFacet f x) := by
      obtain ⟨k, v⟩ := p
      rw [assign_eq, hk, hf]
      unfold DT.step
      have h1 : facetStep X kd k v f (look f t) = .ok x := h1
      rw [hk, h1]
      rfl
    have hself : look f (t.setFacet f x) = x := by
      subst hk
      exact look_setFacet_self (hf ▸ facetOf_has _ p) h1
    rw [← hself] at h2
    obtain ⟨t', h3, h4, h5, h6, h7⟩ := ih ((setFacet_kind f x t).trans hk)
      (fun q hq => hp q (by simp [hq])) h2
    refine ⟨t', ?_, h4, h5.trans (dflt_setFacet f x t), h6, fun i hi => ?_⟩
    · unfold assignAll
      rw [ha]
      exact h3
    · rw [h7 i hi, look_setFacet_ne hi]

/-- Entries for several facets. -/
theorem segments {X : Xyml} {kd : Kind} {u : DT} : ∀ (fs : List Facet), fs.Nodup →
    (∀ f ∈ fs, FacetLeads X kd f (look f (DT.new kd)) (look f u)) →
    ∃ ps, ∀ t : DT, t.kind = kd → (∀ f ∈ fs, look f t = look f (DT.new kd)) →
      ∃ t', assignAll X ps t = .ok t' ∧ t'.kind = kd ∧ dflt t' = dflt t ∧
        (∀ f ∈ fs, look f t' = look f u) ∧ ∀ i, i ∉ fs → look i t' = look i t := by
  intro fs
  induction fs with
  | nil =>
    intro _ _
    exact ⟨[], fun t hk _ => ⟨t, by unfold assignAll; rfl, hk, rfl, fun f hf => (nomatch hf),
      fun _ _ => rfl⟩⟩
  | cons f fs ih =>
    intro hnd h
    rw [List.nodup_cons] at hnd
    obtain ⟨ps, hps⟩ := ih hnd.2 (fun g hg => h g (by simp [hg]))
    obtain ⟨qs, hq, hqs⟩ := h f (by simp)
    refine ⟨qs ++ ps, fun t hk hl => ?_⟩
    rw [← hl f (by simp)] at hqs
    obtain ⟨t1, h1, h2, h3, h4, h5⟩ := segment hk hq hqs
    obtain ⟨t2, h6, h7, h8, h9, h10⟩ := hps t1 h2 (fun g hg => by
      have hne : g ≠ f := fun he => hnd.1 (he ▸ hg)
      rw [h5 g hne]
      exact hl g (by simp [hg]))
    refine ⟨t2, ?_, h7, h8.trans h3, fun g hg => ?_, fun g hg => ?_⟩
    · rw [assignAll_append, h1]
      exact h6
    · rcases List.mem_cons.mp hg with rfl | hg
      · rw [h10 g hnd.1, h4]
      · exact h9 g hg
    · simp only [List.mem_cons, not_or] at hg
      rw [h10 g hg.2, h5 g hg.1]

/-- Every facet but the type (auxiliary). -/
def otherFacets : List Facet :=
  [.displayName, .description, .required, .enum, .example, .examples, .xml, .facets, .annotations,
   .extra, .properties, .items, .pattern, .minLength, .maxLength, .fileTypes, .uniqueItems,
   .minItems, .maxItems, .minProperties, .maxProperties, .additionalProperties, .discriminator,
   .discriminatorValue, .minimum, .maximum, .format, .multipleOf]

theorem mem_otherFacets (f : Facet) : f ∈ otherFacets ↔ f ≠ .type := by
  cases f <;> decide

/-- A type expression for every kind (auxiliary). -/
def kindText : Kind → String
  | .custom => "x"
  | .union => "x|y"
  | .include => "!include x"
  | k => k.name

theorem classify_kindText (kd : Kind) : classify (kindText kd) = kd := by
  cases kd <;> decide

/-- A readable type, its parts being read from something, is read from some mapping. -/
theorem hat_any {X : Xyml} {u : DT} (hd : dflt u = none)
    (h : ∀ f, f ≠ .type → FacetLeads X u.kind f (look f (DT.new u.kind)) (look f u)) :
    ∃ n, hat X n = .ok u := by
  obtain ⟨ps, hps⟩ := segments (u := u) otherFacets (by decide)
    (fun f hf => h f ((mem_otherFacets f).mp hf))
  have hform := typeToKind_eq (kindText u.kind)
  rw [classify_kindText] at hform
  have hk0 : (typeToKind (kindText u.kind)).kind = u.kind := by
    rw [(typeToKind_spec (kindText u.kind)).1, classify_kindText]
  -- the type entry changes nothing, the schema entry sets the type expression
  have htype : ∀ (s : String) (k : String) (t : DT), k = "type" ∨ k = "schema" →
      assign X (.str k, .str s) t = .ok (t.setSchema s) := by
    intro s k t hk
    rw [assign_eq, facetOf_type (by rcases hk with rfl | rfl <;> rfl)]
    rfl
  have hkset : ∀ (t : DT) s, (t.setSchema s).kind = t.kind := by
    intro t s; exact setFacet_kind .type s t
  have hdset : ∀ (t : DT) s, dflt (t.setSchema s) = dflt t := by
    intro t s; exact dflt_setFacet .type s t
  have hlook : ∀ (t : DT) s, (t.setSchema s).type = s := by
    intro t s; cases t <;> rfl
  refine ⟨.map ((.str "type", .str (kindText u.kind)) :: (.str "schema", .str u.type) :: ps), ?_⟩
  obtain ⟨t', h1, h2, h3, h4, h5⟩ := hps
    (((typeToKind (kindText u.kind)).setSchema (kindText u.kind)).setSchema u.type)
    (by rw [hkset, hkset, hk0]) (fun f hf => by
      have hf' := (mem_otherFacets f).mp hf
      rw [setSchema_look hf', setSchema_look hf', hform, setSchema_look hf'])
  have hu : t' = u := by
    refine eq_of_look h2 ?_ fun f => ?_
    · rw [h3, hdset, hdset, (typeToKind_spec (kindText u.kind)).2.2.dflt, hd]
    · by_cases hf : f = .type
      · subst hf
        rw [h5 .type (by decide)]
        exact hlook _ _
      · exact h4 f ((mem_otherFacets f).mpr hf)
  subst hu
  have hsift : siftType ((Node.str "type", Node.str (kindText t'.kind)) ::
      (.str "schema", .str t'.type) :: ps) = .ok (typeToKind (kindText t'.kind)) := rfl
  unfold hat
  rw [hsift]
  show assignAll X _ _ = _
  unfold assignAll
  rw [htype _ "type" _ (.inl rfl)]
  show assignAll X _ _ = _
  unfold assignAll
  rw [htype _ "schema" _ (.inr rfl)]
  exact h1

/-- Every readable type is read from some document. -/
theorem readable_hat {X : Xyml} (hX : Lawful X) {t : DT} (h : Readable X t) :
    ∃ n, hat X n = .ok t := by
  induction h with
  | @basic i s x hx =>
    refine hat_any rfl fun f hf => facet_any hX hf ?_ ?_
    · cases f with
      | extra => cases i <;> exact hx
      | annotations =>
        exact ⟨rfl, List.nodup_nil, fun p hp => (nomatch hp), fun p hp => (nomatch hp)⟩
      | enum => intro l hl; cases hl
      | «example» => intro l hl; cases hl
      | examples => exact ⟨rfl, List.nodup_nil, fun p hp => (nomatch hp)⟩
      | facets => exact ⟨rfl, List.nodup_nil, fun p hp => (nomatch hp)⟩
      | properties => exact ⟨rfl, List.nodup_nil, fun h => absurd rfl h, fun p hp => (nomatch hp)⟩
      | items => exact ⟨fun h => absurd rfl h, fun t ht => (nomatch ht)⟩
      | minimum => intro n hn; cases hn
      | maximum => intro n hn; cases hn
      | _ => exact trivial
    · cases f with
      | «example» => intro l hl; cases hl
      | examples => exact fun p hp => (nomatch hp)
      | xml => intro l hl; cases hl
      | minLength => intro n hn; cases hn
      | maxLength => intro n hn; cases hn
      | minItems => intro n hn; cases hn
      | maxItems => intro n hn; cases hn
      | minProperties => intro n hn; cases hn
      | maxProperties => intro n hn; cases hn
      | _ => exact trivial
  | @ext h b fs ps it hh hb h1 h2 h3 h4 h5 h6 h7 h8 h9 h10 h11 ih1 ih2 ih3 =>
    refine hat_any hh.dflt fun f hf => facet_any hX hf ?_ ?_
    · cases f with
      | extra => exact hh.extra
      | annotations => exact hh.annotations
      | enum => exact hh.enum
      | «example» => exact fun e he => ⟨(hh.example e he).1, (hh.example e he).2.parsed⟩
      | examples => exact ⟨hh.examplesFlag, hh.examplesDistinct, fun e he => (hh.examples e he).parsed⟩
      | facets => exact ⟨h1, h2, fun f hf => ⟨(h3 f hf).1, (h3 f hf).2, ih1 f hf⟩⟩
      | properties => exact ⟨h5, h6, h7, fun e he => ⟨h8 e he, ih2 e he⟩⟩
      | items => exact ⟨h10, ih3⟩
      | minimum =>
        intro n hn
        cases b with
        | integer g =>
          have : Bound.int g.minimum = Bound.int (some n) := hn
          exact hb.1 n (Bound.int.inj this)
        | _ => cases hn
      | maximum =>
        intro n hn
        cases b with
        | integer g =>
          have : Bound.int g.maximum = Bound.int (some n) := hn
          exact hb.2 n (Bound.int.inj this)
        | _ => cases hn
      | _ => exact trivial
    · cases f with
      | «example» => exact fun e he => (hh.example e he).2
      | examples => exact hh.examples
      | xml => exact hh.xml
      | minLength =>
        cases b with
        | string g => intro n hn; cases hn; exact hb.1
        | file g => intro n hn; cases hn; exact hb.1
        | _ => intro n hn; cases hn
      | maxLength =>
        cases b with
        | string g => exact hb.2
        | file g => intro n hn; cases hn; exact hb.2
        | _ => intro n hn; cases hn
      | minItems =>
        cases b with
        | array g => intro n hn; cases hn; exact hb.1
        | _ => intro n hn; cases hn
      | maxItems =>
        cases b with
        | array g => intro n hn; cases hn; exact hb.2
        | _ => intro n hn; cases hn
      | minProperties =>
        cases b with
        | object g => exact hb.1
        | _ => intro n hn; cases hn
      | maxProperties =>
        cases b with
        | object g => exact hb.2
        | _ => intro n hn; cases hn
      | _ => exact trivial

end Verif.Doc
