import Verif.Doc.FacetLemmas
import Verif.Props.TypeKinds

/-! # C18–C20: the facets of a type definition -/

namespace Verif.Props
open Verif Verif.Doc Verif.Doc.Spec

/-! ### C18 -/

/-- C18: the extra facets are exactly the entries that are no facet of the kind (and, for the
extended kinds, no annotation), verbatim, the last one per key text. -/
theorem C18_extra_facets (X : Xyml) (ps : List (Node × Node)) (t : DT)
    (h : hat X (.map ps) = .ok t) :
    t.extra.ents =
      lastWins ((ps.filter (isExtra t.kind)).map fun p => (.str p.1.value, p.2)) :=
  hat_map_extra h

/-- Three extra facets, one given twice; `default` is one of them, `pattern` is not a facet of
number types. -/
example : lastWins (([(Node.str "type", Node.str "number"), (.str "a", .str "1"),
      (.str "default", .str "2"), (.str "a", .map []), (.str "minimum", .str "0"),
      (.str "pattern", .str "x"), (.str "(note)", .str "y")].filter (isExtra .number)).map
      fun p => (Scalar.str p.1.value, p.2)) =
    [(.str "default", .str "2"), (.str "a", .map []), (.str "pattern", .str "x")] := by rfl

/-! ### C19 -/

/-- C19: the value of a facet depends only on the entries of that facet: two definitions of the
same kind with the same entries for a facet agree on it. -/
theorem C19_facet_depends_on_own_entries (X : Xyml) (ps qs : List (Node × Node)) (t u : DT)
    (kd : Kind) (f : Facet) (ht : hat X (.map ps) = .ok t) (hu : hat X (.map qs) = .ok u)
    (hp : kindOf ps = some kd) (hq : kindOf qs = some kd)
    (hf : (ps.filter fun p => facetOf kd p = f) = qs.filter fun p => facetOf kd p = f) :
    look f t = look f u := by
  obtain ⟨t0, h0, hk0, _, h1, hk1⟩ := hat_map_ok ht
  obtain ⟨u0, g0, gk0, _, g1, gk1⟩ := hat_map_ok hu
  rw [hp] at hk0
  rw [hq] at gk0
  have hkt : t0.kind = kd := (Option.some.inj hk0).symm
  have hku : u0.kind = kd := (Option.some.inj gk0).symm
  by_cases hty : f = .type
  · subst hty
    have e : ∀ l : List (Node × Node), (l.filter fun p => facetOf kd p = Facet.type) =
        l.filter isTypeEntry := by
      intro l
      apply List.filter_congr
      intro p _
      cases hp : isTypeEntry p with
      | true => simp [facetOf_type hp]
      | false => simpa using facetOf_ne_type hp
    rw [e, e] at hf
    have hl : lastBy isTypeEntry ps = lastBy isTypeEntry qs := by
      unfold lastBy
      rw [← List.head?_filter, ← List.head?_filter, List.filter_reverse, List.filter_reverse, hf]
    have a := (C17_type_text X ps t ht).2
    have b := (C17_type_text X qs u hu).2
    rw [hl] at a
    show t.type = u.type
    rw [a, b, hk1, gk1, hkt, hku]
  · have hst := siftType_look h0 g0 (hkt.trans hku.symm) hty
    rw [assignAll_eq] at h1 g1
    obtain ⟨a, ha, hRa⟩ := (assign_sections X kd).project f ps t0 t t0 hkt hkt rfl h1
    obtain ⟨b, hb, hRb⟩ := (assign_sections X kd).project f qs u0 u t0 hku hkt hst.symm g1
    rw [hf, hb] at ha
    cases ha
    rw [hRa, hRb]

example (X : Xyml) (t u : DT)
    (ht : hat X (.map [(.str "type", .str "string"), (.str "minLength", .scalar "!!int" "3"),
      (.str "displayName", .str "n")]) = .ok t)
    (hu : hat X (.map [(.str "pattern", .str "x"), (.str "minLength", .scalar "!!int" "3"),
      (.str "type", .str "string")]) = .ok u) : look .minLength t = look .minLength u :=
  C19_facet_depends_on_own_entries X _ _ t u .string .minLength ht hu (by decide) (by decide) rfl

/-- C19: the order of entries that belong to different facets does not matter at all. -/
theorem C19_order_irrelevant (X : Xyml) (ps qs : List (Node × Node)) (t : DT) (kd : Kind)
    (ht : hat X (.map ps) = .ok t) (hp : kindOf ps = some kd) (hq : kindOf qs = some kd)
    (hf : ∀ f, (ps.filter fun p => facetOf kd p = f) = qs.filter fun p => facetOf kd p = f) :
    hat X (.map qs) = .ok t := by
  obtain ⟨t0, h0, hk0, _, h1, hk1⟩ := hat_map_ok ht
  rw [hp] at hk0
  have hkt : t0.kind = kd := (Option.some.inj hk0).symm
  have hstr := assignAll_type_str h1
  -- the starting type of `qs`
  obtain ⟨u0, g0, gk⟩ : ∃ u0, siftType qs = .ok u0 ∧ u0.kind = kd := by
    cases hfq : qs.find? isTypeEntry with
    | none =>
      refine ⟨_, (siftType_spec qs).2 hfq, ?_⟩
      rw [kind_new]
      simpa [kindOf, hfq] using hq
    | some e =>
      simp only [kindOf, hfq] at hq
      split at hq
      · rename_i he
        refine ⟨typeToKind e.2.value, ?_, ?_⟩
        · rw [(siftType_spec qs).1 e hfq, if_pos he]
        · rw [(typeToKind_spec _).1]; exact Option.some.inj hq
      · cases hq
  have hokp := ((assign_sections X kd).ok_iff (ps := ps) (s := t0) hkt).mp
    ⟨t, by rw [← assignAll_eq]; exact h1⟩
  obtain ⟨u, hu⟩ : ∃ u, forPairs (fun k v t => assign X (k, v) t) qs u0 = .ok u := by
    refine ((assign_sections X kd).ok_iff (ps := qs) (s := u0) gk).mpr fun f => ?_
    rw [← hf f]
    obtain ⟨a, ha⟩ := hokp f
    by_cases hty : f = .type
    · subst hty
      -- type entries succeed in every state
      have : ∀ (l : List (Node × Node)) (s : DT),
          (∀ p ∈ l, isTypeEntry p = true ∧ p.2.isStr = true) →
          ∃ s', forPairs (fun k v t => assign X (k, v) t) l s = .ok s' := by
        intro l
        induction l with
        | nil => intro s _; exact ⟨s, rfl⟩
        | cons p l ih =>
          intro s hl
          obtain ⟨hp1, hp2⟩ := hl p (by simp)
          have hs : assign X (p.1, p.2) s = .ok (s.setSchema p.2.value) := by
            rw [assign_eq, facetOf_type hp1]
            simp only [DT.step, facetStep, asString, hp2, if_true]
            rfl
          obtain ⟨s', hs'⟩ := ih (s.setSchema p.2.value) fun q hq => hl q (by simp [hq])
          exact ⟨s', by simp only [forPairs]; rw [hs]; exact hs'⟩
      apply this
      intro p hp
      simp only [List.mem_filter, decide_eq_true_eq] at hp
      have hty : isTypeEntry p = true := by
        cases hc : isTypeEntry p with
        | true => rfl
        | false => exact absurd hp.2 (facetOf_ne_type hc)
      exact ⟨hty, hstr p hp.1 hty⟩
    · obtain ⟨b, hb, _⟩ := (assign_sections X kd).project f _ t0 a u0 hkt gk
        (siftType_look h0 g0 (hkt.trans gk.symm) hty) ha
      rw [List.filter_filter] at hb
      simp only [Bool.and_self] at hb
      exact ⟨b, hb⟩
  have hq' : hat X (.map qs) = .ok u := by
    unfold hat
    rw [g0]
    simp only [Res.bind_ok, assignAll_eq, hu]
  rw [hq']
  have huk : u.kind = kd := by
    rw [← assignAll_eq] at hu
    rw [assignAll_kind hu, gk]
  congr 1
  symm
  refine eq_of_look (by rw [hk1, hkt, huk]) ?_ fun f => ?_
  · rw [hat_dflt ht, hat_dflt hq']
  · exact C19_facet_depends_on_own_entries X ps qs t u kd f ht hq' hp hq (hf f)

/-- Swapping `displayName` and `minLength`, with the type at the end: same entries per facet. -/
example : ∀ f, ([(Node.str "displayName", Node.str "n"), (.str "minLength", .scalar "!!int" "3"),
      (.str "x", .map []), (.str "type", .str "string")].filter
        fun p => facetOf .string p = f) =
    [(Node.str "type", Node.str "string"), (.str "minLength", .scalar "!!int" "3"),
      (.str "displayName", .str "n"), (.str "x", .map [])].filter
        fun p => facetOf .string p = f := by
  intro f
  cases f <;> rfl

/-- An entry that can decide the kind. -/
def decidesKind (p : Node × Node) : Bool :=
  isTypeEntry p || p.1.value == "properties" || p.1.value == "items"

private theorem find?_keep {α : Type} {q r : α → Bool} (l : List α) (h : ∀ a ∈ l, q a → r a) :
    (l.filter r).find? q = l.find? q := by
  induction l with
  | nil => rfl
  | cons a l ih =>
    have ih := ih fun b hb => h b (by simp [hb])
    cases hq : q a with
    | true => simp [h a (by simp) hq, hq]
    | false =>
      cases hr : r a <;> simp [hr, hq, ih]

private theorem any_keep {α : Type} {q r : α → Bool} (l : List α) (h : ∀ a ∈ l, q a → r a) :
    (l.filter r).any q = l.any q := by
  induction l with
  | nil => rfl
  | cons a l ih =>
    have ih := ih fun b hb => h b (by simp [hb])
    cases hq : q a with
    | true => simp [h a (by simp) hq, hq]
    | false =>
      cases hr : r a <;> simp [hr, hq, ih]

/-- C19: dropping all entries that neither belong to a facet nor can decide the kind gives a
definition that still parses and has the same value of that facet. -/
theorem C19_remove_other_entries (X : Xyml) (ps : List (Node × Node)) (t : DT) (f : Facet)
    (ht : hat X (.map ps) = .ok t) :
    ∃ u, hat X (.map (ps.filter fun p => facetOf t.kind p = f || decidesKind p)) = .ok u ∧
      u.kind = t.kind ∧ look f u = look f t := by
  obtain ⟨t0, h0, hk0, _, h1, hk1⟩ := hat_map_ok ht
  have hkt : t0.kind = t.kind := hk1.symm
  generalize hqs : (ps.filter fun p => facetOf t.kind p = f || decidesKind p) = qs
  have hkeep : ∀ (q : Node × Node → Bool), (∀ p, q p = true → decidesKind p = true) →
      qs.find? q = ps.find? q ∧ qs.any q = ps.any q := by
    intro q hq
    rw [← hqs]
    exact ⟨find?_keep ps fun a _ ha => by simp [hq a ha],
      any_keep ps fun a _ ha => by simp [hq a ha]⟩
  have hfind : qs.find? isTypeEntry = ps.find? isTypeEntry :=
    (hkeep isTypeEntry fun p hp => by simp [decidesKind, hp]).1
  have himp : impliedKind qs = impliedKind ps := by
    unfold impliedKind
    rw [(hkeep (fun p => p.1.value == "properties") fun p hp => by
        simp [decidesKind, hp]).2,
      (hkeep (fun p => p.1.value == "items") fun p hp => by
        simp [decidesKind, hp]).2]
  have hsift : siftType qs = .ok t0 := by
    rw [← h0]
    cases hf : ps.find? isTypeEntry with
    | none => rw [(siftType_spec ps).2 hf, (siftType_spec qs).2 (hfind.trans hf), himp]
    | some e => rw [(siftType_spec ps).1 e hf, (siftType_spec qs).1 e (hfind.trans hf)]
  have hkq : kindOf qs = some t.kind := by
    rw [← C15_kind_of_mapping X ps t ht]
    unfold kindOf
    rw [hfind, himp]
  -- every entry of `qs` that is an extra facet succeeds in every state
  have hextra : ∀ (l : List (Node × Node)) (s : DT), s.kind = t.kind → (∀ p ∈ l, p ∈ ps) →
      ∃ s', forPairs (fun k v t => assign X (k, v) t)
        (l.filter fun p => facetOf t.kind p = Facet.extra) s = .ok s' := by
    intro l
    induction l with
    | nil => intro s _ _; exact ⟨s, rfl⟩
    | cons p l ih =>
      intro s hs hl
      by_cases hpx : facetOf t.kind p = Facet.extra
      · obtain ⟨_, x, _, hx⟩ := hat_map_step ht (C15_kind_of_mapping X ps t ht)
          (hl p (by simp)) hpx
        simp only [facetStep] at hx
        split at hx
        · cases hx
        · rename_i hne
          have hstep : assign X (p.1, p.2) s =
              .ok (s.setFacet .extra (s.extra.put (.str p.1.value) p.2)) := by
            rw [assign_eq, hs, hpx]
            simp only [DT.step, facetStep, hs, if_neg hne]
            rfl
          obtain ⟨s', hs'⟩ := ih (s.setFacet .extra (s.extra.put (.str p.1.value) p.2))
            ((setFacet_kind _ _ _).trans hs) fun q hq => hl q (by simp [hq])
          refine ⟨s', ?_⟩
          simp only [List.filter_cons, hpx, decide_true, if_true, forPairs]
          rw [hstep]
          exact hs'
      · obtain ⟨s', hs'⟩ := ih s hs fun q hq => hl q (by simp [hq])
        exact ⟨s', by simpa [List.filter_cons, hpx] using hs'⟩
  have hokp := ((assign_sections X t.kind).ok_iff (ps := ps) (s := t0) hkt).mp
    ⟨t, by rw [← assignAll_eq]; exact h1⟩
  obtain ⟨u, hu⟩ : ∃ u, forPairs (fun k v t => assign X (k, v) t) qs t0 = .ok u := by
    refine ((assign_sections X t.kind).ok_iff (ps := qs) (s := t0) hkt).mpr fun i => ?_
    by_cases hall : ∀ p ∈ ps, facetOf t.kind p = i → (facetOf t.kind p = f || decidesKind p) = true
    · have : (qs.filter fun p => facetOf t.kind p = i) = ps.filter fun p => facetOf t.kind p = i := by
        rw [← hqs, List.filter_filter]
        apply List.filter_congr
        intro p hp
        by_cases hpi : facetOf t.kind p = i
        · have := hall p hp hpi
          simp only [hpi, decide_true, Bool.true_and]
          rw [← hpi]; exact this
        · simp [hpi]
      rw [this]
      exact hokp i
    · by_cases hix : i = .extra
      · subst hix
        exact hextra qs t0 hkt fun p hp => by
          rw [← hqs] at hp; exact (List.mem_filter.mp hp).1
      · -- no entry of this facet is kept
        have : (qs.filter fun p => facetOf t.kind p = i) = [] := by
          rw [List.filter_eq_nil_iff]
          intro p hp hpi
          rw [← hqs] at hp
          obtain ⟨hp1, hp2⟩ := List.mem_filter.mp hp
          simp only [decide_eq_true_eq] at hpi
          apply hall
          intro p' hp' hpi'
          simp only [Bool.or_eq_true, decide_eq_true_eq] at hp2 ⊢
          rcases hp2 with hp2 | hp2
          · exact .inl (by rw [hpi', ← hpi, hp2])
          · -- an entry that decides the kind: its facet consists of such entries
            right
            have hsame : ∀ (s : String) (g : Facet), facetNamed.lookup s = some g → g ≠ .type →
                (∀ q : Node × Node, q.1.value = s → decidesKind q = true) →
                p.1.value = s → decidesKind p' = true := by
              intro s g hs hg hdec hps
              cases hc : (facetNames t.kind).contains s with
              | true =>
                have hg' : facetOf t.kind p = g := facetOf_eq hps hc hs
                have := congrFun (facetOf_iff_name (f := g) hc hs hg) p'
                rw [hpi', ← hpi, hg'] at this
                simp only [beq_self_eq_true] at this
                exact hdec p' (by simpa using this.symm)
              | false =>
                exfalso
                apply hix
                rw [← hpi, facetOf_extra_iff]
                simp only [isExtra, hps, hc, Bool.not_false, Bool.true_and, Bool.or_eq_true,
                  Bool.not_eq_true']
                right
                have hpar : ∀ x ∈ facetNamed, x.1.toList.head? ≠ some '(' := by decide
                obtain ⟨l1, l2, hl, _⟩ := List.lookup_eq_some_iff.mp hs
                have hm : (s, g) ∈ facetNamed := by rw [hl]; simp
                simp only [startsWith, hps, Bool.and_eq_false_iff, beq_eq_false_iff_ne]
                exact .inr (hpar _ hm)
            simp only [decidesKind, Bool.or_eq_true, beq_iff_eq] at hp2
            rcases hp2 with (hp2 | hp2) | hp2
            · have h1 : i = .type := hpi.symm.trans (facetOf_type hp2)
              cases hc : isTypeEntry p' with
              | true => simp [decidesKind, hc]
              | false => exact absurd (hpi'.trans h1) (facetOf_ne_type hc)
            · exact hsame "properties" .properties (by decide) (by decide)
                (fun q hq => by simp [decidesKind, hq]) hp2
            · exact hsame "items" .items (by decide) (by decide)
                (fun q hq => by simp [decidesKind, hq]) hp2
        rw [this]
        exact ⟨t0, rfl⟩
  have hq' : hat X (.map qs) = .ok u := by
    unfold hat
    rw [hsift]
    simp only [Res.bind_ok, assignAll_eq, hu]
  have huk : u.kind = t.kind := by
    have := C15_kind_of_mapping X qs u hq'
    rw [hkq] at this
    exact (Option.some.inj this).symm
  refine ⟨u, hq', huk, ?_⟩
  refine C19_facet_depends_on_own_entries X qs ps u t t.kind f hq' ht hkq
    (C15_kind_of_mapping X ps t ht) ?_
  rw [← hqs, List.filter_filter]
  apply List.filter_congr
  intro p _
  by_cases hpf : facetOf t.kind p = f <;> simp [hpf]

example (X : Xyml) (t : DT)
    (ht : hat X (.map [(.str "type", .str "string"), (.str "minLength", .scalar "!!int" "3"),
      (.str "displayName", .str "n"), (.str "(a)", .map [])]) = .ok t) (hk : t.kind = .string) :
    ∃ u, hat X (.map [(.str "type", .str "string"), (.str "minLength", .scalar "!!int" "3")]) =
      .ok u ∧ u.kind = t.kind ∧ look .minLength u = look .minLength t := by
  have h := C19_remove_other_entries X _ t .minLength ht
  rw [hk] at h ⊢
  exact h

/-! ### C20 -/

private theorem classify_named {s : String} {k : Kind}
    (hk : k = .object ∨ k = .array ∨ k = .string) (h : classify s = k) : s = k.name := by
  by_cases hb : s ∈ builtins.map Prod.fst
  · simp only [builtins, List.map_cons, List.map_nil, List.mem_cons, List.not_mem_nil,
      or_false] at hb
    rcases hk with rfl | rfl | rfl <;>
    rcases hb with rfl | rfl | rfl | rfl | rfl | rfl | rfl | rfl | rfl | rfl | rfl | rfl | rfl <;>
      first | rfl | (exact absurd h (by decide))
  · obtain ⟨_, h1, h2, h3⟩ := C14_classify s
    by_cases hi : "!include ".toList <+: s.toList
    · rw [h1 hb hi] at h; subst h; simp at hk
    · by_cases hc : '|' ∈ s.toList
      · rw [h2 hb hi hc] at h; subst h; simp at hk
      · rw [h3 hb hi hc] at h; subst h; simp at hk

private theorem siftType_append {ps qs : List (Node × Node)} (h : kindOf ps = kindOf (ps ++ qs)) :
    siftType (ps ++ qs) = siftType ps := by
  cases hf : ps.find? isTypeEntry with
  | some e =>
    have hf' : (ps ++ qs).find? isTypeEntry = some e := by simp [List.find?_append, hf]
    rw [(siftType_spec _).1 e hf, (siftType_spec _).1 e hf']
  | none =>
    have hk : kindOf ps = some (impliedKind ps) := by simp [kindOf, hf]
    rw [hk] at h
    cases hf' : (ps ++ qs).find? isTypeEntry with
    | none =>
      simp only [kindOf, hf', Option.some.injEq] at h
      rw [(siftType_spec _).2 hf, (siftType_spec _).2 hf', h]
    | some e =>
      simp only [kindOf, hf'] at h
      split at h
      · rename_i he
        have hn := classify_named (impliedKind_ne ps) (Option.some.inj h).symm
        rw [(siftType_spec _).1 e hf', (siftType_spec _).2 hf, if_pos he, hn]
        rcases impliedKind_ne ps with hi | hi | hi <;> rw [hi] <;> rfl
      · cases h

/-- C20: parsing a type definition is parsing a prefix of it and then continuing from there with
the rest, provided the prefix already determines the kind. -/
theorem C20_type_prefix (X : Xyml) (ps qs : List (Node × Node))
    (h : kindOf ps = kindOf (ps ++ qs)) :
    hat X (.map (ps ++ qs)) = (hat X (.map ps)).bind (assignAll X qs) := by
  unfold hat
  rw [siftType_append h]
  cases siftType ps with
  | ok t => simp only [Res.bind_ok, assignAll_append]
  | err e => rfl
  | panic c => rfl

example (X : Xyml) (v w : Node) : hat X (.map ([(.str "type", .str "string"), (.str "pattern", v)] ++
      [(.str "displayName", w)])) =
    (hat X (.map [(.str "type", .str "string"), (.str "pattern", v)])).bind
      (assignAll X [(.str "displayName", w)]) :=
  C20_type_prefix X _ _ rfl

/-- C20: once an entry of a type definition fails, the outcome is that failure, whatever
follows. -/
theorem C20_type_first_failure (X : Xyml) (ps qs : List (Node × Node))
    (h : kindOf ps = kindOf (ps ++ qs)) (hf : ∀ t, hat X (.map ps) ≠ .ok t) :
    hat X (.map (ps ++ qs)) = hat X (.map ps) := by
  rw [C20_type_prefix X ps qs h]
  cases hp : hat X (.map ps) with
  | ok t => exact absurd hp (hf t)
  | err e => rfl
  | panic c => rfl

example (X : Xyml) (qs : List (Node × Node)) : hat X (.map ([(.str "type", .str "string"),
    (.str "pattern", .map [])] ++ qs)) = .err .notString :=
  C20_type_first_failure X [(.str "type", .str "string"), (.str "pattern", .map [])] qs rfl nofun

/-- C20, API documents: reading a document is reading a prefix of its entries and then, if that
succeeded, continuing with the rest on the object obtained. -/
theorem C20_api_prefix (X : Xyml) (ps qs : List (Node × Node)) :
    parseApi X (.map (ps ++ qs)) = (parseApi X (.map ps)).bind fun a => a.unmarshal X (.map qs) :=
  forPairs_append _ ps qs _

example (X : Xyml) (qs : List (Node × Node)) :
    parseApi X (.map ([(.str "title", .str "t"), (.str "version", .str "v")] ++ qs)) =
      ({ APISpec.new with title := "t", version := some "v" } : APISpec).unmarshal X (.map qs) :=
  C20_api_prefix X [(.str "title", .str "t"), (.str "version", .str "v")] qs

/-- C20, API documents: the first failing entry decides the outcome. -/
theorem C20_api_first_failure (X : Xyml) (ps qs : List (Node × Node))
    (hf : ∀ a, parseApi X (.map ps) ≠ .ok a) :
    parseApi X (.map (ps ++ qs)) = parseApi X (.map ps) := by
  rw [C20_api_prefix]
  cases hp : parseApi X (.map ps) with
  | ok t => exact absurd hp (hf t)
  | err e => rfl
  | panic c => rfl

example (X : Xyml) (qs : List (Node × Node)) :
    parseApi X (.map ([(.str "title", .str "t"), (.str "version", .map [])] ++ qs)) = .err .notString :=
  C20_api_first_failure X [(.str "title", .str "t"), (.str "version", .map [])] qs fun _ h => by
    rw [show parseApi X (.map [(.str "title", .str "t"), (.str "version", .map [])]) =
      .err .notString from rfl] at h
    cases h

/-- C20, libraries. -/
theorem C20_library_prefix (X : Xyml) (ps qs : List (Node × Node)) :
    parseLibrary X (some (.map (ps ++ qs))) =
      (parseLibrary X (some (.map ps))).bind fun l => l.unmarshal X (.map qs) :=
  forPairs_append _ ps qs _

example (X : Xyml) (qs : List (Node × Node)) :
    parseLibrary X (some (.map ([(.str "usage", .str "u")] ++ qs))) =
      ({ Library.new with usage := some "u" } : Library).unmarshal X (.map qs) :=
  C20_library_prefix X [(.str "usage", .str "u")] qs

/-- C20, libraries: the first failing entry decides the outcome. -/
theorem C20_library_first_failure (X : Xyml) (ps qs : List (Node × Node))
    (hf : ∀ a, parseLibrary X (some (.map ps)) ≠ .ok a) :
    parseLibrary X (some (.map (ps ++ qs))) = parseLibrary X (some (.map ps)) := by
  rw [C20_library_prefix]
  cases hp : parseLibrary X (some (.map ps)) with
  | ok t => exact absurd hp (hf t)
  | err e => rfl
  | panic c => rfl

/-- A bad second entry: the third one, which would panic, is never looked at. -/
example : parseApi Xyml.std (.map [(.str "title", .str "t"), (.str "version", .map []),
    (.str "", .str "x")]) = .err .notString := by rfl

/-- The same in a type definition; `pattern` decides nothing about the kind. -/
example : hat Xyml.std (.map [(.str "type", .str "string"), (.str "pattern", .map []),
    (.str "", .str "x")]) = .err .notString := by rfl

end Verif.Props
