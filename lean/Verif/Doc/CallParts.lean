import Verif.Doc.Calls

/-!
# The calls on each kind of object

Helper lemmas of C105: calls about different parts commute, a setter forgets what was there, and
whether a method exists does not change.
-/

namespace Verif.Doc.Calls
open Verif Verif.Doc Verif.Doc.Spec

/-! ### Objects on which every call exists -/

theorem total_parts {S O : Type} {call : S → O → S} {part : O → String} {sets : O → Bool}
    (hc : ∀ s o q, part o ≠ part q → call (call s o) q = call (call s q) o)
    (hs : ∀ s o q, part o = part q → sets q = true → call (call s o) q = call s q) :
    Parts (fun s o => some (call s o)) part sets where
  comm s o q h := congrArg some (hc s o q h)
  sets s o q u h1 h2 e := by cases e; exact congrArg some (hs s o q h1 h2)
  there _ _ _ _ _ := Iff.rfl

theorem run_total {S O : Type} (call : S → O → S) (s : S) (os : List O) :
    run (fun s o => some (call s o)) s os = some (os.foldl call s) := by
  induction os generalizing s with
  | nil => rfl
  | cons o os ih => exact ih _

theorem xml_parts : Parts (fun x o => some (XML.apply x o)) xmlPart fun _ => true := by
  refine total_parts (fun s o q h => ?_) (fun s o q h _ => ?_) <;>
    cases o <;> cases q <;> first | rfl | exact absurd rfl h | (simp [xmlPart] at h)

theorem doc_parts : Parts (fun x o => some (Documentation.apply x o)) docPart docSets := by
  refine total_parts (fun s o q h => ?_) (fun s o q h h' => ?_) <;>
    cases o <;> cases q <;>
      first | rfl | exact absurd rfl h | (simp [docPart] at h; done) | exact nomatch h'

theorem example_parts :
    Parts (fun x o => some (Example.apply x o)) examplePart exampleSets := by
  refine total_parts (fun s o q h => ?_) (fun s o q h h' => ?_) <;>
    cases o <;> cases q <;>
      first | rfl | exact absurd rfl h | (simp [examplePart] at h; done) | exact nomatch h'

theorem lib_parts : Parts (fun x o => some (Library.call x o)) libPart libSets := by
  refine total_parts (fun s o q h => ?_) (fun s o q h h' => ?_)
  all_goals
    rcases o with o | _ | _ | _ | _ | _ | _ | _ | _ <;> try cases o
  all_goals
    rcases q with q | _ | _ | _ | _ | _ | _ | _ | _ <;> try cases q
  all_goals
    first | rfl | exact absurd rfl h | (simp [libPart, libOpKey] at h; done) | exact nomatch h'

private theorem api_comm (s : APISpec) (o q : ApiCall) (h : apiPart o ≠ apiPart q) :
    (s.call o).call q = (s.call q).call o := by
  rcases o with o | _ | _ | _ | _ | _ | _ | _ | _ | _ | _ <;> try cases o
  all_goals
    rcases q with q | _ | _ | _ | _ | _ | _ | _ | _ | _ | _ <;> try cases q
  all_goals first | exact absurd rfl h | rfl

private theorem api_sets (s : APISpec) (o : ApiCall) (q : ApiOp) (h : apiPart o = apiPart (.set q)) :
    (s.call o).apply q = s.apply q := by
  rcases o with o | _ | _ | _ | _ | _ | _ | _ | _ | _ | _ <;> try cases o
  all_goals cases q
  all_goals first | (simp [apiPart, apiOpKey] at h; done) | rfl

theorem api_parts : Parts (fun x o => some (APISpec.call x o)) apiPart apiSets := by
  refine total_parts api_comm (fun s o q h h' => ?_)
  cases q with
  | set q => exact api_sets s o q h
  | _ => exact nomatch h'

/-! ### Data types -/

/-- What a call on an extended type does. -/
private inductive Does (op : TypeOp) : Prop
  | hdr (g : Hdr → Hdr) (h : ∀ h b fs ps it, DT.apply (.ext h b fs ps it) op =
      some (.ext (g h) b fs ps it)) (e : ∀ h, Hdr.apply h op = some (g h))
  | facets (g : OM String (OM String DT) → OM String (OM String DT))
      (h : ∀ h b fs ps it, DT.apply (.ext h b fs ps it) op = some (.ext h b (g fs) ps it))
      (e : typePart op = "facets") (c : typeSets op = true → ∃ c, ∀ m, g m = c)
  | props (g : OM String DT → OM String DT)
      (h : ∀ h o fs ps it, DT.apply (.ext h (.object o) fs ps it) op =
        some (.ext h (.object o) fs (g ps) it))
      (n : ∀ h b fs ps it, (∀ o, b ≠ .object o) → DT.apply (.ext h b fs ps it) op = none)
      (e : typePart op = "properties") (c : typeSets op = true → ∃ c, ∀ m, g m = c)
  | items (t : Option DT)
      (h : ∀ h o fs ps it, DT.apply (.ext h (.array o) fs ps it) op =
        some (.ext h (.array o) fs ps t))
      (n : ∀ h b fs ps it, (∀ o, b ≠ .array o) → DT.apply (.ext h b fs ps it) op = none)
      (e : typePart op = "items")
  | body (h : ∀ h b fs ps it, DT.apply (.ext h b fs ps it) op =
      (b.apply op).map fun b' => .ext h b' fs ps it) (s : typeSets op = true)

private theorem does (op : TypeOp) : Does op := by
  cases op
  case setFacetDefinitions m => exact .facets (fun _ => orFresh m) (fun _ _ _ _ _ => rfl) rfl fun _ => ⟨_, fun _ => rfl⟩
  case unsetFacetDefinitions => exact .facets (fun _ => OM.empty true) (fun _ _ _ _ _ => rfl) rfl fun _ => ⟨_, fun _ => rfl⟩
  case editFacets f => exact .facets f (fun _ _ _ _ _ => rfl) rfl fun h => nomatch h
  case setProperties m =>
    exact .props (fun _ => orFresh m) (fun _ _ _ _ _ => rfl)
      (fun _ b _ _ _ hb => by cases b <;> first | rfl | exact absurd rfl (hb _)) rfl fun _ => ⟨_, fun _ => rfl⟩
  case unsetProperties =>
    exact .props (fun _ => OM.empty true) (fun _ _ _ _ _ => rfl)
      (fun _ b _ _ _ hb => by cases b <;> first | rfl | exact absurd rfl (hb _)) rfl fun _ => ⟨_, fun _ => rfl⟩
  case editProperties f =>
    exact .props f (fun _ _ _ _ _ => rfl)
      (fun _ b _ _ _ hb => by cases b <;> first | rfl | exact absurd rfl (hb _)) rfl fun h => nomatch h
  case setItems t =>
    exact .items t (fun _ _ _ _ _ => rfl)
      (fun _ b _ _ _ hb => by cases b <;> first | rfl | exact absurd rfl (hb _)) rfl
  case unsetItems =>
    exact .items none (fun _ _ _ _ _ => rfl)
      (fun _ b _ _ _ hb => by cases b <;> first | rfl | exact absurd rfl (hb _)) rfl
  all_goals first
    | exact .hdr _ (fun _ _ _ _ _ => rfl) (fun _ => rfl)
    | exact .body (fun _ b _ _ _ => by cases b <;> rfl) rfl

private theorem hdr_comm (h h1 h2 : Hdr) (o q : TypeOp) (e1 : h.apply o = some h1)
    (e2 : h.apply q = some h2) (hp : typePart o ≠ typePart q) : h1.apply q = h2.apply o := by
  cases o <;> try (cases e1; done)
  all_goals (cases q <;> try (cases e2; done))
  all_goals first | exact absurd rfl hp | (cases e1; cases e2; rfl)

private theorem hdr_sets (h h1 : Hdr) (o q : TypeOp) (e1 : h.apply o = some h1)
    (hp : typePart o = typePart q) (hs : typeSets q = true) : h1.apply q = h.apply q := by
  cases o <;> try (cases e1; done)
  all_goals (cases q <;> try (cases hs; done))
  all_goals first | (simp [typePart, opKey] at hp; done) | (cases e1; rfl)

private theorem body_comm (b b1 b2 : Body) (o q : TypeOp) (e1 : b.apply o = some b1)
    (e2 : b.apply q = some b2) (hp : typePart o ≠ typePart q) : b1.apply q = b2.apply o := by
  cases b <;> cases o <;> try (cases e1; done)
  all_goals (cases q <;> try (cases e2; done))
  all_goals first | exact absurd rfl hp | (cases e1; cases e2; rfl)

private theorem body_there (b b1 : Body) (o q : TypeOp) (e1 : b.apply o = some b1) :
    (b1.apply q).isSome = (b.apply q).isSome := by
  cases b <;> cases o <;> try (cases e1; done)
  all_goals (cases e1; cases q <;> rfl)

private theorem body_sets (b b1 : Body) (o q : TypeOp) (e1 : b.apply o = some b1)
    (hp : typePart o = typePart q) : b1.apply q = b.apply q := by
  cases b <;> cases o <;> try (cases e1; done)
  all_goals
    cases e1
    cases q <;> first | rfl | (simp [typePart, opKey] at hp)

private theorem body_object (b b1 : Body) (o : TypeOp) (e : b.apply o = some b1) :
    ((∃ f, b1 = .object f) ↔ ∃ f, b = .object f) ∧ ((∃ f, b1 = .array f) ↔ ∃ f, b = .array f) := by
  cases b <;> cases o <;> try (cases e; done)
  all_goals (cases e; simp)

private theorem hdr_part (h h1 : Hdr) (o : TypeOp) (e : h.apply o = some h1) :
    typePart o ≠ "facets" ∧ typePart o ≠ "properties" ∧ typePart o ≠ "items" := by
  cases o <;> try (cases e; done)
  all_goals simp [typePart, opKey]

private theorem body_part (b b1 : Body) (o : TypeOp) (e : b.apply o = some b1) :
    typePart o ≠ "facets" ∧ typePart o ≠ "properties" ∧ typePart o ≠ "items" := by
  cases b <;> cases o <;> try (cases e; done)
  all_goals simp [typePart, opKey]

private theorem hdr_body_part (h h1 : Hdr) (b b1 : Body) (o q : TypeOp) (e : h.apply o = some h1)
    (e' : b.apply q = some b1) : typePart o ≠ typePart q := by
  cases b <;> cases q <;> try (cases e'; done)
  all_goals (cases o <;> try (cases e; done))
  all_goals simp [typePart, opKey]

private theorem some_cases {h : Hdr} {b : Body} {fs : OM String (OM String DT)} {ps : OM String DT}
    {it : Option DT} {o : TypeOp} {u : DT} (e : DT.apply (.ext h b fs ps it) o = some u) :
    (∃ h1, h.apply o = some h1 ∧ u = .ext h1 b fs ps it) ∨
    (∃ fs', u = .ext h b fs' ps it ∧ typePart o = "facets") ∨
    (∃ f ps', b = .object f ∧ u = .ext h b fs ps' it ∧ typePart o = "properties") ∨
    (∃ f it', b = .array f ∧ u = .ext h b fs ps it' ∧ typePart o = "items") ∨
    (∃ b1, b.apply o = some b1 ∧ u = .ext h b1 fs ps it) := by
  rcases does o with ⟨g, d, d'⟩ | ⟨g, d, d', _⟩ | ⟨g, d, n, d', _⟩ | ⟨t, d, n, d'⟩ | ⟨d, _⟩
  · rw [d] at e; cases e; exact .inl ⟨_, d' h, rfl⟩
  · rw [d] at e; cases e; exact .inr (.inl ⟨_, rfl, d'⟩)
  · by_cases hb : ∃ f, b = .object f
    · obtain ⟨f, rfl⟩ := hb
      rw [d] at e; cases e; exact .inr (.inr (.inl ⟨f, _, rfl, rfl, d'⟩))
    · rw [n _ _ _ _ _ fun f hf => hb ⟨f, hf⟩] at e; cases e
  · by_cases hb : ∃ f, b = .array f
    · obtain ⟨f, rfl⟩ := hb
      rw [d] at e; cases e; exact .inr (.inr (.inr (.inl ⟨f, _, rfl, rfl, d'⟩)))
    · rw [n _ _ _ _ _ fun f hf => hb ⟨f, hf⟩] at e; cases e
  · rw [d] at e
    cases hb : b.apply o with
    | none => rw [hb] at e; cases e
    | some b1 => rw [hb] at e; cases e; exact .inr (.inr (.inr (.inr ⟨b1, rfl, rfl⟩)))

private theorem some_same {h h' : Hdr} {b : Body} {fs fs' : OM String (OM String DT)}
    {ps ps' : OM String DT} {it it' : Option DT} (q : TypeOp) :
    (DT.apply (.ext h b fs ps it) q).isSome = (DT.apply (.ext h' b fs' ps' it') q).isSome := by
  rcases does q with ⟨g, d, d'⟩ | ⟨g, d, d', _⟩ | ⟨g, d, n, d', _⟩ | ⟨t, d, n, d'⟩ | ⟨d, _⟩
  · rw [d, d]; rfl
  · rw [d, d]; rfl
  · by_cases hb : ∃ f, b = .object f
    · obtain ⟨f, rfl⟩ := hb
      rw [d, d]; rfl
    · rw [n _ _ _ _ _ fun f hf => hb ⟨f, hf⟩, n _ _ _ _ _ fun f hf => hb ⟨f, hf⟩]
  · by_cases hb : ∃ f, b = .array f
    · obtain ⟨f, rfl⟩ := hb
      rw [d, d]; rfl
    · rw [n _ _ _ _ _ fun f hf => hb ⟨f, hf⟩, n _ _ _ _ _ fun f hf => hb ⟨f, hf⟩]
  · rw [d, d, Option.isSome_map, Option.isSome_map]

private theorem some_body {h : Hdr} {b b1 : Body} {fs : OM String (OM String DT)}
    {ps : OM String DT} {it : Option DT} (o q : TypeOp) (e : b.apply o = some b1) :
    (DT.apply (.ext h b1 fs ps it) q).isSome = (DT.apply (.ext h b fs ps it) q).isSome := by
  have hk := body_object b b1 o e
  rcases does q with ⟨g, d, d'⟩ | ⟨g, d, d', _⟩ | ⟨g, d, n, d', _⟩ | ⟨t, d, n, d'⟩ | ⟨d, _⟩
  · rw [d, d]; rfl
  · rw [d, d]; rfl
  · by_cases hb : ∃ f, b = .object f
    · obtain ⟨f1, rfl⟩ := hk.1.mpr hb
      obtain ⟨f, rfl⟩ := hb
      rw [d, d]; rfl
    · rw [n _ _ _ _ _ fun f hf => hb ⟨f, hf⟩, n _ _ _ _ _ fun f hf => hb (hk.1.mp ⟨f, hf⟩)]
  · by_cases hb : ∃ f, b = .array f
    · obtain ⟨f1, rfl⟩ := hk.2.mpr hb
      obtain ⟨f, rfl⟩ := hb
      rw [d, d]; rfl
    · rw [n _ _ _ _ _ fun f hf => hb ⟨f, hf⟩, n _ _ _ _ _ fun f hf => hb (hk.2.mp ⟨f, hf⟩)]
  · rw [d, d, Option.isSome_map, Option.isSome_map, body_there b b1 o q e]

private theorem ext_there {t u : DT} {o : TypeOp} (q : TypeOp) (e : t.apply o = some u) :
    (u.apply q).isSome = (t.apply q).isSome := by
  cases t with
  | basic i s x =>
    cases o <;> try (cases e; done)
    all_goals (cases e; cases q <;> rfl)
  | ext h b fs ps it =>
    rcases some_cases e with ⟨h1, _, rfl⟩ | ⟨fs', rfl, _⟩ | ⟨f, ps', _, rfl, _⟩ |
      ⟨f, it', _, rfl, _⟩ | ⟨b1, eb, rfl⟩
    · exact some_same q
    · exact some_same q
    · exact some_same q
    · exact some_same q
    · exact some_body o q eb

private theorem ext_sets {t u : DT} {o q : TypeOp} (hp : typePart o = typePart q)
    (hs : typeSets q = true) (e : t.apply o = some u) : u.apply q = t.apply q := by
  cases t with
  | basic i s x =>
    cases o <;> try (cases e; done)
    all_goals
      cases e
      cases q <;> first | rfl | (cases hs; done) | (simp [typePart, opKey] at hp)
  | ext h b fs ps it =>
    rcases some_cases e with ⟨h1, e1, rfl⟩ | ⟨fs', rfl, k⟩ | ⟨f, ps', rfl, rfl, k⟩ |
      ⟨f, it', rfl, rfl, k⟩ | ⟨b1, e1, rfl⟩
    all_goals
      rcases does q with ⟨g, d, d'⟩ | ⟨g, d, d', c⟩ | ⟨g, d, n, d', c⟩ | ⟨t, d, n, d'⟩ | ⟨d, _⟩
    · have := hdr_sets h h1 o q e1 hp hs
      rw [d', d'] at this
      rw [d, d, Option.some.inj this]
    · exact absurd (hp.trans d') (hdr_part h h1 o e1).1
    · exact absurd (hp.trans d') (hdr_part h h1 o e1).2.1
    · exact absurd (hp.trans d') (hdr_part h h1 o e1).2.2
    · cases hb : b.apply q with
      | none => rw [d, d, hb]; rfl
      | some b1 => exact absurd hp (hdr_body_part h h1 b b1 o q e1 hb)
    · exact absurd (hp.symm.trans k) (hdr_part h _ q (d' h)).1
    · obtain ⟨c, hc⟩ := c hs
      rw [d, d, hc, hc]
    · exact absurd (k.symm.trans (hp.trans d')) (by decide)
    · exact absurd (k.symm.trans (hp.trans d')) (by decide)
    · cases hb : b.apply q with
      | none => rw [d, d, hb]; rfl
      | some b1 => exact absurd (hp.symm.trans k) (body_part b b1 q hb).1
    · exact absurd (hp.symm.trans k) (hdr_part h _ q (d' h)).2.1
    · exact absurd (k.symm.trans (hp.trans d')) (by decide)
    · obtain ⟨c, hc⟩ := c hs
      rw [d, d, hc, hc]
    · exact absurd (k.symm.trans (hp.trans d')) (by decide)
    · cases hb : Body.apply (.object f) q with
      | none => rw [d, d, hb]; rfl
      | some b1 => exact absurd (hp.symm.trans k) (body_part _ b1 q hb).2.1
    · exact absurd (hp.symm.trans k) (hdr_part h _ q (d' h)).2.2
    · exact absurd (k.symm.trans (hp.trans d')) (by decide)
    · exact absurd (k.symm.trans (hp.trans d')) (by decide)
    · rw [d, d]
    · cases hb : Body.apply (.array f) q with
      | none => rw [d, d, hb]; rfl
      | some b1 => exact absurd (hp.symm.trans k) (body_part _ b1 q hb).2.2
    · exact absurd hp.symm (hdr_body_part h _ b b1 q o (d' h) e1)
    · exact absurd (hp.trans d') (body_part b b1 o e1).1
    · exact absurd (hp.trans d') (body_part b b1 o e1).2.1
    · exact absurd (hp.trans d') (body_part b b1 o e1).2.2
    · rw [d, d, body_sets b b1 o q e1 hp]

private theorem map_some {b : Body} {q : TypeOp} {f : Body → DT} {v : DT}
    (e : (b.apply q).map f = some v) : ∃ b1, b.apply q = some b1 ∧ f b1 = v :=
  Option.map_eq_some_iff.mp e

private theorem only_object {h : Hdr} {b : Body} {fs : OM String (OM String DT)}
    {ps : OM String DT} {it : Option DT} {o : TypeOp} {u : DT}
    (n : ∀ h b fs ps it, (∀ f, b ≠ .object f) → DT.apply (.ext h b fs ps it) o = none)
    (e : DT.apply (.ext h b fs ps it) o = some u) : ∃ f, b = .object f := by
  refine Classical.byContradiction fun hb => ?_
  rw [n _ _ _ _ _ fun f hf => hb ⟨f, hf⟩] at e
  cases e

private theorem only_array {h : Hdr} {b : Body} {fs : OM String (OM String DT)}
    {ps : OM String DT} {it : Option DT} {o : TypeOp} {u : DT}
    (n : ∀ h b fs ps it, (∀ f, b ≠ .array f) → DT.apply (.ext h b fs ps it) o = none)
    (e : DT.apply (.ext h b fs ps it) o = some u) : ∃ f, b = .array f := by
  refine Classical.byContradiction fun hb => ?_
  rw [n _ _ _ _ _ fun f hf => hb ⟨f, hf⟩] at e
  cases e

private theorem hdr_any {h : Hdr} {b : Body} {fs : OM String (OM String DT)} {ps : OM String DT}
    {it : Option DT} {o q : TypeOp} {v : DT} (hp : typePart o ≠ typePart q) {g : Hdr → Hdr}
    (d : ∀ h b fs ps it, DT.apply (.ext h b fs ps it) o = some (.ext (g h) b fs ps it))
    (d' : ∀ h, Hdr.apply h o = some (g h)) (e' : DT.apply (.ext h b fs ps it) q = some v) :
    DT.apply (.ext (g h) b fs ps it) q = v.apply o := by
  rcases does q with ⟨g2, d2, d2'⟩ | ⟨g2, d2, _, _⟩ | ⟨g2, d2, n2, _, _⟩ | ⟨t2, d2, n2, _⟩ | ⟨d2, _⟩
  · have := hdr_comm h _ _ o q (d' h) (d2' h) hp
    rw [d', d2'] at this
    rw [d2] at e'
    cases e'
    rw [d2, d, Option.some.inj this]
  · rw [d2] at e'; cases e'; rw [d2, d]
  · obtain ⟨f, rfl⟩ := only_object n2 e'
    rw [d2] at e'; cases e'; rw [d2, d]
  · obtain ⟨f, rfl⟩ := only_array n2 e'
    rw [d2] at e'; cases e'; rw [d2, d]
  · rw [d2] at e'
    obtain ⟨b1, h1, rfl⟩ := map_some e'
    rw [d2, d, h1]; rfl

private theorem ext_comm {t u v : DT} {o q : TypeOp} (hp : typePart o ≠ typePart q)
    (e : t.apply o = some u) (e' : t.apply q = some v) : u.apply q = v.apply o := by
  cases t with
  | basic i s x =>
    cases o <;> try (cases e; done)
    all_goals (cases q <;> try (cases e'; done))
    all_goals first | exact absurd rfl hp | (cases e; cases e'; rfl)
  | ext h b fs ps it =>
    rcases does o with ⟨g, d, d'⟩ | ⟨g, d, d', c⟩ | ⟨g, d, n, d', c⟩ | ⟨t, d, n, d'⟩ | ⟨d, _⟩
    · rw [d] at e; cases e; exact hdr_any hp d d' e'
    all_goals
      rcases does q with ⟨g2, d2, d2'⟩ | ⟨g2, d2, d2', _⟩ | ⟨g2, d2, n2, d2', _⟩ |
        ⟨t2, d2, n2, d2'⟩ | ⟨d2, _⟩
    all_goals first
      | exact absurd (d'.trans d2'.symm) hp
      | (rw [d2] at e'; cases e'; exact (hdr_any hp.symm d2 d2' e).symm)
      | skip
    · obtain ⟨f, rfl⟩ := only_object n2 e'
      rw [d] at e; rw [d2] at e'; cases e; cases e'; rw [d, d2]
    · obtain ⟨f, rfl⟩ := only_array n2 e'
      rw [d] at e; rw [d2] at e'; cases e; cases e'; rw [d, d2]
    · rw [d] at e; rw [d2] at e'; cases e
      obtain ⟨b1, h1, rfl⟩ := map_some e'
      rw [d, d2, h1]; rfl
    · obtain ⟨f, rfl⟩ := only_object n e
      rw [d] at e; rw [d2] at e'; cases e; cases e'; rw [d, d2]
    · obtain ⟨f, rfl⟩ := only_object n e
      obtain ⟨_, hf⟩ := only_array n2 e'
      cases hf
    · obtain ⟨f, rfl⟩ := only_object n e
      rw [d] at e; rw [d2] at e'; cases e
      obtain ⟨b1, h1, rfl⟩ := map_some e'
      obtain ⟨f1, rfl⟩ := (body_object _ _ _ h1).1.mpr ⟨f, rfl⟩
      rw [d, d2, h1]; rfl
    · obtain ⟨f, rfl⟩ := only_array n e
      rw [d] at e; rw [d2] at e'; cases e; cases e'; rw [d, d2]
    · obtain ⟨f, rfl⟩ := only_array n e
      obtain ⟨_, hf⟩ := only_object n2 e'
      cases hf
    · obtain ⟨f, rfl⟩ := only_array n e
      rw [d] at e; rw [d2] at e'; cases e
      obtain ⟨b1, h1, rfl⟩ := map_some e'
      obtain ⟨f1, rfl⟩ := (body_object _ _ _ h1).2.mpr ⟨f, rfl⟩
      rw [d, d2, h1]; rfl
    · rw [d] at e; rw [d2] at e'; cases e'
      obtain ⟨b1, h1, rfl⟩ := map_some e
      rw [d, d2, h1]; rfl
    · obtain ⟨f, rfl⟩ := only_object n2 e'
      rw [d] at e; rw [d2] at e'; cases e'
      obtain ⟨b1, h1, rfl⟩ := map_some e
      obtain ⟨f1, rfl⟩ := (body_object _ _ _ h1).1.mpr ⟨f, rfl⟩
      rw [d, d2, h1]; rfl
    · obtain ⟨f, rfl⟩ := only_array n2 e'
      rw [d] at e; rw [d2] at e'; cases e'
      obtain ⟨b1, h1, rfl⟩ := map_some e
      obtain ⟨f1, rfl⟩ := (body_object _ _ _ h1).2.mpr ⟨f, rfl⟩
      rw [d, d2, h1]; rfl
    · rw [d] at e; rw [d2] at e'
      obtain ⟨b1, h1, rfl⟩ := map_some e
      obtain ⟨b2, h2, rfl⟩ := map_some e'
      rw [d, d2, body_comm b b1 b2 o q h1 h2 hp]

theorem type_parts : Parts DT.apply typePart typeSets where
  comm t o q hp := by
    cases e : t.apply o with
    | none =>
      cases e' : t.apply q with
      | none => rfl
      | some v =>
        have := ext_there o e'
        rw [e] at this
        exact (Option.isSome_eq_false_iff.mp this |> Option.isNone_iff_eq_none.mp).symm
    | some u =>
      cases e' : t.apply q with
      | none =>
        have := ext_there q e
        rw [e'] at this
        exact Option.isSome_eq_false_iff.mp this |> Option.isNone_iff_eq_none.mp
      | some v => exact ext_comm hp e e'
  sets t o q u hp hs e := ext_sets hp hs e
  there t o q u e := by rw [ext_there q e]

theorem applyAll_run (t : DT) (ops : List TypeOp) : t.applyAll ops = run DT.apply t ops := by
  induction ops generalizing t with
  | nil => rfl
  | cons o ops ih =>
    show (t.apply o).bind _ = (t.apply o).bind _
    exact congrArg _ (funext fun u => ih u)

end Verif.Doc.Calls
