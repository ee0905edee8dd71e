import Verif.Props.Load
import Verif.Doc.Live

/-! # C62: what a failed load leaves behind -/

namespace Verif.Props
open Verif Verif.Doc Verif.Doc.Spec

/-! ### Where a document is cut -/

/-- Parts of an API document that are filled entry by entry from a mapping. -/
def ApiSection.isDict : ApiSection → Bool
  | .uses | .securitySchemes | .baseUriParameters | .traits | .annotationTypes | .resourceTypes
  | .types => true
  | _ => false

/-- Entry `(k, v)` cut at its first bad place: `kept` is what precedes that place, `bad` also has
the bad place itself.  A mapping that is filled entry by entry (`dict`) is cut between entries, a
list that grows item by item (`docs`) between items; anything else is dropped whole. -/
def Cut (dict docs : Bool) (k v : Node) (kept bad : List (Node × Node)) : Prop :=
  (∃ inner e rest, dict = true ∧ v = .map (inner ++ e :: rest) ∧ kept = [(k, .map inner)] ∧
    bad = [(k, .map (inner ++ [e]))]) ∨
  (∃ t inner e rest, docs = true ∧ v = .seq t (inner ++ e :: rest) ∧ kept = [(k, .seq t inner)] ∧
    bad = [(k, .seq t (inner ++ [e]))]) ∨
  (((dict = true → isMap v = false) ∧ (docs = true → isSeq v = false)) ∧ kept = [] ∧
    bad = [(k, v)])

/-- The result of a run on an object, as a value. -/
def outcome {σ : Type} (r : Live σ) : Res σ := r.2.map fun _ => r.1

/-! ### Loops -/

theorem ended_outcome {σ : Type} (r : Live σ) : ended (outcome r) = r.2 := by
  obtain ⟨s, q⟩ := r
  cases q <;> rfl

theorem outcome_within {σ τ : Type} (r : Live τ) (f : τ → σ) :
    outcome (r.within f) = (outcome r).map f := by
  obtain ⟨s, q⟩ := r
  cases q <;> rfl

theorem outcome_store {σ α : Type} (r : Res α) (f : σ → α → σ) (s : σ) :
    outcome (store r f s) = r.map (f s) := by cases r <;> rfl

theorem store_failed {σ α : Type} {r : Res α} {f : σ → α → σ} {s s' : σ} {q : Res Unit}
    (h : store r f s = (s', q)) (hq : q ≠ .ok ()) : s' = s := by
  cases r <;> cases h
  · exact absurd rfl hq
  · rfl
  · rfl

section Loops
variable {σ : Type}

theorem outcome_pairs {f : Node → Node → σ → Live σ} {g : Node → Node → σ → Res σ}
    (h : ∀ k v s, outcome (f k v s) = g k v s) (ps : List (Node × Node)) (s : σ) :
    outcome (livePairs f ps s) = forPairs g ps s := by
  induction ps generalizing s with
  | nil => rfl
  | cons p ps ih =>
    simp only [livePairs, forPairs, ← h]
    rcases f p.1 p.2 s with ⟨s', q⟩
    cases q with
    | ok u => simp only [outcome, Res.map_ok, Res.bind_ok]; exact ih s'
    | err e => rfl
    | panic c => rfl

theorem outcome_items {f : Node → σ → Live σ} {g : Node → σ → Res σ}
    (h : ∀ v s, outcome (f v s) = g v s) (ns : List Node) (s : σ) :
    outcome (liveItems f ns s) = forItems g ns s := by
  induction ns generalizing s with
  | nil => rfl
  | cons n ns ih =>
    simp only [liveItems, forItems, ← h]
    rcases f n s with ⟨s', q⟩
    cases q with
    | ok u => simp only [outcome, Res.map_ok, Res.bind_ok]; exact ih s'
    | err e => rfl
    | panic c => rfl

theorem outcome_map {f : Node → Node → σ → Live σ} {g : Node → Node → σ → Res σ}
    (h : ∀ k v s, outcome (f k v s) = g k v s) (v : Node) (s : σ) :
    outcome (liveMap f v s) = mapForEach g v s := by
  cases v with
  | map ps => exact outcome_pairs h ps s
  | seq t ns => rfl
  | scalar a b => rfl

theorem outcome_seq {f : Node → σ → Live σ} {g : Node → σ → Res σ}
    (h : ∀ v s, outcome (f v s) = g v s) (v : Node) (s : σ) :
    outcome (liveSeq f v s) = seqForEach g v s := by
  cases v with
  | seq t ns => exact outcome_items h ns s
  | map ps => rfl
  | scalar a b => rfl

/-- A loop that fails has done everything before one entry, and what that entry's own failure
left. -/
theorem pairs_failed {f : Node → Node → σ → Live σ} {g : Node → Node → σ → Res σ}
    (h : ∀ k v s, outcome (f k v s) = g k v s) {ps : List (Node × Node)} {s s' : σ} {q : Res Unit}
    (hf : livePairs f ps s = (s', q)) (hq : q ≠ .ok ()) :
    ∃ pre p post s1, ps = pre ++ p :: post ∧ forPairs g pre s = .ok s1 ∧ f p.1 p.2 s1 = (s', q) := by
  induction ps generalizing s with
  | nil => cases hf; exact absurd rfl hq
  | cons p ps ih =>
    simp only [livePairs] at hf
    rcases hp : f p.1 p.2 s with ⟨s1, r⟩
    rw [hp] at hf
    cases r with
    | ok u =>
      obtain ⟨pre, p', post, s2, rfl, h1, h2⟩ := ih hf
      refine ⟨p :: pre, p', post, s2, rfl, ?_, h2⟩
      simp only [forPairs, ← h, hp, outcome, Res.map_ok, Res.bind_ok]
      exact h1
    | err e => cases hf; exact ⟨[], p, ps, s, rfl, rfl, hp⟩
    | panic c => cases hf; exact ⟨[], p, ps, s, rfl, rfl, hp⟩

theorem items_failed {f : Node → σ → Live σ} {g : Node → σ → Res σ}
    (h : ∀ v s, outcome (f v s) = g v s) {ns : List Node} {s s' : σ} {q : Res Unit}
    (hf : liveItems f ns s = (s', q)) (hq : q ≠ .ok ()) :
    ∃ pre n post s1, ns = pre ++ n :: post ∧ forItems g pre s = .ok s1 ∧ f n s1 = (s', q) := by
  induction ns generalizing s with
  | nil => cases hf; exact absurd rfl hq
  | cons n ns ih =>
    simp only [liveItems] at hf
    rcases hp : f n s with ⟨s1, r⟩
    rw [hp] at hf
    cases r with
    | ok u =>
      obtain ⟨pre, n', post, s2, rfl, h1, h2⟩ := ih hf
      refine ⟨n :: pre, n', post, s2, rfl, ?_, h2⟩
      simp only [forItems, ← h, hp, outcome, Res.map_ok, Res.bind_ok]
      exact h1
    | err e => cases hf; exact ⟨[], n, ns, s, rfl, rfl, hp⟩
    | panic c => cases hf; exact ⟨[], n, ns, s, rfl, rfl, hp⟩

end Loops

/-- How a part of a document may fail: the part's reader `L` on the object, compared with the
reader `G` of values. -/
def Fails {τ : Type} (dict docs : Bool) (L : Node → τ → Live τ) (G : Node → τ → Res τ) : Prop :=
  ∀ v m m' q, L v m = (m', q) → q ≠ .ok () →
    (∃ inner e rest, dict = true ∧ v = .map (inner ++ e :: rest) ∧ G (.map inner) m = .ok m' ∧
      ended (G (.map (inner ++ [e])) m) = q) ∨
    (∃ t inner e rest, docs = true ∧ v = .seq t (inner ++ e :: rest) ∧
      G (.seq t inner) m = .ok m' ∧ ended (G (.seq t (inner ++ [e])) m) = q) ∨
    (((dict = true → isMap v = false) ∧ (docs = true → isSeq v = false)) ∧ m' = m)

theorem fails_dict {V α : Type} (r : Node → Node → Res α) (put : OM String V → Node → α → OM String V)
    (g : Node → Node → OM String V → Res (OM String V))
    (h : ∀ k v m, (r k v).map (put m v) = g k v m) :
    Fails true false (fun v m => liveMap (fun k v m => store (r k v) (fun m a => put m v a) m) v m)
      (fun v m => mapForEach g v m) := by
  have ho : ∀ k v m, outcome (store (r k v) (fun m a => put m v a) m) = g k v m :=
    fun k v m => (outcome_store _ _ _).trans (h k v m)
  intro v m m' q hL hq
  cases v with
  | seq t ns => exact .inr (.inr ⟨⟨fun _ => rfl, nofun⟩, (Prod.mk.inj hL).1.symm⟩)
  | scalar a b => exact .inr (.inr ⟨⟨fun _ => rfl, nofun⟩, (Prod.mk.inj hL).1.symm⟩)
  | map ps =>
    obtain ⟨pre, p, post, s1, rfl, h1, h2⟩ := pairs_failed ho hL hq
    have h3 := store_failed h2 hq
    subst h3
    refine .inl ⟨pre, p, post, rfl, rfl, h1, ?_⟩
    show ended (forPairs g (pre ++ [p]) m) = q
    rw [forPairs_append, h1, Res.bind_ok]
    have : forPairs g [p] m' = g p.1 p.2 m' := Res.bind_ok_right _
    rw [this, ← ho, ended_outcome, h2]

theorem fails_store {τ α : Type} (r : Node → Res α) (set : τ → Node → α → τ) (G : Node → τ → Res τ) :
    Fails false false (fun v m => store (r v) (fun m a => set m v a) m) G :=
  fun _ _ _ _ h hq => .inr (.inr ⟨⟨nofun, nofun⟩, store_failed h hq⟩)

theorem fails_untyped : Fails true false liveUntyped (fun v m => loadUntyped m v) :=
  fails_dict (fun k _ => asString k) (fun m v s => m.put s v) _ (fun _ _ _ => rfl)

theorem fails_strings : Fails true false liveStrings (fun v m => loadStrings m v) :=
  fails_dict _ (fun m _ (e : String × String) => m.put e.1 e.2) _
    (fun k v m => by cases asString k <;> cases asString v <;> rfl)

theorem fails_anns : Fails true false liveAnns (fun v m => loadAnns m v) :=
  fails_dict _ (fun m _ (e : String × Ann) => m.put e.1 e.2) _
    (fun k v m => by cases asString k <;> cases loadAnn v <;> rfl)

theorem fails_types (X : Xyml) : Fails true false (liveTypes X) (loadTypes X) := by
  have : loadTypes X = fun v m => mapForEach (fun k v m => loadType X (k, v) m) v m := by
    funext v m; exact loadTypes_eq X v m
  rw [this, loadType_form]
  exact fails_dict _ (fun m _ (e : String × DT) => m.put e.1 e.2) _
    (fun k v m => by cases asString k <;> cases hat X v <;> rfl)

theorem fails_docs (X : Xyml) : Fails false true (liveDocs X) (seqForEach (pushDoc X)) := by
  have ho : ∀ n l, outcome (store (loadDocumentation X n)
      (fun (l : Option (List Documentation)) d => some (l.getD [] ++ [d])) l) = pushDoc X n l :=
    fun n l => outcome_store _ _ _
  intro v m m' q hL hq
  cases v with
  | map ns => exact .inr (.inr ⟨⟨nofun, fun _ => rfl⟩, (Prod.mk.inj hL).1.symm⟩)
  | scalar a b => exact .inr (.inr ⟨⟨nofun, fun _ => rfl⟩, (Prod.mk.inj hL).1.symm⟩)
  | seq t ns =>
    obtain ⟨pre, p, post, s1, rfl, h1, h2⟩ := items_failed ho hL hq
    have h3 := store_failed h2 hq
    subst h3
    refine .inr (.inl ⟨t, pre, p, post, rfl, rfl, h1, ?_⟩)
    show ended (forItems (pushDoc X) (pre ++ [p]) m) = q
    rw [forItems_append, h1, Res.bind_ok]
    have : forItems (pushDoc X) [p] m' = pushDoc X p m' := Res.bind_ok_right _
    rw [this, ← ho, ended_outcome, h2]

theorem outcome_untyped (v : Node) (m : OM String Node) :
    outcome (liveUntyped v m) = loadUntyped m v :=
  outcome_map (fun _ _ _ => outcome_store _ _ _) v m

theorem outcome_strings (v : Node) (m : OM String String) :
    outcome (liveStrings v m) = loadStrings m v :=
  outcome_map (fun k v m => (outcome_store _ _ _).trans
    (by cases asString k <;> cases asString v <;> rfl)) v m

theorem outcome_anns (v : Node) (m : OM String Ann) : outcome (liveAnns v m) = loadAnns m v :=
  outcome_map (fun k v m => (outcome_store _ _ _).trans
    (by cases asString k <;> cases loadAnn v <;> rfl)) v m

theorem outcome_types (X : Xyml) (v : Node) (m : OM String DT) :
    outcome (liveTypes X v m) = loadTypes X v m := by
  rw [loadTypes_eq, loadType_form]
  exact outcome_map (fun k v m => (outcome_store _ _ _).trans
    (by cases asString k <;> cases hat X v <;> rfl)) v m

theorem outcome_docs (X : Xyml) (v : Node) (l : Option (List Documentation)) :
    outcome (liveDocs X v l) = seqForEach (pushDoc X) v l :=
  outcome_seq (fun _ _ => outcome_store _ _ _) v l

/-! ### API documents -/

/-- One entry on one part of the object (auxiliary). -/
def apiLive (X : Xyml) (k : Node) : (s : ApiSection) → Node → s.Ty → Live s.Ty
  | .documentation, v, l => liveDocs X v l
  | .uses, v, m => liveStrings v m
  | .securitySchemes, v, m => liveUntyped v m
  | .baseUriParameters, v, m => liveUntyped v m
  | .traits, v, m => liveUntyped v m
  | .annotationTypes, v, m => liveUntyped v m
  | .resourceTypes, v, m => liveUntyped v m
  | .types, v, m => liveTypes X v m
  | .title, v, x => store (apiStep X k v .title x) (fun _ y => y) x
  | .version, v, x => store (apiStep X k v .version x) (fun _ y => y) x
  | .baseUri, v, x => store (apiStep X k v .baseUri x) (fun _ y => y) x
  | .description, v, x => store (apiStep X k v .description x) (fun _ y => y) x
  | .protocols, v, x => store (apiStep X k v .protocols x) (fun _ y => y) x
  | .mediaType, v, x => store (apiStep X k v .mediaType x) (fun _ y => y) x
  | .securedBy, v, x => store (apiStep X k v .securedBy x) (fun _ y => y) x
  | .annotations, v, x => store (apiStep X k v .annotations x) (fun _ y => y) x
  | .resources, v, x => store (apiStep X k v .resources x) (fun _ y => y) x
  | .extra, v, x => store (apiStep X k v .extra x) (fun _ y => y) x

theorem apiLive_outcome (X : Xyml) (k : Node) (s : ApiSection) (v : Node) (x : s.Ty) :
    outcome (apiLive X k s v x) = apiStep X k v s x := by
  cases s with
  | documentation => exact outcome_docs X v x
  | uses => exact outcome_strings v x
  | securitySchemes => exact outcome_untyped v x
  | baseUriParameters => exact outcome_untyped v x
  | traits => exact outcome_untyped v x
  | annotationTypes => exact outcome_untyped v x
  | resourceTypes => exact outcome_untyped v x
  | types => exact outcome_types X v x
  | _ =>
    refine (outcome_store _ _ _).trans ?_
    generalize apiStep X k v _ x = r
    cases r <;> rfl

theorem apiLive_fails (X : Xyml) (k : Node) (s : ApiSection) :
    Fails (ApiSection.isDict s) (s == .documentation) (apiLive X k s)
      (fun v x => apiStep X k v s x) := by
  cases s with
  | documentation => exact fails_docs X
  | uses => exact fails_strings
  | securitySchemes => exact fails_untyped
  | baseUriParameters => exact fails_untyped
  | traits => exact fails_untyped
  | annotationTypes => exact fails_untyped
  | resourceTypes => exact fails_untyped
  | types => exact fails_types X
  | _ =>
    intro v x x' q h hq
    exact .inr (.inr ⟨⟨nofun, nofun⟩,
      store_failed (r := apiStep X k v _ x) (f := fun _ y => y) h hq⟩)

theorem store_part {α : Type} (s : ApiSection) (a : APISpec) (r : Res α)
    (set : APISpec → α → APISpec) (f : s.Ty → α → s.Ty)
    (h : ∀ x, set a x = a.setPart s (f (apiGet s a) x)) :
    store r set a = (store (r.map (f (apiGet s a))) (fun _ y => y) (apiGet s a)).within
      fun x => a.setPart s x := by
  have hself : a.setPart s (apiGet s a) = a := by cases s <;> rfl
  cases r with
  | ok x => simp only [store, Res.map_ok, Live.within, h]
  | err e => simp only [store, Res.map_err, Live.within, hself]
  | panic c => simp only [store, Res.map_panic, Live.within, hself]

theorem api_live_eq (X : Xyml) (k v : Node) (a : APISpec) :
    a.liveAssign X k v =
      (apiLive X k (apiSectionOf (k, v)) v (apiGet (apiSectionOf (k, v)) a)).within
        fun x => a.setPart (apiSectionOf (k, v)) x := by
  unfold APISpec.liveAssign
  by_cases hs : k.isStr = true
  · rw [if_neg (by simp [hs])]
    cases hc : firstChar k.value with
    | none =>
      have hv := firstChar_none.mp hc
      have hsec : apiSectionOf (k, v) = .extra := by
        have : apiKeys.lookup "" = none := by decide
        simp [apiSectionOf, startsWith, hs, hv, this]
      rw [hsec]
      simp [apiLive, apiStep, hs, hv, store, Live.within]
      rfl
    | some c =>
      have hne : k.value ≠ "" := fun h => by rw [firstChar_none.mpr h] at hc; cases hc
      have hsw := fun d => startsWith_firstChar (d := d) hs hc
      by_cases h1 : c = '('
      · have hsec : apiSectionOf (k, v) = .annotations := by simp [apiSectionOf, hsw, h1]
        rw [hsec]
        simp only [h1, if_true]
        exact store_part .annotations a (loadAnn v) _ (fun m x => OM.put m k.value x)
          (fun _ => rfl)
      · by_cases h2 : c = '/'
        · have hsec : apiSectionOf (k, v) = .resources := by simp [apiSectionOf, hsw, h2]
          rw [hsec]
          simp only [h2, if_true]
          rfl
        · have hsec : apiSectionOf (k, v) = (apiKeys.lookup k.value).getD .extra := by
            simp [apiSectionOf, hsw, h1, h2, hs]
          simp only [h1, h2, if_false]
          rw [hsec]
          cases hl : apiKeys.lookup k.value with
          | none =>
            have hn : ∀ p ∈ apiKeys, k.value ≠ p.1 := by
              intro p hp he
              have := List.lookup_eq_none_iff.mp hl p hp
              simp [he] at this
            simp only [apiKeys, List.mem_cons, List.not_mem_nil, or_false, forall_eq_or_imp,
              forall_eq] at hn
            simp only [APISpec.liveKey, hn, if_false, or_false]
            have hne' : (k.value == "") = false := by simpa using hne
            simp only [Option.getD_none, apiLive, apiStep, hne', Bool.and_false,
              Bool.false_eq_true, if_false]
            exact store_part .extra a (asScalar X k) _ (fun m x => OM.put m x v) (fun _ => rfl)
          | some s =>
            have hm := lookup_some_mem hl
            simp only [apiKeys, List.mem_cons, List.not_mem_nil, or_false, Prod.mk.injEq] at hm
            rcases hm with ⟨hv, rfl⟩ | ⟨hv, rfl⟩ | ⟨hv, rfl⟩ | ⟨hv, rfl⟩ | ⟨hv, rfl⟩ | ⟨hv, rfl⟩ |
              ⟨hv, rfl⟩ | ⟨hv, rfl⟩ | ⟨hv, rfl⟩ | ⟨hv, rfl⟩ | ⟨hv, rfl⟩ | ⟨hv, rfl⟩ | ⟨hv, rfl⟩ |
              ⟨hv, rfl⟩ | ⟨hv, rfl⟩ | ⟨hv, rfl⟩
            all_goals
              simp only [APISpec.liveKey, hv, reduceIte, Option.getD_some, apiLive,
                String.reduceEq, or_true, true_or]
            all_goals first
              | rfl
              | skip
            · have hid : (asString v).map (fun x => x) = asString v := by
                cases asString v <;> rfl
              exact (store_part .title a (asString v) _ (fun _ x => x) (fun _ => rfl)).trans
                (congrArg (fun r => (store r (fun _ y => y) a.title).within
                  fun x => a.setPart .title x) hid)
            · exact store_part .version a (asString v) _ (fun _ x => some x) (fun _ => rfl)
            · exact store_part .baseUri a (asString v) _ (fun _ x => some x) (fun _ => rfl)
            · exact store_part .description a (asString v) _ (fun _ x => some x) (fun _ => rfl)
            · exact store_part .protocols a (asStringList v) _ (fun _ x => some x) (fun _ => rfl)
            · simp only [apiStep]
              split
              · rfl
              · exact store_part .mediaType a (asStringList v) _ (fun _ x => some x)
                  (fun _ => rfl)
            · exact store_part .securedBy a (asStringList v) _ (fun _ x => some x) (fun _ => rfl)
  · have hs : k.isStr = false := by simpa using hs
    have hsec : apiSectionOf (k, v) = .extra := by simp [apiSectionOf, startsWith, hs]
    rw [hsec]
    simp only [hs, Bool.not_false, if_true, apiLive, apiStep, Bool.false_and,
      Bool.false_eq_true, if_false]
    exact store_part .extra a (asScalar X k) _ (fun m x => OM.put m x v) (fun _ => rfl)

theorem api_live_outcome (X : Xyml) (k v : Node) (a : APISpec) :
    outcome (a.liveAssign X k v) = a.assign X k v := by
  rw [api_live_eq, outcome_within, apiLive_outcome, api_assign_eq]

/-- C62: the model with states agrees with the model without: same verdict, and the same object
when there is no error. -/
theorem C62_api_refines (X : Xyml) (v : Node) (a : APISpec) :
    outcome (a.load X v) = a.unmarshal X v :=
  outcome_map (api_live_outcome X) v a

/-- C62: a load that fails — error or panic — leaves exactly what loading the document up to the
first bad place would have left, and it is that place that is bad.  Where the place is: `Cut`. -/
theorem C62_api_failed_load (X : Xyml) (ps : List (Node × Node)) (a a' : APISpec) (q : Res Unit)
    (h : a.load X (.map ps) = (a', q)) (hq : q ≠ .ok ()) :
    ∃ pre k v post kept bad, ps = pre ++ (k, v) :: post ∧
      Cut (ApiSection.isDict (apiSectionOf (k, v))) (apiSectionOf (k, v) == .documentation) k v
        kept bad ∧
      a.unmarshal X (.map (pre ++ kept)) = .ok a' ∧
      ended (a.unmarshal X (.map (pre ++ bad))) = q := by
  obtain ⟨pre, ⟨k, v⟩, post, a1, rfl, h1, h2⟩ := pairs_failed (api_live_outcome X) h hq
  have hun : ∀ qs, a.unmarshal X (.map (pre ++ qs)) = forPairs (APISpec.assign X) qs a1 := by
    intro qs
    show forPairs (APISpec.assign X) (pre ++ qs) a = _
    rw [forPairs_append, h1, Res.bind_ok]
  have hone : ∀ w, a.unmarshal X (.map (pre ++ [(k, w)])) = a1.assign X k w := by
    intro w
    rw [hun]
    exact Res.bind_ok_right _
  have hw : ∀ w, apiSectionOf (k, w) = apiSectionOf (k, v) := fun _ => rfl
  have h3 := h2
  rw [show (k, v).1 = k from rfl, show (k, v).2 = v from rfl, api_live_eq] at h3
  generalize hs : apiSectionOf (k, v) = s at h3 hw
  rcases hl : apiLive X k s v (apiGet s a1) with ⟨x, r⟩
  rw [hl] at h3
  obtain ⟨rfl, rfl⟩ := Prod.mk.inj h3
  rcases apiLive_fails X k s v _ _ _ hl hq with ⟨inner, e, rest, hd, rfl, g1, g2⟩ |
    ⟨t, inner, e, rest, hd, rfl, g1, g2⟩ | ⟨hd, rfl⟩
  · refine ⟨pre, k, _, post, _, _, rfl, .inl ⟨inner, e, rest, by rw [hs]; exact hd, rfl, rfl, rfl⟩,
      ?_, ?_⟩
    · rw [hone, api_assign_eq, hw]; exact congrArg (Res.map fun x => a1.setPart s x) g1
    · rw [hone, api_assign_eq, hw, ended_map]; exact g2
  · refine ⟨pre, k, _, post, _, _, rfl,
      .inr (.inl ⟨t, inner, e, rest, by rw [hs]; exact hd, rfl, rfl, rfl⟩), ?_, ?_⟩
    · rw [hone, api_assign_eq, hw]; exact congrArg (Res.map fun x => a1.setPart s x) g1
    · rw [hone, api_assign_eq, hw, ended_map]; exact g2
  · refine ⟨pre, k, v, post, [], _, rfl, .inr (.inr ⟨by rw [hs]; exact hd, rfl, rfl⟩), ?_, ?_⟩
    · rw [hun]
      show Res.ok a1 = _
      congr 1
      cases s <;> rfl
    · rw [hone, ← api_live_outcome, ended_outcome]
      exact congrArg Prod.snd h2

/-! ### Libraries -/

/-- Entries of a library that are read entry by entry from a mapping. -/
def libIsDict (k : Node) : Bool :=
  ["uses", "types", "schemas", "resourceTypes", "traits", "securitySchemes",
   "annotationTypes"].contains k.value

/-- One entry on one part of the object (auxiliary). -/
def libLive (X : Xyml) (k : Node) : (s : LibSection) → Node → s.Ty → Live s.Ty
  | .uses, v, m => liveStrings v m
  | .types, v, m => liveTypes X v m
  | .resourceTypes, v, m => liveUntyped v m
  | .traits, v, m => liveUntyped v m
  | .securitySchemes, v, m => liveUntyped v m
  | .annotations, v, m => if k.value = "annotationTypes" then liveAnns v m
      else store ((loadAnn v).map fun a => OM.put m k.value a) (fun _ y => y) m
  | .usage, v, x => store (libStep X k v .usage x) (fun _ y => y) x
  | .extra, v, x => store (libStep X k v .extra x) (fun _ y => y) x

theorem outcome_store_id {σ : Type} (r : Res σ) (s : σ) :
    outcome (store r (fun _ y => y) s) = r := by cases r <;> rfl

theorem libLive_outcome (X : Xyml) (k : Node) (s : LibSection) (v : Node) (x : s.Ty) :
    outcome (libLive X k s v x) = libStep X k v s x := by
  cases s with
  | uses => exact outcome_strings v x
  | securitySchemes => exact outcome_untyped v x
  | traits => exact outcome_untyped v x
  | resourceTypes => exact outcome_untyped v x
  | types => exact outcome_types X v x
  | usage => exact outcome_store_id _ _
  | extra => exact outcome_store_id _ _
  | annotations =>
    show outcome (if k.value = "annotationTypes" then liveAnns v x
      else store ((loadAnn v).map fun a => OM.put x k.value a) (fun _ y => y) x) =
        if k.value = "annotationTypes" then loadAnns x v
        else (loadAnn v).map fun a => OM.put x k.value a
    by_cases h : k.value = "annotationTypes"
    · rw [if_pos h, if_pos h]; exact outcome_anns v x
    · rw [if_neg h, if_neg h]; exact outcome_store_id _ _

theorem Fails.weaken {τ : Type} {d d' : Bool} {L : Node → τ → Live τ} {G : Node → τ → Res τ}
    (h : Fails d false L G) (hd : d = d') : Fails d' false L G := hd ▸ h

theorem libLive_fails (X : Xyml) (k v : Node) (s : LibSection) (hs : libSectionOf (k, v) = s) :
    Fails (libIsDict k) false (libLive X k s) (fun w x => libStep X k w s x) := by
  cases hl : libKeys.lookup k.value with
  | some s' =>
    have hss : s' = s := by simpa [libSectionOf, hl] using hs
    subst hss
    have hm := lookup_some_mem hl
    simp only [libKeys, List.mem_cons, List.not_mem_nil, or_false, Prod.mk.injEq] at hm
    rcases hm with ⟨hv, rfl⟩ | ⟨hv, rfl⟩ | ⟨hv, rfl⟩ | ⟨hv, rfl⟩ | ⟨hv, rfl⟩ | ⟨hv, rfl⟩ |
      ⟨hv, rfl⟩ | ⟨hv, rfl⟩
    · have h1 : (fun (v : Node) (x : OM String Ann) => libStep X k v .annotations x) =
          fun v x => loadAnns x v := by
        funext v x
        show (if k.value = "annotationTypes" then loadAnns x v
          else (loadAnn v).map fun a => OM.put x k.value a) = _
        rw [if_pos hv]
      have h2 : libLive X k .annotations = liveAnns := by
        funext v x
        show (if k.value = "annotationTypes" then liveAnns v x
          else store ((loadAnn v).map fun a => OM.put x k.value a) (fun _ y => y) x) = _
        rw [if_pos hv]
      show Fails (libIsDict k) false (libLive X k .annotations)
        (fun (v : Node) (x : OM String Ann) => libStep X k v .annotations x)
      rw [h1, h2]
      exact fails_anns.weaken (by simp [libIsDict, hv])
    · exact fails_untyped.weaken (by simp [libIsDict, hv])
    · exact (fails_types X).weaken (by simp [libIsDict, hv])
    · exact (fails_types X).weaken (by simp [libIsDict, hv])
    · exact fails_untyped.weaken (by simp [libIsDict, hv])
    · exact fails_strings.weaken (by simp [libIsDict, hv])
    · have : libIsDict k = false := by simp [libIsDict, hv]
      rw [this]
      intro v x x' q h hq
      exact .inr (.inr ⟨⟨nofun, nofun⟩,
        store_failed (r := libStep X k v .usage x) (f := fun _ y => y) h hq⟩)
    · exact fails_untyped.weaken (by simp [libIsDict, hv])
  | none =>
    have hn : ∀ p ∈ libKeys, k.value ≠ p.1 := by
      intro p hp he
      have := List.lookup_eq_none_iff.mp hl p hp
      simp [he] at this
    simp only [libKeys, List.mem_cons, List.not_mem_nil, or_false, forall_eq_or_imp,
      forall_eq] at hn
    have hd : libIsDict k = false := by
      simp only [libIsDict, List.contains_eq_mem, decide_eq_false_iff_not, List.mem_cons,
        List.not_mem_nil, or_false]
      tauto
    rw [hd]
    intro v' x x' q h hq
    refine .inr (.inr ⟨⟨nofun, nofun⟩, ?_⟩)
    have hsec : s = if startsWith '(' k then .annotations else .extra := by
      rw [← hs]; simp [libSectionOf, hl]
    split at hsec
    · subst hsec
      have h : (if k.value = "annotationTypes" then liveAnns v' x
          else store ((loadAnn v').map fun a => OM.put x k.value a) (fun _ y => y) x) = (x', q) := h
      rw [if_neg hn.1] at h
      exact store_failed h hq
    · subst hsec
      exact store_failed (r := libStep X k v' .extra x) (f := fun _ y => y) h hq

theorem store_lib_part {α : Type} (s : LibSection) (a : Library) (r : Res α)
    (set : Library → α → Library) (f : s.Ty → α → s.Ty)
    (h : ∀ x, set a x = a.setPart s (f (libGet s a) x)) :
    store r set a = (store (r.map (f (libGet s a))) (fun _ y => y) (libGet s a)).within
      fun x => a.setPart s x := by
  have hself : a.setPart s (libGet s a) = a := by cases s <;> rfl
  cases r with
  | ok x => simp only [store, Res.map_ok, Live.within, h]
  | err e => simp only [store, Res.map_err, Live.within, hself]
  | panic c => simp only [store, Res.map_panic, Live.within, hself]

theorem lib_live_eq (X : Xyml) (k v : Node) (a : Library) :
    a.liveAssign X k v =
      (libLive X k (libSectionOf (k, v)) v (libGet (libSectionOf (k, v)) a)).within
        fun x => a.setPart (libSectionOf (k, v)) x := by
  unfold Library.liveAssign
  cases hl : libKeys.lookup k.value with
  | some s =>
    have hsec : libSectionOf (k, v) = s := by simp [libSectionOf, hl]
    rw [hsec]
    have hm := lookup_some_mem hl
    simp only [libKeys, List.mem_cons, List.not_mem_nil, or_false, Prod.mk.injEq] at hm
    rcases hm with ⟨hv, rfl⟩ | ⟨hv, rfl⟩ | ⟨hv, rfl⟩ | ⟨hv, rfl⟩ | ⟨hv, rfl⟩ | ⟨hv, rfl⟩ |
      ⟨hv, rfl⟩ | ⟨hv, rfl⟩
    all_goals
      simp only [hv, reduceIte, libLive, String.reduceEq, or_true, or_false]
    all_goals first
      | rfl
      | skip
    exact store_lib_part .usage a (asString v) _ (fun _ x => some x) (fun _ => rfl)
  | none =>
    have hn : ∀ p ∈ libKeys, k.value ≠ p.1 := by
      intro p hp he
      have := List.lookup_eq_none_iff.mp hl p hp
      simp [he] at this
    simp only [libKeys, List.mem_cons, List.not_mem_nil, or_false, forall_eq_or_imp,
      forall_eq] at hn
    have hsec : libSectionOf (k, v) = if startsWith '(' k then .annotations else .extra := by
      simp [libSectionOf, hl]
    simp only [hn, if_false, or_false]
    by_cases hs : k.isStr = true
    · simp only [hs, if_true]
      cases hc : firstChar k.value with
      | none =>
        have hv := firstChar_none.mp hc
        have hsw : startsWith '(' k = false := by simp [startsWith, hs, hv]
        rw [hsec, hsw]
        simp [libLive, libStep, hs, hv, store, Live.within]
        rfl
      | some c =>
        have hne : (k.value == "") = false := by
          have : k.value ≠ "" := fun h => by rw [firstChar_none.mpr h] at hc; cases hc
          simpa using this
        have hsw := startsWith_firstChar (d := '(') hs hc
        by_cases h1 : c = '('
        · have hsw' : startsWith '(' k = true := by simp [hsw, h1]
          rw [hsec, hsw']
          simp only [h1, if_true, libLive, hn.1]
          exact store_lib_part .annotations a (loadAnn v) _ (fun m x => OM.put m k.value x)
            (fun _ => rfl)
        · have hsw' : startsWith '(' k = false := by simp [hsw, h1]
          rw [hsec, hsw']
          simp only [h1, Bool.false_eq_true, if_false, libLive, libStep, hne, Bool.and_false]
          exact store_lib_part .extra a (asScalar X k) _ (fun m x => OM.put m x v) (fun _ => rfl)
    · have hs : k.isStr = false := by simpa using hs
      have hsw : startsWith '(' k = false := by simp [startsWith, hs]
      rw [hsec, hsw]
      simp only [hs, Bool.false_eq_true, if_false, libLive, libStep, Bool.false_and]
      exact store_lib_part .extra a (asScalar X k) _ (fun m x => OM.put m x v) (fun _ => rfl)

theorem lib_live_outcome (X : Xyml) (k v : Node) (a : Library) :
    outcome (a.liveAssign X k v) = a.assign X k v := by
  rw [lib_live_eq, outcome_within, libLive_outcome, lib_assign_eq]

/-- C62: the same agreement for libraries. -/
theorem C62_library_refines (X : Xyml) (v : Node) (l : Library) :
    outcome (l.load X v) = l.unmarshal X v :=
  outcome_map (lib_live_outcome X) v l

/-- C62: what a failed load leaves in a library. -/
theorem C62_library_failed_load (X : Xyml) (ps : List (Node × Node)) (a a' : Library)
    (q : Res Unit) (h : a.load X (.map ps) = (a', q)) (hq : q ≠ .ok ()) :
    ∃ pre k v post kept bad, ps = pre ++ (k, v) :: post ∧
      Cut (libIsDict k) false k v kept bad ∧
      a.unmarshal X (.map (pre ++ kept)) = .ok a' ∧
      ended (a.unmarshal X (.map (pre ++ bad))) = q := by
  obtain ⟨pre, ⟨k, v⟩, post, a1, rfl, h1, h2⟩ := pairs_failed (lib_live_outcome X) h hq
  have hun : ∀ qs, a.unmarshal X (.map (pre ++ qs)) = forPairs (Library.assign X) qs a1 := by
    intro qs
    show forPairs (Library.assign X) (pre ++ qs) a = _
    rw [forPairs_append, h1, Res.bind_ok]
  have hone : ∀ w, a.unmarshal X (.map (pre ++ [(k, w)])) = a1.assign X k w := by
    intro w
    rw [hun]
    exact Res.bind_ok_right _
  have hw : ∀ w, libSectionOf (k, w) = libSectionOf (k, v) := fun _ => rfl
  have h3 := h2
  rw [show (k, v).1 = k from rfl, show (k, v).2 = v from rfl, lib_live_eq] at h3
  generalize hs : libSectionOf (k, v) = s at h3 hw
  have hf := libLive_fails X k v s hs
  rcases hl : libLive X k s v (libGet s a1) with ⟨x, r⟩
  rw [hl] at h3
  obtain ⟨rfl, rfl⟩ := Prod.mk.inj h3
  rcases hf v _ _ _ hl hq with ⟨inner, e, rest, hd, rfl, g1, g2⟩ |
    ⟨t, inner, e, rest, hd, rfl, g1, g2⟩ | ⟨hd, rfl⟩
  · refine ⟨pre, k, _, post, _, _, rfl, .inl ⟨inner, e, rest, hd, rfl, rfl, rfl⟩, ?_, ?_⟩
    · rw [hone, lib_assign_eq, hw]; exact congrArg (Res.map fun x => a1.setPart s x) g1
    · rw [hone, lib_assign_eq, hw, ended_map]; exact g2
  · cases hd
  · refine ⟨pre, k, v, post, [], _, rfl, .inr (.inr ⟨hd, rfl, rfl⟩), ?_, ?_⟩
    · rw [hun]
      show Res.ok a1 = _
      congr 1
      cases s <;> rfl
    · rw [hone, ← lib_live_outcome, ended_outcome]
      exact congrArg Prod.snd h2

/-! ### Consequences -/

theorem pairs_stop {σ : Type} {f : Node → Node → σ → Live σ} {ps : List (Node × Node)} {s s' : σ}
    {q : Res Unit} (h : livePairs f ps s = (s', q)) (hq : q ≠ .ok ()) (qs : List (Node × Node)) :
    livePairs f (ps ++ qs) s = (s', q) := by
  induction ps generalizing s with
  | nil => cases h; exact absurd rfl hq
  | cons p ps ih =>
    simp only [List.cons_append, livePairs] at h ⊢
    rcases hp : f p.1 p.2 s with ⟨s1, r⟩
    rw [hp] at h
    cases r with
    | ok u => exact ih h
    | err e => exact h
    | panic c => exact h

/-- C62: what follows the first bad entry has no influence at all, not even on the error. -/
theorem C62_rest_ignored (X : Xyml) (ps qs : List (Node × Node)) (a a' : APISpec) (q : Res Unit)
    (h : a.load X (.map ps) = (a', q)) (hq : q ≠ .ok ()) :
    a.load X (.map (ps ++ qs)) = (a', q) := pairs_stop h hq qs

/-- C62: the same for libraries. -/
theorem C62_library_rest_ignored (X : Xyml) (ps qs : List (Node × Node)) (l l' : Library)
    (q : Res Unit) (h : l.load X (.map ps) = (l', q)) (hq : q ≠ .ok ()) :
    l.load X (.map (ps ++ qs)) = (l', q) := pairs_stop h hq qs

/-- C62: parts that a document does not mention are left alone, whether loading it works or
not. -/
theorem C62_other_parts_untouched (X : Xyml) (ps : List (Node × Node)) (a : APISpec)
    (s : ApiSection) (h : apiEntries s ps = []) : apiGet s (a.load X (.map ps)).1 = apiGet s a := by
  show apiGet s (livePairs (APISpec.liveAssign X) ps a).1 = _
  induction ps generalizing a with
  | nil => rfl
  | cons p ps ih =>
    have hp : apiSectionOf p ≠ s ∧ apiEntries s ps = [] := by
      simp only [apiEntries, List.filter_cons] at h
      split at h
      · cases h
      · rename_i hp
        exact ⟨by simpa using hp, h⟩
    have h1 : apiGet s (a.liveAssign X p.1 p.2).1 = apiGet s a := by
      rw [api_live_eq]
      exact apiGet_setPart_ne (Ne.symm hp.1) _ a
    simp only [livePairs]
    rcases hl : a.liveAssign X p.1 p.2 with ⟨a1, r⟩
    rw [hl] at h1
    cases r with
    | ok u => exact (ih a1 hp.2).trans h1
    | err e => exact h1
    | panic c => exact h1

/-- C62: loading is not all-or-nothing: every API document can be changed by a load that fails. -/
theorem C62_atomic_false (X : Xyml) (a : APISpec) :
    ∃ ps a' q, a.load X (.map ps) = (a', q) ∧ q ≠ .ok () ∧ a' ≠ a := by
  refine ⟨[(.str "title", .str (a.title ++ "!")), (.str "version", .map [])],
    { a with title := a.title ++ "!" }, .err .notString, ?_, nofun, ?_⟩
  · simp [APISpec.load, liveMap, livePairs, APISpec.liveAssign, Node.str, Node.isStr, Node.value,
      firstChar, APISpec.liveKey, asString, store]
  intro h
  have : a.title ++ "!" = a.title := congrArg APISpec.title h
  have := congrArg String.length this
  rw [String.length_append] at this
  exact absurd this (by simp [String.length])

/-! ### Concrete cases -/

/-- A document that goes wrong inside its types: the name of the second type is not text. -/
def badDoc : List (Node × Node) :=
  [(.str "title", .str "third"),
   (.str "types", .map [(.str "W", .str "integer"), (.scalar "!!int" "5", .str "string"),
     (.str "Y", .str "any")]),
   (.str "version", .str "v3")]

/-- Title and first type have been taken over, the rest has not. -/
example : (let r := APISpec.new.load Xyml.std (.map badDoc)
    (r.1.title, r.1.types.keys, r.1.version, r.2)) =
    ("third", ["W"], none, .err .notString) := by
  decide +kernel

/-- So the hypotheses of `C62_api_failed_load` are met; the cut is inside the types. -/
example : ∃ pre k v post kept bad a', badDoc = pre ++ (k, v) :: post ∧
    Cut (ApiSection.isDict (apiSectionOf (k, v))) (apiSectionOf (k, v) == .documentation) k v
      kept bad ∧ APISpec.new.unmarshal Xyml.std (.map (pre ++ kept)) = .ok a' ∧
    (APISpec.new.load Xyml.std (.map badDoc)).1 = a' := by
  have hq : (APISpec.new.load Xyml.std (.map badDoc)).2 ≠ .ok () := by decide +kernel
  obtain ⟨pre, k, v, post, kept, bad, h1, h2, h3, _⟩ :=
    C62_api_failed_load Xyml.std badDoc APISpec.new _ _ rfl hq
  exact ⟨pre, k, v, post, kept, bad, _, h1, h2, h3, rfl⟩

/-- A list of protocols with a bad item is not taken over in part, documentation is. -/
example : (let r := APISpec.new.load Xyml.std (.map [(.str "protocols", .seq seqTag
      [.str "HTTP", .map []])])
    (r.1.protocols, r.2)) = (none, .err .notString) := by
  decide +kernel

example : (let r := APISpec.new.load Xyml.std (.map [(.str "documentation", .seq seqTag
      [.map [(.str "title", .str "one")], .str "bad"])])
    ((r.1.documentation.getD []).map (·.title), r.2)) = (["one"], .err .notMap) := by
  decide +kernel

/-- A library: the first trait stays, the bad one and what follows does not. -/
example : (let r := Library.new.load Xyml.std (.map [(.str "traits", .map
      [(.str "t", .str "x"), (.scalar "!!int" "5", .str "y"), (.str "u", .str "z")]),
      (.str "usage", .str "late")])
    (r.1.traits.keys, r.1.usage, r.2)) = (["t"], none, .err .notString) := by
  decide +kernel

/-- An empty key panics and leaves what was read before. -/
example : (let r := APISpec.new.load Xyml.std (.map [(.str "title", .str "t"),
      (.str "", .str "x"), (.str "version", .str "v")])
    (r.1.title, r.1.version, r.2)) = ("t", none, .panic .emptyKey) := by
  decide +kernel

end Verif.Props
