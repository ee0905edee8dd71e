import Verif.Props.ApiParse
import Mathlib.Data.List.Induction

/-! # C61: loading a document into an object that is in use

`UnmarshalYAML` may be called on an API document or library that already holds something. -/

namespace Verif.Props
open Verif Verif.Doc Verif.Doc.Spec

/-! ### What a merge is -/

/-- Dictionary `old` with the entries of `new` put over it: old names that are not redefined
first, then all of `new`, each in its own order.  The output flag stays the old one. -/
def mergedMap {K V : Type} [DecidableEq K] (old new : OM K V) : OM K V :=
  ⟨old.ents.filter (fun e => new.ents.all fun n => n.1 ≠ e.1) ++ new.ents, old.omap⟩

/-- A list that grows. -/
def mergedList {α : Type} : (old new : Option (List α)) → Option (List α)
  | old, none => old
  | old, some l => some (old.getD [] ++ l)

/-- What loading a document with entries `ps`, alone read as `new`, makes of `old`. -/
def mergedApi (ps : List (Node × Node)) (old new : APISpec) : APISpec :=
  { title := if apiEntries .title ps = [] then old.title else new.title
    description := new.description.or old.description
    version := new.version.or old.version
    baseURI := new.baseURI.or old.baseURI
    protocols := new.protocols.or old.protocols
    securedBy := new.securedBy.or old.securedBy
    mediaType := if (apiEntries .mediaType ps).all (fun p => p.2.isStr)
      then mergedList old.mediaType new.mediaType else new.mediaType
    documentation := mergedList old.documentation new.documentation
    baseURIParameters := mergedMap old.baseURIParameters new.baseURIParameters
    types := mergedMap old.types new.types
    traits := mergedMap old.traits new.traits
    resourceTypes := mergedMap old.resourceTypes new.resourceTypes
    annotationTypes := mergedMap old.annotationTypes new.annotationTypes
    annotations := mergedMap old.annotations new.annotations
    securitySchemes := mergedMap old.securitySchemes new.securitySchemes
    uses := mergedMap old.uses new.uses
    resources := mergedMap old.resources new.resources
    extra := mergedMap old.extra new.extra }

/-- The same for libraries. -/
def mergedLib (old new : Library) : Library :=
  { annotations := mergedMap old.annotations new.annotations
    annotationTypes := old.annotationTypes
    extra := mergedMap old.extra new.extra
    uses := mergedMap old.uses new.uses
    resourceTypes := mergedMap old.resourceTypes new.resourceTypes
    securitySchemes := mergedMap old.securitySchemes new.securitySchemes
    traits := mergedMap old.traits new.traits
    types := mergedMap old.types new.types
    usage := new.usage.or old.usage }

/-! ### Loops that only put -/

theorem putAll_merged {K V : Type} [DecidableEq K] (m : OM K V) (b : Bool) (es : List (K × V)) :
    m.putAll es = mergedMap m ((OM.empty b).putAll es) := by
  induction es using List.reverseRecOn with
  | nil =>
    have : m.ents.filter (fun _ => true) = m.ents := List.filter_eq_self.mpr fun _ _ => rfl
    simp [mergedMap, this]
  | append_singleton es e ih =>
    rw [OM.putAll_append, OM.putAll_append, ih]
    generalize (OM.empty b : OM K V).putAll es = n
    simp only [OM.putAll_cons, OM.putAll_nil, mergedMap, OM.put, List.filter_append,
      List.filter_filter, List.append_assoc, OM.mk.injEq, and_true]
    congr 1
    apply List.filter_congr
    intro x _
    rw [Bool.eq_iff_iff]
    simp only [ne_eq, decide_not, Bool.and_eq_true, Bool.not_eq_eq_eq_not, Bool.not_true,
      beq_eq_false_iff_ne, List.all_eq_true, decide_eq_false_iff_not, List.mem_append,
      List.mem_filter, List.mem_singleton]
    constructor
    · rintro ⟨h1, h2⟩ y (⟨hy, _⟩ | rfl)
      · exact h2 y hy
      · exact Ne.symm h1
    · intro h
      refine ⟨fun hx => h e (.inr rfl) hx.symm, fun y hy hyx => ?_⟩
      by_cases hk : y.1 = e.1
      · exact h e (.inr rfl) (hk ▸ hyx)
      · exact h y (.inl ⟨hy, hk⟩) hyx

/-- A step that computes entries without looking at the dictionary, then puts them. -/
def Puts {K V : Type} [DecidableEq K] (f : Node → Node → OM K V → Res (OM K V)) : Prop :=
  ∃ g : Node → Node → Res (List (K × V)), ∀ k v m, f k v m = (g k v).map m.putAll

section Puts
variable {K V : Type} [DecidableEq K]

/-- A loop of puts is one list of puts. -/
theorem Puts.loop {f : Node → Node → OM K V → Res (OM K V)} (h : Puts f)
    (ps : List (Node × Node)) :
    ∃ r : Res (List (K × V)), ∀ m, forPairs f ps m = r.map m.putAll := by
  obtain ⟨g, hg⟩ := h
  induction ps with
  | nil => exact ⟨.ok [], fun m => rfl⟩
  | cons p ps ih =>
    obtain ⟨r, hr⟩ := ih
    refine ⟨(g p.1 p.2).bind fun es => r.map (es ++ ·), fun m => ?_⟩
    simp only [forPairs, hg]
    cases g p.1 p.2 with
    | err e => rfl
    | panic c => rfl
    | ok es =>
      simp only [Res.map_ok, Res.bind_ok, hr]
      cases r with
      | err e => rfl
      | panic c => rfl
      | ok fs => simp [OM.putAll_append]

theorem Puts.mapForEach {f : Node → Node → OM K V → Res (OM K V)} (h : Puts f) :
    Puts fun _ v m => Doc.mapForEach f v m := by
  have : ∀ v, ∃ r : Res (List (K × V)), ∀ m, Doc.mapForEach f v m = r.map m.putAll := by
    intro v
    cases v with
    | map ps => exact h.loop ps
    | scalar a b => exact ⟨.err .notMap, fun _ => rfl⟩
    | seq a b => exact ⟨.err .notMap, fun _ => rfl⟩
  choose g hg using this
  exact ⟨fun _ v => g v, fun _ v m => hg v m⟩

theorem Puts.merge {f : Node → Node → OM K V → Res (OM K V)} (h : Puts f)
    {ps : List (Node × Node)} {b : Bool} {m x y : OM K V}
    (hx : forPairs f ps (OM.empty b) = .ok x) (hy : forPairs f ps m = .ok y) :
    y = mergedMap m x := by
  obtain ⟨r, hr⟩ := h.loop ps
  rw [hr] at hx hy
  obtain ⟨es, rfl, rfl⟩ := Res.map_eq_ok.mp hx
  obtain ⟨fs, he, rfl⟩ := Res.map_eq_ok.mp hy
  cases he
  exact putAll_merged _ _ _

theorem puts_single (g : Node → Node → Res (K × V)) :
    Puts fun k v (m : OM K V) => (g k v).map fun e => m.put e.1 e.2 :=
  ⟨fun k v => (g k v).map fun e => [e], fun k v m => by dsimp only; cases g k v <;> rfl⟩

end Puts

theorem puts_untyped : Puts fun _ v m => loadUntyped m v := by
  have := (puts_single fun k v => (asString k).map fun s => (s, v)).mapForEach
  simp only [Res.map_map] at this
  exact this

theorem puts_strings : Puts fun _ v m => loadStrings m v := by
  have : Puts fun k v (m : OM String String) =>
      (asString k).bind fun s => (asString v).map fun t => m.put s t := by
    have := puts_single fun k v => (asString k).bind fun s => (asString v).map fun t => (s, t)
    refine cast (congrArg Puts ?_) this
    funext k v m
    cases asString k <;> cases asString v <;> rfl
  exact this.mapForEach

theorem puts_anns : Puts fun _ v m => loadAnns m v := by
  have : Puts fun k v (m : OM String Ann) =>
      (asString k).bind fun s => (loadAnn v).map fun t => m.put s t := by
    have := puts_single fun k v => (asString k).bind fun s => (loadAnn v).map fun t => (s, t)
    refine cast (congrArg Puts ?_) this
    funext k v m
    cases asString k <;> cases loadAnn v <;> rfl
  exact this.mapForEach

theorem puts_types (X : Xyml) : Puts fun _ v m => loadTypes X v m := by
  have : Puts fun k v (m : OM String DT) => loadType X (k, v) m := by
    rw [loadType_form]
    have := puts_single fun k v => (asString k).bind fun s => (hat X v).map fun t => (s, t)
    refine cast (congrArg Puts ?_) this
    funext k v m
    cases asString k <;> cases hat X v <;> rfl
  have := this.mapForEach
  simp only [← loadTypes_eq] at this
  exact this

theorem puts_extra (X : Xyml) : Puts fun k v (m : OM Scalar Node) =>
    if k.isStr && k.value == "" then .panic .emptyKey
      else (asScalar X k).map fun s => OM.put m s v := by
  refine ⟨fun k v => if k.isStr && k.value == "" then .panic .emptyKey
    else (asScalar X k).map fun s => [(s, v)], fun k v m => ?_⟩
  dsimp only
  split
  · rfl
  · cases asScalar X k <;> rfl

/-! ### The outcome does not depend on the object -/

/-- Forget the value, keep how a run ended. -/
def ended {α : Type} (r : Res α) : Res Unit := r.map fun _ => ()

theorem ended_map {α β : Type} (r : Res α) (f : α → β) : ended (r.map f) = ended r := by
  cases r <;> rfl

theorem ended_ok {α β : Type} {r : Res α} {q : Res β} (h : ended r = ended q) {a : α}
    (hr : r = .ok a) : ∃ b, q = .ok b := by
  subst hr
  cases q with
  | ok b => exact ⟨b, rfl⟩
  | err e => cases h
  | panic c => cases h

theorem ended_pairs {σ : Type} {f : Node → Node → σ → Res σ}
    (h : ∀ k v s t, ended (f k v s) = ended (f k v t)) (ps : List (Node × Node)) (s t : σ) :
    ended (forPairs f ps s) = ended (forPairs f ps t) := by
  induction ps generalizing s t with
  | nil => rfl
  | cons p ps ih =>
    have := h p.1 p.2 s t
    simp only [forPairs]
    revert this
    cases f p.1 p.2 s <;> cases f p.1 p.2 t <;> intro h <;> first | exact ih _ _ | cases h <;> rfl

theorem ended_items {σ : Type} {f : Node → σ → Res σ}
    (h : ∀ v s t, ended (f v s) = ended (f v t)) (ns : List Node) (s t : σ) :
    ended (forItems f ns s) = ended (forItems f ns t) := by
  induction ns generalizing s t with
  | nil => rfl
  | cons n ns ih =>
    have := h n s t
    simp only [forItems]
    revert this
    cases f n s <;> cases f n t <;> intro h <;> first | exact ih _ _ | cases h <;> rfl

theorem Puts.ended {K V : Type} [DecidableEq K] {f : Node → Node → OM K V → Res (OM K V)}
    (h : Puts f) (k v : Node) (m m' : OM K V) : ended (f k v m) = ended (f k v m') := by
  obtain ⟨g, hg⟩ := h
  rw [hg, hg, ended_map, ended_map]

theorem apiStep_ended (X : Xyml) (k v : Node) (s : ApiSection) (x y : s.Ty) :
    ended (apiStep X k v s x) = ended (apiStep X k v s y) := by
  cases s with
  | mediaType =>
    simp only [apiStep]
    split <;> rfl
  | documentation =>
    show ended (seqForEach (pushDoc X) v x) = ended (seqForEach (pushDoc X) v y)
    cases v with
    | seq t ns =>
      refine ended_items (f := pushDoc X) (fun v s t => ?_) ns x y
      exact (ended_map _ _).trans (ended_map _ _).symm
    | map ps => rfl
    | scalar a b => rfl
  | uses => exact puts_strings.ended k v x y
  | types => exact (puts_types X).ended k v x y
  | extra => exact (puts_extra X).ended k v x y
  | annotations => exact (ended_map _ _).trans (ended_map _ _).symm
  | securitySchemes => exact puts_untyped.ended k v x y
  | baseUriParameters => exact puts_untyped.ended k v x y
  | traits => exact puts_untyped.ended k v x y
  | annotationTypes => exact puts_untyped.ended k v x y
  | resourceTypes => exact puts_untyped.ended k v x y
  | _ => rfl

theorem Puts.put_entry {V : Type} (g : Node → Node → Res V) :
    Puts fun k v (m : OM String V) => (g k v).map fun x => m.put k.value x := by
  have := puts_single fun k v => (g k v).map fun x => (k.value, x)
  simp only [Res.map_map] at this
  exact this

theorem puts_lib_anns (X : Xyml) :
    Puts fun k v (m : OM String Ann) => libStep X k v .annotations m := by
  obtain ⟨g, hg⟩ := puts_anns
  obtain ⟨g', hg'⟩ := Puts.put_entry fun _ v => loadAnn v
  refine ⟨fun k v => if k.value = "annotationTypes" then g k v else g' k v, fun k v m => ?_⟩
  show (if k.value = "annotationTypes" then loadAnns m v
    else (loadAnn v).map fun a => m.put k.value a) = _
  dsimp only
  split
  · exact hg k v m
  · exact hg' k v m

theorem libStep_ended (X : Xyml) (k v : Node) (s : LibSection) (x y : s.Ty) :
    ended (libStep X k v s x) = ended (libStep X k v s y) := by
  cases s with
  | usage => rfl
  | uses => exact puts_strings.ended k v x y
  | types => exact (puts_types X).ended k v x y
  | extra => exact (puts_extra X).ended k v x y
  | annotations =>
    exact (puts_lib_anns X).ended k v x y
  | securitySchemes => exact puts_untyped.ended k v x y
  | traits => exact puts_untyped.ended k v x y
  | resourceTypes => exact puts_untyped.ended k v x y

theorem api_ended (X : Xyml) (v : Node) (a b : APISpec) :
    ended (a.unmarshal X v) = ended (b.unmarshal X v) := by
  cases v with
  | map ps =>
    refine ended_pairs (fun k v s t => ?_) ps a b
    rw [api_assign_eq, api_assign_eq, ended_map, ended_map]
    exact apiStep_ended X k v _ _ _
  | seq t ns => rfl
  | scalar a b => rfl

theorem lib_ended (X : Xyml) (v : Node) (a b : Library) :
    ended (a.unmarshal X v) = ended (b.unmarshal X v) := by
  cases v with
  | map ps =>
    refine ended_pairs (fun k v s t => ?_) ps a b
    rw [lib_assign_eq, lib_assign_eq, ended_map, ended_map]
    exact libStep_ended X k v _ _ _
  | seq t ns => rfl
  | scalar a b => rfl

/-! ### Parts that are not dictionaries -/

theorem merge_replaced {σ : Type} {f : Node → Node → σ → Res σ} (g : Node → Node → Res σ)
    (hf : ∀ k v s, f k v s = g k v) {ps : List (Node × Node)} {s t x y : σ}
    (hx : forPairs f ps t = .ok x) (hy : forPairs f ps s = .ok y) :
    y = if ps = [] then s else x := by
  cases ps with
  | nil => cases hx; cases hy; rfl
  | cons p ps =>
    simp only [forPairs, hf] at hx hy
    rw [hx] at hy
    cases hy
    rfl

theorem merge_optional {σ : Type} {f : Node → Node → Option σ → Res (Option σ)}
    (g : Node → Node → Res σ) (hf : ∀ k v s, f k v s = (g k v).map some)
    {ps : List (Node × Node)} {s x y : Option σ}
    (hx : forPairs f ps none = .ok x) (hy : forPairs f ps s = .ok y) : y = x.or s := by
  have hsome : ∀ ps : List (Node × Node), ∀ s x, forPairs f ps (some s) = .ok x →
      ∃ z, x = some z := by
    intro ps
    induction ps with
    | nil => intro s x h; cases h; exact ⟨s, rfl⟩
    | cons p ps ih =>
      intro s x h
      obtain ⟨z, hz, h2⟩ := Res.bind_eq_ok.mp h
      rw [hf] at hz
      obtain ⟨w, _, rfl⟩ := Res.map_eq_ok.mp hz
      exact ih _ _ h2
  cases ps with
  | nil => cases hx; cases hy; simp
  | cons p ps =>
    have hxy := merge_replaced _ hf hx hy
    simp only [reduceCtorEq, if_false] at hxy
    obtain ⟨z, hz, h2⟩ := Res.bind_eq_ok.mp hx
    rw [hf] at hz
    obtain ⟨w, _, rfl⟩ := Res.map_eq_ok.mp hz
    obtain ⟨z, rfl⟩ := hsome _ _ _ h2
    simpa using hxy

/-- The media type step. -/
private def mediaStep (v : Node) (l : Option (List String)) : Res (Option (List String)) :=
  if v.isStr then .ok (some (l.getD [] ++ [v.value])) else (asStringList v).map some

private theorem media_texts (ps : List (Node × Node)) (h : ps.all (fun p => p.2.isStr) = true)
    (l : Option (List String)) :
    forPairs (fun _ v l => mediaStep v l) ps l =
      .ok (mergedList l (if ps = [] then none else some (ps.map fun p => p.2.value))) := by
  induction ps generalizing l with
  | nil => rfl
  | cons p ps ih =>
    simp only [List.all_cons, Bool.and_eq_true] at h
    have h1 : mediaStep p.2 l = .ok (some (l.getD [] ++ [p.2.value])) := by
      simp only [mediaStep, h.1, if_true]
    simp only [forPairs, h1, Res.bind_ok, ih h.2]
    cases ps <;> simp [mergedList]

private theorem media_lists (ps : List (Node × Node)) (h : ps.all (fun p => p.2.isStr) = false)
    (l l' : Option (List String)) :
    forPairs (fun _ v l => mediaStep v l) ps l = forPairs (fun _ v l => mediaStep v l) ps l' := by
  induction ps generalizing l l' with
  | nil => cases h
  | cons p ps ih =>
    simp only [forPairs]
    by_cases hp : p.2.isStr = true
    · simp only [List.all_cons, hp, Bool.true_and] at h
      simp only [mediaStep, hp, if_true, Res.bind_ok]
      exact ih h _ _
    · simp only [mediaStep, hp]; rfl

theorem merge_media {ps : List (Node × Node)} {l x y : Option (List String)}
    (hx : forPairs (fun _ v l => mediaStep v l) ps none = .ok x)
    (hy : forPairs (fun _ v l => mediaStep v l) ps l = .ok y) :
    y = if ps.all (fun p => p.2.isStr) then mergedList l x else x := by
  by_cases h : ps.all (fun p => p.2.isStr) = true
  · rw [media_texts ps h] at hx hy
    cases hx; cases hy
    rw [if_pos h]
    cases ps <;> simp [mergedList]
  · have h : ps.all (fun p => p.2.isStr) = false := by simpa using h
    rw [media_lists ps h l none, hx] at hy
    cases hy
    simp [h]

private theorem docs_items (X : Xyml) (ns : List Node) :
    ∃ r : Res (List Documentation), ∀ l, forItems (pushDoc X) ns l =
      r.map fun ds => if ds = [] then l else some (l.getD [] ++ ds) := by
  induction ns with
  | nil => exact ⟨.ok [], fun l => by simp [forItems]⟩
  | cons n ns ih =>
    obtain ⟨r, hr⟩ := ih
    refine ⟨(loadDocumentation X n).bind fun d => r.map (d :: ·), fun l => ?_⟩
    simp only [forItems, pushDoc]
    cases loadDocumentation X n with
    | err e => rfl
    | panic c => rfl
    | ok d =>
      simp only [Res.map_ok, Res.bind_ok, hr]
      cases r with
      | err e => rfl
      | panic c => rfl
      | ok ds =>
        simp only [Res.map_ok, reduceCtorEq, if_false]
        split
        · rename_i h; subst h; rfl
        · simp

theorem docs_pairs (X : Xyml) (ps : List (Node × Node)) :
    ∃ r : Res (List Documentation), ∀ l,
      forPairs (fun _ v l => seqForEach (pushDoc X) v l) ps l =
        r.map fun ds => if ds = [] then l else some (l.getD [] ++ ds) := by
  induction ps with
  | nil => exact ⟨.ok [], fun l => by simp [forPairs]⟩
  | cons p ps ih =>
    obtain ⟨r, hr⟩ := ih
    have : ∃ q : Res (List Documentation), ∀ l, seqForEach (pushDoc X) p.2 l =
        q.map fun ds => if ds = [] then l else some (l.getD [] ++ ds) := by
      cases p.2 with
      | seq t ns => exact docs_items X ns
      | map ps => exact ⟨.err .notSeq, fun _ => rfl⟩
      | scalar a b => exact ⟨.err .notSeq, fun _ => rfl⟩
    obtain ⟨q, hq⟩ := this
    refine ⟨q.bind fun a => r.map (a ++ ·), fun l => ?_⟩
    simp only [forPairs, hq]
    cases q with
    | err e => rfl
    | panic c => rfl
    | ok as =>
      simp only [Res.map_ok, Res.bind_ok, hr]
      cases r with
      | err e => rfl
      | panic c => rfl
      | ok ds =>
        simp only [Res.map_ok, Res.ok.injEq]
        by_cases h1 : as = [] <;> by_cases h2 : ds = [] <;> simp [h1, h2]

theorem merge_docs {X : Xyml} {ps : List (Node × Node)} {l x y : Option (List Documentation)}
    (hx : forPairs (fun _ v l => seqForEach (pushDoc X) v l) ps none = .ok x)
    (hy : forPairs (fun _ v l => seqForEach (pushDoc X) v l) ps l = .ok y) :
    y = mergedList l x := by
  obtain ⟨r, hr⟩ := docs_pairs X ps
  rw [hr] at hx hy
  obtain ⟨ds, rfl, rfl⟩ := Res.map_eq_ok.mp hx
  obtain ⟨ds', he, rfl⟩ := Res.map_eq_ok.mp hy
  cases he
  by_cases h : ds = [] <;> simp [h, mergedList]

/-! ### C61 -/

/-- C61: loading a document into an API document in use ends exactly as reading it alone ends —
accepted, rejected with the same error, or panicking — and if it is accepted the result is the
merge described by `mergedApi`. -/
theorem C61_api_merge (X : Xyml) (v : Node) (a : APISpec) :
    a.unmarshal X v = (parseApi X v).map (mergedApi (mapEntries v) a) := by
  cases v with
  | seq t ns => rfl
  | scalar c d => rfl
  | map ps =>
  show _ = (parseApi X (.map ps)).map (mergedApi ps a)
  have he := api_ended X (.map ps) a APISpec.new
  show _ = (APISpec.new.unmarshal X (.map ps)).map _
  cases hb : APISpec.new.unmarshal X (.map ps) with
  | err e =>
    rw [hb] at he
    cases ha : a.unmarshal X (.map ps) <;> rw [ha] at he <;> cases he
    rfl
  | panic c =>
    rw [hb] at he
    cases ha : a.unmarshal X (.map ps) <;> rw [ha] at he <;> cases he
    rfl
  | ok b =>
    obtain ⟨r, hr⟩ := ended_ok he.symm hb
    rw [hr, Res.map_ok, Res.ok.injEq]
    have hB := fun s => api_part s ps _ b hb
    have hR := fun s => api_part s ps _ r hr
    apply api_ext
    intro s
    cases s with
    | title => exact merge_replaced (fun _ v => asString v) (fun _ _ _ => rfl) (hB .title) (hR .title)
    | version =>
      exact merge_optional (fun _ v => asString v) (fun _ _ _ => rfl) (hB .version) (hR .version)
    | baseUri =>
      exact merge_optional (fun _ v => asString v) (fun _ _ _ => rfl) (hB .baseUri) (hR .baseUri)
    | description =>
      exact merge_optional (fun _ v => asString v) (fun _ _ _ => rfl)
        (hB .description) (hR .description)
    | protocols =>
      exact merge_optional (fun _ v => asStringList v) (fun _ _ _ => rfl)
        (hB .protocols) (hR .protocols)
    | securedBy =>
      exact merge_optional (fun _ v => asStringList v) (fun _ _ _ => rfl)
        (hB .securedBy) (hR .securedBy)
    | mediaType => exact merge_media (hB .mediaType) (hR .mediaType)
    | documentation => exact merge_docs (hB .documentation) (hR .documentation)
    | uses => exact puts_strings.merge (hB .uses) (hR .uses)
    | securitySchemes => exact puts_untyped.merge (hB .securitySchemes) (hR .securitySchemes)
    | baseUriParameters => exact puts_untyped.merge (hB .baseUriParameters) (hR .baseUriParameters)
    | traits => exact puts_untyped.merge (hB .traits) (hR .traits)
    | annotationTypes => exact puts_untyped.merge (hB .annotationTypes) (hR .annotationTypes)
    | resourceTypes => exact puts_untyped.merge (hB .resourceTypes) (hR .resourceTypes)
    | types => exact (puts_types X).merge (hB .types) (hR .types)
    | annotations =>
      exact (Puts.put_entry fun _ v => loadAnn v).merge (hB .annotations) (hR .annotations)
    | resources => exact (Puts.put_entry fun _ v => .ok v).merge (hB .resources) (hR .resources)
    | extra => exact (puts_extra X).merge (hB .extra) (hR .extra)

/-- C61: the same for libraries. -/
theorem C61_library_merge (X : Xyml) (v : Node) (l : Library) :
    l.unmarshal X v = (parseLibrary X (some v)).map (mergedLib l) := by
  have he := lib_ended X v l Library.new
  show _ = (Library.new.unmarshal X v).map _
  cases hb : Library.new.unmarshal X v with
  | err e =>
    rw [hb] at he
    cases ha : l.unmarshal X v <;> rw [ha] at he <;> cases he
    rfl
  | panic c =>
    rw [hb] at he
    cases ha : l.unmarshal X v <;> rw [ha] at he <;> cases he
    rfl
  | ok b =>
    obtain ⟨r, hr⟩ := ended_ok he.symm hb
    rw [hr, Res.map_ok, Res.ok.injEq]
    cases v with
    | seq t ns => cases hb
    | scalar c d => cases hb
    | map ps =>
    have hB := fun s => lib_part s ps _ b hb
    have hR := fun s => lib_part s ps _ r hr
    refine lib_ext (fun s => ?_) ?_
    · cases s with
      | usage =>
        exact merge_optional (fun _ v => asString v) (fun _ _ _ => rfl) (hB .usage) (hR .usage)
      | uses => exact puts_strings.merge (hB .uses) (hR .uses)
      | types => exact (puts_types X).merge (hB .types) (hR .types)
      | resourceTypes => exact puts_untyped.merge (hB .resourceTypes) (hR .resourceTypes)
      | traits => exact puts_untyped.merge (hB .traits) (hR .traits)
      | securitySchemes => exact puts_untyped.merge (hB .securitySchemes) (hR .securitySchemes)
      | annotations =>
        exact (puts_lib_anns X).merge (hB .annotations) (hR .annotations)
      | extra => exact (puts_extra X).merge (hB .extra) (hR .extra)
    · have : ∀ (ps : List (Node × Node)) (a b : Library),
          forPairs (Library.assign X) ps a = .ok b → b.annotationTypes = a.annotationTypes := by
        intro ps
        induction ps with
        | nil => intro a b h; cases h; rfl
        | cons p ps ih =>
          intro a b h
          obtain ⟨a1, h1, h2⟩ := Res.bind_eq_ok.mp h
          exact (ih _ _ h2).trans (lib_assign_ok h1).2.2
      exact this ps l r hr

/-- A document to load on top of `sampleDoc`: new title, one more media type, one resource again,
one more type. -/
def moreDoc : List (Node × Node) :=
  [(.str "title", .str "third"), (.str "mediaType", .str "e/f"), (.str "version", .str "v2"),
   (.str "/users", .map [(.str "put", .map [])]), (.str "/items", .map []),
   (.str "types", .map [(.str "W", .str "integer")])]

/-- Loading it into what `sampleDoc` gave works, and adds to what was there. -/
example : ∃ a b r, parseApi Xyml.std (.map sampleDoc) = .ok a ∧
    parseApi Xyml.std (.map moreDoc) = .ok b ∧ a.unmarshal Xyml.std (.map moreDoc) = .ok r ∧
    r = mergedApi moreDoc a b := by
  obtain ⟨a, ha⟩ := sampleDoc_parses
  have hb : ∃ b, parseApi Xyml.std (.map moreDoc) = .ok b := Res.isOk_iff.mp (by decide +kernel)
  obtain ⟨b, hb⟩ := hb
  exact ⟨a, b, _, ha, hb, by rw [C61_api_merge, hb]; rfl, rfl⟩

example : ((parseApi Xyml.std (.map sampleDoc)).bind fun a =>
      (a.unmarshal Xyml.std (.map moreDoc)).map fun r =>
        (r.title, r.mediaType, r.version)) =
    .ok ("third", some ["a/b", "c/d", "e/f"], some "v2") := by
  decide +kernel

example : ((parseApi Xyml.std (.map sampleDoc)).bind fun a =>
      (a.unmarshal Xyml.std (.map moreDoc)).map fun r =>
        (r.resources.keys, r.types.keys, r.uses.keys)) =
    .ok (["/users", "/items"], ["T", "U", "W"], ["x"]) := by
  decide +kernel

/-- A media type list replaces everything, also what was there before. -/
example : ((parseApi Xyml.std (.map sampleDoc)).bind fun a =>
      (a.unmarshal Xyml.std (.map [(.str "mediaType", .seq seqTag [.str "g/h"])])).map
        fun r => (r.title, r.mediaType)) = .ok ("second", some ["g/h"]) := by
  decide +kernel

/-- A library in use: later definitions win and move to the end, others stay. -/
example : ((parseLibrary Xyml.std (some (.map
      [(.str "usage", .str "one"),
       (.str "traits", .map [(.str "t", .str "old"), (.str "u", .str "old")])]))).bind fun l =>
      (l.unmarshal Xyml.std (.map [(.str "traits", .map [(.str "t", .str "new")])])).map
        fun r => (r.usage, r.traits.ents)) =
    .ok (some "one", [("u", .str "old"), ("t", .str "new")]) := by
  rfl

/-- C61: a name in a merged dictionary means what the new document says, and failing that what it
meant before. -/
theorem C61_lookup {K V : Type} [DecidableEq K] (old new : OM K V) (k : K) :
    (mergedMap old new).get k = (new.get k).or (old.get k) := by
  simp only [mergedMap, OM.get, List.find?_append]
  cases hn : new.ents.find? (fun e => e.1 == k) with
  | some e =>
    have : (old.ents.filter fun e => new.ents.all fun n => n.1 ≠ e.1).find?
        (fun e => e.1 == k) = none := by
      rw [List.find?_eq_none]
      intro x hx hk
      rw [List.mem_filter] at hx
      have h1 := List.all_eq_true.mp hx.2 e (List.mem_of_find?_eq_some hn)
      have h2 := List.find?_some hn
      simp only [beq_iff_eq] at hk h2
      simp [hk, h2] at h1
    rw [this]
    simp
  | none =>
    have : (old.ents.filter fun e => new.ents.all fun n => n.1 ≠ e.1).find?
        (fun e => e.1 == k) = old.ents.find? fun e => e.1 == k := by
      rw [List.find?_filter]
      congr 1
      funext e
      by_cases hk : e.1 = k
      · have : (new.ents.all fun n => decide (n.1 ≠ e.1)) = true := by
          rw [List.all_eq_true]
          intro n hn'
          have := List.find?_eq_none.mp hn n hn'
          simp only [beq_iff_eq] at this
          simpa [hk] using this
        rw [this]
        simp [hk]
      · simp [hk]
    rw [this]
    simp

/-- C61: reading one document is reading its first half and loading the second half into the
result, wherever it is cut. -/
theorem C61_api_split (X : Xyml) (ps qs : List (Node × Node)) :
    parseApi X (.map (ps ++ qs)) = (parseApi X (.map ps)).bind fun a =>
      (parseApi X (.map qs)).map (mergedApi qs a) := by
  have h : parseApi X (.map (ps ++ qs)) =
      (parseApi X (.map ps)).bind fun a => a.unmarshal X (.map qs) :=
    forPairs_append (APISpec.assign X) ps qs APISpec.new
  rw [h]
  congr 1
  funext a
  exact C61_api_merge X (.map qs) a

/-- C61: the same for libraries. -/
theorem C61_library_split (X : Xyml) (ps qs : List (Node × Node)) :
    parseLibrary X (some (.map (ps ++ qs))) = (parseLibrary X (some (.map ps))).bind fun l =>
      (parseLibrary X (some (.map qs))).map (mergedLib l) := by
  have h : parseLibrary X (some (.map (ps ++ qs))) =
      (parseLibrary X (some (.map ps))).bind fun l => l.unmarshal X (.map qs) :=
    forPairs_append (Library.assign X) ps qs Library.new
  rw [h]
  congr 1
  funext l
  exact C61_library_merge X (.map qs) l

end Verif.Props
