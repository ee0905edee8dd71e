import Verif.Props.Errors

/-! C107: whether a document is accepted, and as what it is reported, is decided entry by entry. -/

namespace Verif.Props
open Verif Verif.Doc Verif.Doc.Spec

/-! ### Vocabulary -/

/-- How a call ended, without what it returned. -/
def verdict {α : Type} : Res α → Res Unit
  | .ok _ => .ok ()
  | .err e => .err e
  | .panic c => .panic c

/-- The first of the verdicts that is not a success. -/
def firstFault : List (Res Unit) → Res Unit
  | [] => .ok ()
  | .ok _ :: rs => firstFault rs
  | .err e :: _ => .err e
  | .panic c :: _ => .panic c

/-- A name given to something in a mapping. -/
def nameVerdict (k : Node) : Res Unit := if k.isStr then .ok () else .err .notString

/-- A property: its name is text and its definition is one that can be a property. -/
def propVerdict (X : Xyml) (q : Node × Node) : Res Unit :=
  if q.1.isStr then
    match hat X q.2 with
    | .ok t => if t.kind = .nil ∨ t.kind = .include then .panic .notProperty else .ok ()
    | .err e => .err e
    | .panic c => .panic c
  else .err .notString

/-- The kind of the definition is not given and nothing implies another kind than string. -/
def Plain (ps : List (Node × Node)) : Prop :=
  ∀ p ∈ ps, p.1.value ∉ ["type", "schema", "properties", "items"]

/-! ### Verdicts -/

private theorem verdict_map {α β : Type} {r : Res α} {f : α → β} :
    verdict (r.map f) = verdict r := by cases r <;> rfl

private theorem verdict_congr {α β : Type} {r : Res α} {r' : Res β}
    (ho : Acc r ↔ Acc r') (he : ∀ e, r = .err e ↔ r' = .err e)
    (hc : ∀ c, r = .panic c ↔ r' = .panic c) : verdict r = verdict r' := by
  cases r with
  | ok a => obtain ⟨b, rfl⟩ := ho.mp ⟨a, rfl⟩; rfl
  | err e => rw [(he e).mp rfl]; rfl
  | panic c => rw [(hc c).mp rfl]; rfl

private theorem verdict_verdict {α : Type} {r : Res α} : verdict (verdict r) = verdict r := by
  cases r <;> rfl

theorem firstFault_append (rs ss : List (Res Unit)) :
    firstFault (rs ++ ss) = firstFault [firstFault rs, firstFault ss] := by
  induction rs with
  | nil => cases h : firstFault ss <;> simp [firstFault, h]
  | cons r rs ih => cases r <;> simp [firstFault, ih]

/-! ### Loops -/

/-- A loop whose steps end the same way in every state ends as its first step that fails. -/
private theorem verdict_pairs {σ : Type} {f : Node → Node → σ → Res σ} {I : σ → Prop}
    {w : Node × Node → Res Unit}
    (hI : ∀ k v s s', I s → f k v s = .ok s' → I s')
    (hf : ∀ k v s, I s → verdict (f k v s) = w (k, v)) (ps : List (Node × Node)) (s : σ)
    (hs : I s) : verdict (forPairs f ps s) = firstFault (ps.map w) := by
  induction ps generalizing s with
  | nil => rfl
  | cons p ps ih =>
    obtain ⟨k, v⟩ := p
    have h1 := hf k v s hs
    simp only [forPairs, List.map_cons]
    rw [← h1]
    cases h : f k v s with
    | ok a => exact ih a (hI k v s a hs h)
    | err e => rfl
    | panic c => rfl

private theorem verdict_items {σ : Type} {f : Node → σ → Res σ} {w : Node → Res Unit}
    (hf : ∀ n s, verdict (f n s) = w n) (ns : List Node) (s : σ) :
    verdict (forItems f ns s) = firstFault (ns.map w) := by
  induction ns generalizing s with
  | nil => rfl
  | cons n ns ih =>
    have h1 := hf n s
    simp only [forItems, List.map_cons]
    rw [← h1]
    cases h : f n s with
    | ok a => exact ih a
    | err e => rfl
    | panic c => rfl

private theorem firstFault_one {r : Res Unit} : firstFault [r] = r := by cases r <;> rfl

/-! ### Steps -/

private theorem api_step_verdict (X : Xyml) (k v : Node) (a b : APISpec) :
    verdict (a.assign X k v) = verdict (b.assign X k v) := by
  rw [api_assign_eq, api_assign_eq, verdict_map, verdict_map]
  exact verdict_congr ((acc_apiStep _).trans (acc_apiStep _).symm)
    (fun e => (apiStep_err _).trans (apiStep_err _).symm)
    fun c => (apiStep_panic _).trans (apiStep_panic _).symm

private theorem lib_step_verdict (X : Xyml) (k v : Node) (a b : Library) :
    verdict (a.assign X k v) = verdict (b.assign X k v) := by
  rw [lib_assign_eq, lib_assign_eq, verdict_map, verdict_map]
  exact verdict_congr ((acc_libStep _).trans (acc_libStep _).symm)
    (fun e => (libStep_err _).trans (libStep_err _).symm)
    fun c => (libStep_panic _).trans (libStep_panic _).symm

private theorem type_step_verdict (X : Xyml) (k v : Node) (t u : DT) (h : t.kind = u.kind) :
    verdict (assign X (k, v) t) = verdict (assign X (k, v) u) := by
  rw [assign_eq, assign_eq, h]
  unfold DT.step
  rw [verdict_map, verdict_map, h]
  exact verdict_congr ((acc_facet _).trans (acc_facet _).symm)
    (fun e => (facet_err _).trans (facet_err _).symm)
    fun c => (facet_panic _).trans (facet_panic _).symm

private theorem example_step_verdict (X : Xyml) (k v : Node) (t u : Example)
    (h : t.kind = u.kind) : verdict (t.assign X k v) = verdict (u.assign X k v) :=
  verdict_congr ((acc_exampleEntry rfl).trans (acc_exampleEntry h.symm).symm)
    (fun _ => (exampleEntry_err rfl).trans (exampleEntry_err h.symm).symm)
    fun _ => Example.assign_panic_iff.trans Example.assign_panic_iff.symm

private theorem xml_step_verdict (X : Xyml) (k v : Node) (t u : XML) :
    verdict (t.assign X k v) = verdict (u.assign X k v) := by
  unfold XML.assign
  split_ifs <;> rw [verdict_map, verdict_map]

/-! ### Documents -/

private theorem api_loop (X : Xyml) (ps : List (Node × Node)) (a : APISpec) :
    verdict (forPairs (fun k v a => APISpec.assign X k v a) ps a) =
      firstFault (ps.map fun p => verdict (APISpec.new.assign X p.1 p.2)) :=
  verdict_pairs (I := fun _ => True) (w := fun p => verdict (APISpec.new.assign X p.1 p.2))
    (fun _ _ _ _ _ _ => trivial) (fun k v s _ => api_step_verdict X k v s _) ps a trivial

/-- C107: an API document ends as its first entry does that is not accepted on its own. -/
theorem C107_api (X : Xyml) (ps : List (Node × Node)) :
    verdict (parseApi X (.map ps)) =
      firstFault (ps.map fun p => verdict (parseApi X (.map [p]))) := by
  have h : ∀ qs, verdict (parseApi X (.map qs)) =
      firstFault (qs.map fun p => verdict (APISpec.new.assign X p.1 p.2)) :=
    fun qs => api_loop X qs APISpec.new
  simp only [h, List.map_cons, List.map_nil, firstFault_one]

/-- C107: an API document in two parts ends as the first part does that is not accepted on its
own. -/
theorem C107_api_append (X : Xyml) (ps qs : List (Node × Node)) :
    verdict (parseApi X (.map (ps ++ qs))) =
      firstFault [verdict (parseApi X (.map ps)), verdict (parseApi X (.map qs))] := by
  rw [C107_api, List.map_append, firstFault_append, ← C107_api, ← C107_api]

private theorem lib_loop (X : Xyml) (ps : List (Node × Node)) (a : Library) :
    verdict (forPairs (fun k v a => Library.assign X k v a) ps a) =
      firstFault (ps.map fun p => verdict (Library.new.assign X p.1 p.2)) :=
  verdict_pairs (I := fun _ => True) (w := fun p => verdict (Library.new.assign X p.1 p.2))
    (fun _ _ _ _ _ _ => trivial) (fun k v s _ => lib_step_verdict X k v s _) ps a trivial

/-- C107: a library ends as its first entry does that is not accepted on its own. -/
theorem C107_library (X : Xyml) (ps : List (Node × Node)) :
    verdict (parseLibrary X (some (.map ps))) =
      firstFault (ps.map fun p => verdict (parseLibrary X (some (.map [p])))) := by
  have h : ∀ qs, verdict (parseLibrary X (some (.map qs))) =
      firstFault (qs.map fun p => verdict (Library.new.assign X p.1 p.2)) :=
    fun qs => lib_loop X qs Library.new
  simp only [h, List.map_cons, List.map_nil, firstFault_one]

/-- C107: a library in two parts ends as the first part does that is not accepted on its own. -/
theorem C107_library_append (X : Xyml) (ps qs : List (Node × Node)) :
    verdict (parseLibrary X (some (.map (ps ++ qs)))) =
      firstFault [verdict (parseLibrary X (some (.map ps))),
        verdict (parseLibrary X (some (.map qs)))] := by
  rw [C107_library, List.map_append, firstFault_append, ← C107_library, ← C107_library]

/-- C107: an expanded example and XML settings end as their first entry that is not accepted. -/
theorem C107_settings (X : Xyml) (kd : Kind) (ps : List (Node × Node)) :
    verdict ((Example.new kd).unmarshal X (.map ps)) =
      firstFault (ps.map fun p => verdict ((Example.new kd).unmarshal X (.map [p]))) ∧
    verdict (loadXML X (.map ps)) =
      firstFault (ps.map fun p => verdict (loadXML X (.map [p]))) := by
  have h : ∀ qs, verdict ((Example.new kd).unmarshal X (.map qs)) =
      firstFault (qs.map fun p => verdict ((Example.new kd).assign X p.1 p.2)) :=
    fun qs => verdict_pairs (f := fun k v e => Example.assign X k v e)
      (I := fun u : Example => u.kind = kd)
      (w := fun p => verdict ((Example.new kd).assign X p.1 p.2))
      (fun k v s s' hI h => by
        rcases example_assign h with ⟨_, _, _, rfl⟩ | ⟨_, _, _, rfl⟩ | ⟨_, _, _, rfl⟩ |
          ⟨_, _, _, rfl⟩ | ⟨_, _, _, _, rfl⟩ | ⟨_, _, _, _, rfl⟩ <;> exact hI)
      (fun k v s hs => example_step_verdict X k v s _ (hs.trans rfl)) qs (Example.new kd) rfl
  have h' : ∀ qs, verdict (loadXML X (.map qs)) =
      firstFault (qs.map fun p => verdict (XML.new.assign X p.1 p.2)) :=
    fun qs => verdict_pairs (f := XML.assign X) (I := fun _ => True)
      (w := fun p => verdict (XML.new.assign X p.1 p.2))
      (fun _ _ _ _ _ _ => trivial) (fun k v s _ => xml_step_verdict X k v s _) qs XML.new trivial
  constructor
  · simp only [h, List.map_cons, List.map_nil, firstFault_one]
  · simp only [h', List.map_cons, List.map_nil, firstFault_one]

/-! ### Type definitions -/

private theorem type_loop (X : Xyml) (ps : List (Node × Node)) (t : DT) :
    verdict (assignAll X ps t) = firstFault (ps.map fun p => verdict (assign X p t)) := by
  rw [assignAll_eq]
  exact verdict_pairs (I := fun u : DT => u.kind = t.kind) (w := fun p => verdict (assign X p t))
    (fun k v s s' hI h => (assign_kind h).trans hI)
    (fun k v s hs => type_step_verdict X k v s t hs) ps t rfl

/-- What matters for the start of a definition: the first entry that gives the type. -/
private theorem sift_congr {ps qs : List (Node × Node)} {p : Node × Node}
    (hp : ps.find? isTypeEntry = some p) (hq : qs.find? isTypeEntry = some p) :
    siftType ps = siftType qs := by
  rw [(siftType_spec ps).1 p hp, (siftType_spec qs).1 p hq]

private theorem dup_fault (r : Res Unit) (rs : List (Res Unit)) :
    firstFault (r :: rs) = firstFault (r :: r :: rs) := by cases r <;> rfl

/-- C107: a definition that begins with its type ends as its first entry does that is not accepted
together with that type. -/
theorem C107_type (X : Xyml) (t : Node × Node) (ps : List (Node × Node))
    (ht : t.1.value = "type" ∨ t.1.value = "schema") :
    verdict (hat X (.map (t :: ps))) = firstFault (verdict (hat X (.map [t])) ::
      ps.map fun p => verdict (hat X (.map [t, p]))) := by
  have hT : isTypeEntry t = true := by
    rcases ht with h | h <;> simp [isTypeEntry, h]
  have hs : ∀ qs, siftType (t :: qs) = siftType [t] := fun qs =>
    sift_congr (p := t) (by simp [hT]) (by simp [hT])
  have hh : ∀ qs, verdict (hat X (.map (t :: qs))) =
      verdict ((siftType [t]).bind fun u => assignAll X (t :: qs) u) := by
    intro qs
    unfold hat
    rw [hs qs]
  simp only [hh]
  cases siftType [t] with
  | err e => rfl
  | panic c => rfl
  | ok u =>
    simp only [Res.bind_ok, type_loop, List.map_cons, List.map_nil, firstFault_one]
    generalize verdict (assign X t u) = r
    cases r with
    | ok a => simp only [firstFault, firstFault_one]
    | err e => rfl
    | panic c => rfl

private theorem plain_sift {ps : List (Node × Node)} (h : Plain ps) :
    siftType ps = .ok (DT.new .string) := by
  have hf : ps.find? isTypeEntry = none := by
    rw [List.find?_eq_none]
    intro p hp
    have := h p hp
    simp only [List.mem_cons, List.not_mem_nil, or_false, not_or] at this
    simp [isTypeEntry, this]
  rw [(siftType_spec ps).2 hf]
  congr 2
  unfold impliedKind
  rw [if_neg, if_neg]
  all_goals
    simp only [List.any_eq_true, beq_iff_eq, not_exists, not_and]
    intro p hp
    have := h p hp
    simp only [List.mem_cons, List.not_mem_nil, or_false, not_or] at this
  · exact this.2.2.2
  · exact this.2.2.1

/-- C107: so does a definition without a type that implies no other kind than string. -/
theorem C107_plain_type (X : Xyml) (ps : List (Node × Node)) (h : Plain ps) :
    verdict (hat X (.map ps)) = firstFault (ps.map fun p => verdict (hat X (.map [p]))) := by
  have hh : ∀ qs, Plain qs → verdict (hat X (.map qs)) =
      firstFault (qs.map fun p => verdict (assign X p (DT.new .string))) := by
    intro qs hq
    unfold hat
    rw [plain_sift hq]
    exact type_loop X qs _
  rw [hh ps h]
  congr 1
  refine List.map_congr_left fun p hp => ?_
  rw [hh [p] (fun q hq => by rw [List.mem_singleton.mp hq]; exact h p hp)]
  exact firstFault_one.symm

/-- C107: the items of an array end the array definition as they end themselves. -/
theorem C107_items (X : Xyml) (t : String) (ht : classify t = .array) (v : Node) :
    verdict (hat X (.map [(.str "type", .str t), (.str "items", v)])) = verdict (hat X v) := by
  have hs : siftType [(.str "type", .str t), (.str "items", v)] = .ok (typeToKind t) := by
    rw [(siftType_spec _).1 (.str "type", .str t) (by simp [isTypeEntry, Node.value, Node.str])]
    simp [Node.isStr, Node.value, Node.str]
  have hk : (typeToKind t).kind = .array := (typeToKind_spec t).1.trans ht
  conv => lhs; unfold hat
  rw [hs, Res.bind_ok, type_loop]
  have h1 : verdict (assign X (.str "type", .str t) (typeToKind t)) = .ok () := by
    rw [assign_eq, hk]
    unfold DT.step
    rw [verdict_map]
    rfl
  have h2 : verdict (assign X (.str "items", v) (typeToKind t)) = verdict (hat X v) := by
    rw [assign_eq, hk]
    unfold DT.step
    rw [verdict_map]
    exact verdict_map
  simp only [List.map_cons, List.map_nil, h1, h2, firstFault]
  cases verdict (hat X v) <;> rfl

private theorem props_verdict (X : Xyml) (qs : List (Node × Node)) (m : OM String DT) :
    verdict (loadProps X (.map qs) m) = firstFault (qs.map (propVerdict X)) := by
  rw [loadProps_eq]
  refine verdict_pairs (I := fun _ => True) (w := propVerdict X)
    (fun _ _ _ _ _ _ => trivial) (fun k v s _ => ?_) qs _ trivial
  unfold loadProp asString propVerdict
  split
  · simp only [Res.bind_ok]
    cases h : hat X v with
    | err e => rfl
    | panic c => rfl
    | ok u =>
      simp only [Res.bind_ok]
      have : u.isProperty = true ↔ ¬ (u.kind = .nil ∨ u.kind = .include) := by
        cases u with
        | basic i s x => cases i <;> simp [DT.isProperty, DT.kind]
        | ext h b fs ps it => cases b <;> simp [DT.isProperty, DT.kind, Body.kind]
      by_cases hu : u.isProperty = true
      · rw [if_pos hu, if_neg (this.mp hu)]; rfl
      · rw [if_neg hu, if_pos (by_contra fun hn => hu (this.mpr hn))]; rfl
  · rfl

/-- C107: the properties of an object end its definition as the first of them does that is not
accepted on its own. -/
theorem C107_properties (X : Xyml) (t : String) (ht : classify t = .object)
    (qs : List (Node × Node)) :
    verdict (hat X (.map [(.str "type", .str t), (.str "properties", .map qs)])) =
      firstFault (qs.map (propVerdict X)) := by
  have hs : siftType [(.str "type", .str t), (.str "properties", .map qs)] =
      .ok (typeToKind t) := by
    rw [(siftType_spec _).1 (.str "type", .str t) (by simp [isTypeEntry, Node.value, Node.str])]
    simp [Node.isStr, Node.value, Node.str]
  have hk : (typeToKind t).kind = .object := (typeToKind_spec t).1.trans ht
  conv => lhs; unfold hat
  rw [hs, Res.bind_ok, type_loop]
  have h1 : verdict (assign X (.str "type", .str t) (typeToKind t)) = .ok () := by
    rw [assign_eq, hk]
    unfold DT.step
    rw [verdict_map]
    rfl
  have h2 : verdict (assign X (.str "properties", .map qs) (typeToKind t)) =
      firstFault (qs.map (propVerdict X)) := by
    rw [assign_eq, hk]
    unfold DT.step
    rw [verdict_map, hk]
    exact props_verdict X qs _
  simp only [List.map_cons, List.map_nil, h1, h2, firstFault]
  cases firstFault (qs.map (propVerdict X)) <;> rfl

private theorem types_verdict (X : Xyml) (qs : List (Node × Node)) (m : OM String DT) :
    verdict (loadTypes X (.map qs) m) = firstFault
      (qs.map fun q => firstFault [nameVerdict q.1, verdict (hat X q.2)]) := by
  rw [loadTypes_eq, loadType_form]
  refine verdict_pairs (I := fun _ => True)
    (w := fun q => firstFault [nameVerdict q.1, verdict (hat X q.2)])
    (fun _ _ _ _ _ _ => trivial) (fun k v s _ => ?_) qs m trivial
  unfold asString nameVerdict
  split
  · simp only [Res.bind_ok, verdict_map, firstFault]
    cases verdict (hat X v) <;> rfl
  · rfl

/-- C107: the types of a document end it as the first of them does that is not accepted on its
own. -/
theorem C107_types (X : Xyml) (s : String) (hs : s = "types" ∨ s = "schemas")
    (qs : List (Node × Node)) :
    verdict (parseApi X (.map [(.str s, .map qs)])) = firstFault
      (qs.map fun q => firstFault [nameVerdict q.1, verdict (hat X q.2)]) ∧
    verdict (parseLibrary X (some (.map [(.str s, .map qs)]))) = firstFault
      (qs.map fun q => firstFault [nameVerdict q.1, verdict (hat X q.2)]) := by
  have ha : verdict (parseApi X (.map [(.str s, .map qs)])) =
      verdict (APISpec.new.assign X (.str s) (.map qs)) :=
    (api_loop X _ APISpec.new).trans firstFault_one
  have hl : verdict (parseLibrary X (some (.map [(.str s, .map qs)]))) =
      verdict (Library.new.assign X (.str s) (.map qs)) :=
    (lib_loop X _ Library.new).trans firstFault_one
  rw [ha, hl, api_assign_eq, lib_assign_eq, verdict_map, verdict_map]
  have h1 : apiSectionOf (.str s, .map qs) = .types := by
    rcases hs with rfl | rfl
    · exact (by decide : apiSectionOf (.str "types", .map []) = .types)
    · exact (by decide : apiSectionOf (.str "schemas", .map []) = .types)
  have h2 : libSectionOf (.str s, .map qs) = .types := by
    rcases hs with rfl | rfl
    · exact (by decide : libSectionOf (.str "types", .map []) = .types)
    · exact (by decide : libSectionOf (.str "schemas", .map []) = .types)
  rw [h1, h2]
  exact ⟨types_verdict X qs _, types_verdict X qs _⟩

/-- C107: the documentation of a document ends it as its first item does that is not accepted on
its own. -/
theorem C107_documentation (X : Xyml) (t : String) (ns : List Node) :
    verdict (parseApi X (.map [(.str "documentation", .seq t ns)])) = firstFault
      (ns.map fun n => verdict (parseApi X (.map [(.str "documentation", .seq t [n])]))) := by
  have h : ∀ ms, verdict (parseApi X (.map [(.str "documentation", .seq t ms)])) =
      firstFault (ms.map fun n => verdict (loadDocumentation X n)) := by
    intro ms
    have ha : verdict (parseApi X (.map [(.str "documentation", .seq t ms)])) =
        verdict (APISpec.new.assign X (.str "documentation") (.seq t ms)) :=
      (api_loop X _ APISpec.new).trans firstFault_one
    rw [ha, api_assign_eq, verdict_map]
    rw [show apiSectionOf (.str "documentation", .seq t ms) = .documentation from
      (by decide : apiSectionOf (.str "documentation", .map []) = .documentation)]
    exact verdict_items (w := fun n => verdict (loadDocumentation X n))
      (fun n s => verdict_map) ms _
  simp only [h, List.map_cons, List.map_nil, firstFault_one]

/-! ### What a caller can do -/

private theorem firstFault_ok {rs : List (Res Unit)} (h : ∀ r ∈ rs, r = .ok ()) :
    firstFault rs = .ok () := by
  induction rs with
  | nil => rfl
  | cons r rs ih =>
    rw [h r (by simp)]
    exact ih fun r hr => h r (by simp [hr])

private theorem verdict_ok {α : Type} {r : Res α} : verdict r = .ok () ↔ ∃ a, r = .ok a := by
  cases r <;> simp [verdict]

/-- C107: a document is mended by leaving out the entries that are not accepted on their own. -/
theorem C107_mended (X : Xyml) (ps : List (Node × Node)) :
    (∃ a, parseApi X (.map (ps.filter fun p => (parseApi X (.map [p])).isOk)) = .ok a) ∧
    ∃ l, parseLibrary X (some (.map (ps.filter fun p =>
      (parseLibrary X (some (.map [p]))).isOk))) = .ok l := by
  constructor
  · rw [← verdict_ok, C107_api]
    refine firstFault_ok fun r hr => ?_
    obtain ⟨p, hp, rfl⟩ := List.mem_map.mp hr
    exact verdict_ok.mpr (Res.isOk_iff.mp (List.mem_filter.mp hp).2)
  · rw [← verdict_ok, C107_library]
    refine firstFault_ok fun r hr => ?_
    obtain ⟨p, hp, rfl⟩ := List.mem_map.mp hr
    exact verdict_ok.mpr (Res.isOk_iff.mp (List.mem_filter.mp hp).2)

/-! ### Concrete cases -/

/-- The third entry is the first that is not accepted, and the fourth would be another error. -/
example : verdict (parseApi Xyml.std (.map [(.str "title", .str "t"), (.str "/r", .map []),
      (.str "documentation", .str "d"), (.str "types", .map [(.str "T", .seq "!!seq" [])])])) =
      .err .notSeq ∧
    ([(.str "title", .str "t"), (.str "/r", .map []), (.str "documentation", .str "d"),
      (.str "types", .map [(.str "T", .seq "!!seq" [])])].map fun p =>
        verdict (parseApi Xyml.std (.map [p]))) =
      [.ok (), .ok (), .err .notSeq, .err .multiType] ∧
    verdict (parseLibrary Xyml.std (some (.map [(.str "usage", .str "u"),
      (.str "", .map [])]))) = .panic .emptyKey := ⟨rfl, rfl, rfl⟩

/-- The kind given first decides what the other entries may be. -/
example : verdict (hat Xyml.std (.map [(.str "type", .str "integer"),
      (.str "minimum", .str "x"), (.str "minLength", .str "x")])) = .err .notInt ∧
    verdict (hat Xyml.std (.map [(.str "type", .str "integer"),
      (.str "minimum", .str "x")])) = .err .notInt ∧
    verdict (hat Xyml.std (.map [(.str "type", .str "integer"),
      (.str "minLength", .str "x")])) = .ok () ∧
    verdict (hat Xyml.std (.map [(.str "minLength", .str "x")])) = .err .notInt :=
  ⟨rfl, rfl, rfl, rfl⟩

/-- Without a type this is not so: an entry that is not accepted in a string definition is accepted
in one that an entry elsewhere makes an object definition. -/
example : verdict (hat Xyml.std (.map [(.str "minLength", .str "x"),
      (.str "properties", .map [])])) = .ok () ∧
    verdict (hat Xyml.std (.map [(.str "minLength", .str "x")])) = .err .notInt ∧
    Plain [(.str "minLength", .str "x"), (.str "displayName", .map [])] :=
  ⟨rfl, rfl, by intro p hp; revert hp; simp [Node.str, Node.value]; rintro (rfl | rfl) <;> decide⟩

/-- Properties, items and documentation. -/
example : verdict (hat Xyml.std (.map [(.str "type", .str "object"), (.str "properties",
      .map [(.str "a", .str "string"), (.str "b", .str "nil"), (.str "c", .map [
        (.str "type", .map [])])])])) = .panic .notProperty ∧
    classify "object" = .object ∧ classify "array" = .array ∧
    verdict (hat Xyml.std (.map [(.str "type", .str "array"), (.str "items",
      .scalar "!!int" "1")])) = .err .badTypeDef ∧
    verdict (parseApi Xyml.std (.map [(.str "documentation", .seq "!!seq" [
      .map [(.str "title", .str "x")], .str "y"])])) = .err .notMap := by
  refine ⟨by decide +kernel, by decide, by decide, rfl, rfl⟩

end Verif.Props
