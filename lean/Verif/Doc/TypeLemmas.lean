import Verif.Doc.Lemmas
import Verif.Doc.Spec

/-! # Lemmas about the data type parser -/

namespace Verif.Doc
open Spec

/-! ### Kind choice -/

theorem typeToKind_spec (s : String) :
    (typeToKind s).kind = classify s ∧ (typeToKind s).type = s ∧ Bare (typeToKind s) := by
  have hb : ∀ k s, Bare ((DT.new k).setSchema s) := by
    intro k s
    cases k <;> constructor <;>
      simp [DT.new, DT.newExt, DT.setSchema, DT.extra, displayName, description, required, enum,
        dflt, exampleOf, examples, annotations, xml, facets, properties, items, body,
        Hdr.new, OM.empty, isDefaultBody]
  have hself : ∀ k, (DT.new k).setSchema k.name = DT.new k := by
    intro k; cases k <;> rfl
  have hb' : ∀ k, Bare (DT.new k) := fun k => hself k ▸ hb k k.name
  by_cases h : s ∈ builtins.map Prod.fst
  · simp only [builtins, List.map_cons, List.map_nil, List.mem_cons, List.not_mem_nil,
      or_false] at h
    rcases h with rfl | rfl | rfl | rfl | rfl | rfl | rfl | rfl | rfl | rfl | rfl | rfl | rfl
    · exact ⟨by decide, by rfl, hb' .any⟩
    · exact ⟨by decide, by rfl, hb' .array⟩
    · exact ⟨by decide, by rfl, hb' .boolean⟩
    · exact ⟨by decide, by rfl, hb' .dateOnly⟩
    · exact ⟨by decide, by rfl, hb' .datetime⟩
    · exact ⟨by decide, by rfl, hb' .datetimeOnly⟩
    · exact ⟨by decide, by rfl, hb' .file⟩
    · exact ⟨by decide, by rfl, hb' .integer⟩
    · exact ⟨by decide, by rfl, hb' .nil⟩
    · exact ⟨by decide, by rfl, hb' .number⟩
    · exact ⟨by decide, by rfl, hb' .object⟩
    · exact ⟨by decide, by rfl, hb' .string⟩
    · exact ⟨by decide, by rfl, hb' .timeOnly⟩
  · have hnb : builtins.lookup s = none := by
      rw [List.lookup_eq_none_iff]
      intro p hp
      have : s ≠ p.1 := fun he => h (he ▸ List.mem_map_of_mem hp)
      simpa using this
    have hk : typeToKind s =
        if "!include ".toList.isPrefixOf s.toList then (DT.new .include).setSchema s
        else if s.toList.contains '|' then (DT.new .union).setSchema s
        else (DT.new .custom).setSchema s := by
      simp only [builtins, List.map_cons, List.map_nil, List.mem_cons, List.not_mem_nil,
        or_false, not_or] at h
      obtain ⟨h1, h2, h3, h4, h5, h6, h7, h8, h9, h10, h11, h12, h13⟩ := h
      unfold typeToKind
      rw [if_neg h1, if_neg h2, if_neg h3, if_neg h4, if_neg h5, if_neg h6, if_neg h7,
        if_neg h8, if_neg h9, if_neg h10, if_neg h11, if_neg h12, if_neg h13]
    rw [hk]
    simp only [classify, hnb, List.isPrefixOf_iff_prefix, List.contains_iff_mem]
    by_cases h1 : "!include ".toList <+: s.toList
    · rw [if_pos h1, if_pos h1]; exact ⟨rfl, rfl, hb _ _⟩
    · rw [if_neg h1, if_neg h1]
      by_cases h2 : '|' ∈ s.toList
      · rw [if_pos h2, if_pos h2]; exact ⟨rfl, rfl, hb _ _⟩
      · rw [if_neg h2, if_neg h2]; exact ⟨rfl, rfl, hb _ _⟩

theorem siftScan_spec (ps : List (Node × Node)) (p i : Bool) :
    (∀ e, ps.find? isTypeEntry = some e → ∃ p' i', siftScan ps p i = (some e.2, p', i')) ∧
    (ps.find? isTypeEntry = none → siftScan ps p i =
      (none, p || ps.any (fun e => e.1.value == "properties"),
        i || ps.any (fun e => e.1.value == "items"))) := by
  induction ps generalizing p i with
  | nil => simp [siftScan]
  | cons e es ih =>
    obtain ⟨k, v⟩ := e
    unfold siftScan
    by_cases h : k.value = "type" ∨ k.value = "schema"
    · have h' : isTypeEntry (k, v) = true := by simpa [isTypeEntry] using h
      rw [if_pos h]
      simp only [List.find?_cons, h']
      constructor
      · intro e he; cases he; exact ⟨_, _, rfl⟩
      · intro hn; cases hn
    · have h' : isTypeEntry (k, v) = false := by
        simpa [isTypeEntry] using h
      rw [if_neg h]
      simp only [List.find?_cons, h', List.any_cons]
      obtain ⟨h1, h2⟩ := ih (p || k.value == "properties") (i || k.value == "items")
      refine ⟨h1, fun hn => ?_⟩
      rw [h2 hn]
      simp only [Bool.or_assoc]

/-- What `siftType` returns, by the first `type`/`schema` entry. -/
theorem siftType_spec (ps : List (Node × Node)) :
    (∀ e, ps.find? isTypeEntry = some e →
      siftType ps = if e.2.isStr then .ok (typeToKind e.2.value) else
        match e.2 with
        | .seq _ _ => .err .multiType
        | .scalar tag _ => if tag = "!include" then .ok (DT.new .include) else .err .badTypeKey
        | .map _ => .err .badTypeKey) ∧
    (ps.find? isTypeEntry = none → siftType ps = .ok (DT.new (impliedKind ps))) := by
  obtain ⟨h1, h2⟩ := siftScan_spec ps false false
  constructor
  · intro e he
    obtain ⟨p', i', h⟩ := h1 e he
    unfold siftType
    simp only [h]
    rcases e with ⟨_, _ | _ | _⟩ <;> rfl
  · intro hn
    unfold siftType
    rw [h2 hn]
    simp only [Bool.false_or, impliedKind]
    split
    · rfl
    · split <;> rfl

/-! ### `assign` keeps the kind -/

theorem Body.assign_kind {X : Xyml} {k : String} {v : Node} {b b' : Body}
    (h : b.assign X k v = some (.ok b')) : b'.kind = b.kind := by
  cases b <;> simp only [Body.assign, reduceCtorEq] at h
  all_goals
    repeat' split at h
    all_goals first
      | (cases h; done)
      | (simp only [Option.some.injEq, Res.map_eq_ok] at h
         obtain ⟨a, _, rfl⟩ := h; rfl)
      | (simp only [Option.some.injEq, Res.ok.injEq] at h; subst h; rfl)

theorem assignFlat_ok {X : Xyml} {k v : Node} {h h' : Hdr} {b b' : Body}
    (hs : assignFlat X k v h b = .ok (h', b')) :
    (b' = b ∧ h.assignCommon X b.kind k.value v = some (.ok h')) ∨
    (h' = h ∧ h.assignCommon X b.kind k.value v = none ∧ b.assign X k.value v = some (.ok b')) ∨
    (b' = b ∧ h.assignCommon X b.kind k.value v = none ∧ b.assign X k.value v = none ∧
      h.assignExt X k v = .ok h') := by
  unfold assignFlat at hs
  split at hs
  · rename_i r hr
    obtain ⟨a, ha, he⟩ := Res.map_eq_ok.mp hs
    cases he
    exact .inl ⟨rfl, ha ▸ hr⟩
  · rename_i hr
    split at hs
    · rename_i r2 hr2
      obtain ⟨a, ha, he⟩ := Res.map_eq_ok.mp hs
      cases he
      exact .inr (.inl ⟨rfl, hr, ha ▸ hr2⟩)
    · rename_i hr2
      obtain ⟨a, ha, he⟩ := Res.map_eq_ok.mp hs
      cases he
      exact .inr (.inr ⟨rfl, hr, hr2, ha⟩)

theorem assignFlat_kind {X : Xyml} {k v : Node} {h h' : Hdr} {b b' : Body}
    (hs : assignFlat X k v h b = .ok (h', b')) : b'.kind = b.kind := by
  rcases assignFlat_ok hs with ⟨rfl, _⟩ | ⟨_, _, hb⟩ | ⟨rfl, _⟩
  · rfl
  · exact Body.assign_kind hb
  · rfl

theorem Body.isObject_iff (b : Body) : b.isObject = true ↔ b.kind = .object := by
  cases b <;> simp [Body.isObject, Body.kind]

theorem Body.isArray_iff (b : Body) : b.isArray = true ↔ b.kind = .array := by
  cases b <;> simp [Body.isArray, Body.kind]

theorem assign_kind {X : Xyml} {k v : Node} {t t' : DT} (hs : assign X (k, v) t = .ok t') :
    t'.kind = t.kind := by
  cases t with
  | basic i s x =>
    unfold assign at hs
    obtain ⟨a, _, rfl⟩ := Res.map_eq_ok.mp hs
    rfl
  | ext h b fs ps it =>
    unfold assign at hs
    split at hs
    · obtain ⟨a, _, rfl⟩ := Res.map_eq_ok.mp hs; rfl
    · split at hs
      · obtain ⟨a, _, rfl⟩ := Res.map_eq_ok.mp hs; rfl
      · split at hs
        · obtain ⟨a, _, rfl⟩ := Res.map_eq_ok.mp hs; rfl
        · obtain ⟨a, ha, rfl⟩ := Res.map_eq_ok.mp hs
          exact assignFlat_kind ha

theorem assignAll_kind {X : Xyml} {ps : List (Node × Node)} {t t' : DT}
    (hs : assignAll X ps t = .ok t') : t'.kind = t.kind := by
  rw [assignAll_eq] at hs
  exact forPairs_inv (I := fun u => u.kind = t.kind)
    (fun k v s s' hI h => (assign_kind h).trans hI) ps t t' rfl hs

/-! ### Iteration facts -/

/-- In a successful loop every entry succeeded, in some state satisfying the invariant. -/
theorem forPairs_mem {σ : Type} {f : Node → Node → σ → Res σ} {I : σ → Prop}
    (hI : ∀ k v s s', I s → f k v s = .ok s' → I s') :
    ∀ ps s s', I s → forPairs f ps s = .ok s' → ∀ p ∈ ps,
      ∃ s1 s2, I s1 ∧ f p.1 p.2 s1 = .ok s2 := by
  intro ps
  induction ps with
  | nil => intro _ _ _ _ p hp; cases hp
  | cons q ps ih =>
    intro s s' hs h p hp
    obtain ⟨s1, h1, h2⟩ := Res.bind_eq_ok.mp h
    rcases List.mem_cons.mp hp with rfl | hp
    · exact ⟨s, s1, hs, h1⟩
    · exact ih s1 s' (hI _ _ _ _ hs h1) h2 p hp

theorem lastBy_cons (q : Node × Node → Bool) (p : Node × Node) (ps : List (Node × Node)) :
    lastBy q (p :: ps) = (lastBy q ps).or (if q p then some p.2 else none) := by
  simp only [lastBy, List.reverse_cons, List.find?_append]
  cases h : List.find? q ps.reverse with
  | some x => simp
  | none => by_cases hp : q p <;> simp [hp]

/-- A field set only by the entries satisfying `q` has the value of the last of them. -/
theorem forPairs_lastBy {σ τ : Type} {f : Node → Node → σ → Res σ} {I : σ → Prop} (π : σ → τ)
    (q : Node × Node → Bool) (g : Node → τ → Prop)
    (hI : ∀ k v s s', I s → f k v s = .ok s' → I s')
    (hin : ∀ k v s s', I s → q (k, v) = true → f k v s = .ok s' → g v (π s'))
    (hout : ∀ k v s s', I s → q (k, v) = false → f k v s = .ok s' → π s' = π s) :
    ∀ ps s s', I s → forPairs f ps s = .ok s' →
      match lastBy q ps with | some v => g v (π s') | none => π s' = π s := by
  intro ps
  induction ps with
  | nil => intro s s' _ h; cases h; rfl
  | cons p ps ih =>
    intro s s' hs h
    obtain ⟨s1, h1, h2⟩ := Res.bind_eq_ok.mp h
    have := ih s1 s' (hI _ _ _ _ hs h1) h2
    rw [lastBy_cons]
    cases hl : lastBy q ps with
    | some v => rw [hl] at this; exact this
    | none =>
      rw [hl] at this
      cases hp : q p with
      | true =>
        simp only [if_true, Option.none_or]
        have h3 := hin p.1 p.2 _ _ hs hp h1
        rw [← this] at h3
        exact h3
      | false =>
        simp only [Bool.false_eq_true, if_false, Option.none_or]
        exact this.trans (hout p.1 p.2 _ _ hs hp h1)

/-- `putAll` into an empty dictionary keeps the last entry per key. -/
theorem OM.putAll_ents {K V : Type} [DecidableEq K] (es : List (K × V)) (m : OM K V) :
    (m.putAll es).ents = (m.ents.filter fun e => !(decide (e.1 ∈ es.map Prod.fst))) ++
      lastWins es := by
  induction es generalizing m with
  | nil =>
    have : (m.ents.filter fun _ => true) = m.ents := List.filter_eq_self.mpr fun _ _ => rfl
    simp [lastWins, this]
  | cons e es ih =>
    rw [OM.putAll_cons, ih]
    simp only [OM.put, List.filter_append, List.filter_filter, lastWins, List.filter_cons,
      List.filter_nil, List.append_assoc]
    congr 1
    · apply List.filter_congr
      intro x _
      by_cases h : x.1 = e.1
      · simp [h]
      · rw [beq_false_of_ne h, List.map_cons]
        simp only [List.mem_cons, h, false_or, Bool.not_false, Bool.and_true]
    · by_cases h : e.1 ∈ es.map Prod.fst
      · simp [h]
      · simp [h]

theorem OM.empty_putAll_ents {K V : Type} [DecidableEq K] (es : List (K × V)) (b : Bool) :
    ((OM.empty b : OM K V).putAll es).ents = lastWins es := by
  rw [OM.putAll_ents]; simp

end Verif.Doc
