import Verif.Props.FixedPoint
import Verif.Props.Accept
import Verif.Props.BuilderRoundTrip

/-! # C93: exactly which documents survive being read and written

The condition is on the document that is read: which entries it has, and with which values. -/

namespace Verif.Props
open Verif Verif.Doc Verif.Doc.Spec

/-! ### Vocabulary -/

/-- The keys are strings, and no key is given twice. -/
def UniqueKeys (ps : List (Node × Node)) : Prop :=
  (∀ p ∈ ps, p.1.isStr = true) ∧ (ps.map fun p => p.1.value).Nodup

/-- No key is given twice in a definition, in the mappings of its `example`, `examples` and
`properties`, and it has not both `type` and `schema`. -/
def DefPlain : Node → Prop
  | .map ps => UniqueKeys ps ∧ (ps.filter isTypeEntry).length ≤ 1 ∧
      (∀ p ∈ ps, p.1.value = "example" ∨ p.1.value = "examples" ∨ p.1.value = "properties" →
        UniqueKeys (mapEntries p.2)) ∧
      ∀ p ∈ ps, p.1.value = "examples" → ∀ q ∈ mapEntries p.2, UniqueKeys (mapEntries q.2)
  | _ => True

/-- The same for the definitions nested in it. -/
def TypePlain (n : Node) : Prop := DefPlain n ∧ ∀ sub, TypePos n sub → DefPlain sub

/-- An example that survives: it is a mapping without annotations, and says something besides its
value; that it is strict does not count. -/
structure ExampleKept (X : Xyml) (v : Node) : Prop where
  expanded : isMap v = true
  annotations : ∀ p ∈ mapEntries v, startsWith '(' p.1 = false
  more : ∃ p ∈ mapEntries v, p.1.value ≠ "value" ∧
    (p.1.value = "strict" → X.toBool p.2 = some false)

/-- The keys of the facets that are stored as unsigned numbers. -/
def unsignedKeys : Kind → List String
  | .string | .file => ["minLength", "maxLength"]
  | .array => ["minItems", "maxItems"]
  | .object => ["minProperties", "maxProperties"]
  | _ => []

/-- A mapping of an extended type that survives. -/
structure MapKept (X : Xyml) (kd : Kind) (ps : List (Node × Node)) : Prop where
  annotations : ∀ p ∈ ps, startsWith '(' p.1 = false
  facets : ∀ p ∈ ps, p.1.value = "facets" → mapEntries p.2 = []
  «example» : ∀ p ∈ ps, p.1.value = "example" → ExampleKept X p.2
  examples : ∀ p ∈ ps, p.1.value = "examples" → ∀ q ∈ mapEntries p.2, ExampleKept X q.2
  unsigned : ∀ p ∈ ps, p.1.value ∈ unsignedKeys kd → ∃ i, X.toInt p.2 = some i ∧ 0 ≤ i

/-- A definition that survives, apart from the definitions nested in it: `include` types have
nothing but their type; nil types and definitions without a mapping always survive. -/
def DefKept (X : Xyml) : Node → Prop
  | .map ps => ∀ kd, kindOf ps = some kd →
      (kd = .include → ∀ p ∈ ps, isTypeEntry p = true) ∧ (isBasic kd = false → MapKept X kd ps)
  | _ => True

/-- A definition that survives. -/
def TypeKept (X : Xyml) (n : Node) : Prop := DefKept X n ∧ ∀ sub, TypePos n sub → DefKept X sub

/-- A definition without XML settings, apart from the definitions nested in it. -/
def DefNoXml : Node → Prop
  | .map ps => ∀ kd, kindOf ps = some kd → isBasic kd = false →
      ∀ p ∈ ps, p.1.value = "xml" → mapEntries p.2 = []
  | _ => True

/-- A definition without XML settings at any depth. -/
def TypeNoXml (n : Node) : Prop := DefNoXml n ∧ ∀ sub, TypePos n sub → DefNoXml sub

/-! ### Mappings without repeated keys -/

theorem uniq_filter {ps : List (Node × Node)} (hu : UniqueKeys ps) (s : String) :
    (ps.filter fun p => p.1.value == s) = [] ∨
      ∃ p ∈ ps, p.1.value = s ∧ (ps.filter fun p => p.1.value == s) = [p] := by
  have hu := hu.2
  clear * - hu
  induction ps with
  | nil => exact .inl rfl
  | cons q ps ih =>
    have ⟨(h1 : q.1.value ∉ ps.map fun p => p.1.value), h2⟩ := List.nodup_cons.mp hu
    by_cases hq : q.1.value = s
    · refine .inr ⟨q, by simp, hq, ?_⟩
      rw [List.filter_cons, if_pos (by simpa using hq)]
      congr 1
      rw [List.filter_eq_nil_iff]
      intro p hp hps
      apply h1
      rw [hq, ← (by simpa using hps : p.1.value = s)]
      exact List.mem_map_of_mem (f := fun p : Node × Node => p.1.value) hp
    · rw [List.filter_cons, if_neg (by simpa using hq)]
      rcases ih h2 with h | ⟨p, hp, h⟩
      · exact .inl h
      · exact .inr ⟨p, by simp [hp], h⟩

theorem uniq_lastVal {ps : List (Node × Node)} (hu : UniqueKeys ps) (s : String) (v : Node) :
    lastVal s ps = some v ↔ ∃ p ∈ ps, p.1.value = s ∧ p.2 = v := by
  unfold lastVal lastBy
  rw [← List.head?_filter, List.filter_reverse]
  constructor
  · rcases uniq_filter hu s with h | ⟨p, hp, hv, h⟩
    · rw [h]; intro h'; cases h'
    · rw [h]; intro h'; cases h'; exact ⟨p, hp, hv, rfl⟩
  · rintro ⟨p, hp, hv, rfl⟩
    have hm : p ∈ ps.filter fun p => p.1.value == s := List.mem_filter.mpr ⟨hp, by simpa using hv⟩
    rcases uniq_filter hu s with h | ⟨q, hq, _, h⟩
    · rw [h] at hm; cases hm
    · rw [h] at hm
      rw [h, List.mem_singleton.mp hm]
      rfl

theorem mem_allVals {s : String} {ps : List (Node × Node)} {v : Node} :
    v ∈ allVals s ps ↔ ∃ p ∈ ps, p.1.value = s ∧ p.2 = v := by
  unfold allVals
  simp only [List.mem_map, List.mem_filter, beq_iff_eq]
  constructor
  · rintro ⟨p, ⟨h1, h2⟩, h3⟩; exact ⟨p, h1, h2, h3⟩
  · rintro ⟨p, h1, h2, h3⟩; exact ⟨p, ⟨h1, h2⟩, h3⟩

theorem uniq_lastNamed {ps : List (Node × Node)} (hu : ∀ p ∈ ps, p.1.isStr = true) (s : String) :
    lastNamed s ps = lastVal s ps := by
  unfold lastNamed lastVal lastBy
  rw [← List.head?_filter, ← List.head?_filter]
  congr 2
  apply List.filter_congr
  intro p hp
  simp [hu p (List.mem_reverse.mp hp)]

theorem uniq_inner {ps : List (Node × Node)} (hu : UniqueKeys ps) (s : String)
    (hi : ∀ p ∈ ps, p.1.value = s → UniqueKeys (mapEntries p.2)) :
    UniqueKeys ((allVals s ps).flatMap mapEntries) := by
  unfold allVals
  rcases uniq_filter hu s with h | ⟨p, hp, hv, h⟩
  · rw [h]; exact ⟨fun _ h => (nomatch h), List.nodup_nil⟩
  · rw [h]
    simpa using hi p hp hv

theorem lastWins_id {K V : Type} [DecidableEq K] {l : List (K × V)} (h : (l.map Prod.fst).Nodup) :
    lastWins l = l := by
  induction l with
  | nil => rfl
  | cons e l ih =>
    obtain ⟨h1, h2⟩ := List.nodup_cons.mp h
    unfold lastWins
    rw [if_neg h1, ih h2]

theorem forall2_keys {V : Type} {R : Node × Node → String × V → Prop} {ps : List (Node × Node)}
    {es : List (String × V)} (h : List.Forall₂ R ps es) (hR : ∀ p e, R p e → p.1.value = e.1) :
    es.map Prod.fst = ps.map fun p => p.1.value := by
  induction h with
  | nil => rfl
  | cons h1 _ ih => simp [ih, hR _ _ h1]

theorem forall2_left {A B : Type} {R : A → B → Prop} {l : List A} {l' : List B}
    (h : List.Forall₂ R l l') : ∀ a ∈ l, ∃ b ∈ l', R a b := by
  induction h with
  | nil => intro a ha; cases ha
  | @cons a b l l' h1 _ ih =>
    intro x hx
    rcases List.mem_cons.mp hx with rfl | hx
    · exact ⟨b, by simp, h1⟩
    · obtain ⟨y, hy, hr⟩ := ih x hx; exact ⟨y, by simp [hy], hr⟩

theorem forall2_right {A B : Type} {R : A → B → Prop} {l : List A} {l' : List B}
    (h : List.Forall₂ R l l') : ∀ b ∈ l', ∃ a ∈ l, R a b := by
  induction h with
  | nil => intro a ha; cases ha
  | @cons a b l l' h1 _ ih =>
    intro x hx
    rcases List.mem_cons.mp hx with rfl | hx
    · exact ⟨a, by simp, h1⟩
    · obtain ⟨y, hy, hr⟩ := ih x hx; exact ⟨y, by simp [hy], hr⟩

theorem lastWins_nil_iff {K V : Type} [DecidableEq K] {l : List (K × V)} :
    lastWins l = [] ↔ l = [] := by
  constructor
  · intro h
    cases l with
    | nil => rfl
    | cons e l =>
      have := (lastWins_keys (e :: l) e.1).mpr (by simp)
      rw [h] at this
      cases this
  · rintro rfl; rfl

theorem forall2_nil_iff {A B : Type} {R : A → B → Prop} {l : List A} {l' : List B}
    (h : List.Forall₂ R l l') : l' = [] ↔ l = [] := by
  cases h <;> simp

theorem str_of_isStr {k : Node} (h : k.isStr = true) : k = Node.str k.value := by
  cases k with
  | scalar t v =>
    have : t = "!!str" := by simpa [Node.isStr] using h
    subst this; rfl
  | seq => cases h
  | map => cases h

/-! ### Examples -/

theorem example_survives {X : Xyml} (hX : Lawful X) {kd : Kind} {v : Node} {e : Example}
    (hu : UniqueKeys (mapEntries v)) (hi : IsExample X kd v e) (ho : ExampleOk X kd v)
    (hp : ParsedExample kd e) : TidyExample e ∧ (WritableExample kd e ↔ ExampleKept X v) := by
  unfold IsExample at hi
  unfold ExampleOk at ho
  by_cases hm : isMap v = true
  · rw [if_pos hm] at hi ho
    obtain ⟨_, hi⟩ := hi
    generalize hps : mapEntries v = ps at hu hi ho
    have hs : ∀ k : Node, k.isStr = true → X.toScalar k = some (.str k.value) := by
      intro k hk
      conv => lhs; rw [str_of_isStr hk, ← hX.ofKey_str]
      exact hX.toScalar_ofKey _
    obtain ⟨es, h1, h2⟩ := hi.extra
    have ht : TidyExample e := by
      intro p hpm s hps
      rw [h2] at hpm
      obtain ⟨q, hq, h3, _⟩ := forall2_right h1 p (mem_lastWins hpm)
      obtain ⟨hq1, hq2⟩ := List.mem_filter.mp hq
      have hstr := hu.1 q hq1
      rw [hs q.1 hstr, hps] at h3
      have hv : q.1.value = s := by
        have := Option.some.inj h3
        injection this
      unfold isExampleExtra startsWith at hq2
      simp only [hstr, Bool.not_true, Bool.true_and, Bool.false_or, Bool.and_eq_true,
        Bool.not_eq_true', beq_eq_false_iff_ne, hv] at hq2
      refine ⟨⟨?_, hq2.1⟩, ?_⟩
      · rintro rfl
        apply (ho q hq1).key
        rw [str_of_isStr hstr, hv]
      · have := hq2.2
        intro hin
        rw [List.contains_iff_mem.mpr (show s ∈ Props.exampleKeys from hin)] at this
        cases this
    have hann : e.annotations.ents = [] ↔ ∀ p ∈ ps, startsWith '(' p.1 = false := by
      obtain ⟨as, h3, h4⟩ := hi.annotations
      rw [h4, lastWins_nil_iff, forall2_nil_iff h3, List.filter_eq_nil_iff]
      simp
    have hext : e.extra.ents = [] ↔ ∀ p ∈ ps, isExampleExtra p = false := by
      rw [h2, lastWins_nil_iff, forall2_nil_iff h1, List.filter_eq_nil_iff]
      simp
    have htext : ∀ s, s = "displayName" ∨ s = "description" →
        ((lastNamed s ps).bind textOf ≠ none ↔ ∃ p ∈ ps, p.1.value = s) := by
      intro s hd
      rw [uniq_lastNamed hu.1]
      constructor
      · intro h
        cases hl : lastVal s ps with
        | none => rw [hl] at h; exact absurd rfl h
        | some w =>
          obtain ⟨p, h3, h4, _⟩ := (uniq_lastVal hu s w).mp hl
          exact ⟨p, h3, h4⟩
      · rintro ⟨p, h3, h4⟩
        rw [(uniq_lastVal hu s p.2).mpr ⟨p, h3, h4, rfl⟩]
        have := (ho p h3).text (hu.1 p h3) (h4 ▸ hd)
        simp [textOf, this]
    have hstrict : e.strict = false ↔ ∃ p ∈ ps, p.1.value = "strict" ∧ X.toBool p.2 = some false := by
      rw [hi.strict, uniq_lastNamed hu.1]
      constructor
      · intro h
        cases hl : lastVal "strict" ps with
        | none => rw [hl] at h; cases h
        | some w =>
          obtain ⟨p, h3, h4, rfl⟩ := (uniq_lastVal hu _ w).mp hl
          rw [hl] at h
          refine ⟨p, h3, h4, ?_⟩
          cases hb : X.toBool p.2 with
          | none => simp [hb] at h
          | some b => simp [hb] at h; rw [h]
      · rintro ⟨p, h3, h4, h5⟩
        rw [(uniq_lastVal hu _ p.2).mpr ⟨p, h3, h4, rfl⟩]
        simp [h5]
    refine ⟨ht, ?_, ?_⟩
    · intro hw
      have ha : e.annotations.ents = [] := by
        cases hae : e.annotations.ents with
        | nil => rfl
        | cons a as =>
          have h3 := (hp.annotations.values a (by rw [hae]; simp)).1
          rw [(hw.annotations.2 a (by rw [hae]; simp)).2.1] at h3
          cases h3
      refine ⟨hm, hps ▸ hann.mp ha, ?_⟩
      rw [hps]
      rcases hw.expanded with h | h | h | h | h
      · rw [hi.displayName] at h
        obtain ⟨p, h3, h4⟩ := (htext _ (.inl rfl)).mp h
        exact ⟨p, h3, by rw [h4]; decide, fun h5 => absurd (h4.symm.trans h5) (by decide)⟩
      · rw [hi.description] at h
        obtain ⟨p, h3, h4⟩ := (htext _ (.inr rfl)).mp h
        exact ⟨p, h3, by rw [h4]; decide, fun h5 => absurd (h4.symm.trans h5) (by decide)⟩
      · exact absurd ha h
      · have h3 : ¬ ∀ p ∈ ps, isExampleExtra p = false := fun h3 => h (hext.mpr h3)
        simp only [not_forall, Bool.not_eq_false] at h3
        obtain ⟨p, hpm, h3⟩ := h3
        have h4 : p.1.value ∉ Props.exampleKeys := by
          simp only [isExampleExtra, hu.1 p hpm, Bool.not_true, Bool.false_or, Bool.and_eq_true,
            Bool.not_eq_true', List.contains_eq_mem, decide_eq_false_iff_not] at h3
          exact h3.2
        exact ⟨p, hpm, fun h5 => h4 (by rw [h5]; decide), fun h5 => absurd (by rw [h5]; decide) h4⟩
      · obtain ⟨p, h3, h4, h5⟩ := hstrict.mp h
        exact ⟨p, h3, by rw [h4]; decide, fun _ => h5⟩
    · rintro ⟨_, h3, p, h4, h5, h6⟩
      rw [hps] at h3 h4
      have ha := hann.mpr h3
      refine ⟨hp.kind, ?_, hp.value, ⟨hp.annotations.distinct, fun b hb => ?_⟩, hp.extra, ht⟩
      · by_cases c1 : p.1.value = "displayName"
        · left; rw [hi.displayName]; exact (htext _ (.inl rfl)).mpr ⟨p, h4, c1⟩
        by_cases c2 : p.1.value = "description"
        · right; left; rw [hi.description]; exact (htext _ (.inr rfl)).mpr ⟨p, h4, c2⟩
        by_cases c3 : p.1.value = "strict"
        · right; right; right; right; exact hstrict.mpr ⟨p, h4, c3, h6 c3⟩
        right; right; right; left
        intro he
        have := hext.mp he p h4
        simp [isExampleExtra, hu.1 p h4, h3 p h4, Props.exampleKeys, c1, c2, c3, h5] at this
      · rw [ha] at hb; cases hb
  · rw [if_neg hm] at hi
    obtain ⟨_, _, _, h1, h2, h3, h4, h5⟩ := hi
    refine ⟨?_, ?_, fun h => absurd h.expanded hm⟩
    · intro p hpm; rw [h5] at hpm; cases hpm
    · intro hw
      rcases hw.expanded with h | h | h | h | h
      · exact absurd h1 h
      · exact absurd h2 h
      · exact absurd h4 h
      · exact absurd h5 h
      · rw [h3] at h; cases h

/-! ### Numbers -/

/-- An unsigned facet is small enough to be written and read iff its entry is not negative. -/
theorem unsigned_survives {X : Xyml} (hX : Lawful X) {ps : List (Node × Node)} {t : DT} {kd : Kind}
    {key : String} {get : DT → Option Nat} (hun : Unsigned kd key get) (hu : UniqueKeys ps)
    (h : hat X (.map ps) = .ok t) (hk : t.kind = kd) :
    (∀ n, get t = some n → IsSmall n) ↔
      ∀ p ∈ ps, p.1.value = key → ∃ i, X.toInt p.2 = some i ∧ 0 ≤ i := by
  cases hl : lastVal key ps with
  | none =>
    have hno : ∀ p ∈ ps, p.1.value ≠ key := by
      intro p hp hv
      rw [(uniq_lastVal hu key p.2).mpr ⟨p, hp, hv, rfl⟩] at hl
      cases hl
    have hall : allVals key ps = [] := by
      rw [List.eq_nil_iff_forall_not_mem]
      intro v hv
      obtain ⟨p, hp, h1, _⟩ := mem_allVals.mp hv
      exact hno p hp h1
    rw [C51_unsigned_default X ps t kd key get hun h hk hall]
    refine ⟨fun _ p hp hv => absurd hv (hno p hp), fun _ n hn => ?_⟩
    unfold unsignedDefault at hn
    split at hn
    · cases hn; exact (by decide : (0 : Nat) < 9223372036854775808)
    · split at hn
      · cases hn; exact (by decide : (2 ^ 31 - 1 : Nat) < 9223372036854775808)
      · cases hn
  | some v =>
    obtain ⟨p, hp, hv, rfl⟩ := (uniq_lastVal hu key v).mp hl
    have hk' : kindOf ps = some kd := hk ▸ C15_kind_of_mapping X ps t h
    cases hi : X.toInt p.2 with
    | none => exact absurd h (C22_not_integer_rejected X ps t kd key get p.2 hun hk' hl hi)
    | some i =>
      have hr := hX.toInt_range hi
      have huniq : ∀ q ∈ ps, q.1.value = key → q.2 = p.2 := by
        intro q hq hqv
        have := (uniq_lastVal hu key q.2).mpr ⟨q, hq, hqv, rfl⟩
        rw [hl] at this
        exact (Option.some.inj this).symm
      by_cases h0 : 0 ≤ i
      · rw [C22_unsigned_value_partial X ps t kd key get p.2 i hun h hk hl hi h0 (by omega)]
        refine ⟨fun _ q hq hqv => ⟨i, by rw [huniq q hq hqv]; exact hi, h0⟩, fun _ n hn => ?_⟩
        cases hn
        unfold IsSmall
        omega
      · have hneg : X.toInt p.2 = some (-((-i).toNat : Int)) := by rw [hi]; congr 1; omega
        rw [C22_negative_wraps X ps t kd key get p.2 (-i).toNat hun h hk hl hneg (by omega) (by omega)]
        constructor
        · intro hs
          have := hs _ rfl
          unfold IsSmall at this
          omega
        · intro hs
          obtain ⟨j, h1, h2⟩ := hs p hp hv
          rw [hi] at h1
          cases h1
          exact absurd h2 h0

theorem body_survives {X : Xyml} (hX : Lawful X) {ps : List (Node × Node)} {h : Hdr} {b : Body}
    {fs : OM String (OM String DT)} {qs : OM String DT} {it : Option DT} (hu : UniqueKeys ps)
    (ht : hat X (.map ps) = .ok (.ext h b fs qs it)) (hb : ParsedBody b) :
    WritableBody b ↔
      ∀ p ∈ ps, p.1.value ∈ unsignedKeys b.kind → ∃ i, X.toInt p.2 = some i ∧ 0 ≤ i := by
  have two : ∀ {k1 k2 : String} {P : Node × Node → Prop},
      (∀ p ∈ ps, p.1.value ∈ [k1, k2] → P p) ↔
        (∀ p ∈ ps, p.1.value = k1 → P p) ∧ ∀ p ∈ ps, p.1.value = k2 → P p := by
    intro k1 k2 P
    simp only [List.mem_cons, List.not_mem_nil, or_false]
    exact ⟨fun h => ⟨fun p hp hv => h p hp (.inl hv), fun p hp hv => h p hp (.inr hv)⟩,
      fun h p hp hv => hv.elim (h.1 p hp) (h.2 p hp)⟩
  cases b with
  | string f =>
    rw [show unsignedKeys (Body.string f).kind = ["minLength", "maxLength"] from rfl, two,
      ← unsigned_survives hX .stringMinLength hu ht rfl, ← unsigned_survives hX .stringMaxLength hu ht rfl]
    exact and_congr ⟨fun h n hn => by cases hn; exact h, fun h => h _ rfl⟩ Iff.rfl
  | file f =>
    rw [show unsignedKeys (Body.file f).kind = ["minLength", "maxLength"] from rfl, two,
      ← unsigned_survives hX .fileMinLength hu ht rfl, ← unsigned_survives hX .fileMaxLength hu ht rfl]
    exact and_congr ⟨fun h n hn => by cases hn; exact h, fun h => h _ rfl⟩
      ⟨fun h n hn => by cases hn; exact h, fun h => h _ rfl⟩
  | array f =>
    rw [show unsignedKeys (Body.array f).kind = ["minItems", "maxItems"] from rfl, two,
      ← unsigned_survives hX .minItems hu ht rfl, ← unsigned_survives hX .maxItems hu ht rfl]
    exact and_congr ⟨fun h n hn => by cases hn; exact h, fun h => h _ rfl⟩
      ⟨fun h n hn => by cases hn; exact h, fun h => h _ rfl⟩
  | object f =>
    rw [show unsignedKeys (Body.object f).kind = ["minProperties", "maxProperties"] from rfl, two,
      ← unsigned_survives hX .minProperties hu ht rfl, ← unsigned_survives hX .maxProperties hu ht rfl]
    exact Iff.rfl
  | integer f => exact ⟨fun _ p _ hv => (nomatch hv), fun _ => hb⟩
  | _ => exact ⟨fun _ p _ hv => (nomatch hv), fun _ => trivial⟩

/-! ### Definitions -/

/-- One level of `TypePos`. -/
inductive Nested : Node → Node → Prop where
  | items {ps : List (Node × Node)} {k v : Node} : kindOf ps = some .array → (k, v) ∈ ps →
      k.value = "items" → Nested (.map ps) v
  | property {ps qs : List (Node × Node)} {k k' v : Node} : kindOf ps = some .object →
      (k, .map qs) ∈ ps → k.value = "properties" → (k', v) ∈ qs → Nested (.map ps) v
  | facet {ps qs rs : List (Node × Node)} {kd : Kind} {k k' k'' v : Node} :
      kindOf ps = some kd → isBasic kd = false → (k, .map qs) ∈ ps → k.value = "facets" →
      (k', .map rs) ∈ qs → (k'', v) ∈ rs → Nested (.map ps) v

theorem Nested.pos {n c : Node} (h : Nested n c) : TypePos n c := by
  cases h with
  | items h1 h2 h3 => exact .items h1 h2 h3
  | property h1 h2 h3 h4 => exact .property h1 h2 h3 h4
  | facet h1 h2 h3 h4 h5 h6 => exact .facet h1 h2 h3 h4 h5 h6

theorem typePos_nested {n sub : Node} (h : TypePos n sub) :
    ∃ c, Nested n c ∧ (c = sub ∨ TypePos c sub) := by
  induction h with
  | items h1 h2 h3 => exact ⟨_, .items h1 h2 h3, .inl rfl⟩
  | property h1 h2 h3 h4 => exact ⟨_, .property h1 h2 h3 h4, .inl rfl⟩
  | facet h1 h2 h3 h4 h5 h6 => exact ⟨_, .facet h1 h2 h3 h4 h5 h6, .inl rfl⟩
  | trans _ h2 ih1 _ =>
    obtain ⟨c, hc, h | h⟩ := ih1
    · exact ⟨c, hc, .inr (h ▸ h2)⟩
    · exact ⟨c, hc, .inr (.trans h h2)⟩

/-- A condition on a definition and all definitions in it. -/
theorem everywhere_iff {P : Node → Prop} {n : Node} :
    (P n ∧ ∀ sub, TypePos n sub → P sub) ↔
      P n ∧ ∀ c, Nested n c → P c ∧ ∀ sub, TypePos c sub → P sub := by
  refine and_congr_right fun _ => ⟨fun h c hc => ⟨h c hc.pos, fun s hs => h s (.trans hc.pos hs)⟩, ?_⟩
  intro h sub hs
  obtain ⟨c, hc, rfl | h2⟩ := typePos_nested hs
  · exact (h c hc).1
  · exact (h c hc).2 sub h2

theorem nested_size {n c : Node} (h : Nested n c) : sizeOf c < sizeOf n := by
  cases h with
  | items _ hm _ => exact size_entry hm
  | property _ h1 _ h2 => have := size_entry h1; have := size_entry h2; simp only at *; omega
  | facet _ _ h1 _ h2 h3 =>
    have := size_entry h1; have := size_entry h2; have := size_entry h3; simp only at *; omega

private theorem bare_mild {t : DT} (hb : Bare t) (hc : t.kind = .include ∨ t.kind = classify t.type) :
    Mild t ∧ Tidy t := by
  cases t with
  | basic i s x =>
    cases i with
    | false =>
      rcases hc with hc | hc
      · cases hc
      · obtain rfl := eq_nil_of_classify hc.symm
        exact ⟨.nil, .basic fun _ => rfl⟩
    | true =>
      obtain ⟨es, o⟩ := x
      have : es = [] := hb.extra
      subst this
      exact ⟨.incl, .basic nofun⟩
  | ext h b fs ps it =>
    have hk : classify h.schema = b.kind := by
      rcases hc with hc | hc
      · cases b <;> cases hc
      · exact hc.symm
    have hx : h.extra.ents = [] := hb.extra
    have he : h.example = none := hb.exampleOf
    have hes : h.examples.ents = [] := hb.examples
    have hps : ps.ents = [] := hb.properties
    have hit : it = none := hb.items
    have hbody := hb.body b rfl
    refine ⟨.ext hk ?_ (fun p hp => ?_) hb.annotations hb.xml hb.exampleOf hb.examples hb.facets
      (fun e h => ?_) (fun t h => ?_), .ext hk (fun p hp => ?_) (fun e h => ?_) (fun e h => ?_)
      (fun e h => ?_) (fun t h => ?_)⟩
    · cases b <;> simp only [isDefaultBody, WritableBody] at hbody ⊢
      · simp [hbody, IsSmall]
      · simp [hbody, IsSmall]
      · simp [hbody, IsSmall]
      · simp [hbody, IsSmall]
      · simp [hbody]
    all_goals first
      | (rw [hx] at hp; cases hp)
      | (rw [hps] at h; cases h)
      | (rw [hit] at h; cases h)
      | (rw [he] at h; cases h)
      | (rw [hes] at h; cases h)

private theorem anns_nil {flag : Bool} {m : OM String Ann} (h : ParsedAnns flag m)
    (hw : WritableAnns m) : m.ents = [] := by
  cases hm : m.ents with
  | nil => rfl
  | cons e es =>
    have h1 := (h.values e (by rw [hm]; simp)).1
    rw [(hw.2 e (by rw [hm]; simp)).2.1] at h1
    cases h1

private theorem flat_nil {ps : List (Node × Node)} {s : String} :
    (allVals s ps).flatMap mapEntries = [] ↔ ∀ p ∈ ps, p.1.value = s → mapEntries p.2 = [] := by
  rw [List.flatMap_eq_nil_iff]
  constructor
  · intro h p hp hv; exact h p.2 (mem_allVals.mpr ⟨p, hp, hv, rfl⟩)
  · intro h v hv
    obtain ⟨p, hp, h1, rfl⟩ := mem_allVals.mp hv
    exact h p hp h1

private theorem mem_flat {ps : List (Node × Node)} {s : String} {q : Node × Node} :
    q ∈ (allVals s ps).flatMap mapEntries ↔ ∃ p ∈ ps, p.1.value = s ∧ q ∈ mapEntries p.2 := by
  rw [List.mem_flatMap]
  constructor
  · rintro ⟨v, hv, hq⟩
    obtain ⟨p, hp, h1, rfl⟩ := mem_allVals.mp hv
    exact ⟨p, hp, h1, hq⟩
  · rintro ⟨p, hp, h1, hq⟩
    exact ⟨p.2, mem_allVals.mpr ⟨p, hp, h1, rfl⟩, hq⟩

private theorem hdr_canon {kd : Kind} {h : Hdr} (hh : ParsedHdr kd h) (hw : WritableHdr kd h) :
    Spec.Hdr.canon h = { h with xml := h.xml.map fun _ => XML.new } := by
  have hex : ∀ e, ParsedExample kd e → WritableExample kd e → canonExample e = e := by
    intro e h1 h2
    have h3 := anns_nil h1.annotations h2.annotations
    have h4 := h1.annotations.omap
    have h5 := h1.extraFlag
    obtain ⟨k, dn, ds, ⟨an, ao⟩, v, st, ⟨es, b⟩⟩ := e
    cases h3; cases h4; cases h5
    rfl
  have h1 : (⟨extraWithDefault h, true⟩ : OM Scalar Node) = h.extra := by
    unfold extraWithDefault; rw [hh.dflt]
    have := hh.extra.omap
    cases hx : h.extra with
    | mk es o => rw [hx] at this; cases this; rfl
  have h2 : canonAnns true h.annotations = h.annotations := by
    have h3 := anns_nil hh.annotations hw.annotations
    have h4 := hh.annotations.omap
    cases hx : h.annotations with
    | mk es o => rw [hx] at h3 h4; cases h3; cases h4; rfl
  have h4 : (Spec.Hdr.canon h).enum = h.enum := by
    cases he : h.enum with
    | none => simp [Spec.Hdr.canon, he]
    | some l =>
      cases l with
      | nil => exact absurd rfl (hh.enum _ he).1
      | cons => simp [Spec.Hdr.canon, he]
  have h5 : h.example.map canonExample = h.example := by
    cases he : h.example with
    | none => rfl
    | some e => simp only [Option.map_some]; rw [hex e (hh.example e he).2 (hw.example e he).2]
  have h6 : (⟨h.examples.ents.map fun e => (e.1, canonExample e.2), false⟩ : OM String Example) =
      h.examples := by
    have hfl := hh.examplesFlag
    have hmap : h.examples.ents.map (fun e => (e.1, canonExample e.2)) = h.examples.ents := by
      conv => rhs; rw [← List.map_id h.examples.ents]
      apply List.map_congr_left
      intro e he
      rw [hex _ (hh.examples e he) (hw.examplesEach e he)]
      rfl
    rw [hmap]
    cases hx : h.examples with
    | mk es o => rw [hx] at hfl; cases hfl; rfl
  have h7 := hh.dflt
  unfold Spec.Hdr.canon at h4 ⊢
  simp only [Hdr.mk.injEq, true_and]
  exact ⟨h1, h2, h7.symm, h4, h5, h6⟩

theorem canonTypes_id {m : OM String DT} (hm : m.omap = false) :
    canonTypes false m = m ↔ ∀ e ∈ m.ents, canon e.2 = e.2 := by
  obtain ⟨es, o⟩ := m
  cases hm
  rw [canonTypes, canonEnts_eq]
  simp only [OM.mk.injEq, and_true]
  constructor
  · intro h e he
    have : ∀ (l : List (String × DT)), l.map (fun e => (e.1, canon e.2)) = l →
        ∀ e ∈ l, canon e.2 = e.2 := by
      intro l
      induction l with
      | nil => intro _ e he; cases he
      | cons a l ih =>
        intro h e he
        rw [List.map_cons, List.cons.injEq] at h
        rcases List.mem_cons.mp he with rfl | he
        · exact congrArg Prod.snd h.1
        · exact ih h.2 e he
    exact this es h e he
  · intro h
    conv => rhs; rw [← List.map_id es]
    apply List.map_congr_left
    intro e he
    rw [h e he]; rfl

private theorem xml_new_iff {X : Xyml} {ps : List (Node × Node)} {x : XML}
    (h : loadXML X (.map ps) = .ok x) : x = XML.new ↔ ps = [] := by
  constructor
  · rintro rfl
    obtain ⟨h1, h2, h3, h4, h5⟩ := C31_xml_settings X ps _ h
    have hb : ∀ s, boolSetting X s ps none → ∀ p ∈ ps, p.1.value ≠ s := by
      intro s hs p hp hv
      unfold boolSetting at hs
      have : lastVal s ps ≠ none := by
        simp only [lastVal, lastBy, ne_eq, Option.map_eq_none_iff, List.find?_eq_none,
          List.mem_reverse, not_forall]
        exact ⟨p, hp, by simp [hv]⟩
      split at hs
      · exact hs.2 rfl
      · exact this (by assumption)
    have ht : ∀ s, textSetting s ps none → ∀ p ∈ ps, p.1.value ≠ s := by
      intro s hs p hp hv
      unfold textSetting at hs
      have : lastVal s ps ≠ none := by
        simp only [lastVal, lastBy, ne_eq, Option.map_eq_none_iff, List.find?_eq_none,
          List.mem_reverse, not_forall]
        exact ⟨p, hp, by simp [hv]⟩
      split at hs
      · cases hs.2
      · exact this (by assumption)
    obtain ⟨es, h6, h7⟩ := C53_xml_extra X ps _ h
    have h8 : es = [] := lastWins_nil_iff.mp h7.symm
    rw [forall2_nil_iff h6, List.filter_eq_nil_iff] at h8
    rw [List.eq_nil_iff_forall_not_mem]
    intro p hp
    have h9 := h8 p hp
    simp [xmlKeys, hb _ h1 p hp, hb _ h2 p hp, ht _ h3 p hp, ht _ h4 p hp, ht _ h5 p hp] at h9
  · rintro rfl
    cases h
    rfl

theorem type_survives {X : Xyml} (hX : Lawful X) (k : Nat) : ∀ n, sizeOf n < k → ∀ t,
    hat X n = .ok t → TypePlain n → Tidy t ∧ (Writable t ↔ TypeKept X n) ∧
      (Writable t → (canon t = t ↔ TypeNoXml n)) := by
  induction k with
  | zero => intro n h; omega
  | succ k ih =>
    intro n hsz t ht hpl
    have hpar := hat_parsed hX ht
    have ih : ∀ c u, Nested n c → hat X c = .ok u → Tidy u ∧ (Writable u ↔ TypeKept X c) ∧
        (Writable u → (canon u = u ↔ TypeNoXml c)) := by
      intro c u hc hu
      have := nested_size hc
      exact ih c (by omega) u hu ((everywhere_iff.mp hpl).2 c hc)
    cases n with
    | seq a b => rw [C16_sequence_rejected] at ht; cases ht
    | scalar tag s =>
      have hno : ∀ sub, ¬ TypePos (.scalar tag s) sub := by
        intro sub hs
        obtain ⟨c, hc, _⟩ := typePos_nested hs
        cases hc
      have hm : Mild t ∧ Tidy t := by
        by_cases h1 : tag = "!!str"
        · subst h1
          obtain ⟨u, h2, h3, h4, h5⟩ := C14_type_expression X s
          rw [show Node.scalar "!!str" s = Node.str s from rfl, h2] at ht
          cases ht
          exact bare_mild h5 (.inr (by rw [h3, h4]))
        · unfold hat at ht
          rw [if_neg h1] at ht
          split at ht
          · cases ht; exact ⟨.incl, .basic nofun⟩
          · cases ht
      have hp := hpar.plain hm.1
      exact ⟨hm.2, ⟨fun _ => ⟨trivial, fun s hs => absurd hs (hno s)⟩, fun _ => hp.writable⟩,
        fun _ => ⟨fun _ => ⟨trivial, fun s hs => absurd hs (hno s)⟩, fun _ => hp.canon⟩⟩
    | map ps =>
      have hkd := C15_kind_of_mapping X ps t ht
      obtain ⟨hu, htype, hinner, hexs⟩ := hpl.1
      have hcl : t.kind = classify t.type := by
        cases hf : ps.filter isTypeEntry with
        | nil => exact (C17_no_entry X ps t ht hf).2
        | cons e l =>
          cases l with
          | nil => exact (C17_one_entry X ps t e ht hf).2
          | cons e' l => rw [hf] at htype; simp at htype
      have hok : ∀ p ∈ ps, FacetOk X t.kind p.1 p.2 (facetOf t.kind p) := by
        obtain ⟨kd, h1, h2⟩ := hat_map_acc.mp ⟨t, ht⟩
        rw [hkd] at h1
        cases h1
        exact fun p hp => (h2 p hp).1
      unfold TypeKept TypeNoXml
      rw [everywhere_iff, everywhere_iff]
      cases t with
      | basic i s x =>
        have hno : ∀ c, ¬ Nested (.map ps) c := by
          intro c hc
          cases hc with
          | items h1 => rw [hkd] at h1; cases i <;> cases h1
          | property h1 => rw [hkd] at h1; cases i <;> cases h1
          | facet h1 h2 => rw [hkd] at h1; cases h1; cases i <;> cases h2
        have hnone : ∀ {P : Node → Prop}, ∀ c, Nested (.map ps) c → P c ∧ ∀ sub, TypePos c sub → P sub :=
          fun c hc => absurd hc (hno c)
        have hxml : DefNoXml (.map ps) := by
          intro kd h1 h2
          rw [hkd] at h1; cases h1; cases i <;> cases h2
        have hcan : canon (.basic i s x) = .basic i s x := by
          cases hpar with
          | basic hx =>
            obtain ⟨es, o⟩ := x
            cases hx.omap
            rw [canon]
        have hx := C18_extra_facets X ps _ ht
        cases i with
        | false =>
          obtain rfl := eq_nil_of_classify (show classify s = .nil from hcl.symm)
          refine ⟨.basic fun _ => rfl, ⟨fun _ => ⟨?_, hnone⟩, fun _ => ?_⟩, fun _ =>
            ⟨fun _ => ⟨hxml, hnone⟩, fun _ => hcan⟩⟩
          · intro kd h1
            rw [hkd] at h1
            cases h1
            exact ⟨nofun, nofun⟩
          · cases hpar with
            | basic hx =>
              refine .nil ⟨hx.distinct, fun p hp => ?_⟩
              obtain ⟨k, h1, h2⟩ := hx.keys p hp
              exact ⟨k, h1, h2, .inl rfl⟩
        | true =>
          have hw : Writable (.basic true s x) ↔ x.ents = [] := by
            constructor
            · intro h; cases h; rfl
            · intro h; obtain ⟨es, o⟩ := x; cases h; exact .incl
          refine ⟨.basic nofun, ?_, fun _ => ⟨fun _ => ⟨hxml, hnone⟩, fun _ => hcan⟩⟩
          rw [hw]
          have hx : x.ents = lastWins ((ps.filter (isExtra .include)).map fun p =>
            (.str p.1.value, p.2)) := hx
          rw [hx, lastWins_nil_iff, List.map_eq_nil_iff, List.filter_eq_nil_iff]
          have hty : ∀ p : Node × Node, ¬ isExtra .include p = true ↔ isTypeEntry p = true := by
            intro p
            simp only [isExtra, isTypeEntry, facetNames, isBasic]
            by_cases h1 : p.1.value = "type" <;> simp [h1]
          constructor
          · intro hall
            refine ⟨?_, hnone⟩
            intro kd h1
            rw [hkd] at h1
            cases h1
            exact ⟨fun _ p hp => (hty p).mp (hall p hp), nofun⟩
          · intro hall p hp
            exact (hty p).mpr ((hall.1 _ hkd).1 rfl p hp)
      | ext h b fs qs it =>
        have hb : isBasic b.kind = false := isBasic_ext b
        have hkd : kindOf ps = some b.kind := hkd
        have hcl : b.kind = classify h.schema := hcl
        have hok : ∀ p ∈ ps, FacetOk X b.kind p.1 p.2 (facetOf b.kind p) := hok
        cases hpar with
        | ext hh hbody hf1 hf2 hf3 hf4 hp1 hp2 hp3 hp4 hp5 hi1 hi2 =>
        have common : ∀ p ∈ ps, ∀ {name : String} {f : Facet}, p.1.value = name →
            name ∈ facetNames.common → facetNamed.lookup name = some f →
            FacetOk X b.kind p.1 p.2 f := by
          intro p hp name f h1 h2 h3
          have := hok p hp
          rwa [facetOf_eq h1 (common_contains hb h2) h3] at this
        -- facet definitions
        have hfacets : fs.ents = [] ↔ ∀ p ∈ ps, p.1.value = "facets" → mapEntries p.2 = [] := by
          obtain ⟨_, _, es, h1, h2⟩ := C52_facets X ps _ ht hb
          rw [show fs.ents = lastWins es from congrArg OM.ents h2, lastWins_nil_iff, forall2_nil_iff h1,
            flat_nil]
        -- annotations
        have hanns : h.annotations.ents = [] ↔ ∀ p ∈ ps, startsWith '(' p.1 = false := by
          obtain ⟨es, h1, h2⟩ := C52_annotations X ps _ ht hb
          rw [show h.annotations.ents = lastWins es from h2, lastWins_nil_iff, forall2_nil_iff h1,
            List.filter_eq_nil_iff]
          simp
        -- examples
        have hexample : (∀ e, h.example = some e → TidyExample e) ∧
            ((∀ e, h.example = some e → b.kind ≠ .any ∧ WritableExample b.kind e) ↔
              ∀ p ∈ ps, p.1.value = "example" → ExampleKept X p.2) := by
          have h1 := C52_example X ps _ ht hb
          cases hl : lastVal "example" ps with
          | none =>
            rw [hl] at h1
            have h1 : h.example = none := h1
            rw [h1]
            refine ⟨nofun, fun _ p hp hv => ?_, fun _ => nofun⟩
            rw [(uniq_lastVal hu _ p.2).mpr ⟨p, hp, hv, rfl⟩] at hl
            cases hl
          | some v =>
            rw [hl] at h1
            obtain ⟨e, h2, h3⟩ := h1
            have h2 : h.example = some e := h2
            obtain ⟨p, hp, hv, rfl⟩ := (uniq_lastVal hu _ v).mp hl
            obtain ⟨h4, h5⟩ := hh.example e h2
            have h6 := common p hp hv (f := .example) (by decide) (by decide)
            obtain ⟨h7, h8⟩ := example_survives hX (hinner p hp (.inl hv)) h3 h6.2 h5
            rw [h2]
            refine ⟨fun e' he => by cases he; exact h7, fun hw q hq hqv => ?_, fun hw e' he => ?_⟩
            · have := (uniq_lastVal hu _ q.2).mpr ⟨q, hq, hqv, rfl⟩
              rw [hl] at this
              rw [← Option.some.inj this]
              exact h8.mp (hw e rfl).2
            · cases he
              exact ⟨h4, h8.mpr (hw p hp hv)⟩
        have hexamples : (∀ e ∈ h.examples.ents, TidyExample e.2) ∧
            ((∀ e ∈ h.examples.ents, WritableExample b.kind e.2) ↔
              ∀ p ∈ ps, p.1.value = "examples" → ∀ q ∈ mapEntries p.2, ExampleKept X q.2) := by
          obtain ⟨_, _, es, h1, h2⟩ := C52_examples X ps _ ht hb
          have huq := uniq_inner hu "examples" fun p hp hv => hinner p hp (.inr (.inl hv))
          have h2 : h.examples.ents = es := by
            refine Eq.trans (show h.examples.ents = lastWins es from h2) (lastWins_id ?_)
            rw [forall2_keys h1 fun _ _ h => h.1]
            exact huq.2
          have key : ∀ q e, q ∈ (allVals "examples" ps).flatMap mapEntries → e ∈ es →
              IsExample X b.kind q.2 e.2 →
              TidyExample e.2 ∧ (WritableExample b.kind e.2 ↔ ExampleKept X q.2) := by
            intro q e hq he hi
            obtain ⟨p, hp, hv, hq⟩ := mem_flat.mp hq
            exact example_survives hX (hexs p hp hv q hq) hi
              ((common p hp hv (f := .examples) (by decide) (by decide)).2 q hq)
              (hh.examples e (h2 ▸ he))
          rw [h2]
          refine ⟨fun e he => ?_, fun hw p hp hv q hq => ?_, fun hw e he => ?_⟩
          · obtain ⟨q, hq, _, h3⟩ := forall2_right h1 e he
            exact (key q e hq he h3).1
          · have hq' := mem_flat.mpr ⟨p, hp, hv, hq⟩
            obtain ⟨e, he, _, h3⟩ := forall2_left h1 q hq'
            exact (key q e hq' he h3).2.mp (hw e he)
          · obtain ⟨q, hq, _, h3⟩ := forall2_right h1 e he
            obtain ⟨p, hp, hv, hq'⟩ := mem_flat.mp hq
            exact (key q e hq he h3).2.mpr (hw p hp hv q hq')
        -- numbers
        have hnum := body_survives hX hu ht hbody
        -- properties
        have hprops : (∀ e ∈ qs.ents, ∃ c, Nested (.map ps) c ∧ hat X c = .ok e.2) ∧
            ∀ p ∈ ps, p.1.value = "properties" → b.kind = .object → ∀ q ∈ mapEntries p.2,
              ∃ e ∈ qs.ents, hat X q.2 = .ok e.2 := by
          by_cases hobj : b.kind = .object
          · obtain ⟨hmap, _, es, h1, h2⟩ := C47_properties X ps _ ht hobj
            have huq := uniq_inner hu "properties" fun p hp hv => hinner p hp (.inr (.inr hv))
            have h2 : qs.ents = es := by
              refine Eq.trans (show qs.ents = lastWins es from h2) (lastWins_id ?_)
              rw [forall2_keys h1 fun _ _ h => h.1]
              exact huq.2
            rw [h2]
            constructor
            · intro e he
              obtain ⟨q, hq, _, h3, _⟩ := forall2_right h1 e he
              obtain ⟨p, hp, hv, hq⟩ := mem_flat.mp hq
              refine ⟨q.2, ?_, h3⟩
              have hm := hmap p.2 (mem_allVals.mpr ⟨p, hp, hv, rfl⟩)
              obtain ⟨pk, pv⟩ := p
              cases pv with
              | map rs => exact .property (hobj ▸ hkd) hp hv hq
              | scalar => cases hm
              | seq => cases hm
            · intro p hp hv _ q hq
              obtain ⟨e, he, _, h3, _⟩ := forall2_left h1 q (mem_flat.mpr ⟨p, hp, hv, hq⟩)
              exact ⟨e, he, h3⟩
          · have : qs.ents = [] := Classical.byContradiction fun hne => hobj (hp3 hne)
            rw [this]
            exact ⟨nofun, fun _ _ _ h => absurd h hobj⟩
        -- items
        have hitems : (∀ u, it = some u → ∃ c, Nested (.map ps) c ∧ hat X c = .ok u) ∧
            ∀ p ∈ ps, p.1.value = "items" → b.kind = .array → ∃ u, it = some u ∧ hat X p.2 = .ok u := by
          by_cases harr : b.kind = .array
          · obtain ⟨_, h1⟩ := C52_items X ps _ ht harr
            cases hl : lastVal "items" ps with
            | none =>
              rw [hl] at h1
              have h1 : it = none := h1
              rw [h1]
              refine ⟨nofun, fun p hp hv => ?_⟩
              rw [(uniq_lastVal hu _ p.2).mpr ⟨p, hp, hv, rfl⟩] at hl
              cases hl
            | some v =>
              rw [hl] at h1
              obtain ⟨u, h2, h3⟩ := h1
              have h3 : it = some u := h3
              obtain ⟨p, hp, hv, rfl⟩ := (uniq_lastVal hu _ v).mp hl
              rw [h3]
              refine ⟨fun u' hu' => ?_, fun q hq hqv _ => ⟨u, rfl, ?_⟩⟩
              · cases hu'
                exact ⟨p.2, .items (harr ▸ hkd) hp hv, h2⟩
              · have := (uniq_lastVal hu _ q.2).mpr ⟨q, hq, hqv, rfl⟩
                rw [hl] at this
                rw [← Option.some.inj this]
                exact h2
          · have : it = none := Classical.byContradiction fun hne => harr (hi1 hne)
            rw [this]
            exact ⟨nofun, fun _ _ _ h => absurd h harr⟩
        -- nested definitions other than facet definitions
        have hnest : fs.ents = [] → ∀ c, Nested (.map ps) c → ∃ u, hat X c = .ok u ∧
            ((∃ e ∈ qs.ents, e.2 = u) ∨ it = some u) := by
          intro hf c hc
          cases hc with
          | items h1 h2 h3 =>
            rw [hkd] at h1
            obtain ⟨u, h4, h5⟩ := hitems.2 _ h2 h3 (Option.some.inj h1)
            exact ⟨u, h5, .inr h4⟩
          | property h1 h2 h3 h4 =>
            rw [hkd] at h1
            obtain ⟨e, he, h5⟩ := hprops.2 _ h2 h3 (Option.some.inj h1) _ h4
            exact ⟨e.2, h5, .inl ⟨e, he, rfl⟩⟩
          | facet _ _ h3 h4 h5 _ =>
            have := hfacets.mp hf _ h3 h4
            change _ = [] at this
            simp only [mapEntries] at this
            rw [this] at h5
            cases h5
        have hextra : ∀ p ∈ h.extra.ents, ∀ s, p.1 = .str s → PlainKey s := by
          intro p hp s hs
          have hx : h.extra.ents = lastWins ((ps.filter (isExtra b.kind)).map fun p =>
            (.str p.1.value, p.2)) := C18_extra_facets X ps _ ht
          rw [hx] at hp
          obtain ⟨q, hq, rfl⟩ := List.mem_map.mp (mem_lastWins hp)
          obtain ⟨hq1, hq2⟩ := List.mem_filter.mp hq
          have hs : q.1.value = s := by injection hs
          have hstr := hu.1 q hq1
          constructor
          · intro h0
            have := hok q hq1
            rw [facetOf_extra_iff.mpr hq2] at this
            rcases this with h1 | h1
            · rw [hb] at h1; cases h1
            · exact h1 (by rw [str_of_isStr hstr, hs, h0])
          · intro h0
            have h1 : startsWith '(' q.1 = true := by simp [startsWith, hstr, hs, h0]
            simp [isExtra, hb, h1] at hq2
        have htidy : Tidy (.ext h b fs qs it) := by
          refine .ext hcl.symm hextra hexample.1 hexamples.1 (fun e he => ?_) (fun u hu' => ?_)
          · obtain ⟨c, hc, h1⟩ := hprops.1 e he
            exact (ih c e.2 hc h1).1
          · obtain ⟨c, hc, h1⟩ := hitems.1 u hu'
            exact (ih c u hc h1).1
        refine ⟨htidy, ⟨fun hw => ?_, fun hk => ?_⟩, fun hw => ?_⟩
        · cases hw with
          | ext wh wb wf1 wf2 wf3 wf4 wp1 wp2 wp3 wp4 wi1 wi2 =>
          have hfs : fs.ents = [] := by
            apply Classical.byContradiction
            intro hne
            have := wf1 hne
            rw [hf1] at this
            cases this
          have hann := anns_nil hh.annotations wh.annotations
          refine ⟨fun kd h1 => ?_, fun c hc => ?_⟩
          · rw [hkd] at h1
            cases h1
            exact ⟨fun h1 => absurd (h1 ▸ hb) (by decide), fun _ => ⟨hanns.mp hann, hfacets.mp hfs,
              hexample.2.mp wh.example, hexamples.2.mp wh.examplesEach, hnum.mp wb⟩⟩
          · obtain ⟨u, h1, ⟨e, he, rfl⟩ | h2⟩ := hnest hfs c hc
            · exact (ih c _ hc h1).2.1.mp (wp4 e he)
            · exact (ih c _ hc h1).2.1.mp (wi2 u h2)
        · obtain ⟨hk, hsub⟩ := hk
          have hk := (hk _ hkd).2 hb
          have hfs := hfacets.mpr hk.facets
          have hann := hanns.mpr hk.annotations
          refine .ext ⟨hcl.symm, ?_, ⟨hh.annotations.distinct, fun e he => ?_⟩,
            fun l hl => (hh.enum l hl).2, hexample.2.mpr hk.example, fun _ => hh.examplesFlag,
            hh.examplesDistinct, hexamples.2.mpr hk.examples⟩ (hnum.mpr hk.unsigned)
            (fun hne => absurd hfs hne) hf2 (fun f hf => ?_) (fun f hf => ?_)
            (fun hne => ⟨hp3 hne, hp1⟩) hp2 hp4 (fun e he => ?_) hi1 (fun u hu' => ?_)
          · unfold extraWithDefault
            rw [hh.dflt]
            exact ⟨hh.extra.distinct, fun p hp => by
              obtain ⟨s, h1, h2⟩ := hh.extra.keys p hp
              exact ⟨s, h1, h2, .inr (hextra p hp s h1)⟩⟩
          · rw [hann] at he; cases he
          · rw [hfs] at hf; cases hf
          · rw [hfs] at hf; cases hf
          · obtain ⟨c, hc, h1⟩ := hprops.1 e he
            exact (ih c _ hc h1).2.1.mpr (hsub c hc)
          · obtain ⟨c, hc, h1⟩ := hitems.1 u hu'
            exact (ih c _ hc h1).2.1.mpr (hsub c hc)
        · cases hw with
          | ext wh wb wf1 wf2 wf3 wf4 wp1 wp2 wp3 wp4 wi1 wi2 =>
          have hfs : fs = ⟨[], true⟩ := by
            obtain ⟨es, o⟩ := fs
            cases hf1
            cases es with
            | nil => rfl
            | cons e es => cases wf1 (by simp)
          have hxml : (h.xml.map fun _ => XML.new) = h.xml ↔
              ∀ p ∈ ps, p.1.value = "xml" → mapEntries p.2 = [] := by
            have h1 := C31_type_xml X ps _ ht hb
            cases hl : lastVal "xml" ps with
            | none =>
              rw [hl] at h1
              have h1 : h.xml = none := h1
              rw [h1]
              refine ⟨fun _ p hp hv => ?_, fun _ => rfl⟩
              rw [(uniq_lastVal hu _ p.2).mpr ⟨p, hp, hv, rfl⟩] at hl
              cases hl
            | some v =>
              rw [hl] at h1
              obtain ⟨x, rs, rfl, h2, h3⟩ := h1
              have h3 : h.xml = some x := h3
              obtain ⟨p, hp, hv, h4⟩ := (uniq_lastVal hu _ _).mp hl
              rw [h3, Option.map_some, Option.some.injEq, eq_comm, xml_new_iff h2]
              constructor
              · rintro rfl q hq hqv
                have := (uniq_lastVal hu _ q.2).mpr ⟨q, hq, hqv, rfl⟩
                rw [hl] at this
                rw [← Option.some.inj this]
                rfl
              · intro hall
                have := hall p hp hv
                rw [h4] at this
                exact this
          have hfc : canonFacets (⟨[], true⟩ : OM String (OM String DT)) = ⟨[], true⟩ := by
            rw [canonFacets, canonFacetEnts]
          have hhdr : ({ h with xml := h.xml.map fun _ => XML.new } : Hdr) = h ↔
              (h.xml.map fun _ => XML.new) = h.xml := by
            constructor
            · intro h1; exact congrArg Hdr.xml h1
            · intro h1; rw [h1]
          have hit : canonItems it = it ↔ ∀ u, it = some u → canon u = u := by
            cases it with
            | none => rw [canonItems]; exact ⟨fun _ => nofun, fun _ => rfl⟩
            | some u =>
              rw [canonItems, Option.some.injEq]
              exact ⟨fun h1 u' h2 => by cases h2; exact h1, fun h1 => h1 u rfl⟩
          rw [canon, hdr_canon hh wh, hfs, hfc, DT.ext.injEq, canonTypes_id hp1, hit, hhdr, hxml]
          constructor
          · rintro ⟨h1, _, _, h2, h3⟩
            refine ⟨fun _ _ _ => h1, fun c hc => ?_⟩
            obtain ⟨u, h4, ⟨e, he, rfl⟩ | h5⟩ := hnest (by rw [hfs]) c hc
            · exact ((ih c _ hc h4).2.2 (wp4 e he)).mp (h2 e he)
            · exact ((ih c _ hc h4).2.2 (wi2 u h5)).mp (h3 u h5)
          · rintro ⟨h1, h2⟩
            refine ⟨h1 _ hkd hb, rfl, rfl, fun e he => ?_, fun u hu' => ?_⟩
            · obtain ⟨c, hc, h3⟩ := hprops.1 e he
              exact ((ih c _ hc h3).2.2 (wp4 e he)).mpr (h2 c hc)
            · obtain ⟨c, hc, h3⟩ := hitems.1 u hu'
              exact ((ih c _ hc h3).2.2 (wi2 u hu')).mpr (h2 c hc)


/-! ### Checking the conditions on concrete documents -/

/-- The definitions directly in a definition. -/
def nestedNodes : Node → List Node
  | .map ps =>
    match kindOf ps with
    | none => []
    | some kd =>
      (if kd = .array then (ps.filter fun p => p.1.value == "items").map Prod.snd else []) ++
      (if kd = .object then (ps.filter fun p => p.1.value == "properties").flatMap fun p =>
        (mapEntries p.2).map Prod.snd else []) ++
      (if isBasic kd = false then (ps.filter fun p => p.1.value == "facets").flatMap fun p =>
        (mapEntries p.2).flatMap fun q => (mapEntries q.2).map Prod.snd else [])
  | _ => []

theorem mem_nestedNodes {n c : Node} (h : Nested n c) : c ∈ nestedNodes n := by
  cases h with
  | items h1 h2 h3 =>
    simp only [nestedNodes, h1, List.mem_append, if_true, List.mem_map, List.mem_filter, beq_iff_eq]
    exact .inl (.inl ⟨_, ⟨h2, h3⟩, rfl⟩)
  | property h1 h2 h3 h4 =>
    simp only [nestedNodes, h1, List.mem_append, if_true, List.mem_flatMap, List.mem_map,
      List.mem_filter, beq_iff_eq]
    exact .inl (.inr ⟨_, ⟨h2, h3⟩, _, h4, rfl⟩)
  | facet h1 h2 h3 h4 h5 h6 =>
    simp only [nestedNodes, h1, List.mem_append, h2, if_true, List.mem_flatMap, List.mem_map,
      List.mem_filter, beq_iff_eq]
    exact .inr ⟨_, ⟨h3, h4⟩, _, h5, _, h6, rfl⟩

/-- Check a definition and all definitions in it, down to depth `k`. -/
def allDefs (P : Node → Bool) : Nat → Node → Bool
  | 0, _ => false
  | k + 1, n => P n && (nestedNodes n).all (allDefs P k)

theorem allDefs_sound {P : Node → Prop} {p : Node → Bool} (hp : ∀ n, p n = true → P n) (k : Nat) :
    ∀ n, allDefs p k n = true → P n ∧ ∀ sub, TypePos n sub → P sub := by
  induction k with
  | zero => intro n h; cases h
  | succ k ih =>
    intro n h
    obtain ⟨h1, h2⟩ := Bool.and_eq_true_iff.mp h
    exact everywhere_iff.mpr ⟨hp n h1, fun c hc =>
      ih c (List.all_eq_true.mp h2 c (mem_nestedNodes hc))⟩

instance (ps : List (Node × Node)) : Decidable (UniqueKeys ps) :=
  inferInstanceAs (Decidable (_ ∧ _))

instance : (n : Node) → Decidable (DefPlain n)
  | .map ps => inferInstanceAs (Decidable (UniqueKeys ps ∧ (ps.filter isTypeEntry).length ≤ 1 ∧
      (∀ p ∈ ps, p.1.value = "example" ∨ p.1.value = "examples" ∨ p.1.value = "properties" →
        UniqueKeys (mapEntries p.2)) ∧
      ∀ p ∈ ps, p.1.value = "examples" → ∀ q ∈ mapEntries p.2, UniqueKeys (mapEntries q.2)))
  | .scalar _ _ | .seq _ _ => isTrue trivial

instance (X : Xyml) (v : Node) : Decidable (ExampleKept X v) :=
  decidable_of_iff (isMap v = true ∧ (∀ p ∈ mapEntries v, startsWith '(' p.1 = false) ∧
      ∃ p ∈ mapEntries v, p.1.value ≠ "value" ∧
        (p.1.value = "strict" → X.toBool p.2 = some false))
    ⟨fun ⟨h1, h2, h3⟩ => ⟨h1, h2, h3⟩, fun ⟨h1, h2, h3⟩ => ⟨h1, h2, h3⟩⟩

instance (X : Xyml) (kd : Kind) (ps : List (Node × Node)) : Decidable (MapKept X kd ps) :=
  decidable_of_iff ((∀ p ∈ ps, startsWith '(' p.1 = false) ∧
      (∀ p ∈ ps, p.1.value = "facets" → (mapEntries p.2).isEmpty = true) ∧
      (∀ p ∈ ps, p.1.value = "example" → ExampleKept X p.2) ∧
      (∀ p ∈ ps, p.1.value = "examples" → ∀ q ∈ mapEntries p.2, ExampleKept X q.2) ∧
      ∀ p ∈ ps, p.1.value ∈ unsignedKeys kd → (X.toInt p.2).any (0 ≤ ·) = true)
    (by
      simp only [List.isEmpty_iff, Option.any_eq_true, decide_eq_true_eq]
      exact ⟨fun ⟨h1, h2, h3, h4, h5⟩ => ⟨h1, h2, h3, h4, h5⟩,
        fun ⟨h1, h2, h3, h4, h5⟩ => ⟨h1, h2, h3, h4, h5⟩⟩)

instance (X : Xyml) : (n : Node) → Decidable (DefKept X n)
  | .map ps => decidable_of_iff ((match kindOf ps with
      | none => true
      | some kd => decide ((kd = .include → ∀ p ∈ ps, isTypeEntry p = true) ∧
          (isBasic kd = false → MapKept X kd ps))) = true)
    (by
      unfold DefKept
      split
      · rename_i h
        exact ⟨fun _ kd hk => by simp [h] at hk, fun _ => rfl⟩
      · rename_i kd h
        simp only [decide_eq_true_eq, h, Option.some.injEq, forall_eq', List.isEmpty_iff])
  | .scalar _ _ | .seq _ _ => isTrue trivial

instance : (n : Node) → Decidable (DefNoXml n)
  | .map ps => decidable_of_iff ((match kindOf ps with
      | none => true
      | some kd => decide (isBasic kd = false →
          ∀ p ∈ ps, p.1.value = "xml" → (mapEntries p.2).isEmpty = true)) = true)
    (by
      unfold DefNoXml
      split
      · rename_i h
        exact ⟨fun _ kd hk => by simp [h] at hk, fun _ => rfl⟩
      · rename_i kd h
        simp only [decide_eq_true_eq, h, Option.some.injEq, forall_eq', List.isEmpty_iff])
  | .scalar _ _ | .seq _ _ => isTrue trivial

/-- A definition with a definition in it, an example that survives and XML settings. -/
def keptDef : Node :=
  .map [(.str "type", .str "object"),
    (.str "properties", .map [(.str "name", .map [(.str "type", .str "string"),
      (.str "example", .map [(.str "value", .str "Rex"), (.str "displayName", .str "a dog")])])]),
    (.str "xml", .map [(.str "name", .str "pet")])]

/-- The same with the example as a plain value, and without the XML settings. -/
def lostDef : Node :=
  .map [(.str "type", .str "object"),
    (.str "properties", .map [(.str "name", .map [(.str "type", .str "string"),
      (.str "example", .str "Rex")])])]

theorem keptDef_plain : TypePlain keptDef :=
  allDefs_sound (p := fun n => decide (DefPlain n)) (fun _ h => of_decide_eq_true h) 3 keptDef
    (by decide +kernel)
theorem keptDef_kept : TypeKept Xyml.std keptDef :=
  allDefs_sound (p := fun n => decide (DefKept Xyml.std n)) (fun _ h => of_decide_eq_true h) 3
    keptDef (by decide +kernel)
theorem keptDef_xml : ¬ TypeNoXml keptDef := fun h =>
  absurd h.1 (by decide +kernel)
theorem lostDef_plain : TypePlain lostDef :=
  allDefs_sound (p := fun n => decide (DefPlain n)) (fun _ h => of_decide_eq_true h) 3 lostDef
    (by decide +kernel)
theorem lostDef_lost : ¬ TypeKept Xyml.std lostDef := fun h =>
  absurd (h.2 _ (.property (k := .str "properties") (k' := .str "name") rfl (.tail _ (.head _)) rfl
    (.head _))) (by decide +kernel)

/-! ### Types -/

/-- C93: what is written for a type can be read again exactly if the definition it was read from
has none of the things that do not survive. -/
theorem C93_type_survives (X : Xyml) (hX : Lawful X) (n : Node) (t : DT) (h : hat X n = .ok t)
    (hpl : TypePlain n) : (∃ u, hat X (t.toYAML X) = .ok u) ↔ TypeKept X n := by
  obtain ⟨h1, h2, _⟩ := type_survives hX _ n (Nat.lt_succ_self _) t h hpl
  rw [← h2]
  exact ⟨fun ⟨u, hu⟩ => writable_of_reread hX (hat_parsed hX h) h1 u hu,
    fun hw => ⟨_, hat_toYAML hX hw⟩⟩

/-- The conditions are met by a type that survives, and by one that does not. -/
example : ∃ t, hat Xyml.std keptDef = .ok t ∧ ∃ u, hat Xyml.std (t.toYAML Xyml.std) = .ok u :=
  ⟨_, rfl, (C93_type_survives _ Xyml.std_lawful keptDef _ rfl keptDef_plain).mpr keptDef_kept⟩

example : ∃ t, hat Xyml.std lostDef = .ok t ∧ ¬ ∃ u, hat Xyml.std (t.toYAML Xyml.std) = .ok u :=
  ⟨_, rfl, fun h => lostDef_lost
    ((C93_type_survives _ Xyml.std_lawful lostDef _ rfl lostDef_plain).mp h)⟩

/-- C93: it is read as the same type exactly if in addition there are no XML settings. -/
theorem C93_type_lossless (X : Xyml) (hX : Lawful X) (n : Node) (t : DT) (h : hat X n = .ok t)
    (hpl : TypePlain n) : hat X (t.toYAML X) = .ok t ↔ TypeKept X n ∧ TypeNoXml n := by
  obtain ⟨h1, h2, h3⟩ := type_survives hX _ n (Nat.lt_succ_self _) t h hpl
  constructor
  · intro hu
    have hw := writable_of_reread hX (hat_parsed hX h) h1 t hu
    refine ⟨h2.mp hw, (h3 hw).mp ?_⟩
    rw [hat_toYAML hX hw] at hu
    exact Res.ok.inj hu
  · rintro ⟨hk, hx⟩
    have hw := h2.mpr hk
    rw [hat_toYAML hX hw, (h3 hw).mpr hx]

/-- A type that survives, but changed. -/
example : ∃ t, hat Xyml.std keptDef = .ok t ∧ hat Xyml.std (t.toYAML Xyml.std) ≠ .ok t :=
  ⟨_, rfl, fun h => keptDef_xml
    ((C93_type_lossless _ Xyml.std_lawful keptDef _ rfl keptDef_plain).mp h).2⟩

end Verif.Props
