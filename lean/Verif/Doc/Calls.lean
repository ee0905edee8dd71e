import Verif.Doc.CallSpec
import Mathlib.Tactic.SplitIfs

/-!
# Histories of calls: what they leave behind

Helper lemmas of C105, for any object with calls about its parts.
-/

namespace Verif.Doc.Calls
open Verif Verif.Doc Verif.Doc.Spec

variable {S O : Type} {act : S → O → Option S} {part : O → String} {sets : O → Bool}

/-- What is needed of the calls. -/
structure Parts (act : S → O → Option S) (part : O → String) (sets : O → Bool) : Prop where
  comm : ∀ s o q, part o ≠ part q → (act s o).bind (act · q) = (act s q).bind (act · o)
  sets : ∀ s o q u, part o = part q → sets q = true → act s o = some u → act u q = act s q
  there : ∀ s o q u, act s o = some u → ((act u q).isSome ↔ (act s q).isSome)

theorem run_append (s : S) (a b : List O) :
    run act s (a ++ b) = (run act s a).bind fun u => run act u b := by
  induction a generalizing s with
  | nil => rfl
  | cons o a ih =>
    show (act s o).bind _ = ((act s o).bind _).bind _
    cases act s o with
    | none => rfl
    | some u => exact ih u

theorem run_one (s : S) (o : O) : run act s [o] = act s o := by
  show (act s o).bind some = _
  cases act s o <;> rfl

/-- A call moves in front of calls about other parts. -/
theorem run_front (h : Parts act part sets) (s : S) (a : List O) (o : O)
    (ha : ∀ q ∈ a, part q ≠ part o) : run act s (a ++ [o]) = run act s (o :: a) := by
  induction a generalizing s with
  | nil => rfl
  | cons q a ih =>
    have h1 := h.comm s q o (ha q List.mem_cons_self)
    show (act s q).bind (fun u => run act u (a ++ [o])) =
      (act s o).bind fun u => (act u q).bind fun u => run act u a
    have h2 : (act s q).bind (fun u => run act u (a ++ [o])) =
        (act s q).bind fun u => (act u o).bind fun u => run act u a := by
      cases act s q with
      | none => rfl
      | some u => exact ih u fun p hp => ha p (List.mem_cons_of_mem _ hp)
    rw [h2, ← Option.bind_assoc, h1, Option.bind_assoc]

theorem mem_about {k : String} {os : List O} {o : O} :
    o ∈ about part k os ↔ o ∈ os ∧ part o = k := by
  simp [about]

/-- Histories with the same calls about each part do the same. -/
theorem run_same (h : Parts act part sets) (os ps : List O)
    (e : ∀ k, about part k os = about part k ps) (s : S) : run act s os = run act s ps := by
  induction os generalizing ps s with
  | nil =>
    cases ps with
    | nil => rfl
    | cons p ps =>
      have : p ∈ about part (part p) [] := by
        rw [e]; exact mem_about.mpr ⟨List.mem_cons_self, rfl⟩
      cases this
  | cons o os ih =>
    have hm : about part (part o) ps = o :: about part (part o) os := by
      rw [← e]; simp [about]
    obtain ⟨a, b, rfl, ha, hb⟩ : ∃ a b, ps = a ++ o :: b ∧ (∀ q ∈ a, part q ≠ part o) ∧
        about part (part o) b = about part (part o) os := by
      obtain ⟨a, b, h1, h2, h3, h4⟩ := List.filter_eq_cons_iff.mp hm
      exact ⟨a, b, h1, fun q hq => by simpa using h2 q hq, h4⟩
    have hr : run act s (a ++ o :: b) = run act s (o :: (a ++ b)) := by
      have h1 := run_append (act := act) s (a ++ [o]) b
      rw [run_front h s a o ha, ← run_append, List.append_assoc] at h1
      exact h1
    rw [hr]
    show (act s o).bind _ = (act s o).bind _
    cases act s o with
    | none => rfl
    | some u =>
      refine ih (a ++ b) (fun k => ?_) u
      have hk := e k
      by_cases hok : part o = k
      · subst hok
        have : about part (part o) a = [] := List.filter_eq_nil_iff.mpr fun q hq => by
          simpa using ha q hq
        rw [← hb]
        simp only [about, List.filter_append] at this ⊢
        rw [this, List.nil_append]
      · simpa [about, List.filter_append, hok] using hk

/-- The two objects come from one by calls about one part. -/
def Near (act : S → O → Option S) (part : O → String) (k : String) (t u : S) : Prop :=
  ∃ s a b, (∀ q ∈ a, part q = k) ∧ (∀ q ∈ b, part q = k) ∧ run act s a = some t ∧
    run act s b = some u

theorem run_sets (h : Parts act part sets) {s t : S} {a : List O} {q : O}
    (ha : ∀ o ∈ a, part o = part q) (hq : sets q = true) (e : run act s a = some t) :
    act t q = act s q := by
  induction a generalizing s with
  | nil => cases e; rfl
  | cons o a ih =>
    replace e : (act s o).bind (fun u => run act u a) = some t := e
    cases ho : act s o with
    | none => rw [ho] at e; cases e
    | some u =>
      rw [ho] at e
      rw [ih (fun p hp => ha p (List.mem_cons_of_mem _ hp)) e]
      exact h.sets s o q u (ha o List.mem_cons_self) hq ho

theorem run_there (h : Parts act part sets) {s t : S} {a : List O} (q : O)
    (e : run act s a = some t) : (act t q).isSome ↔ (act s q).isSome := by
  induction a generalizing s with
  | nil => cases e; rfl
  | cons o a ih =>
    replace e : (act s o).bind (fun u => run act u a) = some t := e
    cases ho : act s o with
    | none => rw [ho] at e; cases e
    | some u =>
      rw [ho] at e
      exact (ih e).trans (h.there s o q u ho)

/-- Objects that differ in a part become the same through calls that set it. -/
theorem near_run (h : Parts act part sets) {k : String} {t u w : S} {os : List O}
    (hn : Near act part k t u) (hs : ∃ q ∈ os, sets q = true ∧ part q = k)
    (e : run act u os = some w) : run act t os = some w := by
  induction os generalizing t u with
  | nil => obtain ⟨q, hq, _⟩ := hs; cases hq
  | cons o os ih =>
    obtain ⟨s, a, b, ha, hb, ea, eb⟩ := hn
    replace e : (act u o).bind (fun v => run act v os) = some w := e
    cases ho : act u o with
    | none => rw [ho] at e; cases e
    | some v =>
      rw [ho] at e
      replace e : run act v os = some w := e
      show (act t o).bind (fun v => run act v os) = some w
      have h1 : (act t o).isSome := by
        rw [run_there h o ea, ← run_there h o eb, ho]; rfl
      obtain ⟨v', hv'⟩ := Option.isSome_iff_exists.mp h1
      by_cases hk : sets o = true ∧ part o = k
      · obtain ⟨hk1, rfl⟩ := hk
        rw [run_sets h ha hk1 ea, ← run_sets h hb hk1 eb, ho]
        exact e
      · rw [hv']
        have hs' : ∃ q ∈ os, sets q = true ∧ part q = k := by
          obtain ⟨q, hq, h2⟩ := hs
          rcases List.mem_cons.mp hq with rfl | hq
          · exact absurd h2 hk
          · exact ⟨q, hq, h2⟩
        refine ih (u := v) ?_ hs' e
        have fa : run act s (a ++ [o]) = some v' := by
          rw [run_append, ea]; exact (run_one t o).trans hv'
        have fb : run act s (b ++ [o]) = some v := by
          rw [run_append, eb]; exact (run_one u o).trans ho
        by_cases hp : part o = k
        · exact ⟨s, a ++ [o], b ++ [o], fun q hq => (List.mem_append.mp hq).elim (ha q)
            fun hq => List.mem_singleton.mp hq ▸ hp, fun q hq => (List.mem_append.mp hq).elim (hb q)
            fun hq => List.mem_singleton.mp hq ▸ hp, fa, fb⟩
        · rw [run_front h s a o fun q hq => by rw [ha q hq]; exact Ne.symm hp] at fa
          rw [run_front h s b o fun q hq => by rw [hb q hq]; exact Ne.symm hp] at fb
          replace fa : (act s o).bind (fun u => run act u a) = some v' := fa
          replace fb : (act s o).bind (fun u => run act u b) = some v := fb
          cases hso : act s o with
          | none => rw [hso] at fa; cases fa
          | some s' =>
            rw [hso] at fa fb
            exact ⟨s', a, b, ha, hb, fa, fb⟩

/-- Calls that a later call makes pointless can be left out. -/
theorem run_effective (h : Parts act part sets) (os : List O) (s u : S)
    (e : run act s os = some u) : run act s (effective part sets os) = some u := by
  induction os generalizing s with
  | nil => exact e
  | cons o os ih =>
    replace e : (act s o).bind (fun v => run act v os) = some u := e
    cases ho : act s o with
    | none => rw [ho] at e; cases e
    | some v =>
      rw [ho] at e
      replace e : run act v os = some u := e
      unfold effective
      split_ifs with hd
      · refine ih s (near_run h (k := part o) (u := v) ⟨s, [], [o], by simp, by simp, rfl,
          (run_one s o).trans ho⟩ ?_ e)
        obtain ⟨q, hq, h1⟩ := List.any_eq_true.mp hd
        rw [Bool.and_eq_true, beq_iff_eq] at h1
        exact ⟨q, hq, h1⟩
      · show (act s o).bind (fun v => run act v _) = some u
        rw [ho]
        exact ih v e

/-- Calls about parts that are all different can be made in any order. -/
theorem run_perm (h : Parts act part sets) {os ps : List O} (hp : os.Perm ps)
    (hd : (os.map part).Nodup) (s : S) : run act s os = run act s ps := by
  refine run_same h os ps (fun k => ?_) s
  have h1 : (about part k os).Perm (about part k ps) := hp.filter _
  have h2 : (about part k os).length ≤ 1 := by
    have hn : ((about part k os).map part).Nodup :=
      List.Nodup.sublist (List.Sublist.map _ List.filter_sublist) hd
    rcases hl : about part k os with _ | ⟨x, _ | ⟨y, l⟩⟩
    · simp
    · simp
    · exfalso
      have hx : x ∈ about part k os := by rw [hl]; exact List.mem_cons_self
      have hy : y ∈ about part k os := by
        rw [hl]; exact List.mem_cons_of_mem _ List.mem_cons_self
      rw [hl] at hn
      have := (List.nodup_cons.mp hn).1
      refine this ?_
      rw [(mem_about.mp hx).2]
      exact List.mem_map.mpr ⟨y, List.mem_cons_self, (mem_about.mp hy).2⟩
  rcases hl : about part k os with _ | ⟨x, _ | ⟨y, l⟩⟩
  · rw [hl] at h1; exact h1.nil_eq
  · rw [hl] at h1; exact (List.singleton_perm.mp h1)
  · rw [hl] at h2; simp at h2

/-- What is left of the calls about a part: those from the last setter on. -/
theorem effective_about (os : List O) (k : String) :
    (∃ dropped, about part k os = dropped ++ about part k (effective part sets os) ∧
      (dropped = [] ∨ ∃ q rest, about part k (effective part sets os) = q :: rest ∧
        sets q = true)) ∧
    ∀ q ∈ (about part k (effective part sets os)).tail, sets q = false := by
  induction os with
  | nil => exact ⟨⟨[], rfl, .inl rfl⟩, by simp [about, effective]⟩
  | cons o os ih =>
    obtain ⟨⟨dr, h1, h2⟩, h3⟩ := ih
    have hcons : about part k (o :: os) =
        if part o = k then o :: about part k os else about part k os := by
      by_cases hk : part o = k <;> simp [about, hk]
    unfold effective
    by_cases hd : os.any (fun q => sets q && part q == part o)
    · rw [if_pos hd]
      by_cases hk : part o = k
      · refine ⟨⟨o :: dr, ?_, .inr ?_⟩, h3⟩
        · rw [hcons, if_pos hk, h1]; rfl
        · rcases h2 with rfl | h2
          · obtain ⟨q, hq, hs⟩ := List.any_eq_true.mp hd
            rw [Bool.and_eq_true, beq_iff_eq, hk] at hs
            have hm : q ∈ about part k (effective part sets os) := by
              have : q ∈ about part k os := mem_about.mpr ⟨hq, hs.2⟩
              rwa [h1] at this
            cases he : about part k (effective part sets os) with
            | nil => rw [he] at hm; cases hm
            | cons q' rest =>
              refine ⟨q', rest, rfl, ?_⟩
              rw [he] at hm h3
              rcases List.mem_cons.mp hm with rfl | hm
              · exact hs.1
              · rw [h3 q hm] at hs; exact nomatch hs.1
          · exact h2
      · refine ⟨⟨dr, ?_, h2⟩, h3⟩
        rw [hcons, if_neg hk, h1]
    · rw [if_neg hd]
      have hcons' : about part k (o :: effective part sets os) =
          if part o = k then o :: about part k (effective part sets os)
          else about part k (effective part sets os) := by
        by_cases hk : part o = k <;> simp [about, hk]
      rw [hcons, hcons']
      by_cases hk : part o = k
      · rw [if_pos hk, if_pos hk]
        have hno : ∀ q ∈ about part k os, sets q = false := by
          intro q hq
          obtain ⟨hq, hp⟩ := mem_about.mp hq
          cases hs : sets q with
          | false => rfl
          | true => exact absurd (List.any_eq_true.mpr ⟨q, hq, by
              rw [Bool.and_eq_true, beq_iff_eq, hk]; exact ⟨hs, hp⟩⟩) hd
        have hdr : dr = [] := by
          rcases h2 with h2 | ⟨q, rest, h4, h5⟩
          · exact h2
          · have hm : q ∈ about part k os := by
              rw [h1, h4]; exact List.mem_append_right _ List.mem_cons_self
            rw [hno q hm] at h5
            cases h5
        rw [hdr, List.nil_append] at h1
        exact ⟨⟨[], by rw [h1]; rfl, .inl rfl⟩, fun q hq => hno q (by rw [h1]; exact hq)⟩
      · rw [if_neg hk, if_neg hk]
        exact ⟨⟨dr, h1, h2⟩, h3⟩

/-- Of setters the last about each part counts. -/
theorem run_last (h : Parts act part sets) {os ps : List O} {s u v : S}
    (ho : ∀ o ∈ os, sets o = true) (hp : ∀ o ∈ ps, sets o = true)
    (hl : ∀ k, (about part k os).getLast? = (about part k ps).getLast?)
    (e : run act s os = some u) (e' : run act s ps = some v) : u = v := by
  have one : ∀ (os : List O) (k : String), (∀ o ∈ os, sets o = true) →
      about part k (effective part sets os) = (about part k os).getLast?.toList := by
    intro os k ho
    obtain ⟨⟨dr, h1, h2⟩, h3⟩ := effective_about (part := part) (sets := sets) os k
    have hs : ∀ q ∈ about part k (effective part sets os), sets q = true := fun q hq =>
      ho q (mem_about.mp (h1 ▸ List.mem_append_right dr hq :
        q ∈ about part k os)).1
    rw [h1]
    rcases he : about part k (effective part sets os) with _ | ⟨q, _ | ⟨r, l⟩⟩
    · rcases h2 with rfl | ⟨q, rest, h4, _⟩
      · rfl
      · rw [he] at h4; cases h4
    · simp
    · rw [he] at hs h3
      have := h3 r List.mem_cons_self
      rw [hs r (List.mem_cons_of_mem _ List.mem_cons_self)] at this
      cases this
  have h1 := run_effective h os s u e
  have h2 := run_effective h ps s v e'
  rw [run_same h _ (effective part sets ps) (fun k => by
    rw [one os k ho, one ps k hp, hl k]) s] at h1
  exact Option.some.inj (h1.symm.trans h2)

end Verif.Doc.Calls
