import Verif.Doc.OwnMapSpec
import Verif.Props.TypeMarshal
import Verif.Props.Maps
import Mathlib.Data.List.Nodup

/-! # C97: writing an object into its own extra map -/

namespace Verif.Props
open Verif Verif.Doc Verif.Doc.Spec

/-! ### Every second entry -/

theorem everySecond_cons {α : Type} {a b : α} {l r : List α} (h : l ++ [a] = b :: r) :
    everySecond (a :: l) = b :: everySecond r := by
  cases l with
  | nil => cases h; simp [everySecond]
  | cons c l => cases h; rw [everySecond]; rfl

/-- C97: no entry is lost and none is doubled. -/
theorem C97_order_perm {α : Type} (l : List α) : (everySecond l).Perm l := by
  induction l using everySecond.induct with
  | case1 => simp [everySecond]
  | case2 a => simp [everySecond]
  | case3 a b l ih =>
    rw [everySecond]
    refine (ih.cons b).trans ?_
    refine ((List.perm_append_singleton a l).cons b).trans ?_
    exact List.Perm.swap a b l

/-- C97: the first half are the entries at odd places. -/
theorem C97_order_first_half {α : Type} (l : List α) (i : Nat) (h : 2 * i + 1 < l.length) :
    (everySecond l)[i]? = l[2 * i + 1]? := by
  induction l using everySecond.induct generalizing i with
  | case1 => cases h
  | case2 a => simp at h
  | case3 a b l ih =>
    rw [everySecond]
    cases i with
    | zero => simp
    | succ i =>
      simp only [List.length_cons] at h
      rw [List.getElem?_cons_succ, ih i (by simp; omega),
        show 2 * (i + 1) + 1 = (2 * i + 1) + 1 + 1 by omega, List.getElem?_cons_succ,
        List.getElem?_cons_succ, List.getElem?_append_left (by omega)]

/-- C97: which entry comes last: of `2 ^ k + r` entries, `r < 2 ^ k`, the one at place `2 r`. -/
theorem C97_order_last {α : Type} (l : List α) (k r : Nat) (hl : l.length = 2 ^ k + r)
    (hr : r < 2 ^ k) : (everySecond l).getLast? = l[2 * r]? := by
  induction l using everySecond.induct generalizing k r with
  | case1 =>
    have := Nat.two_pow_pos k
    simp at hl; omega
  | case2 a =>
    have := Nat.two_pow_pos k
    simp only [List.length_cons, List.length_nil] at hl
    have : r = 0 := by omega
    subst this
    simp [everySecond]
  | case3 a b l ih =>
    rw [everySecond]
    simp only [List.length_cons] at hl
    rw [List.getLast?_cons]
    cases r with
    | zero =>
      cases k with
      | zero => simp at hl
      | succ k =>
        have hp := Nat.two_pow_pos k
        rw [Nat.pow_succ] at hl
        rw [ih k (2 ^ k - 1) (by simp; omega) (by omega),
          show 2 * (2 ^ k - 1) = l.length by omega]
        simp
    | succ r =>
      rw [ih k r (by simp; omega) (by omega), show 2 * (r + 1) = 2 * r + 1 + 1 by omega,
        List.getElem?_cons_succ, List.getElem?_cons_succ, List.getElem?_append_left (by omega),
        List.getElem?_eq_getElem (by omega)]
      rfl

/-! ### The loop -/

section
open Verif.OMap
variable {K V : Type} [GoKey K]

/-- The callback "put the current entry again". -/
def putCurrent : Unit → K → V → Prog K V Unit :=
  fun _ k v => .call (.put k v) fun _ => .ret ()

theorem specPut_again {pre post : List (K × V)} {e : K × V} (he : (e.1 == e.1) = true)
    (h1 : ∀ x ∈ pre, (x.1 == e.1) = false) (h2 : ∀ x ∈ post, (x.1 == e.1) = false) :
    OMap.Spec.put e.1 e.2 (pre ++ e :: post) = pre ++ (post ++ [e]) := by
  simp only [OMap.Spec.put, OMap.Spec.remove, List.filter_append, List.filter_cons, he, Bool.not_true,
    Bool.false_eq_true, if_false]
  rw [List.filter_eq_self.mpr fun x hx => by simp [h1 x hx],
    List.filter_eq_self.mpr fun x hx => by simp [h2 x hx]]
  simp

/-- C97, on the map as it is implemented: putting every visited entry again, in the loop over the
same map, does not panic, visits as many entries as there are, and leaves the same entries in the
order of `everySecond`.  The keys must be hashable and equal to themselves. -/
theorem C97_put_while_visiting [LawfulGoKey K] (ops : List (Op K V)) (es : List (K × V))
    (he : answer ops .entries = .val (.entries es))
    (hk : ∀ e ∈ es, (e.1 == e.1) = true ∧ GoKey.hashable e.1 = true) :
    ∃ log m', forEach (visiting putCurrent) ([], ()) (after ops) = (.val (log, ()), m') ∧
      log.length = es.length ∧ (call .entries m').1 = .val (.entries (everySecond es)) := by
  have hi : SyncInv (after ops) := inv_of_reachable ⟨ops, rfl⟩
  have hes : (after ops).ordered = es := by
    have h := (call_refines hi .entries).1
    rw [show (call Op.entries (after ops)).1 = .val (.entries es) from he] at h
    simpa [OMap.Spec.step, OMap.Spec.keyOf, OMap.Spec.answer] using h.symm
  have key : ∀ (n : Nat) (pre rest : List (K × V)) (log : List (K × V)) (m : Impl K V),
      SyncInv m → m.ordered = pre ++ rest → rest.length = n →
      (∀ e ∈ rest, (e.1 == e.1) = true ∧ GoKey.hashable e.1 = true) →
      ∃ log' m', forEachLoop (visiting putCurrent) n pre.length (log, ()) m =
        (.val (log', ()), m') ∧ log'.length = log.length + n ∧ SyncInv m' ∧
        m'.ordered = pre ++ everySecond rest := by
    intro n
    induction n with
    | zero =>
      intro pre rest log m hm ho hr _
      obtain rfl := List.length_eq_zero_iff.mp hr
      exact ⟨log, m, rfl, rfl, hm, by simpa [everySecond] using ho⟩
    | succ n ih =>
      intro pre rest log m hm ho hr hk
      cases rest with
      | nil => cases hr
      | cons e rest =>
        have hj : m.ordered[pre.length]? = some e := by rw [ho]; simp
        have hd := hm.distinct
        rw [ho, List.pairwise_append] at hd
        have hput : (call (.put e.1 e.2) m).2.ordered = pre ++ (rest ++ [e]) := by
          rw [(call_refines hm (.put e.1 e.2)).2.1]
          simp only [OMap.Spec.step, OMap.Spec.keyOf, (hk e (by simp)).2, if_true, OMap.Spec.answer, ho]
          refine specPut_again (hk e (by simp)).1 (fun x hx => hd.2.2 x hx e (by simp)) ?_
          intro x hx
          have := (List.pairwise_cons.mp hd.2.1).1 x hx
          by_contra hc
          rw [LawfulGoKey.symm (by simpa using hc)] at this
          cases this
        obtain ⟨b, r, hbr⟩ : ∃ b r, rest ++ [e] = b :: r := by
          cases rest with
          | nil => exact ⟨_, _, rfl⟩
          | cons b r => exact ⟨_, _, rfl⟩
        obtain ⟨log', m', h1, h2, h3, h4⟩ := ih (pre ++ [b]) r (log ++ [(e.1, e.2)])
          (call (.put e.1 e.2) m).2 (call_refines hm _).2.2
          (by rw [hput, hbr]; simp)
          (by have := congrArg List.length hbr; simp at this hr; omega)
          (by
            intro x hx
            have : x ∈ rest ++ [e] := by rw [hbr]; exact .tail _ hx
            refine hk x ?_
            rcases List.mem_append.mp this with h | h
            · exact .tail _ h
            · rw [List.mem_singleton.mp h]; exact .head _)
        refine ⟨log', m', ?_, by simp at h2; omega, h3, ?_⟩
        · rw [List.length_append] at h1
          simp only [forEachLoop, bind, M.bind, M.get, hj, visiting, putCurrent, Prog.run]
          exact h1
        · rw [h4, everySecond_cons hbr]; simp
  obtain ⟨log, m', h1, h2, h3, h4⟩ := key es.length [] es [] (after ops) hi hes rfl hk
  refine ⟨log, m', ?_, by simpa using h2, ?_⟩
  · simpa [forEach, bind, M.bind, M.get, hes] using h1
  · rw [(call_refines h3 .entries).1, h4]
    rfl

end

theorem ownLoop_eq (n : Nat) (pre rest : List (Scalar × Node)) (b : Bool)
    (hd : Distinct (pre ++ rest)) (hn : rest.length = n) :
    ownLoop n pre.length ⟨pre ++ rest, b⟩ = some ⟨pre ++ everySecond rest, b⟩ := by
  induction n generalizing pre rest with
  | zero =>
    obtain rfl := List.length_eq_zero_iff.mp hn
    simp [ownLoop, everySecond]
  | succ n ih =>
    cases rest with
    | nil => cases hn
    | cons e rest =>
      have hput : (⟨pre ++ e :: rest, b⟩ : OM Scalar Node).put e.1 e.2 =
          ⟨pre ++ (rest ++ [e]), b⟩ := by
        unfold Distinct at hd
        rw [List.map_append, List.map_cons, List.nodup_append] at hd
        simp only [OM.put, List.filter_append, List.filter_cons, beq_self_eq_true, Bool.not_true,
          Bool.false_eq_true, if_false]
        rw [List.filter_eq_self.mpr, List.filter_eq_self.mpr]
        · simp
        · intro x hx
          have h := (List.nodup_cons.mp hd.2.1).1
          have : x.1 ≠ e.1 := fun hc => h (hc ▸ List.mem_map_of_mem hx)
          simpa using this
        · intro x hx
          have : x.1 ≠ e.1 := hd.2.2 _ (List.mem_map_of_mem hx) _ (by simp)
          simpa using this
      obtain ⟨c, r, hbr⟩ : ∃ c r, rest ++ [e] = c :: r := by
        cases rest with
        | nil => exact ⟨_, _, rfl⟩
        | cons b r => exact ⟨_, _, rfl⟩
      have h := ih (pre ++ [c]) r (by
          have : (pre ++ [c] ++ r) = pre ++ (rest ++ [e]) := by rw [hbr]; simp
          rw [this]
          exact (((List.perm_append_singleton e rest).append_left pre).map Prod.fst).nodup_iff.mpr hd)
        (by have := congrArg List.length hbr; simp at this hn; omega)
      rw [ownLoop]
      simp only [List.getElem?_append_right (Nat.le_refl _), Nat.sub_self, List.getElem?_cons_zero,
        hput, hbr]
      rw [everySecond_cons hbr]
      simpa using h

/-- C97: the loop over the extra facets puts them in that order. -/
theorem putOwn_eq {m : OM Scalar Node} (h : Distinct m.ents) :
    putOwn m = some ⟨everySecond m.ents, m.omap⟩ := ownLoop_eq m.ents.length [] m.ents m.omap h rfl

/-! ### Data types -/

/-- The function puts a fixed list of entries whose keys all satisfy `P`. -/
def PutsIn (P : Scalar → Prop) (F : OM Scalar Node → OM Scalar Node) : Prop :=
  ∃ es : List (Scalar × Node), (∀ e ∈ es, P e.1) ∧ ∀ out, F out = out.putAll es

namespace PutsIn
variable {P : Scalar → Prop} {F : OM Scalar Node → OM Scalar Node}

theorem id : PutsIn P fun out => out := ⟨[], fun _ h => (nomatch h), fun _ => rfl⟩

theorem putAll (h : PutsIn P F) (es : List (Scalar × Node)) (he : ∀ e ∈ es, P e.1) :
    PutsIn P fun o => (F o).putAll es := by
  obtain ⟨fs, hp, hf⟩ := h
  refine ⟨fs ++ es, fun e hm => ?_, fun o => by
    show (F o).putAll es = _
    rw [hf, OM.putAll_append]⟩
  rcases List.mem_append.mp hm with h | h
  · exact hp e h
  · exact he e h

theorem put (h : PutsIn P F) (k : Scalar) (v : Node) (hk : P k) : PutsIn P fun o => (F o).put k v :=
  h.putAll [(k, v)] fun e he => by rw [List.mem_singleton.mp he]; exact hk

theorem putOpt (h : PutsIn P F) (k : Scalar) (v : Option Node) (hk : P k) :
    PutsIn P fun o => (F o).putOpt k v := by
  cases v with
  | none => exact h
  | some v => exact h.put k v hk

theorem ite (h : PutsIn P F) {G : OM Scalar Node → OM Scalar Node} (g : PutsIn P G) (p : Prop)
    [Decidable p] : PutsIn P fun o => if p then F o else G o := by
  by_cases hp : p <;> simp only [hp, if_true, if_false] <;> assumption

end PutsIn

theorem putsIn_body (X : Xyml) (props items : Option Node) (b : Body)
    {F : OM Scalar Node → OM Scalar Node} {P : Scalar → Prop} (hP : ∀ k, k ∉ leading → P k)
    (h : PutsIn P F) : PutsIn P fun o => b.marshal X props items (F o) := by
  cases b with
  | string f =>
    exact ((h.putOpt _ _ (hP _ (by decide))).putOpt _ _ (hP _ (by decide))).putOpt _ _ (hP _ (by decide))
  | file f => exact ((h.putOpt _ _ (hP _ (by decide))).putOpt _ _ (hP _ (by decide))).putOpt _ _ (hP _ (by decide))
  | array f =>
    exact (((h.putOpt _ _ (hP _ (by decide))).putOpt _ _ (hP _ (by decide))).putOpt _ _ (hP _ (by decide))).putOpt _ _
      (hP _ (by decide))
  | object f =>
    exact (((((h.putOpt _ _ (hP _ (by decide))).putOpt _ _ (hP _ (by decide))).putOpt _ _ (hP _ (by decide))).putOpt _ _
      (hP _ (by decide))).putOpt _ _ (hP _ (by decide))).putOpt _ _ (hP _ (by decide))
  | number f =>
    exact (((h.putOpt _ _ (hP _ (by decide))).putOpt _ _ (hP _ (by decide))).putOpt _ _ (hP _ (by decide))).putOpt _ _
      (hP _ (by decide))
  | integer f =>
    exact (((h.putOpt _ _ (hP _ (by decide))).putOpt _ _ (hP _ (by decide))).putOpt _ _ (hP _ (by decide))).putOpt _ _
      (hP _ (by decide))
  | datetime f => exact h.putOpt _ _ (hP _ (by decide))
  | _ => exact h

theorem split_type (X : Xyml) (t : DT) :
    ∃ fs bs : List (Scalar × Node), (∀ e ∈ fs, e.1 ∈ leading) ∧
      (PlainAnnotations t → ∀ e ∈ bs, e.1 ∉ leading) ∧
      (∀ m out, ((t.withExtra m).marshalRAML X out).1 =
        ((out.putAll fs).putAll m.ents).putAll bs) ∧
      ∀ m, (t.withExtra m).marshalOwn X = (putOwn (m.putAll fs)).map fun o =>
        (t.withExtra (o.putAll bs), decide ((o.putAll bs).len = 1) &&
          (o.putAll bs).has (.str "type")) := by
  rcases t with ⟨i, s, x⟩ | ⟨h, b, fs, ps, it⟩
  · exact ⟨[(.str "type", if i then .scalar "!include" s else .str s)], [],
      fun e he => by rw [List.mem_singleton.mp he]; exact (by decide : Scalar.str "type" ∈ leading),
      fun _ _ h => (nomatch h),
      fun m out => rfl, fun m => rfl⟩
  · have g1 : PutsIn (· ∈ leading) fun o : OM Scalar Node =>
        (((o.putOpt (.str "default") h.dflt).putOpt (.str "displayName")
          (h.displayName.map .str)).putOpt (.str "description") (h.description.map .str)).put
          (.str "type") (.str h.schema) :=
      (((PutsIn.id.putOpt _ _ (by decide)).putOpt _ _ (by decide)).putOpt _ _ (by decide)).put _ _
        (by decide)
    have g2 : PutsIn (fun k => PlainAnnotations (.ext h b fs ps it) → k ∉ leading) fun o : OM Scalar Node =>
        (((b.marshal X (propsNode X ps) (itemsNode X it)
          ((((if h.required = true then o else o.put (.str "required") (X.ofBool h.required)).putAll
            (annEnts h.annotations)).putOpt (.str "facets") (facetsNode X fs)).putOpt (.str "xml")
            (h.xml.map XML.toYAML))).putOpt (.str "enum")
            (h.enum.map (renderList (Val.render X)))).putOpt
            (.str "example") (h.example.map (Example.toYAML X))).putOpt (.str "examples")
          (if h.examples.len > 0 then some (renderStrMap (Example.toYAML X) h.examples)
            else none) := by
      have e1 := (((((PutsIn.id (P := fun k => PlainAnnotations (.ext h b fs ps it) → k ∉ leading)).ite
        (PutsIn.id.put (.str "required") (X.ofBool h.required) (fun _ => by decide)) (h.required = true)).putAll (annEnts h.annotations) (by
          intro e he
          obtain ⟨a, ha, rfl⟩ := List.mem_map.mp he
          exact fun ht => ht a ha)).putOpt (.str "facets") (facetsNode X fs) (fun _ => by decide)).putOpt (.str "xml")
        (h.xml.map XML.toYAML) (fun _ => by decide))
      exact (((putsIn_body X (propsNode X ps) (itemsNode X it) b (fun k hk _ => hk) e1).putOpt _ _
        (fun _ => by decide)).putOpt _ _ (fun _ => by decide)).putOpt _ _ (fun _ => by decide)
    obtain ⟨es1, h1, h1'⟩ := g1
    obtain ⟨es2, h2, h2'⟩ := g2
    refine ⟨es1, es2, h1, fun ht e he => h2 e he ht, fun m out => ?_, fun m => ?_⟩
    · rw [← h1', ← h2']
      rfl
    · show Option.map _ (Option.map _ (putOwn _)) = _
      rw [← h1']
      rw [Option.map_map]
      congr 1
      funext o
      simp only [Function.comp, ← h2']
      rfl

theorem get_perm {K V : Type} [DecidableEq K] {a b : OM K V} (hd : Distinct b.ents)
    (h : a.ents.Perm b.ents) (k : K) : a.get k = b.get k := by
  have hda : Distinct a.ents := (h.map Prod.fst).nodup_iff.mpr hd
  have key : ∀ (m : OM K V), Distinct m.ents → ∀ v, m.get k = some v ↔ (k, v) ∈ m.ents := by
    intro m hm v
    unfold OM.get
    rw [Option.map_eq_some_iff]
    constructor
    · rintro ⟨e, he, rfl⟩
      have h1 := List.find?_some he
      simp only [beq_iff_eq] at h1
      exact h1 ▸ List.mem_of_find?_eq_some he
    · intro hmem
      cases hf : m.ents.find? fun e => e.1 == k with
      | none => exact absurd (List.find?_eq_none.mp hf _ hmem) (by simp)
      | some e =>
        refine ⟨e, rfl, ?_⟩
        have h1 := List.find?_some hf
        simp only [beq_iff_eq] at h1
        have h2 := List.mem_of_find?_eq_some hf
        rw [List.inj_on_of_nodup_map hm h2 hmem h1]
  apply Option.ext
  intro v
  rw [key a hda, key b hd, h.mem_iff]

theorem distinct_putAll {m : OM Scalar Node} (es : List (Scalar × Node)) (h : Distinct m.ents) :
    Distinct (m.putAll es).ents := OM.nodup_putAll es h

theorem distinct_everySecond {es : List (Scalar × Node)} (h : Distinct es) :
    Distinct (everySecond es) := ((C97_order_perm es).map Prod.fst).nodup_iff.mpr h

theorem withExtra_self (t : DT) : t.withExtra t.extra = t := by cases t <;> rfl

theorem extra_withExtra (t : DT) (m : OM Scalar Node) : (t.withExtra m).extra = m := by
  cases t <;> rfl

theorem withExtra_twice (t : DT) (m m' : OM Scalar Node) :
    (t.withExtra m).withExtra m' = t.withExtra m' := by cases t <;> rfl

theorem bare_withExtra (X : Xyml) (t : DT) (m : OM Scalar Node) :
    bare X (t.withExtra m) = bare X t := by simp only [bare, withExtra_twice]

theorem get_putAll (m : OM Scalar Node) (es : List (Scalar × Node)) (k : Scalar) :
    (m.putAll es).get k = (((OM.empty false).putAll es).get k).or (m.get k) := by
  rw [putAll_merged m false, mergedMap_get]

theorem get_putAll_distinct {m : OM Scalar Node} (h : Distinct m.ents) (k : Scalar) :
    ((OM.empty false).putAll m.ents).get k = m.get k := by
  rw [OM.putAll_eq_append (by simpa [OM.keys, OM.empty, Distinct] using h)]
  rfl

theorem get_bare {X : Xyml} {t : DT} {fs bs : List (Scalar × Node)}
    (h : ∀ m out, ((t.withExtra m).marshalRAML X out).1 =
      ((out.putAll fs).putAll m.ents).putAll bs) (k : Scalar) :
    (bare X t).get k =
      (((OM.empty false).putAll bs).get k).or (((OM.empty false).putAll fs).get k) := by
  rw [show bare X t = ((OM.empty false).putAll fs).putAll bs from h _ _, get_putAll]

theorem get_written {X : Xyml} {t : DT} {fs bs : List (Scalar × Node)}
    (h : ∀ m out, ((t.withExtra m).marshalRAML X out).1 =
      ((out.putAll fs).putAll m.ents).putAll bs) {m : OM Scalar Node} (hd : Distinct m.ents)
    (b : Bool) (k : Scalar) :
    ((t.withExtra m).marshalRAML X (OM.empty b)).1.get k =
      (((OM.empty false).putAll bs).get k).or
        ((m.get k).or (((OM.empty false).putAll fs).get k)) := by
  rw [h, get_putAll, get_putAll _ m.ents, get_putAll_distinct hd, get_putAll _ fs]
  rw [show (OM.empty b : OM Scalar Node).get k = none from rfl, Option.or_none]

/-- C97: a data type can be written into its own extra map.  Nothing panics, nothing but that map
changes, and the map then holds what the type writes without extra facets and, under the other
keys, what it held before. -/
theorem C97_type (X : Xyml) (t : DT) (hd : Distinct t.extra.ents) :
    ∃ m fl, t.marshalOwn X = some (t.withExtra m, fl) ∧ Distinct m.ents ∧
      m.omap = t.extra.omap ∧ (∀ k, m.get k = ((bare X t).get k).or (t.extra.get k)) ∧
      (fl = true ↔ ∃ v, m.ents = [(.str "type", v)]) := by
  obtain ⟨fs, bs, -, -, h1, h2⟩ := split_type X t
  have hd1 := distinct_putAll fs hd
  have hd2 := distinct_everySecond hd1
  have h3 := h2 t.extra
  rw [withExtra_self, putOwn_eq hd1] at h3
  have hd3 := distinct_putAll (m := ⟨everySecond (t.extra.putAll fs).ents,
    (t.extra.putAll fs).omap⟩) bs hd2
  refine ⟨_, _, h3, hd3, by rw [OM.omap_putAll]; exact OM.omap_putAll _ _, fun k => ?_, ?_⟩
  · have hp : OM.get ⟨everySecond (t.extra.putAll fs).ents, (t.extra.putAll fs).omap⟩ k =
        (t.extra.putAll fs).get k := get_perm hd1 (C97_order_perm _) k
    rw [get_bare h1, get_putAll _ bs, hp, get_putAll _ fs, Option.or_assoc]
  · generalize OM.putAll _ bs = m
    rw [Bool.and_eq_true, decide_eq_true_eq]
    unfold OM.len OM.has
    constructor
    · rintro ⟨h1, h2⟩
      obtain ⟨⟨k, v⟩, he⟩ := List.length_eq_one_iff.mp h1
      rw [he] at h2 ⊢
      simp only [List.any_cons, List.any_nil, Bool.or_false, beq_iff_eq] at h2
      exact ⟨v, by rw [h2]⟩
    · rintro ⟨v, he⟩
      rw [he]
      exact ⟨rfl, by simp⟩

/-- What the theorem above says of a result at hand. -/
theorem ownType {X : Xyml} {t t' : DT} {fl : Bool} (hd : Distinct t.extra.ents)
    (h : t.marshalOwn X = some (t', fl)) : t' = t.withExtra t'.extra ∧ Distinct t'.extra.ents ∧
      ∀ k, t'.extra.get k = ((bare X t).get k).or (t.extra.get k) := by
  obtain ⟨m, f, h1, h2, -, h3, -⟩ := C97_type X t hd
  rw [h1] at h
  injection h with h
  injection h with ha hb
  subst ha
  rw [extra_withExtra]
  exact ⟨rfl, h2, h3⟩

/-- C97: the order.  What was in the map and the four names written first are passed through in
the order of `everySecond`; the other names follow in the order of writing. -/
theorem C97_type_order {X : Xyml} {t t' : DT} {fl : Bool} (hd : Distinct t.extra.ents)
    (hp : PlainAnnotations t) (h : t.marshalOwn X = some (t', fl)) :
    t'.extra = mergedMap
      ⟨everySecond (mergedMap t.extra
        ⟨(bare X t).ents.filter (fun e => decide (e.1 ∈ leading)), false⟩).ents, t.extra.omap⟩
      ⟨(bare X t).ents.filter (fun e => decide (e.1 ∉ leading)), false⟩ := by
  obtain ⟨fs, bs, hf, hb, h1, h2⟩ := split_type X t
  have hb := hb hp
  have h3 := h2 t.extra
  rw [withExtra_self, h, putOwn_eq (distinct_putAll fs hd)] at h3
  injection h3 with h3
  injection h3 with h3 h4
  subst h3
  rw [extra_withExtra]
  have mem : ∀ (es : List (Scalar × Node)) (P : Scalar → Prop), (∀ e ∈ es, P e.1) →
      ∀ e ∈ ((OM.empty false).putAll es).ents, P e.1 := by
    intro es P hP e he
    have : ∀ (m : OM Scalar Node), (∀ e ∈ m.ents, P e.1) → ∀ e ∈ (m.putAll es).ents, P e.1 := by
      clear he
      induction es with
      | nil => exact fun m h => h
      | cons a es ih =>
        intro m hm
        refine ih (fun e he => hP e (.tail _ he)) _ ?_
        intro e he
        simp only [OM.put, List.mem_append, List.mem_filter, List.mem_singleton] at he
        rcases he with he | rfl
        · exact hm e he.1
        · exact hP _ (.head _)
    exact this (OM.empty false) (fun _ h => by cases h) e he
  have mf := mem fs (· ∈ leading) hf
  have mb := mem bs (· ∉ leading) hb
  have hw : bare X t = mergedMap ((OM.empty false).putAll fs) ((OM.empty false).putAll bs) := by
    rw [← putAll_merged]
    exact h1 _ _
  have hw2 : (bare X t).ents = ((OM.empty false).putAll fs).ents ++
      ((OM.empty false).putAll bs).ents := by
    rw [hw]
    show _ ++ _ = _
    congr 1
    rw [List.filter_eq_self]
    intro e he
    rw [List.all_eq_true]
    intro n hn
    have : n.1 ≠ e.1 := fun hc => mb n hn (hc ▸ mf e he)
    simpa using this
  have e1 : (bare X t).ents.filter (fun e => decide (e.1 ∈ leading)) =
      ((OM.empty false).putAll fs).ents := by
    rw [hw2, List.filter_append, List.filter_eq_self.mpr fun e he => by simpa using mf e he,
      List.filter_eq_nil_iff.mpr fun e he => by simpa using mb e he, List.append_nil]
  have e2 : (bare X t).ents.filter (fun e => decide (e.1 ∉ leading)) =
      ((OM.empty false).putAll bs).ents := by
    rw [hw2, List.filter_append, List.filter_eq_nil_iff.mpr fun e he => by simpa using mf e he,
      List.filter_eq_self.mpr fun e he => by simpa using mb e he, List.nil_append]
  rw [e1, e2, putAll_merged _ false bs, putAll_merged t.extra false fs]
  rfl

/-- C97: what the type then writes is what its extra map holds. -/
theorem C97_type_written {X : Xyml} {t t' : DT} {fl b : Bool} (hd : Distinct t.extra.ents)
    (h : t.marshalOwn X = some (t', fl)) (k : Scalar) :
    (t'.marshalRAML X (OM.empty b)).1.get k = t'.extra.get k := by
  obtain ⟨ht, hd', hg⟩ := ownType hd h
  obtain ⟨fs, bs, -, -, h1, -⟩ := split_type X t
  have h2 := get_written h1 hd' b k
  rw [← ht] at h2
  rw [h2, hg k, get_bare h1]
  cases ((OM.empty false).putAll bs).get k <;>
    cases ((OM.empty false).putAll fs).get k <;> cases t.extra.get k <;> rfl

/-- C97: unless an extra facet has one of the four names written first, that is also what the type
would have written before. -/
theorem C97_type_same {X : Xyml} {t t' : DT} {fl b : Bool} (hd : Distinct t.extra.ents)
    (hk : ∀ e ∈ t.extra.ents, e.1 ∉ leading) (h : t.marshalOwn X = some (t', fl)) (k : Scalar) :
    t'.extra.get k = (t.marshalRAML X (OM.empty b)).1.get k := by
  obtain ⟨-, -, hg⟩ := ownType hd h
  obtain ⟨fs, bs, hf, -, h1, -⟩ := split_type X t
  have h2 := get_written h1 hd b k
  rw [withExtra_self] at h2
  rw [h2, hg k, get_bare h1]
  by_cases hkl : k ∈ leading
  · have : t.extra.get k = none := by
      unfold OM.get
      rw [Option.map_eq_none_iff, List.find?_eq_none]
      intro e he hc
      simp only [beq_iff_eq] at hc
      exact hk e he (hc ▸ hkl)
    rw [this]
    simp
  · have : ((OM.empty false).putAll fs).get k = none := by
      have hm : ∀ (es : List (Scalar × Node)) (m : OM Scalar Node), (∀ e ∈ es, e.1 ∈ leading) →
          m.get k = none → (m.putAll es).get k = none := by
        intro es
        induction es with
        | nil => exact fun m _ h => h
        | cons a es ih =>
          intro m he h
          refine ih _ (fun e h => he e (.tail _ h)) ?_
          rw [OM.get_put, if_neg fun hc : a.1 = k => hkl (hc ▸ he a (.head _)), h]
      exact hm fs _ hf rfl
    rw [this]
    simp

/-- C97: with such an extra facet it is not: the type's own facet wins in the map, the extra facet
when writing. -/
theorem C97_type_same_needs_names (X : Xyml) : ∃ (t t' : DT) (fl : Bool), Distinct t.extra.ents ∧
    t.marshalOwn X = some (t', fl) ∧ t'.extra.get (.str "type") = some (.str "nil") ∧
    (t.marshalRAML X (OM.empty false)).1.get (.str "type") = some (.str "other") := by
  refine ⟨.basic false "nil" ⟨[(.str "type", .str "other")], true⟩, _, _, by simp [Distinct, DT.extra],
    rfl, rfl, rfl⟩

/-- C97: doing it again changes no entry. -/
theorem C97_type_again {X : Xyml} {t t' t'' : DT} {fl fl' : Bool} (hd : Distinct t.extra.ents)
    (h : t.marshalOwn X = some (t', fl)) (h' : t'.marshalOwn X = some (t'', fl')) (k : Scalar) :
    t''.extra.get k = t'.extra.get k := by
  obtain ⟨ht, hd', hg⟩ := ownType hd h
  obtain ⟨-, -, hg'⟩ := ownType hd' h'
  have : bare X t' = bare X t := by rw [ht, bare_withExtra]
  rw [hg', this, hg]
  cases (bare X t).get k <;> rfl

/-- C97: from then on no facet can be unset.  Whatever else becomes of the type, every name that
was written will be written. -/
theorem C97_type_stays {X : Xyml} {t t' u : DT} {fl : Bool} (hd : Distinct t.extra.ents)
    (h : t.marshalOwn X = some (t', fl)) (hu : u.extra = t'.extra) (out : OM Scalar Node)
    (k : Scalar) (hk : ((bare X t).get k).isSome ∨ (t.extra.get k).isSome) :
    ((u.marshalRAML X out).1.get k).isSome := by
  obtain ⟨-, -, hg⟩ := ownType hd h
  have h0 : (u.extra.get k).isSome := by
    rw [hu, hg]
    rcases hk with hk | hk
    · obtain ⟨v, hv⟩ := Option.isSome_iff_exists.mp hk
      rw [hv]; rfl
    · obtain ⟨v, hv⟩ := Option.isSome_iff_exists.mp hk
      rw [hv]
      cases (bare X t).get k <;> rfl
  obtain ⟨fs, bs, -, -, h1, -⟩ := split_type X u
  have g2 := h1 u.extra out
  rw [withExtra_self] at g2
  rw [g2]
  have hs : ∀ (m : OM Scalar Node), m.has k = (m.get k).isSome := by
    intro m
    unfold OM.has OM.get
    rw [Option.isSome_map, Bool.eq_iff_iff, List.find?_isSome, List.any_eq_true]
  rw [← hs] at h0 ⊢
  refine has_putAll ?_ _
  have : ∀ (es : List (Scalar × Node)) (m : OM Scalar Node), (es.any fun e => e.1 == k) = true →
      (m.putAll es).has k = true := by
    intro es
    induction es with
    | nil => intro m h; cases h
    | cons a es ih =>
      intro m h
      rw [OM.putAll_cons]
      by_cases ha : a.1 = k
      · exact has_putAll (by simp [OM.has, OM.put, ha]) es
      · exact ih _ (by simpa [ha] using h)
  exact this _ _ h0

/-! ### Examples -/

/-- C97: an example written in its long form into its own extra map: its entries win over what the
map held, and all come out in the order of `everySecond`. -/
theorem C97_example (X : Xyml) (e : Example) (hx : e.expand = true) (hd : Distinct e.extra.ents) :
    ∃ m, e.marshalOwn X = some ({ e with extra := m }, false) ∧
      m = ⟨everySecond (e.extra.putAll (exampleEntries X e)).ents, e.extra.omap⟩ ∧
      ∀ k, m.get k = (((OM.empty false).putAll (exampleEntries X e)).get k).or (e.extra.get k) := by
  have hp : ((if e.strict = true then ((e.extra.putOpt (.str "displayName")
        (e.displayName.map .str)).putOpt (.str "description") (e.description.map .str)).putOpt
        (.str "value") (e.value.map (Val.render X))
      else (((e.extra.putOpt (.str "displayName") (e.displayName.map .str)).putOpt
        (.str "description") (e.description.map .str)).putOpt (.str "value")
        (e.value.map (Val.render X))).put (.str "strict") (X.ofBool e.strict)).putAll
      (annEnts e.annotations)) = e.extra.putAll (exampleEntries X e) := by
    unfold exampleEntries
    rw [OM.putAll_append, OM.putAll_append, OM.putAll_append, OM.putAll_append]
    cases e.displayName <;> cases e.description <;> cases e.value <;> cases e.strict <;> rfl
  have hd1 := distinct_putAll (exampleEntries X e) hd
  refine ⟨_, ?_, rfl, fun k => ?_⟩
  · unfold Example.marshalOwn
    rw [if_pos hx]
    show Option.map _ (putOwn (OM.putAll _ _)) = _
    rw [hp, putOwn_eq hd1, OM.omap_putAll]
    rfl
  · have : OM.get ⟨everySecond (e.extra.putAll (exampleEntries X e)).ents, e.extra.omap⟩ k =
        (e.extra.putAll (exampleEntries X e)).get k := get_perm hd1 (C97_order_perm _) k
    rw [this, get_putAll]

theorem plain_iff (e : Example) : e.expand = false ↔ e.displayName = none ∧ e.description = none ∧
    e.annotations.ents = [] ∧ e.extra.ents = [] ∧ e.strict = true := by
  simp [Example.expand, OM.len, and_assoc]

/-- C97: an example with nothing but a value gets an entry with an empty key in its own extra map,
and the caller is told of a short form. -/
theorem C97_example_plain (X : Xyml) (e : Example) (hx : e.expand = false) :
    e.marshalOwn X = some ({ e with
      extra := ⟨[(.str "", (e.value.map (Val.render X)).getD nullNode)], e.extra.omap⟩ }, true) := by
  have hl := ((plain_iff e).mp hx).2.2.2.1
  unfold Example.marshalOwn
  rw [if_neg (by simp [hx])]
  simp [OM.put, hl]

/-- C97: after that, what the example writes can be read by no kind of example. -/
theorem C97_example_plain_unreadable {X : Xyml} (hX : Lawful X) {e e' : Example} {fl : Bool}
    (hx : e.expand = false) (h : e.marshalOwn X = some (e', fl)) (kd : Kind) :
    ((Example.new kd).unmarshal X (e'.toYAML X)).isOk = false := by
  rw [C97_example_plain X e hx] at h
  injection h with h
  injection h with h h'
  subst h
  generalize (e.value.map (Val.render X)).getD nullNode = w
  have hy : ({ e with extra := ⟨[(.str "", w)], e.extra.omap⟩ } : Example).toYAML X =
      .map ((e.value.map fun v => (Node.str "value", v.render X)).toList ++ [(Node.str "", w)]) := by
    obtain ⟨h1', h2', ha, -, h5⟩ := (plain_iff e).mp hx
    unfold Example.toYAML Example.marshal
    rw [if_pos (by simp [Example.expand, OM.len])]
    simp only [h1', h2', h5, annEnts, ha]
    cases e.value <;>
      simp [OM.putOpt, OM.putAll, OM.put, OM.empty, renderAny, renderPairs, hX.ofKey_str]
  rw [hy]
  have hlast : ∀ a : Example, Example.assign X (Node.str "") w a = .panic .emptyKey := fun _ => rfl
  cases e.value with
  | none => simp [Example.unmarshal, forPairs, hlast, Res.bind, Res.isOk]
  | some v =>
    simp only [Option.map_some, Option.toList_some, List.cons_append, List.nil_append,
      Example.unmarshal, forPairs]
    cases Example.assign X (Node.str "value") (v.render X) (Example.new kd) with
    | ok a => simp [hlast, Res.bind, Res.isOk]
    | err a => rfl
    | panic a => rfl

/-! ### Documentation entries -/

/-- C97: a documentation entry written into its own extra map: title and content win over what the
map held, and all come out in the order of `everySecond`. -/
theorem C97_documentation (d : Documentation) (hd : Distinct d.extra.ents) :
    ∃ m, d.marshalOwn = some ({ d with extra := m }, false) ∧
      m = ⟨everySecond (d.extra.ents.filter
          (fun e => decide (e.1 ≠ .str "title" ∧ e.1 ≠ .str "content")) ++
        [(.str "title", .str d.title), (.str "content", .str d.content)]), d.extra.omap⟩ ∧
      ∀ k, m.get k = if k = .str "content" then some (.str d.content)
        else if k = .str "title" then some (.str d.title) else d.extra.get k := by
  have hp : (d.extra.put (.str "title") (.str d.title)).put (.str "content") (.str d.content) =
      ⟨d.extra.ents.filter (fun e => decide (e.1 ≠ .str "title" ∧ e.1 ≠ .str "content")) ++
        [(.str "title", .str d.title), (.str "content", .str d.content)], d.extra.omap⟩ := by
    simp only [OM.put, List.filter_append, List.filter_filter, OM.mk.injEq, and_true]
    rw [List.append_assoc]
    congr 1
    apply List.filter_congr
    intro e _
    by_cases h1 : e.1 = .str "title" <;> by_cases h2 : e.1 = .str "content" <;> simp [h1, h2]
  have hd1 : Distinct ((d.extra.put (.str "title") (.str d.title)).put (.str "content")
      (.str d.content)).ents := distinct_putAll [(.str "title", .str d.title),
        (.str "content", .str d.content)] hd
  refine ⟨_, ?_, rfl, fun k => ?_⟩
  · unfold Documentation.marshalOwn
    rw [putOwn_eq hd1, hp]
    rfl
  · have h := get_perm (a := ⟨everySecond ((d.extra.put (.str "title") (.str d.title)).put
      (.str "content") (.str d.content)).ents, d.extra.omap⟩) hd1 (C97_order_perm _) k
    rw [hp] at h
    rw [h, ← hp, OM.get_put, OM.get_put]
    simp only [eq_comm (a := k)]

/-! ### Concrete cases -/

example : everySecond [0, 1, 2, 3, 4, 5, 6] = [1, 3, 5, 0, 4, 2, 6] := by simp [everySecond]

/-- `C97_order_first_half` and `C97_order_last` on seven entries: 7 = 4 + 3. -/
example : 2 * 2 + 1 < [0, 1, 2, 3, 4, 5, 6].length ∧
    [0, 1, 2, 3, 4, 5, 6].length = 2 ^ 2 + 3 ∧ 3 < 2 ^ 2 := by decide

/-- Three entries, on the map as implemented: the first is visited, then the last twice. -/
example : ∃ m', Verif.OMap.forEach (visiting putCurrent) ([], ())
    (after (K := String) (V := Nat) [.put "a" 1, .put "b" 2, .put "c" 3]) =
      (.val ([("a", 1), ("c", 3), ("c", 3)], ()), m') ∧
      m'.ordered = [("b", 2), ("a", 1), ("c", 3)] := ⟨_, rfl, rfl⟩

/-- Keys of several kinds meet the hypotheses of `C97_put_while_visiting`. -/
example : ∃ es, answer (K := Verif.OMap.AnyKey) (V := Nat) [.put (.str "a") 1, .put (.int 2) 2] .entries =
      .val (.entries es) ∧
    ∀ e ∈ es, (e.1 == e.1) = true ∧ Verif.OMap.GoKey.hashable e.1 = true :=
  ⟨[(.str "a", 1), (.int 2, 2)], rfl, by decide⟩

/-- A string type with a description, a pattern and two extra facets. -/
def ownString : DT :=
  .ext { Hdr.new .string with
      description := some "d", extra := ⟨[(.str "a", .str "1"), (.str "b", .str "2")], true⟩ }
    (.string ⟨some "p", 0, none⟩) (OM.empty true) (OM.empty false) none

/-- The keys in the extra map of a data type, in order (for the cases below). -/
def extraKeys (t : DT) : List Scalar := t.extra.ents.map Prod.fst

example : (ownString.marshalOwn Xyml.std).map (fun r => (extraKeys r.1, r.2)) =
    some ([.str "b", .str "type", .str "description", .str "a", .str "pattern"], false) := by
  simp [ownString, DT.marshalOwn, marshalOwnExt, marshalBaseOwn, putOwn, ownLoop, extraKeys, OM.put,
    OM.putOpt, OM.putAll, OM.len, OM.has, Hdr.new, OM.empty, annEnts, facetsNode, propsNode,
    itemsNode, Body.marshal, DT.withExtra, DT.extra]

example : Distinct ownString.extra.ents ∧ (∀ e ∈ ownString.extra.ents, e.1 ∉ leading) ∧
    PlainAnnotations ownString :=
  ⟨by simp [Distinct, ownString, DT.extra], by decide, fun _ h => (nomatch h)⟩

/-- A new string type gets its own `type` as an extra facet and is told of the short form. -/
example : ((DT.new .string).marshalOwn Xyml.std).map (fun r => (extraKeys r.1, r.2)) =
    some ([.str "type"], true) := by decide +kernel

/-- The pattern is unset after writing into the own map; it is still written. -/
example : ∃ t' fl, ownString.marshalOwn Xyml.std = some (t', fl) ∧
    ∀ u : DT, u.extra = t'.extra →
      ((u.marshalRAML Xyml.std (OM.empty false)).1.get (.str "pattern")).isSome := by
  have hd : Distinct ownString.extra.ents := by simp [Distinct, ownString, DT.extra]
  obtain ⟨m, fl, h, -⟩ := C97_type Xyml.std ownString hd
  exact ⟨_, fl, h, fun u hu => C97_type_stays hd h hu _ _ (.inl (by decide +kernel))⟩

/-- An example with a value only, written into its own map, cannot be read back: the parser
panics. -/
example : (((Example.new .string).unmarshal Xyml.std (.str "v")).bind fun e =>
    match e.marshalOwn Xyml.std with
    | some r => ((Example.new .string).unmarshal Xyml.std (r.1.toYAML Xyml.std)).map
        fun _ => r.2
    | none => .ok false) = .panic .emptyKey := by decide +kernel

example : (Example.new .string).expand = false := rfl

/-- An example with a display name and one extra entry is long. -/
example : let e : Example := { Example.new .string with
      displayName := some "n", extra := ⟨[(.str "a", .str "1")], true⟩ }
    e.expand = true ∧ Distinct e.extra.ents := ⟨rfl, by simp [Distinct]⟩

/-- A documentation entry with two extra entries. -/
example : let d : Documentation := ⟨"t", "c", ⟨[(.str "a", .str "1"), (.str "b", .str "2")], true⟩⟩
    d.marshalOwn.map (fun r => (r.1.extra.ents.map Prod.fst)) =
      some [.str "b", .str "content", .str "title", .str "a"] := by decide +kernel

end Verif.Props
