import Verif.Doc.EditSpec
import Verif.Props.TypeOrder
import Verif.Props.ApiWritten
import Verif.Props.LibWritten
import Verif.Props.ApiParse
import Verif.Props.Builder

/-! # C98: a call changes what is written under its own key only -/

namespace Verif.Props
open Verif Verif.Doc Verif.Doc.Spec

/-! ### Lists of entries -/

private theorem filter_lastWins {K V : Type} [DecidableEq K] (q : K → Bool) (l : List (K × V)) :
    (lastWins l).filter (fun e => q e.1) = lastWins (l.filter fun e => q e.1) := by
  induction l with
  | nil => rfl
  | cons e es ih =>
    by_cases hq : q e.1 = true
    · have hm : e.1 ∈ (es.filter fun e => q e.1).map Prod.fst ↔ e.1 ∈ es.map Prod.fst := by
        simp only [List.mem_map, List.mem_filter]
        exact ⟨fun ⟨x, hx, he⟩ => ⟨x, hx.1, he⟩, fun ⟨x, hx, he⟩ => ⟨x, ⟨hx, he ▸ hq⟩, he⟩⟩
      rw [List.filter_cons_of_pos (p := fun e : K × V => q e.1) hq]
      unfold lastWins
      by_cases h : e.1 ∈ es.map Prod.fst
      · rw [if_pos h, if_pos (hm.mpr h), ih]
      · rw [if_neg h, if_neg (fun h' => h (hm.mp h')), List.filter_cons_of_pos (p := fun e : K × V => q e.1) hq, ih]
    · rw [List.filter_cons_of_neg (p := fun e : K × V => q e.1) hq]
      conv_lhs => unfold lastWins
      split
      · exact ih
      · rw [List.filter_cons_of_neg (p := fun e : K × V => q e.1) hq, ih]

/-- The puts under keys other than the given ones (auxiliary). -/
private def keep (ks : List Scalar) (l : List (Scalar × Node)) : List (Scalar × Node) :=
  l.filter fun e => decide (e.1 ∉ ks)

private theorem keep_append (ks : List Scalar) (a b : List (Scalar × Node)) :
    keep ks (a ++ b) = keep ks a ++ keep ks b := List.filter_append ..

private theorem keep_opt {ks : List Scalar} {k : Scalar} (h : k ∈ ks) (o : Option Node) :
    keep ks (OM.optEnt k o) = [] := by
  cases o <;> simp [keep, OM.optEnt, h]

private theorem keep_all {ks : List Scalar} {l : List (Scalar × Node)}
    (h : ∀ e ∈ l, e.1 ∈ ks) : keep ks l = [] := by
  simp only [keep, List.filter_eq_nil_iff]
  intro e he
  simp [h e he]

private theorem without_asPairs {X : Xyml} (hX : Lawful X) (ks : List Scalar)
    (l : List (Scalar × Node)) :
    without X ks (asPairs X (lastWins l)) = asPairs X (lastWins (keep ks l)) := by
  unfold without asPairs keep
  rw [List.filter_map, ← filter_lastWins fun k => decide (k ∉ ks)]
  congr 1
  apply List.filter_congr
  intro e _
  simp [hX.toScalar_ofKey]

/-! ### Data types -/

private theorem mem_opt {k : Scalar} {o : Option Node} {e : Scalar × Node} :
    e ∈ OM.optEnt k o ↔ e.1 = k ∧ o = some e.2 := by
  obtain ⟨a, b⟩ := e
  cases o <;> simp [OM.optEnt, eq_comm]

private theorem body_no_type (X : Xyml) (b : Body) (ps it : Option Node) (v : Node) :
    (Scalar.str "type", v) ∉ b.ents X ps it := by
  cases b <;> simp [Body.ents, mem_opt]

private theorem type_value (X : Xyml) (t : DT) (ht : Scalar.str "type" ∉ ownKeys t) (v : Node)
    (h : (Scalar.str "type", v) ∈ t.ents X) : v = t.typeNode := by
  cases t with
  | basic i s x =>
    simp only [DT.ents, List.mem_cons] at h
    rcases h with h | h
    · cases i <;> cases h <;> rfl
    · exact absurd (List.mem_map_of_mem h) ht
  | ext hd b fs ps it =>
    simp only [ownKeys, List.mem_append, not_or] at ht
    have h1 : (Scalar.str "type", v) ∉ hd.extra.ents := fun h => ht.1 (List.mem_map_of_mem h)
    have h2 : (Scalar.str "type", v) ∉ annEnts hd.annotations := by
      intro h
      obtain ⟨a, ha, he⟩ := List.mem_map.mp h
      exact ht.2 (List.mem_map.mpr ⟨a, ha, congrArg Prod.fst he⟩)
    have h3 : v = .str hd.schema := by
      simpa [DT.ents, dtEnts, Hdr.headEnts, Hdr.reqEnts, Hdr.tailEnts, mem_opt, h1, h2,
        body_no_type] using h
    exact h3

private theorem entries_eq {X : Xyml} (hX : Lawful X) {t : DT}
    (ht : Scalar.str "type" ∉ ownKeys t) :
    entriesOf (t.toYAML X) = asPairs X (lastWins (t.ents X)) := by
  have hw := C64_written X t
  have hs := ents_of_slots X t
  rw [← hs] at hw
  have hk := (lastWins_keys (t.ents X) (.str "type")).mpr (type_key X t)
  rw [hw]
  match hl : lastWins (t.ents X), hk with
  | [e], hk =>
    have he : e = (.str "type", t.typeNode) := by
      have h1 : e.1 = .str "type" := (List.mem_singleton.mp hk).symm
      have h2 : e ∈ t.ents X := mem_lastWins (hl ▸ List.mem_singleton.mpr rfl)
      obtain ⟨a, b⟩ := e
      cases h1
      rw [type_value X t ht b h2]
    subst he
    show entriesOf t.typeNode = [(X.ofKey (.str "type"), t.typeNode)]
    rw [hX.ofKey_str]
    unfold DT.typeNode
    split <;> rfl
  | e :: e' :: es, _ => rfl

private theorem keep_one {ks : List Scalar} {k : Scalar} (h : k ∈ ks) (v : Node) :
    keep ks [(k, v)] = [] := by
  simp [keep, h]

private theorem keep_ents (X : Xyml) {t u : DT} {op : TypeOp} (h : t.apply op = some u)
    {k : String} (hk : opKey op = some k) {ks : List Scalar} (hks : Scalar.str k ∈ ks) :
    keep ks (u.ents X) = keep ks (t.ents X) ∧ ownKeys u = ownKeys t := by
  cases t with
  | basic i s x =>
    cases op <;> simp [DT.apply] at h <;> cases hk
    subst h
    simp [DT.ents, keep, hks, ownKeys]
  | ext hd b fs ps it =>
    cases op <;> cases hk <;> cases b <;> simp [DT.apply, Hdr.apply, Body.apply] at h <;>
      subst h <;>
      simp [DT.ents, dtEnts, Hdr.headEnts, Hdr.reqEnts, Hdr.tailEnts, Body.ents, keep_append,
        keep_opt hks, keep_one hks, ownKeys, -List.append_assoc]

/-- C98: however often calls are made about the facets with the given keys, everything that is
written under other keys stays, in the same order.  The hypothesis on names leaves out types
whose `type` entry is overwritten by an extra facet or annotation of that name. -/
theorem C98_type (X : Xyml) (hX : Lawful X) (t u : DT) (ops : List TypeOp) (ks : List String)
    (h : t.applyAll ops = some u) (hk : ∀ op ∈ ops, ∃ k ∈ ks, opKey op = some k)
    (ht : Scalar.str "type" ∉ ownKeys t) :
    without X (ks.map .str) (entriesOf (u.toYAML X)) =
      without X (ks.map .str) (entriesOf (t.toYAML X)) := by
  have key : ∀ t, t.applyAll ops = some u →
      keep (ks.map .str) (u.ents X) = keep (ks.map .str) (t.ents X) ∧ ownKeys u = ownKeys t := by
    clear h ht
    induction ops with
    | nil =>
      intro t h
      obtain rfl := applyAll_nil.mp h
      exact ⟨rfl, rfl⟩
    | cons op ops ih =>
      intro t h
      obtain ⟨v, h1, h2⟩ := applyAll_cons.mp h
      obtain ⟨k, hm, hop⟩ := hk op (by simp)
      have a := ih (fun o ho => hk o (by simp [ho])) v h2
      have b := keep_ents X h1 hop (List.mem_map_of_mem (f := Scalar.str) hm)
      exact ⟨a.1.trans b.1, a.2.trans b.2⟩
  obtain ⟨h1, h2⟩ := key t h
  rw [entries_eq hX ht, entries_eq hX (h2 ▸ ht), without_asPairs hX, without_asPairs hX, h1]

private theorem keep_own (X : Xyml) {t u : DT} {op : TypeOp} (h : t.apply op = some u)
    (hk : opKey op = none) {ks : List Scalar}
    (h1 : ∀ k ∈ opNames op t, k ∈ ks) (h2 : ∀ k ∈ opNames op u, k ∈ ks) :
    keep ks (u.ents X) = keep ks (t.ents X) := by
  have ann : ∀ (m : OM String Ann), (∀ k ∈ m.ents.map fun a => Scalar.str a.1, k ∈ ks) →
      keep ks (annEnts m) = [] := by
    intro m hm
    refine keep_all fun e he => ?_
    obtain ⟨a, ha, rfl⟩ := List.mem_map.mp he
    exact hm _ (List.mem_map_of_mem (f := fun a : String × Ann => Scalar.str a.1) ha)
  have ext : ∀ (m : OM Scalar Node), (∀ k ∈ m.ents.map Prod.fst, k ∈ ks) →
      keep ks m.ents = [] := fun m hm => keep_all fun e he => hm _ (List.mem_map_of_mem he)
  cases t with
  | basic i s x =>
    cases op <;> simp [DT.apply] at h <;> cases hk
    subst h
    have kc : ∀ e l, keep ks (e :: l) = keep ks [e] ++ keep ks l :=
      fun e l => keep_append ks [e] l
    simp only [opNames, DT.extra] at h1 h2
    simp only [DT.ents]
    rw [kc, kc _ x.ents, ext _ h1, ext _ h2]
  | ext hd b fs ps it =>
    cases op <;> cases hk <;> simp only [DT.apply, Hdr.apply, Option.some.injEq] at h <;>
      subst h <;> simp only [opNames, DT.extra] at h1 h2 <;>
      simp only [DT.ents, dtEnts, Hdr.headEnts, Hdr.reqEnts, Hdr.tailEnts, keep_append] <;>
      first
      | rw [ann _ h1, ann _ h2]
      | rw [ext _ h1, ext _ h2]

/-- C98: a call about annotations leaves everything that is written under other names than those
of the annotations before and after the call; likewise for extra facets. -/
theorem C98_type_own (X : Xyml) (hX : Lawful X) (t u : DT) (op : TypeOp)
    (h : t.apply op = some u) (hk : opKey op = none)
    (ht : Scalar.str "type" ∉ ownKeys t) (hu : Scalar.str "type" ∉ ownKeys u) :
    without X (opNames op t ++ opNames op u) (entriesOf (u.toYAML X)) =
      without X (opNames op t ++ opNames op u) (entriesOf (t.toYAML X)) := by
  rw [entries_eq hX ht, entries_eq hX hu, without_asPairs hX, without_asPairs hX,
    keep_own X h hk (fun k hk => List.mem_append_left _ hk) fun k hk => List.mem_append_right _ hk]

/-- A string type with a pattern, an extra facet and an annotation. -/
def sampleEdited : DT := .ext { Hdr.new .string with
    extra := ⟨[(.str "color", .str "red")], false⟩
    annotations := ⟨[("(note)", OM.empty false)], false⟩ }
  (.string { pattern := some "a", minLength := 0, maxLength := none }) (OM.empty true)
  (OM.empty true) none

example : ∃ u, sampleEdited.applyAll [.setMinLength 3, .setDescription "d", .setMinLength 5] =
      some u ∧ Scalar.str "type" ∉ ownKeys sampleEdited ∧
    without Xyml.std [.str "minLength", .str "description"] (entriesOf (u.toYAML Xyml.std)) =
      [(.str "type", .str "string"), (.str "color", .str "red"),
        (.str "(note)", .map []), (.str "pattern", .str "a")] := by
  have hn : Scalar.str "type" ∉ ownKeys sampleEdited := by
    simp [ownKeys, sampleEdited]
  refine ⟨_, rfl, hn, ?_⟩
  exact (C98_type Xyml.std Xyml.std_lawful sampleEdited _
    [.setMinLength 3, .setDescription "d", .setMinLength 5] ["minLength", "description"] rfl
    (by simp [opKey]) hn).trans rfl

example : ∃ u, sampleEdited.apply (.editExtra fun m => m.put (.str "size") (.str "9")) = some u ∧
    without Xyml.std [.str "color", .str "color", .str "size"] (entriesOf (u.toYAML Xyml.std)) =
      [(.str "type", .str "string"), (.str "(note)", .map []), (.str "pattern", .str "a")] :=
  ⟨_, rfl, (C98_type_own Xyml.std Xyml.std_lawful sampleEdited _
    (.editExtra fun m => m.put (.str "size") (.str "9")) rfl rfl
    (by simp [ownKeys, sampleEdited]) (by simp [ownKeys, OM.put])).trans rfl⟩

/-- C98: the hypothesis on names is needed: with an extra facet `type` that is a mapping, and no
other facet, the mapping is written in place of the type. -/
theorem C98_type_needs_names (X : Xyml) (hX : Lawful X) : ∃ t u : DT,
    t.apply (.setDescription "d") = some u ∧
    without X [.str "description"] (entriesOf (u.toYAML X)) ≠
      without X [.str "description"] (entriesOf (t.toYAML X)) := by
  let h : Hdr := { Hdr.new .string with extra := ⟨[(.str "type", .map [])], false⟩ }
  let b : Body := .string { pattern := none, minLength := 0, maxLength := none }
  refine ⟨.ext h b (OM.empty true) (OM.empty true) none, _, rfl, ?_⟩
  have h1 : (DT.ext h b (OM.empty true) (OM.empty true) none).toYAML X = .map [] := rfl
  have h2 : (DT.ext { h with description := some "d" } b (OM.empty true) (OM.empty true)
      none).toYAML X = .map [(X.ofKey (.str "description"), .str "d"),
        (X.ofKey (.str "type"), .map [])] := rfl
  rw [h1, h2]
  simp [entriesOf, without, hX.toScalar_ofKey]

/-! ### Where the entry is -/

private theorem flatMap_split {A B : Type} (tag : A → String) (f g : A → List B) (k : String)
    (l : List A) (hl : (l.map tag).Nodup) (h : ∀ x ∈ l, tag x ≠ k → g x = f x) :
    l.flatMap g = l.flatMap f ∨
    ∃ a p q, tag a = k ∧ l.flatMap f = p ++ (f a ++ q) ∧ l.flatMap g = p ++ (g a ++ q) := by
  by_cases ha : k ∈ l.map tag
  · obtain ⟨a, hm, rfl⟩ := List.mem_map.mp ha
    obtain ⟨p, q, rfl⟩ := List.append_of_mem hm
    rw [List.map_append, List.map_cons] at hl
    have hn := List.nodup_append.mp hl
    have hp : ∀ x ∈ p, g x = f x := fun x hx => h x (by simp [hx]) fun he =>
      hn.2.2 _ (List.mem_map_of_mem hx) (tag a) (by simp) he
    have hq : ∀ x ∈ q, g x = f x := fun x hx => h x (by simp [hx]) fun he =>
      (List.nodup_cons.mp hn.2.1).1 (he ▸ List.mem_map_of_mem hx)
    refine .inr ⟨a, p.flatMap f, q.flatMap f, rfl, by simp, ?_⟩
    rw [List.flatMap_append, List.flatMap_cons, List.flatMap_congr hp, List.flatMap_congr hq]
  · exact .inl (List.flatMap_congr fun x hx => h x hx fun he =>
      ha (he ▸ List.mem_map_of_mem hx))

private def tagOf : Slot → String
  | .default => "default"
  | .facet n _ => n
  | .extras => ""
  | .annotations => "("

private theorem slots_nodup (kd : Kind) : ((slots kd).map tagOf).Nodup := by
  cases kd <;> decide

set_option maxHeartbeats 4000000 in
private theorem other_slots (X : Xyml) {t u : DT} {op : TypeOp} (h : t.apply op = some u)
    {k : String} (hk : opKey op = some k) (s : Slot) (hs : s ∈ slots t.kind)
    (hne : tagOf s ≠ k) : putsAt X u s = putsAt X t s := by
  cases t with
  | basic i x e =>
    cases op <;> simp [DT.apply] at h <;> cases hk
    subst h
    cases i <;> simp [slots, DT.kind, isBasic] at hs <;> rcases hs with rfl | rfl <;>
      simp [tagOf] at hne <;> rfl
  | ext hd b fs ps it =>
    cases op <;> cases hk <;> cases b <;> simp [DT.apply, Hdr.apply, Body.apply] at h <;>
      subst h <;> cases s <;> first
      | rfl
      | exact absurd rfl hne
      | (rename_i n f; cases f <;> first
          | rfl
          | (exfalso; revert hs; simp [slots, DT.kind, isBasic, ownSlots, Body.kind]; exact hne))

private theorem slot_one (X : Xyml) (t : DT) (s : Slot) {k : String} (h : tagOf s = k)
    (h1 : k ≠ "") (h2 : k ≠ "(") :
    ∃ o : Option Node, putsAt X t s = o.toList.map fun v => (Scalar.str k, v) := by
  subst h
  cases s with
  | default => exact ⟨dflt t, rfl⟩
  | facet n f => exact ⟨writtenFacet X t f, rfl⟩
  | extras => exact absurd rfl h1
  | annotations => exact absurd rfl h2

private theorem opKey_name {op : TypeOp} {k : String} (hk : opKey op = some k) :
    k ≠ "" ∧ k ≠ "(" := by
  cases op <;> cases hk <;> decide

/-- C98: without key clashes one entry is added, removed or replaced at its place, and what is
before and after it stays. -/
theorem C98_type_place (X : Xyml) (hX : Lawful X) (t u : DT) (op : TypeOp) (k : String)
    (h : t.apply op = some u) (hk : opKey op = some k) (ht : Clean t) (hu : Clean u) :
    ∃ (before after : List (Node × Node)) (old new : Option Node),
      entriesOf (t.toYAML X) = before ++ (old.toList.map (fun v => (Node.str k, v)) ++ after) ∧
      entriesOf (u.toYAML X) = before ++ (new.toList.map (fun v => (Node.str k, v)) ++ after) := by
  rw [C64_entries_in_order X hX t ht, C64_entries_in_order X hX u hu, apply_kind h]
  rcases flatMap_split tagOf (putsAt X t) (putsAt X u) k (slots t.kind) (slots_nodup _)
    (fun s hs hne => other_slots X h hk s hs hne) with he | ⟨s, p, q, hs, h1, h2⟩
  · exact ⟨_, [], none, none, (List.append_nil _).symm, by rw [he]; exact (List.append_nil _).symm⟩
  · obtain ⟨hn1, hn2⟩ := opKey_name hk
    obtain ⟨o, ho⟩ := slot_one X t s hs hn1 hn2
    obtain ⟨o', ho'⟩ := slot_one X u s hs hn1 hn2
    refine ⟨p.map fun e => (X.ofKey e.1, e.2), q.map fun e => (X.ofKey e.1, e.2), o, o', ?_, ?_⟩
    · rw [h1, ho, List.map_append, List.map_append, List.map_map]
      simp only [Function.comp_def, hX.ofKey_str]
    · rw [h2, ho', List.map_append, List.map_append, List.map_map]
      simp only [Function.comp_def, hX.ofKey_str]

example : ∃ (before after : List (Node × Node)) (old new : Option Node),
    entriesOf (sampleEdited.toYAML Xyml.std) =
      before ++ (old.toList.map (fun v => (Node.str "maxLength", v)) ++ after) ∧
    entriesOf ((DT.ext { Hdr.new .string with
        extra := ⟨[(.str "color", .str "red")], false⟩
        annotations := ⟨[("(note)", OM.empty false)], false⟩ }
      (.string { pattern := some "a", minLength := 0, maxLength := some 7 }) (OM.empty true)
      (OM.empty true) none).toYAML Xyml.std) =
      before ++ (new.toList.map (fun v => (Node.str "maxLength", v)) ++ after) := by
  refine C98_type_place Xyml.std Xyml.std_lawful sampleEdited _ (.setMaxLength 7) "maxLength" rfl rfl
    ?_ ?_ <;>
  · refine ⟨by simp [Distinct, extraWithDefault, Hdr.new], ?_, by simp [Distinct], by simp⟩
    intro p hp s hs
    simp [extraWithDefault, Hdr.new] at hp
    subst hp
    cases hs
    decide

/-! ### API documents -/

private theorem keep_cons (ks : List Scalar) (e : Scalar × Node) (k : Scalar) (o : Option Node)
    (l : List (Scalar × Node)) :
    keep ks (e :: (OM.optEnt k o ++ l)) = keep ks [e] ++ keep ks (OM.optEnt k o ++ l) :=
  keep_append ks [e] _

private theorem keep_api (X : Xyml) (a : APISpec) {c : ApiCall} {k : String}
    (hk : apiOpKey c = some k) {ks : List Scalar} (hks : Scalar.str k ∈ ks) :
    keep ks ((a.call c).ents X) = keep ks (a.ents X) := by
  cases c with
  | set op =>
    cases op <;> cases hk <;> simp only [APISpec.call, APISpec.apply, APISpec.ents,
      APISpec.headEnts, APISpec.typesEnts, List.cons_append, List.append_assoc, keep_cons,
      keep_append, keep_opt hks, keep_one hks]
  | _ =>
    cases hk <;> simp only [APISpec.call, APISpec.ents, APISpec.headEnts, APISpec.typesEnts,
      List.cons_append, List.append_assoc, keep_cons, keep_append, keep_opt hks]

/-- C98: the same for API documents: after any calls about the parts with the given keys,
everything that is written under other keys is as before, in the same order.  No hypothesis on
names is needed. -/
theorem C98_api (X : Xyml) (hX : Lawful X) (a : APISpec) (cs : List ApiCall) (ks : List String)
    (hk : ∀ c ∈ cs, ∃ k ∈ ks, apiOpKey c = some k) :
    without X (ks.map .str) (mapEntries ((cs.foldl APISpec.call a).toYAML X)) =
      without X (ks.map .str) (mapEntries (a.toYAML X)) := by
  have key : ∀ a : APISpec, keep (ks.map .str) ((cs.foldl APISpec.call a).ents X) =
      keep (ks.map .str) (a.ents X) := by
    induction cs with
    | nil => exact fun _ => rfl
    | cons c cs ih =>
      intro a
      obtain ⟨k, hm, hc⟩ := hk c (by simp)
      exact (ih (fun o ho => hk o (by simp [ho])) (a.call c)).trans
        (keep_api X a hc (List.mem_map_of_mem (f := Scalar.str) hm))
  simp only [api_toYAML_eq, mapEntries]
  rw [without_asPairs hX, without_asPairs hX, key]

private theorem keep_named {V : Type} (f : V → Node) {ks : List Scalar} (m : OM String V)
    (h : ∀ k ∈ m.ents.map fun x => Scalar.str x.1, k ∈ ks) :
    keep ks (m.ents.map fun x => (Scalar.str x.1, f x.2)) = [] := by
  refine keep_all fun e he => ?_
  obtain ⟨a, ha, rfl⟩ := List.mem_map.mp he
  exact h _ (List.mem_map_of_mem (f := fun x : String × V => Scalar.str x.1) ha)

private theorem keep_extra {ks : List Scalar} (m : OM Scalar Node)
    (h : ∀ k ∈ m.ents.map Prod.fst, k ∈ ks) : keep ks m.ents = [] :=
  keep_all fun _ he => h _ (List.mem_map_of_mem he)

/-- C98: a call about annotations, extra facets or resources leaves everything that is written
under other names than those before and after the call. -/
theorem C98_api_own (X : Xyml) (hX : Lawful X) (a : APISpec) (c : ApiCall)
    (hk : apiOpKey c = none) :
    without X (apiOpNames c a ++ apiOpNames c (a.call c)) (mapEntries ((a.call c).toYAML X)) =
      without X (apiOpNames c a ++ apiOpNames c (a.call c)) (mapEntries (a.toYAML X)) := by
  have key : ∀ ks : List Scalar, (∀ k ∈ apiOpNames c a, k ∈ ks) →
      (∀ k ∈ apiOpNames c (a.call c), k ∈ ks) →
      keep ks ((a.call c).ents X) = keep ks (a.ents X) := by
    intro ks h1 h2
    have ann : ∀ m : OM String Ann, (∀ k ∈ m.ents.map fun x => Scalar.str x.1, k ∈ ks) →
        keep ks (annEnts m) = [] := fun m h => keep_named _ m h
    have res : ∀ m : OM String Node, (∀ k ∈ m.ents.map fun x => Scalar.str x.1, k ∈ ks) →
        keep ks (strEnts m) = [] := fun m h => keep_named (fun n => n) m h
    cases c with
    | set op =>
      cases op <;> cases hk <;> simp only [apiOpNames, APISpec.call, APISpec.apply] at h1 h2 ⊢ <;>
        simp only [APISpec.ents, APISpec.headEnts, APISpec.typesEnts, List.cons_append,
          List.append_assoc, keep_cons, keep_append] <;> rw [ann _ h1, ann _ h2]
    | _ =>
      cases hk <;> simp only [apiOpNames, APISpec.call] at h1 h2 ⊢ <;>
        simp only [APISpec.ents, APISpec.headEnts, APISpec.typesEnts, List.cons_append,
          List.append_assoc, keep_cons, keep_append] <;> first
        | rw [ann _ h1, ann _ h2]
        | rw [keep_extra _ h1, keep_extra _ h2]
        | rw [res _ h1, res _ h2]
  simp only [api_toYAML_eq, mapEntries]
  rw [without_asPairs hX, without_asPairs hX,
    key _ (fun k hk => List.mem_append_left _ hk) fun k hk => List.mem_append_right _ hk]

/-- C98: without name clashes one entry of an API document is added, removed or replaced at its
place. -/
theorem C98_api_place (X : Xyml) (hX : Lawful X) (a : APISpec) (c : ApiCall) (k : String)
    (hk : apiOpKey c = some k) (ha : CleanApi a) (hb : CleanApi (a.call c)) :
    ∃ (before after : List (Node × Node)) (old new : Option Node),
      mapEntries (a.toYAML X) =
        before ++ (old.toList.map (fun v => (Node.str k, v)) ++ after) ∧
      mapEntries ((a.call c).toYAML X) =
        before ++ (new.toList.map (fun v => (Node.str k, v)) ++ after) := by
  have hrest : (a.call c).annotations = a.annotations ∧ (a.call c).extra = a.extra ∧
      (a.call c).resources = a.resources ∧
      (k ≠ "types" → writtenPart X (a.call c) .types = writtenPart X a .types) := by
    cases c with
    | set op => cases op <;> cases hk <;> simp [APISpec.call, APISpec.apply, writtenPart]
    | _ => cases hk <;> simp [APISpec.call, writtenPart]
  have hhead : ∀ x ∈ headParts, x.1 ≠ k →
      (writtenPart X (a.call c) x.2).toList.map (fun v => (Node.str x.1, v)) =
        (writtenPart X a x.2).toList.map fun v => (Node.str x.1, v) := by
    intro x hx hne
    congr 2
    obtain ⟨n, s⟩ := x
    cases c with
    | set op =>
      cases op <;> cases hk <;> cases s <;> first
        | rfl
        | (exfalso; revert hx; simp [headParts]; exact hne)
        | (exfalso; revert hx; simp [headParts])
    | _ =>
      cases hk <;> cases s <;> first
        | rfl
        | (exfalso; revert hx; simp [headParts]; exact hne)
        | (exfalso; revert hx; simp [headParts])
  rw [C41_entries_in_order X hX a ha, C41_entries_in_order X hX _ hb]
  obtain ⟨r1, r2, r3, r4⟩ := hrest
  rw [r1, r2, r3]
  by_cases ht : k = "types"
  · subst ht
    rw [List.flatMap_congr fun x hx => hhead x hx (by revert hx; revert x; decide)]
    have sp : ∀ (A B C D E : List (Node × Node)),
        A ++ (B ++ (C ++ (D ++ E))) = A ++ (B ++ (C ++ D)) ++ (E ++ []) := by simp
    exact ⟨_, [], writtenPart X a .types, writtenPart X (a.call c) .types, sp .., sp ..⟩
  · rw [r4 ht]
    rcases flatMap_split (fun x : String × ApiSection => x.1) _ _ k headParts (by decide) hhead
      with he | ⟨s, p, q, hs, h1, h2⟩
    · exact ⟨_, [], none, none, (List.append_nil _).symm, by rw [he]; exact (List.append_nil _).symm⟩
    · rw [h1, h2]
      subst hs
      have sp : ∀ (A B C D : List (Node × Node)), A ++ (B ++ C) ++ D = A ++ (B ++ (C ++ D)) := by
        simp
      exact ⟨p, _, writtenPart X a s.2, writtenPart X (a.call c) s.2, sp .., sp ..⟩

/-- A new title and two changes of the declared types: the other entries stay. -/
example : without Xyml.std [.str "title", .str "types"] (mapEntries
      (([.set (.setTitle "x"), .types (fun m => m.put "A" (.new .string)), .set .unsetSchemas] :
        List ApiCall).foldl APISpec.call sampleApi |>.toYAML Xyml.std)) =
    without Xyml.std [.str "title", .str "types"] (mapEntries (sampleApi.toYAML Xyml.std)) :=
  C98_api Xyml.std Xyml.std_lawful sampleApi _ ["title", "types"] (by simp [apiOpKey])

/-- A new resource: the entries other than the old and the new resource stay. -/
example : without Xyml.std [.str "/pets", .str "/pets", .str "/cats"] (mapEntries
      ((sampleApi.call (.resources fun m => m.put "/cats" (.map []))).toYAML Xyml.std)) =
    without Xyml.std [.str "/pets", .str "/pets", .str "/cats"]
      (mapEntries (sampleApi.toYAML Xyml.std)) :=
  C98_api_own Xyml.std Xyml.std_lawful sampleApi (.resources fun m => m.put "/cats" (.map [])) rfl

example : ∃ (before after : List (Node × Node)) (old new : Option Node),
    mapEntries (sampleApi.toYAML Xyml.std) =
      before ++ (old.toList.map (fun v => (Node.str "description", v)) ++ after) ∧
    mapEntries ((sampleApi.call (.set (.setDescription "d"))).toYAML Xyml.std) =
      before ++ (new.toList.map (fun v => (Node.str "description", v)) ++ after) := by
  have hc := sampleApi_plain.writable.clean
  exact C98_api_place Xyml.std Xyml.std_lawful sampleApi (.set (.setDescription "d")) _ rfl hc
    ⟨hc.extra, hc.extraKeys, hc.annotations, hc.annotationKeys, hc.resources, hc.resourceKeys⟩

/-! ### Libraries -/

/-- C98: the same for libraries. -/
theorem C98_library (X : Xyml) (hX : Lawful X) (l : Library) (cs : List LibCall)
    (ks : List String) (hk : ∀ c ∈ cs, ∃ k ∈ ks, libOpKey c = some k) :
    without X (ks.map .str) (mapEntries ((cs.foldl Library.call l).toYAML X)) =
      without X (ks.map .str) (mapEntries (l.toYAML X)) := by
  have one : ∀ (l : Library) (c : LibCall) (k : String), libOpKey c = some k → k ∈ ks →
      keep (ks.map .str) ((l.call c).ents X) = keep (ks.map .str) (l.ents X) := by
    intro l c k hc hm
    have hks : Scalar.str k ∈ ks.map .str := List.mem_map_of_mem hm
    cases c with
    | set op =>
      cases op <;> cases hc <;>
        simp only [Library.call, Library.apply, Library.ents, keep_append, keep_opt hks]
    | _ => cases hc <;> simp only [Library.call, Library.ents, keep_append, keep_opt hks]
  have key : ∀ l : Library, keep (ks.map .str) ((cs.foldl Library.call l).ents X) =
      keep (ks.map .str) (l.ents X) := by
    induction cs with
    | nil => exact fun _ => rfl
    | cons c cs ih =>
      intro l
      obtain ⟨k, hm, hc⟩ := hk c (by simp)
      exact (ih (fun o ho => hk o (by simp [ho])) (l.call c)).trans (one l c k hc hm)
  simp only [lib_toYAML_eq, mapEntries]
  rw [without_asPairs hX, without_asPairs hX, key]

/-- C98: a call about annotations or extra facets of a library leaves everything that is written
under other names. -/
theorem C98_library_own (X : Xyml) (hX : Lawful X) (l : Library) (c : LibCall)
    (hk : libOpKey c = none) :
    without X (libOpNames c l ++ libOpNames c (l.call c)) (mapEntries ((l.call c).toYAML X)) =
      without X (libOpNames c l ++ libOpNames c (l.call c)) (mapEntries (l.toYAML X)) := by
  have key : ∀ ks : List Scalar, (∀ k ∈ libOpNames c l, k ∈ ks) →
      (∀ k ∈ libOpNames c (l.call c), k ∈ ks) →
      keep ks ((l.call c).ents X) = keep ks (l.ents X) := by
    intro ks h1 h2
    have ann : ∀ m : OM String Ann, (∀ k ∈ m.ents.map fun x => Scalar.str x.1, k ∈ ks) →
        keep ks (annEnts m) = [] := fun m h => keep_named _ m h
    cases c with
    | set op =>
      cases op <;> cases hk <;> simp only [libOpNames, Library.call, Library.apply] at h1 h2 ⊢ <;>
        simp only [Library.ents, keep_append] <;> rw [ann _ h1, ann _ h2]
    | _ =>
      cases hk <;> simp only [libOpNames, Library.call] at h1 h2 ⊢ <;>
        simp only [Library.ents, keep_append] <;> first
        | rw [ann _ h1, ann _ h2]
        | rw [keep_extra _ h1, keep_extra _ h2]
  simp only [lib_toYAML_eq, mapEntries]
  rw [without_asPairs hX, without_asPairs hX,
    key _ (fun k hk => List.mem_append_left _ hk) fun k hk => List.mem_append_right _ hk]

/-- C98: without name clashes one entry of a library is added, removed or replaced at its place. -/
theorem C98_library_place (X : Xyml) (hX : Lawful X) (l : Library) (c : LibCall) (k : String)
    (hk : libOpKey c = some k) (ha : CleanLib l) (hb : CleanLib (l.call c)) :
    ∃ (before after : List (Node × Node)) (old new : Option Node),
      mapEntries (l.toYAML X) =
        before ++ (old.toList.map (fun v => (Node.str k, v)) ++ after) ∧
      mapEntries ((l.call c).toYAML X) =
        before ++ (new.toList.map (fun v => (Node.str k, v)) ++ after) := by
  have hr : (l.call c).annotations = l.annotations ∧ (l.call c).extra = l.extra := by
    cases c with
    | set op => cases op <;> cases hk <;> simp [Library.call, Library.apply]
    | _ => cases hk <;> simp [Library.call]
  have hm : k ∈ libWriteKeys := by
    cases c with
    | set op => cases op <;> cases hk <;> decide
    | _ => cases hk <;> decide
  have hw : ∀ k' ∈ libWriteKeys, k' ≠ k → writtenLib X (l.call c) k' = writtenLib X l k' := by
    intro k' h' hne
    simp only [libWriteKeys, List.mem_cons, List.not_mem_nil, or_false] at h'
    cases c with
    | set op =>
      cases op <;> cases hk <;> rcases h' with rfl | rfl | rfl | rfl | rfl | rfl | rfl <;> first
        | rfl
        | exact absurd rfl hne
    | _ =>
      cases hk <;> rcases h' with rfl | rfl | rfl | rfl | rfl | rfl | rfl <;> first
        | rfl
        | exact absurd rfl hne
  rw [C50_entries_in_order X hX l ha, C50_entries_in_order X hX _ hb, hr.1, hr.2]
  simp only [List.flatMap_cons, List.flatMap_nil, List.append_nil]
  generalize writtenLib X l = w at hw ⊢
  generalize writtenLib X (l.call c) = w' at hw ⊢
  generalize l.annotations.ents.map (fun e => (Node.str e.1, renderPairs e.2.omap
    (e.2.ents.map fun x => (Node.str x.1, x.2)))) = A
  generalize l.extra.ents.map (fun e => (X.ofKey e.1, e.2)) = B
  simp only [libWriteKeys, List.mem_cons, List.not_mem_nil, or_false] at hm
  let P : String → List (Node × Node) := fun k => (w k).toList.map fun v => (Node.str k, v)
  rcases hm with rfl | rfl | rfl | rfl | rfl | rfl | rfl
  on_goal 7 => refine ⟨P "usage" ++ P "uses" ++ P "securitySchemes" ++ P "traits" ++ P "annotationTypes" ++
      A ++ P "resourceTypes" ++ B,
      [],
      w "types", w' "types", ?_, ?_⟩
  on_goal 6 => refine ⟨P "usage" ++ P "uses" ++ P "securitySchemes" ++ P "traits" ++ P "annotationTypes" ++
      A,
      B ++ P "types",
      w "resourceTypes", w' "resourceTypes", ?_, ?_⟩
  on_goal 5 => refine ⟨P "usage" ++ P "uses" ++ P "securitySchemes" ++ P "traits",
      A ++ P "resourceTypes" ++ B ++ P "types",
      w "annotationTypes", w' "annotationTypes", ?_, ?_⟩
  on_goal 4 => refine ⟨P "usage" ++ P "uses" ++ P "securitySchemes",
      P "annotationTypes" ++ A ++ P "resourceTypes" ++ B ++ P "types",
      w "traits", w' "traits", ?_, ?_⟩
  on_goal 3 => refine ⟨P "usage" ++ P "uses",
      P "traits" ++ P "annotationTypes" ++ A ++ P "resourceTypes" ++ B ++ P "types",
      w "securitySchemes", w' "securitySchemes", ?_, ?_⟩
  on_goal 2 => refine ⟨P "usage",
      P "securitySchemes" ++ P "traits" ++ P "annotationTypes" ++ A ++ P "resourceTypes" ++
        B ++ P "types",
      w "uses", w' "uses", ?_, ?_⟩
  on_goal 1 => refine ⟨[],
      P "uses" ++ P "securitySchemes" ++ P "traits" ++ P "annotationTypes" ++ A ++
        P "resourceTypes" ++ B ++ P "types",
      w "usage", w' "usage", ?_, ?_⟩
  all_goals
    simp (discharger := decide) only [P, hw, List.append_assoc, List.append_nil, List.nil_append]

example : without Xyml.std [.str "usage"] (mapEntries (({ Library.new with
      extra := ⟨[(.str "a", .str "b")], false⟩ }.call (.set (.setUsage "u"))).toYAML Xyml.std)) =
    [(.str "a", .str "b")] :=
  (C98_library Xyml.std Xyml.std_lawful _ [.set (.setUsage "u")] ["usage"] (by simp [libOpKey])).trans
    rfl

/-- A usage before an extra facet. -/
example : ∃ (before after : List (Node × Node)) (old new : Option Node),
    mapEntries (({ Library.new with extra := ⟨[(.str "a", .str "b")], false⟩ } : Library).toYAML
      Xyml.std) = before ++ (old.toList.map (fun v => (Node.str "usage", v)) ++ after) ∧
    mapEntries (({ Library.new with extra := ⟨[(.str "a", .str "b")], false⟩ }.call
      (.set (.setUsage "u"))).toYAML Xyml.std) =
        before ++ (new.toList.map (fun v => (Node.str "usage", v)) ++ after) := by
  have hc : CleanLib ({ Library.new with extra := ⟨[(.str "a", .str "b")], false⟩ } : Library) :=
    ⟨by simp [Distinct], by simp [libWriteKeys], by simp [Distinct, Library.new, OM.empty],
      by simp [Library.new, OM.empty]⟩
  exact C98_library_place Xyml.std Xyml.std_lawful _ (.set (.setUsage "u")) "usage" rfl hc
    ⟨hc.extra, hc.extraKeys, hc.annotations, hc.annotationKeys⟩

example : without Xyml.std [.str "a"] (mapEntries (({ Library.new with
      usage := some "u", extra := ⟨[(.str "a", .str "b")], false⟩ }.call
        (.extra fun _ => OM.empty true)).toYAML Xyml.std)) = [(.str "usage", .str "u")] :=
  (C98_library_own Xyml.std Xyml.std_lawful { Library.new with
      usage := some "u", extra := ⟨[(.str "a", .str "b")], false⟩ } (.extra fun _ => OM.empty true)
    rfl).trans rfl

end Verif.Props
