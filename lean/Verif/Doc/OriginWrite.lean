import Verif.Doc.Origin
import Verif.Doc.Laws

/-! # Writing writes what the object holds and fixed words -/

namespace Verif.Doc
open Verif Verif.Doc.Spec

/-- A property of texts that the fixed words and everything in a source have (auxiliary). -/
structure Covers (X : Xyml) (words : List String) (S : Source) (W : String → Prop) : Prop where
  ofKey : ∀ s, X.ofKey (.str s) = Node.str s
  word : ∀ s ∈ words, W s
  text : ∀ s, S.text s → W s
  key : ∀ k, S.key k → textsAll W (X.ofKey k)
  int : ∀ i, S.int i → textsAll W (X.ofInt i)
  nat : ∀ n : Nat, natFrom S n → textsAll W (X.ofInt n)
  flt : ∀ f, S.flt f → textsAll W (X.ofFlt f)
  bool : ∀ b, textsAll W (X.ofBool b)

theorem covers_written {X : Xyml} (hX : Lawful X) (words : List String) (S : Source) :
    Covers X words S (Written X words S) where
  ofKey := hX.ofKey_str
  word _ h := .inl h
  text _ h := .inr (.inl h)
  key k h s hs := .inr (.inr (.inl ⟨k, h, hs⟩))
  int i h s hs := .inr (.inr (.inr (.inl ⟨i, h, .inl hs⟩)))
  nat n h s hs := by
    obtain ⟨i, hi, he⟩ := h
    rw [he] at hs
    exact .inr (.inr (.inr (.inl ⟨i, hi, .inr hs⟩)))
  flt f h s hs := .inr (.inr (.inr (.inr (.inl ⟨f, h, hs⟩))))
  bool b s hs := .inr (.inr (.inr (.inr (.inr ⟨b, hs⟩))))

variable {X : Xyml} {S : Source} {W : String → Prop} {words : List String}

theorem Covers.mono {words' : List String} (h : Covers X words S W)
    (hs : ∀ s ∈ words', s ∈ words) : Covers X words' S W :=
  { h with word := fun s hm => h.word s (hs s hm) }

/-! ### Trees -/

theorem textsAll_scalar {t s : String} (h : W s) : textsAll W (.scalar t s) := by
  intro u hu
  simp only [texts, nodesOf, List.filterMap_cons, scalarText, List.filterMap_nil,
    List.mem_singleton] at hu
  rw [hu]
  exact h

theorem textsAll_of {n : Node} (h : ∀ m ∈ nodesOf n, ∀ s, scalarText m = some s → W s) :
    textsAll W n := by
  intro s hs
  obtain ⟨m, hm, he⟩ := List.mem_filterMap.mp hs
  exact h m hm s he

theorem textsAll_elim {n : Node} (h : textsAll W n) :
    ∀ m ∈ nodesOf n, ∀ s, scalarText m = some s → W s :=
  fun m hm s he => h s (List.mem_filterMap.mpr ⟨m, hm, he⟩)

theorem textsAll_seq {t : String} {ns : List Node} (h : ∀ n ∈ ns, textsAll W n) :
    textsAll W (.seq t ns) := by
  refine textsAll_of (fun m hm s he => ?_)
  simp only [nodesOf, List.mem_cons] at hm
  rcases hm with rfl | hm
  · cases he
  · induction ns with
    | nil => cases hm
    | cons n ns ih =>
      simp only [nodesIn, List.mem_append] at hm
      rcases hm with hm | hm
      · exact textsAll_elim (h n (by simp)) m hm s he
      · exact ih (fun a ha => h a (by simp [ha])) hm

theorem textsAll_map {ps : List (Node × Node)}
    (h : ∀ p ∈ ps, textsAll W p.1 ∧ textsAll W p.2) : textsAll W (.map ps) := by
  refine textsAll_of (fun m hm s he => ?_)
  simp only [nodesOf, List.mem_cons] at hm
  rcases hm with rfl | hm
  · cases he
  · induction ps with
    | nil => cases hm
    | cons p ps ih =>
      obtain ⟨k, v⟩ := p
      simp only [nodesInPairs, nodesInPair, List.mem_append] at hm
      rcases hm with (hm | hm) | hm
      · exact textsAll_elim (h (k, v) (by simp)).1 m hm s he
      · exact textsAll_elim (h (k, v) (by simp)).2 m hm s he
      · exact ih (fun a ha => h a (by simp [ha])) hm

theorem textsAll_mono {P Q : String → Prop} {n : Node} (h : textsAll P n) (hpq : ∀ s, P s → Q s) :
    textsAll Q n := fun s hs => hpq s (h s hs)

theorem textsAll_pairs {b : Bool} {ps : List (Node × Node)}
    (h : ∀ p ∈ ps, textsAll W p.1 ∧ textsAll W p.2) : textsAll W (renderPairs b ps) := by
  unfold renderPairs
  split
  · refine textsAll_seq (fun n hn => ?_)
    obtain ⟨p, hp, rfl⟩ := List.mem_map.mp hn
    exact textsAll_map (fun q hq => by rw [List.mem_singleton.mp hq]; exact h p hp)
  · exact textsAll_map h

theorem textsAll_strMap {V : Type} {vn : V → Node} {p : String → Prop} {q : V → Prop}
    {m : OM String V} (hp : ∀ s, p s → W s) (hq : ∀ x, q x → textsAll W (vn x))
    (h : mapFrom p q m) : textsAll W (renderStrMap vn m) := by
  refine textsAll_pairs (fun e he => ?_)
  obtain ⟨a, ha, rfl⟩ := List.mem_map.mp he
  exact ⟨textsAll_scalar (hp _ (h a ha).1), hq _ (h a ha).2⟩

theorem textsAll_list {V : Type} {g : V → Node} {q : V → Prop} {o : Option (List V)}
    (hq : ∀ x, q x → textsAll W (g x)) (h : listFrom q o) :
    optFrom (textsAll W) (o.map (renderList g)) := by
  cases o with
  | none => exact optFrom_none
  | some l =>
    refine optFrom_some (textsAll_seq (fun n hn => ?_))
    obtain ⟨x, hx, rfl⟩ := List.mem_map.mp hn
    exact hq x (h l rfl x hx)

theorem optFrom_map {V : Type} {g : V → Node} {q : V → Prop} {o : Option V}
    (hq : ∀ x, q x → textsAll W (g x)) (h : optFrom q o) : optFrom (textsAll W) (o.map g) := by
  cases o with
  | none => exact optFrom_none
  | some x => exact optFrom_some (hq x (h x rfl))

theorem optFrom_if {c : Prop} [Decidable c] {n : Node} (h : c → textsAll W n) :
    optFrom (textsAll W) (if c then some n else none) := by
  by_cases hc : c
  · rw [if_pos hc]; exact optFrom_some (h hc)
  · rw [if_neg hc]; exact optFrom_none

/-! ### Maps on the way to being written -/

/-- A map whose keys and values are written with good texts only (auxiliary). -/
abbrev Out (X : Xyml) (W : String → Prop) (m : OM Scalar Node) : Prop :=
  mapFrom (fun k => textsAll W (X.ofKey k)) (textsAll W) m

theorem out_any {m : OM Scalar Node} (h : Out X W m) : textsAll W (renderAny X m) := by
  refine textsAll_pairs (fun e he => ?_)
  obtain ⟨a, ha, rfl⟩ := List.mem_map.mp he
  exact h a ha

theorem out_put (hX : Covers X words S W) {m : OM Scalar Node} (h : Out X W m) {k : String}
    (hk : k ∈ words) {n : Node} (hn : textsAll W n) : Out X W (m.put (.str k) n) :=
  mapFrom_put h (by rw [hX.ofKey]; exact textsAll_scalar (hX.word k hk)) hn

theorem out_opt (hX : Covers X words S W) {m : OM Scalar Node} (h : Out X W m) {k : String}
    (hk : k ∈ words) {o : Option Node} (ho : optFrom (textsAll W) o) :
    Out X W (m.putOpt (.str k) o) := by
  cases o with
  | none => exact h
  | some n => exact out_put hX h hk (ho n rfl)

theorem out_all {m : OM Scalar Node} (h : Out X W m) {es : List (Scalar × Node)}
    (he : ∀ e ∈ es, textsAll W (X.ofKey e.1) ∧ textsAll W e.2) : Out X W (m.putAll es) := by
  induction es generalizing m with
  | nil => exact h
  | cons e es ih =>
    exact ih (mapFrom_put h (he e (by simp)).1 (he e (by simp)).2) (fun a ha => he a (by simp [ha]))

theorem out_extra (hX : Covers X words S W) {m : OM Scalar Node} (h : Out X W m)
    {x : OM Scalar Node} (hx : extraFrom S x) : Out X W (m.putAll x.ents) :=
  out_all h (fun e he => ⟨hX.key _ (hx e he).1, textsAll_mono (hx e he).2 hX.text⟩)

theorem write_untyped (hX : Covers X words S W) {m : OM String Node} (h : untypedFrom S m) :
    textsAll W (renderStrMap id m) :=
  textsAll_strMap hX.text (fun _ hn => textsAll_mono hn hX.text) h

theorem out_anns (hX : Covers X words S W) {m : OM Scalar Node} (h : Out X W m)
    {p : String → Prop} (hp : ∀ k, p k → textsAll W (X.ofKey (.str k))) {x : OM String Ann}
    (hx : mapFrom p (mapFrom S.text (nodeFrom S)) x) : Out X W (m.putAll (annEnts x)) := by
  refine out_all h (fun e he => ?_)
  obtain ⟨a, ha, rfl⟩ := List.mem_map.mp he
  exact ⟨hp _ (hx a ha).1, write_untyped hX (hx a ha).2⟩

theorem out_finish (hX : Covers X words S W) (hn : "null" ∈ words) {m : OM Scalar Node}
    (h : Out X W m) : textsAll W (finish X m) := by
  unfold finish
  split
  · cases hg : m.get (.str "type") with
    | none => exact textsAll_scalar (hX.word _ hn)
    | some n =>
      simp only [OM.get, Option.map_eq_some_iff] at hg
      obtain ⟨e, he, rfl⟩ := hg
      exact (h e (List.mem_of_find?_eq_some he)).2
  · exact out_any h

/-! ### Examples -/

theorem write_val (hX : Covers X words S W) (x : Val) (h : valFrom S x) :
    textsAll W (x.render X) := by
  cases x with
  | node n => exact textsAll_mono h hX.text
  | list ns => exact textsAll_seq (fun n hn => textsAll_mono (h n hn) hX.text)
  | str s => exact textsAll_scalar (hX.text s h)
  | bool b => exact hX.bool b
  | int i => exact hX.int i h
  | flt f => exact hX.flt f h

theorem write_str (hX : Covers X words S W) (s : String) (h : S.text s) : textsAll W (Node.str s) :=
  textsAll_scalar (hX.text s h)

macro "word" : tactic => `(tactic| decide)

theorem write_example (hX : Covers X typeWords S W) (e : Example) (h : ExampleFrom S e) :
    textsAll W (e.toYAML X) := by
  refine out_any ?_
  unfold Example.marshal
  split
  · refine out_extra hX (out_anns hX ?_ (fun k hk => hX.key _ hk) h.annotations) h.extra
    have h3 : Out X W ((((OM.empty false : OM Scalar Node).putOpt (.str "displayName")
        (e.displayName.map .str)).putOpt (.str "description") (e.description.map .str)).putOpt
        (.str "value") (e.value.map (Val.render X))) :=
      out_opt hX (out_opt hX (out_opt hX (mapFrom_empty _) (by word)
        (optFrom_map (write_str hX) h.displayName)) (by word)
        (optFrom_map (write_str hX) h.description)) (by word) (optFrom_map (write_val hX) h.value)
    split
    · exact h3
    · exact out_put hX h3 (by word) (hX.bool _)
  · refine out_put hX (mapFrom_empty _) (by word) ?_
    cases hv : e.value with
    | none => exact textsAll_scalar (hX.word _ (by word))
    | some x => exact write_val hX x (h.value x hv)

/-! ### Types -/

theorem write_num (hX : Covers X words S W) {n d : Nat} (h : n = d ∨ natFrom S n) (hd : n ≠ d) :
    textsAll W (X.ofInt n) := hX.nat n (h.resolve_left hd)

theorem write_body (hX : Covers X typeWords S W) {props items : Option Node}
    (hp : optFrom (textsAll W) props) (hi : optFrom (textsAll W) items) {b : Body}
    (h : bodyFrom S b) {out : OM Scalar Node} (ho : Out X W out) :
    Out X W (b.marshal X props items out) := by
  have st : ∀ {o : OM Scalar Node} {k : String} {v : Option Node}, Out X W o → k ∈ typeWords →
      optFrom (textsAll W) v → Out X W (o.putOpt (.str k) v) := fun h1 h2 h3 => out_opt hX h1 h2 h3
  have hs := fun {o : Option String} (ho : optFrom S.text o) => optFrom_map (write_str hX) ho
  cases b with
  | string f =>
    exact st (st (st ho (by word) (hs h.1)) (by word)
      (optFrom_if (fun hc => write_num hX h.2.1 (by omega)))) (by word)
      (optFrom_map hX.nat h.2.2)
  | file f =>
    exact st (st (st ho (by word) (textsAll_list (write_str hX) h.1)) (by word)
      (optFrom_if (fun hc => write_num hX h.2.1 hc))) (by word)
      (optFrom_if (fun hc => write_num hX h.2.2 hc))
  | array f =>
    exact st (st (st (st ho (by word) (optFrom_if (fun _ => hX.bool _))) (by word)
      (optFrom_if (fun hc => write_num hX h.1 hc))) (by word)
      (optFrom_if (fun hc => write_num hX h.2 hc))) (by word) hi
  | object f =>
    have h1 : optFrom (textsAll W) (if f.addtlProps = true then none
        else some (X.ofBool f.addtlProps)) := by
      split
      · exact optFrom_none
      · exact optFrom_some (hX.bool _)
    exact st (st (st (st (st (st ho (by word) h1) (by word) (optFrom_map hX.nat h.1)) (by word)
      (optFrom_map hX.nat h.2.1)) (by word) (hs h.2.2.1)) (by word)
      (fun n hn => textsAll_mono (h.2.2.2 n hn) hX.text)) (by word) hp
  | datetime f => exact st ho (by word) (hs h)
  | number f =>
    exact st (st (st (st ho (by word) (hs h.1)) (by word) (optFrom_map hX.flt h.2.1)) (by word)
      (optFrom_map hX.flt h.2.2.1)) (by word) (optFrom_map hX.flt h.2.2.2)
  | integer f =>
    exact st (st (st (st ho (by word) (hs h.1)) (by word) (optFrom_map hX.int h.2.1)) (by word)
      (optFrom_map hX.int h.2.2.1)) (by word) (optFrom_map hX.flt h.2.2.2)
  | _ => exact ho

theorem write_schema (hX : Covers X typeWords S W) {s : String} (h : S.text s ∨ s ∈ impliedWords) :
    W s := by
  rcases h with h | h
  · exact hX.text s h
  · exact hX.word s (List.mem_append_right _ h)

theorem write_ext (hX : Covers X typeWords S W) {facets : Option Node}
    (hf : optFrom (textsAll W) facets) {h : Hdr} (hh : HdrFrom S h) {out : OM Scalar Node}
    (ho : Out X W out) : Out X W (h.marshalExt X facets out) := by
  unfold Hdr.marshalExt marshalBase
  have h2 := out_extra hX (out_put hX (k := "type") (out_opt hX (k := "description") (out_opt hX (k := "displayName") ho
    (by word) (optFrom_map (write_str hX) hh.displayName)) (by word)
    (optFrom_map (write_str hX) hh.description)) (by word)
    (textsAll_scalar (t := "!!str") (write_schema hX hh.schema))) hh.extra
  refine out_opt hX (out_opt hX (out_anns hX ?_ (fun k hk => hX.key _ hk) hh.annotations)
    (by word) hf) (by word) ?_
  · split
    · exact h2
    · exact out_put hX h2 (by word) (hX.bool _)
  · exact optFrom_map (q := fun _ => True) (fun _ _ => textsAll_map (by simp)) (fun _ _ => trivial)

theorem write_marshal (hX : Covers X typeWords S W) {facets props items : Option Node}
    (hf : optFrom (textsAll W) facets) (hp : optFrom (textsAll W) props)
    (hi : optFrom (textsAll W) items) {h : Hdr} (hh : HdrFrom S h) {b : Body}
    (hb : bodyFrom S b) : Out X W (marshalDT X h b facets props items) := by
  unfold marshalDT
  refine out_opt hX (out_opt hX (out_opt hX (write_body hX hp hi hb (write_ext hX hf hh
    (out_opt hX (mapFrom_empty _) (by word)
      (fun n hn => textsAll_mono (hh.dflt n hn) hX.text)))) (by word)
    (textsAll_list (write_val hX) hh.enum)) (by word)
    (optFrom_map (write_example hX) hh.example)) (by word) (optFrom_if (fun _ => ?_))
  exact textsAll_strMap hX.text (write_example hX) hh.examples

mutual

theorem write_type (hX : Covers X typeWords S W) : ∀ t : DT, typeFrom S t →
    textsAll W (t.toYAML X)
  | .basic i s x, h => by
    refine out_finish hX (by word) (out_extra hX (out_put hX (mapFrom_empty _) (by word) ?_) h.2)
    split <;> exact textsAll_scalar (write_schema hX h.1)
  | .ext h b ⟨fs, _⟩ ⟨ps, _⟩ it, ht =>
    out_finish hX (by word) (write_marshal hX
      (optFrom_if (fun _ => textsAll_pairs (write_facetEnts hX fs ht.2.2.1)))
      (optFrom_if (fun _ => textsAll_pairs (write_typeEnts hX ps ht.2.2.2.1)))
      (write_items hX it ht.2.2.2.2) ht.1 ht.2.1)

theorem write_items (hX : Covers X typeWords S W) : ∀ o : Option DT, itemsFrom S o →
    optFrom (textsAll W) (itemsNode X o)
  | none, _ => optFrom_none
  | some t, h => optFrom_some (write_type hX t h)

theorem write_typeEnts (hX : Covers X typeWords S W) : ∀ es : List (String × DT),
    typeListFrom S es → ∀ p ∈ typeEnts X es, textsAll W p.1 ∧ textsAll W p.2
  | [], _ => by simp [typeEnts]
  | (k, t) :: es, h => by
    have h1 := write_type hX t h.2.1
    have h2 := write_typeEnts hX es h.2.2
    intro p hp
    rcases List.mem_cons.mp hp with rfl | hp
    · exact ⟨write_str hX k h.1, h1⟩
    · exact h2 p hp

theorem write_facetEnts (hX : Covers X typeWords S W) : ∀ es : List (String × OM String DT),
    facetListFrom S es → ∀ p ∈ facetEnts X es, textsAll W p.1 ∧ textsAll W p.2
  | [], _ => by simp [facetEnts]
  | (k, ⟨ts, b⟩) :: es, h => by
    have h1 := write_typeEnts hX ts h.2.1
    have h2 := write_facetEnts hX es h.2.2
    intro p hp
    rcases List.mem_cons.mp hp with rfl | hp
    · exact ⟨write_str hX k h.1, textsAll_pairs h1⟩
    · exact h2 p hp

end

/-! ### Documents -/

theorem write_typeMap (hX : Covers X typeWords S W) {m : OM String DT}
    (h : mapFrom S.text (typeFrom S) m) : textsAll W (typeMapNode X m) := by
  obtain ⟨es, b⟩ := m
  exact textsAll_pairs (write_typeEnts hX es ((typeList_iff es).mpr h))

theorem write_part {V : Type} {m : OM String V} {n : Node} (h : textsAll W n) :
    optFrom (textsAll W) (ifNonEmpty m n) := optFrom_if (fun _ => h)

theorem write_api (hX : Covers X apiWords S W) {a : APISpec} (h : ApiFrom S a) :
    textsAll W (a.toYAML X) := by
  have hT : Covers X typeWords S W := hX.mono (fun s hs => List.mem_append_right _ hs)
  have st : ∀ {o : OM Scalar Node} {k : String} {v : Option Node}, Out X W o → k ∈ apiWords →
      optFrom (textsAll W) v → Out X W (o.putOpt (.str k) v) := fun h1 h2 h3 => out_opt hX h1 h2 h3
  have hs := fun {o : Option String} (ho : optFrom S.text o) => optFrom_map (write_str hX) ho
  have hl := fun {o : Option (List String)} (ho : listFrom S.text o) =>
    textsAll_list (write_str hX) ho
  have hu := fun {m : OM String Node} (hm : untypedFrom S m) =>
    write_part (m := m) (write_untyped hX hm)
  have h0 : textsAll W (Node.str a.title) := by
    rcases h.title with h1 | h1
    · exact write_str hX _ h1
    · rw [h1]; exact textsAll_scalar (hX.word _ (by word))
  have hr : ∀ {o : OM Scalar Node}, Out X W o → Out X W (o.putAll (strEnts a.resources)) := by
    intro o ho
    refine out_all ho (fun e he => ?_)
    obtain ⟨x, hx, rfl⟩ := List.mem_map.mp he
    exact ⟨hX.key _ (h.resources x hx).1, textsAll_mono (h.resources x hx).2 hX.text⟩
  exact out_any (st (hr (out_extra hX (out_anns hX (st (st (st (st (st (st (st (st (st (st (st (st
    (st (out_put hX (mapFrom_empty _) (by word) h0) (by word) (hs h.version)) (by word)
    (hs h.baseURI)) (by word) (hs h.description)) (by word) (hl h.protocols)) (by word)
    (hl h.mediaType)) (by word)
    (textsAll_list (q := DocFrom S) (fun _ _ => textsAll_map (by simp)) h.documentation)) (by word)
    (hl h.securedBy)) (by word) (write_part (textsAll_strMap hX.text (write_str hX) h.uses)))
    (by word) (hu h.securitySchemes)) (by word) (hu h.baseURIParameters)) (by word) (hu h.traits))
    (by word) (hu h.annotationTypes)) (by word) (hu h.resourceTypes)) (fun k hk => hX.key _ hk)
    h.annotations) h.extra)) (by word) (write_part (write_typeMap hT h.types)))

theorem write_lib (hX : Covers X libWords S W) {l : Library} (h : LibFrom S l) :
    textsAll W (l.toYAML X) := by
  have hT : Covers X typeWords S W := hX.mono (fun s hs => List.mem_append_right _ hs)
  have st : ∀ {o : OM Scalar Node} {k : String} {v : Option Node}, Out X W o → k ∈ libWords →
      optFrom (textsAll W) v → Out X W (o.putOpt (.str k) v) := fun h1 h2 h3 => out_opt hX h1 h2 h3
  have hs := fun {o : Option String} (ho : optFrom S.text o) => optFrom_map (write_str hX) ho
  have hu := fun {m : OM String Node} (hm : untypedFrom S m) =>
    write_part (m := m) (write_untyped hX hm)
  have hk : ∀ k, S.key (.str k) ∨ S.text k → textsAll W (X.ofKey (.str k)) := by
    rintro k (h1 | h1)
    · exact hX.key _ h1
    · rw [hX.ofKey]; exact write_str hX _ h1
  exact out_any (st (out_extra hX (st (out_anns hX (st (st (st (st (st (mapFrom_empty _) (by word)
    (hs h.usage)) (by word) (write_part (textsAll_strMap hX.text (write_str hX) h.uses)))
    (by word) (hu h.securitySchemes)) (by word) (hu h.traits)) (by word) (hu h.annotationTypes))
    hk h.annotations) (by word) (hu h.resourceTypes)) h.extra) (by word)
    (write_part (write_typeMap hT h.types)))

end Verif.Doc
