import Verif.Doc.Parsed
import Verif.Doc.LiveType
import Verif.Doc.ApiLemmas
import Verif.Doc.OriginSpec

/-! # Reading takes everything from the input -/

namespace Verif.Doc
open Verif Verif.Doc.Spec

variable {X : Xyml} {S : Source}

theorem nodesOf_self (n : Node) : n ∈ nodesOf n := by cases n <;> simp [nodesOf]

theorem nodesIn_sub {n : Node} {ns : List Node} (h : n ∈ ns) : ∀ m ∈ nodesOf n, m ∈ nodesIn ns := by
  intro m hm
  induction ns with
  | nil => cases h
  | cons a ns ih =>
    simp only [nodesIn, List.mem_append]
    rcases List.mem_cons.mp h with rfl | h
    · exact .inl hm
    · exact .inr (ih h)

theorem nodesInPairs_sub {p : Node × Node} {ps : List (Node × Node)} (h : p ∈ ps) :
    ∀ m, m ∈ nodesOf p.1 ∨ m ∈ nodesOf p.2 → m ∈ nodesInPairs ps := by
  intro m hm
  induction ps with
  | nil => cases h
  | cons a ps ih =>
    simp only [nodesInPairs, List.mem_append]
    rcases List.mem_cons.mp h with rfl | h
    · obtain ⟨k, v⟩ := p
      simp only [nodesInPair, List.mem_append]
      exact .inl hm
    · exact .inr (ih h)

theorem input_seq {t : String} {ns : List Node} (h : inputFrom X S (.seq t ns)) {n : Node}
    (hn : n ∈ ns) : inputFrom X S n := fun m hm =>
  h m (List.mem_cons_of_mem _ (nodesIn_sub hn m hm))

theorem input_key {ps : List (Node × Node)} (h : inputFrom X S (.map ps)) {p : Node × Node}
    (hp : p ∈ ps) : inputFrom X S p.1 := fun m hm =>
  h m (List.mem_cons_of_mem _ (nodesInPairs_sub hp m (.inl hm)))

theorem input_val {ps : List (Node × Node)} (h : inputFrom X S (.map ps)) {p : Node × Node}
    (hp : p ∈ ps) : inputFrom X S p.2 := fun m hm =>
  h m (List.mem_cons_of_mem _ (nodesInPairs_sub hp m (.inr hm)))

theorem input_node {n : Node} (h : inputFrom X S n) : nodeFrom S n := by
  intro s hs
  obtain ⟨m, hm, he⟩ := List.mem_filterMap.mp hs
  exact (h m hm).text s he

theorem input_atom {n : Node} (h : inputFrom X S n) : AtomFrom X S n := h n (nodesOf_self n)

/-- An input is made of what is in it. -/
theorem input_sourceOf (X : Xyml) (n : Node) : inputFrom X (sourceOf X n) n := fun m hm =>
  { text := fun _ hs => .inl (List.mem_filterMap.mpr ⟨m, hm, hs⟩)
    str := fun _ hs => .inr ⟨m, hm, hs⟩
    value := ⟨m, hm, .inr rfl⟩
    key := fun _ hk => ⟨m, hm, .inl hk⟩
    int := fun _ hi => ⟨m, hm, hi⟩
    flt := fun _ hf => ⟨m, hm, hf⟩ }

theorem from_str {v : Node} (hv : inputFrom X S v) (h : v.isStr = true) : S.text v.value := by
  cases v with
  | scalar t s => exact (input_atom hv).text s rfl
  | seq a b => cases h
  | map a => cases h

theorem from_asString {v : Node} {s : String} (hv : inputFrom X S v) (h : asString v = .ok s) :
    S.text s := by
  unfold asString at h
  split at h
  · rename_i hs; cases h; exact from_str hv hs
  · cases h

theorem from_dateFormat {v : Node} {s : String} (hv : inputFrom X S v)
    (h : loadDateFormat v = .ok s) : S.text s := by
  unfold loadDateFormat at h
  split at h
  · rename_i hs; cases h; exact from_str hv hs
  · cases h

theorem from_asInt {v : Node} {i : Int} (hv : inputFrom X S v) (h : asInt X v = .ok i) :
    S.int i := by
  unfold asInt at h
  split at h
  · rename_i j hj; cases h; exact (input_atom hv).int _ hj
  · cases h

theorem from_asFlt {v : Node} {f : Flt} (hv : inputFrom X S v) (h : asFlt X v = .ok f) :
    S.flt f := by
  unfold asFlt at h
  split at h
  · rename_i j hj; cases h; exact (input_atom hv).flt _ hj
  · cases h

theorem from_asUint {v : Node} {n : Nat} (hv : inputFrom X S v) (h : asUint X v = .ok n) :
    natFrom S n := by
  obtain ⟨i, hi, rfl⟩ := Res.map_eq_ok.mp h
  exact ⟨i, from_asInt hv hi, by omega⟩

theorem from_asScalar {k : Node} {s : Scalar} (hk : inputFrom X S k) (h : asScalar X k = .ok s) :
    S.key s := by
  unfold asScalar at h
  split at h
  · rename_i j hj; cases h; exact (input_atom hk).key _ hj
  · cases h

/-! ### Dictionaries and loops -/

theorem mapFrom_empty {K V : Type} {p : K → Prop} {q : V → Prop} (b : Bool) :
    mapFrom p q (OM.empty b : OM K V) := by
  intro e he
  cases he

theorem mapFrom_nil {K V : Type} {p : K → Prop} {q : V → Prop} {m : OM K V} (h : m.ents = []) :
    mapFrom p q m := by
  intro e he
  rw [h] at he
  cases he

theorem mapFrom_put {K V : Type} [DecidableEq K] {p : K → Prop} {q : V → Prop} {m : OM K V} {k : K}
    {v : V} (h : mapFrom p q m) (hk : p k) (hv : q v) : mapFrom p q (m.put k v) := by
  intro e he
  simp only [OM.put, List.mem_append, List.mem_filter, List.mem_singleton] at he
  rcases he with ⟨he, _⟩ | rfl
  · exact h e he
  · exact ⟨hk, hv⟩

theorem optFrom_none {V : Type} {q : V → Prop} : optFrom q none := fun _ h => by cases h

theorem optFrom_some {V : Type} {q : V → Prop} {x : V} (h : q x) : optFrom q (some x) :=
  fun _ e => by cases e; exact h

theorem listFrom_none {V : Type} {q : V → Prop} : listFrom q none := fun _ h => by cases h

theorem listFrom_some {V : Type} {q : V → Prop} {l : List V} (h : ∀ x ∈ l, q x) :
    listFrom q (some l) := fun _ e => by cases e; exact h

theorem listFrom_push {V : Type} {q : V → Prop} {l : Option (List V)} {x : V} (h : listFrom q l)
    (hx : q x) : listFrom q (some (l.getD [] ++ [x])) := by
  refine listFrom_some (fun y hy => ?_)
  rcases List.mem_append.mp hy with hy | hy
  · cases l with
    | none => cases hy
    | some l => exact h l rfl y hy
  · rw [List.mem_singleton.mp hy]; exact hx

theorem from_pairs {σ : Type} {f : Node → Node → σ → Res σ} {P : σ → Prop} :
    ∀ ps s s', (∀ p ∈ ps, ∀ s s', P s → f p.1 p.2 s = .ok s' → P s') → P s →
      forPairs f ps s = .ok s' → P s' := by
  intro ps
  induction ps with
  | nil => intro s s' _ hs h; cases h; exact hs
  | cons p ps ih =>
    intro s s' hf hs h
    obtain ⟨s1, h1, h2⟩ := Res.bind_eq_ok.mp h
    exact ih s1 s' (fun q hq => hf q (by simp [hq])) (hf p (by simp) s s1 hs h1) h2

theorem from_map {σ : Type} {f : Node → Node → σ → Res σ} {P : σ → Prop} {v : Node} {s s' : σ}
    (hv : inputFrom X S v)
    (hf : ∀ p ∈ mapEntries v, inputFrom X S p.1 → inputFrom X S p.2 → ∀ s s', P s →
      f p.1 p.2 s = .ok s' → P s')
    (hs : P s) (h : mapForEach f v s = .ok s') : P s' := by
  cases v with
  | scalar a b => cases h
  | seq a b => cases h
  | map ps => exact from_pairs ps s s' (fun p hp => hf p hp (input_key hv hp) (input_val hv hp)) hs h

theorem from_seq {σ : Type} {f : Node → σ → Res σ} {P : σ → Prop} {v : Node} {s s' : σ}
    (hv : inputFrom X S v) (hf : ∀ n, inputFrom X S n → ∀ s s', P s → f n s = .ok s' → P s')
    (hs : P s) (h : seqForEach f v s = .ok s') : P s' := by
  cases v with
  | scalar a b => cases h
  | map a => cases h
  | seq a ns =>
    have : ∀ ns, (∀ n ∈ ns, inputFrom X S n) → ∀ s, P s → forItems f ns s = .ok s' → P s' := by
      intro ns
      induction ns with
      | nil => intro _ s hs h; cases h; exact hs
      | cons n ns ih =>
        intro hn s hs h
        obtain ⟨s1, h1, h2⟩ := Res.bind_eq_ok.mp h
        exact ih (fun m hm => hn m (by simp [hm])) s1 (hf n (hn n (by simp)) s s1 hs h1) h2
    exact this ns (fun n hn => input_seq hv hn) s hs h

/-- A loader of a dictionary. -/
theorem from_loader {V : Type} {g : Node → Res V} {p : String → Prop} {q : V → Prop}
    {m m' : OM String V} {v : Node} (hv : inputFrom X S v) (hp : ∀ s, S.text s → p s)
    (hg : ∀ e ∈ mapEntries v, inputFrom X S e.2 → ∀ x, g e.2 = .ok x → q x) (hm : mapFrom p q m)
    (h : mapForEach (fun k v m => (asString k).bind fun s => (g v).map fun x => m.put s x) v m =
      .ok m') : mapFrom p q m' := by
  refine from_map hv (fun e he h1 h2 s s' hs hh => ?_) hm h
  obtain ⟨k, hk, h3⟩ := Res.bind_eq_ok.mp hh
  obtain ⟨x, hx, rfl⟩ := Res.map_eq_ok.mp h3
  exact mapFrom_put hs (hp _ (from_asString h1 hk)) (hg e he h2 x hx)

theorem from_untyped {m m' : OM String Node} {v : Node} (hv : inputFrom X S v)
    (hm : untypedFrom S m) (h : loadUntyped m v = .ok m') : untypedFrom S m' := by
  refine from_map (X := X) hv (fun e he h1 h2 s s' hs hh => ?_) hm h
  obtain ⟨x, hx, rfl⟩ := Res.map_eq_ok.mp hh
  exact mapFrom_put hs (from_asString h1 hx) (input_node h2)

theorem from_ann {a : Ann} {v : Node} (hv : inputFrom X S v) (h : loadAnn v = .ok a) :
    untypedFrom S a := from_untyped hv (mapFrom_empty true) h

theorem from_stringList {l : List String} {v : Node} (hv : inputFrom X S v)
    (h : asStringList v = .ok l) : ∀ s ∈ l, S.text s := by
  refine from_seq (X := X) (P := fun l : List String => ∀ s ∈ l, S.text s) hv (fun n hn s s' hs hh => ?_) (by simp) h
  obtain ⟨x, hx, rfl⟩ := Res.map_eq_ok.mp hh
  intro y hy
  rcases List.mem_append.mp hy with hy | hy
  · exact hs y hy
  · rw [List.mem_singleton.mp hy]; exact from_asString hn hx

theorem from_strings {m m' : OM String String} {v : Node} (hv : inputFrom X S v)
    (hm : mapFrom S.text S.text m) (h : loadStrings m v = .ok m') : mapFrom S.text S.text m' :=
  from_loader (X := X) (g := asString) hv (fun _ h => h) (fun _ _ he _ hx => from_asString he hx) hm h

/-! ### Examples, XML settings, enums -/

theorem from_exampleVal {kd : Kind} {v : Node} {x : Val} (hv : inputFrom X S v)
    (h : exampleVal X kd v = .ok x) : valFrom S x := by
  cases kd <;> simp only [exampleVal] at h <;> first
    | (cases h; exact input_node hv)
    | (obtain ⟨y, hy, rfl⟩ := Res.map_eq_ok.mp h
       first
        | exact from_asString hv hy
        | exact from_asInt hv hy
        | exact from_asFlt hv hy
        | exact trivial)
    | (split at h
       · cases h; exact fun n hn => input_node (input_seq hv hn)
       · cases h)

theorem from_enumVal {kd : Kind} {v : Node} {x : Val} (hv : inputFrom X S v)
    (h : enumVal X kd v = .ok x) : valFrom S x := by
  cases kd <;> simp only [enumVal] at h <;> first
    | (cases h; exact input_node hv)
    | (obtain ⟨y, hy, rfl⟩ := Res.map_eq_ok.mp h
       first
        | exact from_asInt hv hy
        | exact from_asFlt hv hy
        | exact trivial)
    | (split at h
       · rename_i hs; cases h; exact (input_atom hv).str _ hs
       · cases h)

theorem from_enum {kd : Kind} {l l' : Option (List Val)} {v : Node} (hv : inputFrom X S v)
    (hl : listFrom (valFrom S) l) (h : loadEnum X kd l v = .ok l') : listFrom (valFrom S) l' := by
  refine from_seq hv (fun n hn s s' hs hh => ?_) hl h
  obtain ⟨x, hx, rfl⟩ := Res.map_eq_ok.mp hh
  exact listFrom_push hs (from_enumVal hn hx)

theorem xmlFrom_new : XMLFrom S XML.new :=
  ⟨optFrom_none, optFrom_none, optFrom_none, mapFrom_empty _⟩

theorem from_xml_assign {k v : Node} {x x' : XML} (hk : inputFrom X S k) (hv : inputFrom X S v)
    (hx : XMLFrom S x) (h : XML.assign X k v x = .ok x') : XMLFrom S x' := by
  obtain ⟨h1, h2, h3, h4⟩ := hx
  unfold XML.assign at h
  split_ifs at h <;> obtain ⟨y, hy, rfl⟩ := Res.map_eq_ok.mp h
  · exact ⟨h1, h2, h3, h4⟩
  · exact ⟨h1, h2, h3, h4⟩
  · exact ⟨optFrom_some (from_asString hv hy), h2, h3, h4⟩
  · exact ⟨h1, optFrom_some (from_asString hv hy), h3, h4⟩
  · exact ⟨h1, h2, optFrom_some (from_asString hv hy), h4⟩
  · exact ⟨h1, h2, h3, mapFrom_put h4 (from_asScalar hk hy) (input_node hv)⟩

theorem from_xml_load {v : Node} {x x' : XML} (hv : inputFrom X S v) (hx : XMLFrom S x)
    (h : x.unmarshal X v = .ok x') : XMLFrom S x' :=
  from_map hv (fun _ _ h1 h2 _ _ hs hh => from_xml_assign h1 h2 hs hh) hx h

theorem exampleFrom_new (kd : Kind) : ExampleFrom S (Example.new kd) :=
  ⟨optFrom_none, optFrom_none, mapFrom_empty _, optFrom_none, mapFrom_empty _⟩

theorem from_example_assign {k v : Node} {e e' : Example} (hk : inputFrom X S k)
    (hv : inputFrom X S v) (he : ExampleFrom S e) (h : Example.assign X k v e = .ok e') :
    ExampleFrom S e' := by
  have hx : ∀ e', e.putExtra X k v = .ok e' → ExampleFrom S e' := by
    intro e' h
    obtain ⟨y, hy, rfl⟩ := Res.map_eq_ok.mp h
    exact { he with extra := mapFrom_put he.extra (from_asScalar hk hy) (input_node hv) }
  unfold Example.assign at h
  split at h
  · exact hx _ h
  split at h
  · cases h
  · split_ifs at h
    · obtain ⟨a, ha, rfl⟩ := Res.map_eq_ok.mp h
      exact { he with annotations := mapFrom_put he.annotations (input_atom hk).value (from_ann hv ha) }
    · obtain ⟨y, hy, rfl⟩ := Res.map_eq_ok.mp h
      exact { he with displayName := optFrom_some (from_asString hv hy) }
    · obtain ⟨y, hy, rfl⟩ := Res.map_eq_ok.mp h
      exact { he with description := optFrom_some (from_asString hv hy) }
    · obtain ⟨y, hy, rfl⟩ := Res.map_eq_ok.mp h
      exact { he with }
    · obtain ⟨y, hy, rfl⟩ := Res.map_eq_ok.mp h
      exact { he with value := optFrom_some (from_exampleVal hv hy) }
    · exact hx _ h

theorem from_example_load {v : Node} {e e' : Example} (hv : inputFrom X S v)
    (he : ExampleFrom S e) (h : e.unmarshal X v = .ok e') : ExampleFrom S e' := by
  cases v with
  | map ps =>
    exact from_map (f := Example.assign X) hv
      (fun _ _ h1 h2 _ _ hs hh => from_example_assign h1 h2 hs hh) he h
  | scalar a b =>
    obtain ⟨y, hy, rfl⟩ := Res.map_eq_ok.mp h
    exact { he with value := optFrom_some (from_exampleVal hv hy) }
  | seq a b =>
    obtain ⟨y, hy, rfl⟩ := Res.map_eq_ok.mp h
    exact { he with value := optFrom_some (from_exampleVal hv hy) }

theorem from_examples {kd : Kind} {m m' : OM String Example} {v : Node} (hv : inputFrom X S v)
    (hm : mapFrom S.text (ExampleFrom S) m) (h : loadExamples X kd m v = .ok m') :
    mapFrom S.text (ExampleFrom S) m' :=
  from_loader (g := fun n => (Example.new kd).unmarshal X n) hv (fun _ h => h)
    (fun _ _ he _ hx => from_example_load he (exampleFrom_new kd) hx) hm h

/-! ### Types -/

theorem typeList_iff (es : List (String × DT)) :
    typeListFrom S es ↔ ∀ e ∈ es, S.text e.1 ∧ typeFrom S e.2 := by
  induction es with
  | nil => simp [typeListFrom]
  | cons e es ih => obtain ⟨k, t⟩ := e; simp [typeListFrom, ih, and_assoc]

theorem facetList_iff (es : List (String × OM String DT)) :
    facetListFrom S es ↔ ∀ e ∈ es, S.text e.1 ∧ mapFrom S.text (typeFrom S) e.2 := by
  induction es with
  | nil => simp [facetListFrom]
  | cons e es ih =>
    obtain ⟨k, ⟨ts, b⟩⟩ := e
    simp only [facetListFrom, ih, typeList_iff, List.mem_cons, forall_eq_or_imp, mapFrom, and_assoc]

theorem items_iff (o : Option DT) : itemsFrom S o ↔ optFrom (typeFrom S) o := by
  cases o with
  | none => simp [itemsFrom, optFrom]
  | some t => simp [itemsFrom, optFrom]

/-- The parts of an extended type. -/
theorem typeFrom_ext {h : Hdr} {b : Body} {fs : OM String (OM String DT)} {ps : OM String DT}
    {it : Option DT} : typeFrom S (.ext h b fs ps it) ↔ HdrFrom S h ∧ bodyFrom S b ∧
      mapFrom S.text (mapFrom S.text (typeFrom S)) fs ∧ mapFrom S.text (typeFrom S) ps ∧
      optFrom (typeFrom S) it := by
  obtain ⟨fs, _⟩ := fs
  obtain ⟨ps, _⟩ := ps
  simp only [typeFrom, typeList_iff, facetList_iff, items_iff, mapFrom]

/-- The value of a facet after an entry was read (auxiliary). -/
def facetFrom (S : Source) : (f : Facet) → f.Ty → Prop
  | .type, x => S.text x
  | .displayName, x => optFrom S.text x
  | .description, x => optFrom S.text x
  | .required, _ => True
  | .enum, x => listFrom (valFrom S) x
  | .example, x => optFrom (ExampleFrom S) x
  | .examples, x => mapFrom S.text (ExampleFrom S) x
  | .xml, x => optFrom (XMLFrom S) x
  | .facets, x => mapFrom S.text (mapFrom S.text (typeFrom S)) x
  | .annotations, x => annsFrom S x
  | .extra, x => extraFrom S x
  | .properties, x => mapFrom S.text (typeFrom S) x
  | .items, x => optFrom (typeFrom S) x
  | .pattern, x => optFrom S.text x
  | .minLength, x => ∃ n, x = some n ∧ natFrom S n
  | .maxLength, x => ∃ n, x = some n ∧ natFrom S n
  | .fileTypes, x => listFrom S.text x
  | .uniqueItems, _ => True
  | .minItems, x => ∃ n, x = some n ∧ natFrom S n
  | .maxItems, x => ∃ n, x = some n ∧ natFrom S n
  | .minProperties, x => ∃ n, x = some n ∧ natFrom S n
  | .maxProperties, x => ∃ n, x = some n ∧ natFrom S n
  | .additionalProperties, _ => True
  | .discriminator, x => optFrom S.text x
  | .discriminatorValue, x => optFrom (nodeFrom S) x
  | .minimum, x => optFrom S.flt (Bound.getFlt x) ∧ optFrom S.int (Bound.getInt x)
  | .maximum, x => optFrom S.flt (Bound.getFlt x) ∧ optFrom S.int (Bound.getInt x)
  | .format, x => optFrom S.text x
  | .multipleOf, x => optFrom S.flt x

theorem facetFrom_set {f : Facet} {x : f.Ty} {t : DT} (ht : typeFrom S t) (hx : facetFrom S f x) :
    typeFrom S (t.setFacet f x) := by
  rcases t with ⟨i, a, e⟩ | ⟨h, b, fs, ps, it⟩
  · obtain ⟨h1, h2⟩ := ht
    cases f <;> first
      | exact ⟨h1, h2⟩
      | exact ⟨.inl hx, h2⟩
      | exact ⟨h1, hx⟩
  · obtain ⟨hh, hb, hf, hp, hi⟩ := typeFrom_ext.mp ht
    cases f
    case type => exact typeFrom_ext.mpr ⟨{ hh with schema := .inl hx }, hb, hf, hp, hi⟩
    case displayName => exact typeFrom_ext.mpr ⟨{ hh with displayName := hx }, hb, hf, hp, hi⟩
    case description => exact typeFrom_ext.mpr ⟨{ hh with description := hx }, hb, hf, hp, hi⟩
    case required => exact typeFrom_ext.mpr ⟨{ hh with }, hb, hf, hp, hi⟩
    case enum => exact typeFrom_ext.mpr ⟨{ hh with enum := hx }, hb, hf, hp, hi⟩
    case «example» => exact typeFrom_ext.mpr ⟨{ hh with «example» := hx }, hb, hf, hp, hi⟩
    case examples => exact typeFrom_ext.mpr ⟨{ hh with examples := hx }, hb, hf, hp, hi⟩
    case xml => exact typeFrom_ext.mpr ⟨{ hh with xml := hx }, hb, hf, hp, hi⟩
    case facets => exact typeFrom_ext.mpr ⟨hh, hb, hx, hp, hi⟩
    case annotations => exact typeFrom_ext.mpr ⟨{ hh with annotations := hx }, hb, hf, hp, hi⟩
    case extra => exact typeFrom_ext.mpr ⟨{ hh with extra := hx }, hb, hf, hp, hi⟩
    case properties => exact typeFrom_ext.mpr ⟨hh, hb, hf, hx, hi⟩
    case items => exact typeFrom_ext.mpr ⟨hh, hb, hf, hp, hx⟩
    all_goals
      refine typeFrom_ext.mpr ⟨hh, ?_, hf, hp, hi⟩
      cases b <;> try exact hb
    case pattern.string => exact ⟨hx, hb.2⟩
    case minLength.string => obtain ⟨n, rfl, hn⟩ := hx; exact ⟨hb.1, .inr hn, hb.2.2⟩
    case minLength.file => obtain ⟨n, rfl, hn⟩ := hx; exact ⟨hb.1, .inr hn, hb.2.2⟩
    case maxLength.string => obtain ⟨n, rfl, hn⟩ := hx; exact ⟨hb.1, hb.2.1, optFrom_some hn⟩
    case maxLength.file => obtain ⟨n, rfl, hn⟩ := hx; exact ⟨hb.1, hb.2.1, .inr hn⟩
    case fileTypes.file => exact ⟨hx, hb.2⟩
    case minItems.array => obtain ⟨n, rfl, hn⟩ := hx; exact ⟨.inr hn, hb.2⟩
    case maxItems.array => obtain ⟨n, rfl, hn⟩ := hx; exact ⟨hb.1, .inr hn⟩
    case minProperties.object => obtain ⟨n, rfl, hn⟩ := hx; exact ⟨optFrom_some hn, hb.2⟩
    case maxProperties.object => obtain ⟨n, rfl, hn⟩ := hx; exact ⟨hb.1, optFrom_some hn, hb.2.2⟩
    case discriminator.object => exact ⟨hb.1, hb.2.1, hx, hb.2.2.2⟩
    case discriminatorValue.object => exact ⟨hb.1, hb.2.1, hb.2.2.1, hx⟩
    case minimum.number => exact ⟨hb.1, hx.1, hb.2.2⟩
    case minimum.integer => exact ⟨hb.1, hx.2, hb.2.2⟩
    case maximum.number => exact ⟨hb.1, hb.2.1, hx.1, hb.2.2.2⟩
    case maximum.integer => exact ⟨hb.1, hb.2.1, hx.2, hb.2.2.2⟩
    case format.datetime => exact hx
    case format.number => exact ⟨hx, hb.2⟩
    case format.integer => exact ⟨hx, hb.2⟩
    case multipleOf.number => exact ⟨hb.1, hb.2.1, hb.2.2.1, hx⟩
    case multipleOf.integer => exact ⟨hb.1, hb.2.1, hb.2.2.1, hx⟩

/-- What is held already, for the facets that are added to. -/
theorem from_look {t : DT} (ht : typeFrom S t) :
    listFrom (valFrom S) (enum t) ∧ mapFrom S.text (ExampleFrom S) (examplesMap t) ∧
      mapFrom S.text (mapFrom S.text (typeFrom S)) (facets t) ∧ annsFrom S (annotationMap t) ∧
      extraFrom S t.extra ∧ mapFrom S.text (typeFrom S) (properties t) := by
  rcases t with ⟨i, a, e⟩ | ⟨h, b, fs, ps, it⟩
  · exact ⟨listFrom_none, mapFrom_nil rfl, mapFrom_nil rfl, mapFrom_nil rfl, ht.2, mapFrom_nil rfl⟩
  · obtain ⟨hh, hb, hf, hp, hi⟩ := typeFrom_ext.mp ht
    exact ⟨hh.enum, hh.examples, hf, hh.annotations, hh.extra, hp⟩

theorem from_types_ih {v : Node} {m m' : OM String DT} (hv : inputFrom X S v)
    (ih : ∀ n, sizeOf n ≤ sizeOf v → inputFrom X S n → ∀ t, hat X n = .ok t → typeFrom S t)
    (hm : mapFrom S.text (typeFrom S) m) (h : loadTypes X v m = .ok m') :
    mapFrom S.text (typeFrom S) m' := by
  rw [loadTypes_eq] at h
  refine from_map hv (fun e he h1 h2 s s' hs hh => ?_) hm h
  unfold loadType at hh
  obtain ⟨k, hk, h3⟩ := Res.bind_eq_ok.mp hh
  obtain ⟨x, hx, h4⟩ := Res.bind_eq_ok.mp h3
  cases h4
  refine mapFrom_put hs (from_asString h1 hk) (ih e.2 ?_ h2 x hx)
  cases v with
  | map ps => exact Nat.le_of_lt (size_entry he)
  | scalar a b => cases he
  | seq a b => cases he

theorem from_step {k v : Node} {t : DT} (hk : inputFrom X S k) (hv : inputFrom X S v)
    (ih : ∀ n, sizeOf n ≤ sizeOf v → inputFrom X S n → ∀ t, hat X n = .ok t → typeFrom S t)
    (ht : typeFrom S t) {f : Facet} {y : f.Ty} (h : facetStep X t.kind k v f (look f t) = .ok y) :
    facetFrom S f y := by
  obtain ⟨l1, l2, l3, l4, l5, l6⟩ := from_look ht
  have hent : ∀ p ∈ mapEntries v, sizeOf p.2 ≤ sizeOf v := by
    intro p hp
    cases v with
    | map ps => exact Nat.le_of_lt (size_entry hp)
    | scalar a b => cases hp
    | seq a b => cases hp
  cases f <;> simp only [facetStep] at h
  case type => exact from_asString hv h
  case required => exact trivial
  case enum => exact from_enum hv l1 h
  case «example» =>
    obtain ⟨e, he, rfl⟩ := Res.map_eq_ok.mp h
    obtain ⟨e0, h0, h1⟩ := Res.bind_eq_ok.mp he
    refine optFrom_some (from_example_load hv ?_ h1)
    generalize t.kind = kd at h0
    have h2 : e0 = Example.new kd := by cases kd <;> cases h0 <;> rfl
    subst h2
    exact exampleFrom_new _
  case examples => exact from_examples hv l2 h
  case xml =>
    obtain ⟨e, he, rfl⟩ := Res.map_eq_ok.mp h
    exact optFrom_some (from_xml_load hv xmlFrom_new he)
  case facets =>
    replace h := (loadFacets_eq X v _).symm.trans h
    refine from_map hv (fun e he h1 h2 s s' hs hh => ?_) l3 h
    simp only [loadFacet] at hh
    obtain ⟨a, ha, h3⟩ := Res.bind_eq_ok.mp hh
    obtain ⟨m, hm, h4⟩ := Res.bind_eq_ok.mp h3
    cases h4
    exact mapFrom_put hs (from_asString h1 ha) (from_types_ih h2
      (fun n hn => ih n (Nat.le_trans hn (hent e he))) (mapFrom_empty _) hm)
  case annotations =>
    obtain ⟨a, ha, rfl⟩ := Res.map_eq_ok.mp h
    exact mapFrom_put l4 (input_atom hk).value (from_ann hv ha)
  case extra =>
    split at h
    · cases h
    · cases h
      exact mapFrom_put l5 (input_atom hk).value (input_node hv)
  case properties =>
    replace h := (loadProps_eq X v _).symm.trans h
    refine from_map hv (fun e he h1 h2 s s' hs hh => ?_) l6 h
    simp only [loadProp] at hh
    obtain ⟨a, ha, h3⟩ := Res.bind_eq_ok.mp hh
    obtain ⟨u, hu, h4⟩ := Res.bind_eq_ok.mp h3
    split at h4
    · cases h4
      exact mapFrom_put hs (from_asString h1 ha) (ih e.2 (hent e he) h2 u hu)
    · cases h4
  case items =>
    obtain ⟨u, hu, rfl⟩ := Res.map_eq_ok.mp h
    exact optFrom_some (ih v (Nat.le_refl _) hv u hu)
  case fileTypes =>
    obtain ⟨l, hl, rfl⟩ := Res.map_eq_ok.mp h
    exact listFrom_some (from_stringList hv hl)
  case discriminatorValue => cases h; exact optFrom_some (input_node hv)
  case uniqueItems => exact trivial
  case additionalProperties => exact trivial
  case minimum =>
    generalize t.kind = kd at h
    cases kd <;> obtain ⟨u, hu, rfl⟩ := Res.map_eq_ok.mp h <;> first
      | exact ⟨optFrom_some (from_asFlt hv hu), optFrom_none⟩
      | exact ⟨optFrom_none, optFrom_some (from_asInt hv hu)⟩
  case maximum =>
    generalize t.kind = kd at h
    cases kd <;> obtain ⟨u, hu, rfl⟩ := Res.map_eq_ok.mp h <;> first
      | exact ⟨optFrom_some (from_asFlt hv hu), optFrom_none⟩
      | exact ⟨optFrom_none, optFrom_some (from_asInt hv hu)⟩
  case format =>
    generalize t.kind = kd at h
    cases kd <;> obtain ⟨u, hu, rfl⟩ := Res.map_eq_ok.mp h <;> first
      | exact optFrom_some (from_dateFormat hv hu)
      | exact optFrom_some (from_asString hv hu)
  all_goals
    obtain ⟨u, hu, rfl⟩ := Res.map_eq_ok.mp h
    first
      | exact optFrom_some (from_asString hv hu)
      | exact ⟨_, rfl, from_asUint hv hu⟩
      | exact optFrom_some (from_asFlt hv hu)

theorem from_assign {k v : Node} {t t' : DT} (hk : inputFrom X S k) (hv : inputFrom X S v)
    (ih : ∀ n, sizeOf n ≤ sizeOf v → inputFrom X S n → ∀ t, hat X n = .ok t → typeFrom S t)
    (ht : typeFrom S t) (h : assign X (k, v) t = .ok t') : typeFrom S t' := by
  rw [assign_eq] at h
  obtain ⟨x, hx, rfl⟩ := Res.map_eq_ok.mp h
  exact facetFrom_set ht (from_step hk hv ih ht hx)

theorem from_bare {t : DT} (h : Bare t) (hs : S.text t.type ∨ t.type ∈ impliedWords) :
    typeFrom S t := by
  rcases t with ⟨i, a, e⟩ | ⟨⟨sc, ex, dn, de, an, xm, re, df, en, exa, exs⟩, b, fs, ps, it⟩
  · exact ⟨hs, mapFrom_nil h.extra⟩
  · obtain ⟨h1, d1, d2, d3, h2, h3, h4, h5, h6, h7, h8, h9, h10, h11⟩ := h
    simp only [DT.extra, enum, dflt, exampleOf, examples, annotations, xml, facets, properties,
      items, body, displayName, description, required] at h1 d1 d2 d3 h2 h3 h4 h5 h6 h7 h8 h9 h10 h11
    subst d1 d2 d3 h2 h3 h4 h7 h10
    refine typeFrom_ext.mpr ⟨⟨hs, mapFrom_nil h1, optFrom_none, optFrom_none, mapFrom_nil h6,
      optFrom_none, optFrom_none, listFrom_none, optFrom_none, mapFrom_nil h5⟩, ?_, mapFrom_nil h8,
      mapFrom_nil h9, optFrom_none⟩
    have := h11 b rfl
    cases b <;> simp only [isDefaultBody] at this <;>
      simp [bodyFrom, this, optFrom_none, listFrom_none]

theorem from_sift {ps : List (Node × Node)} {t : DT} (hv : inputFrom X S (.map ps))
    (h : siftType ps = .ok t) : S.text t.type ∨ t.type ∈ impliedWords := by
  obtain ⟨h1, h2⟩ := siftType_spec ps
  cases hf : ps.find? isTypeEntry with
  | none =>
    rw [h2 hf] at h
    cases h
    right
    unfold impliedKind
    split
    · decide
    split <;> decide
  | some e =>
    rw [h1 e hf] at h
    split at h
    · rename_i hs
      cases h
      left
      rw [(typeToKind_spec _).2.1]
      exact from_str (input_val hv (List.mem_of_find?_eq_some hf)) hs
    · split at h
      · cases h
      · split at h
        · cases h; right; decide
        · cases h
      · cases h

/-- A parsed type is made of what is in the input. -/
theorem from_hat {n : Node} {t : DT} (hn : inputFrom X S n) (h : hat X n = .ok t) :
    typeFrom S t := by
  have main : ∀ k n, sizeOf n < k → inputFrom X S n → ∀ t, hat X n = .ok t → typeFrom S t := by
    intro k
    induction k with
    | zero => intro n hn; omega
    | succ k ih =>
      intro n hsz hn t h
      cases n with
      | seq a b => simp [hat] at h
      | scalar a b =>
        have hb : S.text b := (input_atom hn).text b rfl
        simp only [hat] at h
        split at h
        · cases h
          exact from_bare (typeToKind_spec b).2.2 (.inl (by rw [(typeToKind_spec b).2.1]; exact hb))
        split at h
        · cases h
          exact ⟨.inl hb, mapFrom_empty _⟩
        · cases h
      | map ps =>
        obtain ⟨t0, h0, _, hb, h1, _⟩ := hat_map_ok h
        rw [assignAll_eq] at h1
        exact from_pairs ps t0 t (fun p hp s s' hs hh => from_assign (input_key hn hp)
          (input_val hn hp) (fun m hm => ih m (by have := size_entry hp; omega)) hs hh)
          (from_bare hb (from_sift hn h0)) h1
  exact main _ n (Nat.lt_succ_self _) hn t h

/-- Loading into a type in use. -/
theorem from_type_load {n : Node} {t t' : DT} (hn : inputFrom X S n) (ht : typeFrom S t)
    (h : t.unmarshal X n = .ok t') : typeFrom S t' := by
  unfold DT.unmarshal at h
  split at h
  · rename_i hs
    cases h
    have := from_str hn hs
    rcases t with ⟨i, a, e⟩ | ⟨h, b, fs, ps, it⟩
    · exact ⟨.inl this, ht.2⟩
    · obtain ⟨hh, hr⟩ := typeFrom_ext.mp ht
      exact typeFrom_ext.mpr ⟨{ hh with schema := .inl this }, hr⟩
  split at h
  · cases h
  · rename_i ps _
    rw [assignAll_eq] at h
    exact from_pairs ps t t' (fun p hp s s' hs hh => from_assign (input_key hn hp)
      (input_val hn hp) (fun m _ hm u hu => from_hat hm hu) hs hh) ht h
  · cases h

/-! ### Documents -/

theorem docFrom_new : DocFrom S Documentation.new := ⟨.inr rfl, .inr rfl, mapFrom_empty _⟩

theorem from_doc_load {v : Node} {d d' : Documentation} (hv : inputFrom X S v) (hd : DocFrom S d)
    (h : d.unmarshal X v = .ok d') : DocFrom S d' := by
  refine from_map hv (fun p _ h1 h2 s s' hs hh => ?_) hd h
  unfold Documentation.assign at hh
  split_ifs at hh
  · cases hh; exact { hs with title := .inl (input_atom h2).value }
  · cases hh; exact { hs with content := .inl (input_atom h2).value }
  · obtain ⟨y, hy, rfl⟩ := Res.map_eq_ok.mp hh
    exact { hs with extra := mapFrom_put hs.extra (from_asScalar h1 hy) (input_node h2) }

theorem from_docs {v : Node} {l l' : Option (List Documentation)} (hv : inputFrom X S v)
    (hl : listFrom (DocFrom S) l) (h : seqForEach (pushDoc X) v l = .ok l') :
    listFrom (DocFrom S) l' := by
  refine from_seq hv (fun n hn s s' hs hh => ?_) hl h
  obtain ⟨d, hd, rfl⟩ := Res.map_eq_ok.mp hh
  exact listFrom_push hs (from_doc_load hn docFrom_new hd)

theorem from_types {v : Node} {m m' : OM String DT} (hv : inputFrom X S v)
    (hm : mapFrom S.text (typeFrom S) m) (h : loadTypes X v m = .ok m') :
    mapFrom S.text (typeFrom S) m' :=
  from_types_ih hv (fun _ _ hn _ ht => from_hat hn ht) hm h

theorem apiFrom_new : ApiFrom S APISpec.new := by
  constructor <;> first
    | exact .inr rfl
    | exact optFrom_none
    | exact listFrom_none
    | exact mapFrom_nil rfl

theorem libFrom_new : LibFrom S Library.new := by
  constructor <;> first
    | exact optFrom_none
    | exact mapFrom_nil rfl

theorem from_api_part {k v : Node} {s : APISpec} (hk : inputFrom X S k) (hv : inputFrom X S v)
    (hs : ApiFrom S s) {sec : ApiSection} {x : sec.Ty} (hx : apiStep X k v sec (apiGet sec s) = .ok x) :
    ApiFrom S (s.setPart sec x) := by
  cases sec <;> simp only [apiStep] at hx <;> try simp only [apiGet] at hx
  case title => exact { hs with title := .inl (from_asString hv hx) }
  case version =>
    obtain ⟨y, hy, rfl⟩ := Res.map_eq_ok.mp hx
    exact { hs with version := optFrom_some (from_asString hv hy) }
  case baseUri =>
    obtain ⟨y, hy, rfl⟩ := Res.map_eq_ok.mp hx
    exact { hs with baseURI := optFrom_some (from_asString hv hy) }
  case description =>
    obtain ⟨y, hy, rfl⟩ := Res.map_eq_ok.mp hx
    exact { hs with description := optFrom_some (from_asString hv hy) }
  case protocols =>
    obtain ⟨y, hy, rfl⟩ := Res.map_eq_ok.mp hx
    exact { hs with protocols := listFrom_some (from_stringList hv hy) }
  case mediaType =>
    split at hx
    · rename_i hst
      cases hx
      exact { hs with mediaType := listFrom_push hs.mediaType (from_str hv hst) }
    · obtain ⟨y, hy, rfl⟩ := Res.map_eq_ok.mp hx
      exact { hs with mediaType := listFrom_some (from_stringList hv hy) }
  case documentation => exact { hs with documentation := from_docs hv hs.documentation hx }
  case securedBy =>
    obtain ⟨y, hy, rfl⟩ := Res.map_eq_ok.mp hx
    exact { hs with securedBy := listFrom_some (from_stringList hv hy) }
  case uses => exact { hs with uses := from_strings hv hs.uses hx }
  case securitySchemes => exact { hs with securitySchemes := from_untyped hv hs.securitySchemes hx }
  case baseUriParameters =>
    exact { hs with baseURIParameters := from_untyped hv hs.baseURIParameters hx }
  case traits => exact { hs with traits := from_untyped hv hs.traits hx }
  case annotationTypes => exact { hs with annotationTypes := from_untyped hv hs.annotationTypes hx }
  case resourceTypes => exact { hs with resourceTypes := from_untyped hv hs.resourceTypes hx }
  case types => exact { hs with types := from_types hv hs.types hx }
  case annotations =>
    obtain ⟨y, hy, rfl⟩ := Res.map_eq_ok.mp hx
    exact { hs with annotations := mapFrom_put hs.annotations (input_atom hk).value (from_ann hv hy) }
  case resources =>
    cases hx
    exact { hs with resources := mapFrom_put hs.resources (input_atom hk).value (input_node hv) }
  case extra =>
    split at hx
    · cases hx
    · obtain ⟨y, hy, rfl⟩ := Res.map_eq_ok.mp hx
      exact { hs with extra := mapFrom_put hs.extra (from_asScalar hk hy) (input_node hv) }

/-- Loading into an API document in use. -/
theorem from_api_load {n : Node} {a a' : APISpec} (hn : inputFrom X S n) (ha : ApiFrom S a)
    (h : a.unmarshal X n = .ok a') : ApiFrom S a' := by
  refine from_map hn (fun p _ hk hv s s' hs hh => ?_) ha h
  rw [api_assign_eq] at hh
  obtain ⟨x, hx, rfl⟩ := Res.map_eq_ok.mp hh
  exact from_api_part hk hv hs hx

theorem from_lib_part {k v : Node} {s : Library} (hk : inputFrom X S k) (hv : inputFrom X S v)
    (hs : LibFrom S s) {sec : LibSection} {x : sec.Ty} (hx : libStep X k v sec (libGet sec s) = .ok x) :
    LibFrom S (s.setPart sec x) := by
  cases sec <;> simp only [libStep] at hx <;> try simp only [libGet] at hx
  case usage =>
    obtain ⟨y, hy, rfl⟩ := Res.map_eq_ok.mp hx
    exact { hs with usage := optFrom_some (from_asString hv hy) }
  case uses => exact { hs with uses := from_strings hv hs.uses hx }
  case types => exact { hs with types := from_types hv hs.types hx }
  case resourceTypes => exact { hs with resourceTypes := from_untyped hv hs.resourceTypes hx }
  case traits => exact { hs with traits := from_untyped hv hs.traits hx }
  case securitySchemes => exact { hs with securitySchemes := from_untyped hv hs.securitySchemes hx }
  case annotations =>
    by_cases hkv : k.value = "annotationTypes"
    · replace hx := (if_pos hkv).symm.trans hx
      have ha := from_loader (g := loadAnn) hv (fun _ h => .inr h)
        (fun _ _ he _ hy => from_ann he hy) hs.annotations hx
      exact { hs with annotations := ha }
    · replace hx := (if_neg hkv).symm.trans hx
      obtain ⟨y, hy, rfl⟩ := Res.map_eq_ok.mp hx
      have ha := from_ann hv hy
      exact { hs with annotations := mapFrom_put hs.annotations (.inl (input_atom hk).value) ha }
  case extra =>
    split at hx
    · cases hx
    · obtain ⟨y, hy, rfl⟩ := Res.map_eq_ok.mp hx
      exact { hs with extra := mapFrom_put hs.extra (from_asScalar hk hy) (input_node hv) }

/-- Loading into a library in use. -/
theorem from_lib_load {n : Node} {a a' : Library} (hn : inputFrom X S n) (ha : LibFrom S a)
    (h : a.unmarshal X n = .ok a') : LibFrom S a' := by
  refine from_map hn (fun p _ hk hv s s' hs hh => ?_) ha h
  rw [lib_assign_eq] at hh
  obtain ⟨x, hx, rfl⟩ := Res.map_eq_ok.mp hh
  exact from_lib_part hk hv hs hx

end Verif.Doc
