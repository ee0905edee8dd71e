import Verif.Props.TypeFacets

/-! # C22–C25, C31: values of facets -/

namespace Verif.Props
open Verif Verif.Doc Verif.Doc.Spec

/-! ### C22 -/

/-- The unsigned facets: kind, key and getter. -/
inductive Unsigned : Kind → String → (DT → Option Nat) → Prop where
  | stringMinLength : Unsigned .string "minLength" minLength
  | stringMaxLength : Unsigned .string "maxLength" maxLength
  | fileMinLength : Unsigned .file "minLength" minLength
  | fileMaxLength : Unsigned .file "maxLength" maxLength
  | minItems : Unsigned .array "minItems" minItems
  | maxItems : Unsigned .array "maxItems" maxItems
  | minProperties : Unsigned .object "minProperties" minProperties
  | maxProperties : Unsigned .object "maxProperties" maxProperties

private theorem unsigned_last {X : Xyml} {ps : List (Node × Node)} {t : DT} {kd : Kind}
    {key : String} {get : DT → Option Nat} (hu : Unsigned kd key get)
    (h : hat X (.map ps) = .ok t) (hk : t.kind = kd) {v : Node} (hl : lastVal key ps = some v) :
    (asUint X v).map some = .ok (get t) := by
  have key' : ∀ (f : Facet) (s : String), (facetNames kd).contains s = true →
      facetNamed.lookup s = some f → f ≠ .type → lastVal s ps = some v →
      (∀ k v x y, facetStep X kd k v f x = facetStep X kd k v f y) →
      (∀ k k' v x, facetStep X kd k v f x = facetStep X kd k' v f x) →
      ∀ k x, facetStep X kd k v f x = .ok (look f t) := by
    intro f s h1 h2 h3 h4 h5 h6
    have := hat_map_lastVal h hk h1 h2 h3 h5 h6
    rwa [h4] at this
  cases hu
  case stringMinLength | fileMinLength =>
    exact key' .minLength _ (by decide) (by decide) (by decide) hl (fun _ _ _ _ => rfl)
      (fun _ _ _ _ => rfl) v none
  case stringMaxLength | fileMaxLength =>
    exact key' .maxLength _ (by decide) (by decide) (by decide) hl (fun _ _ _ _ => rfl)
      (fun _ _ _ _ => rfl) v none
  case minItems =>
    exact key' .minItems _ (by decide) (by decide) (by decide) hl (fun _ _ _ _ => rfl)
      (fun _ _ _ _ => rfl) v none
  case maxItems =>
    exact key' .maxItems _ (by decide) (by decide) (by decide) hl (fun _ _ _ _ => rfl)
      (fun _ _ _ _ => rfl) v none
  case minProperties =>
    exact key' .minProperties _ (by decide) (by decide) (by decide) hl (fun _ _ _ _ => rfl)
      (fun _ _ _ _ => rfl) v none
  case maxProperties =>
    exact key' .maxProperties _ (by decide) (by decide) (by decide) hl (fun _ _ _ _ => rfl)
      (fun _ _ _ _ => rfl) v none

/-- C22: an unsigned facet holds the integer of its last entry, for integers that are not
negative (and fit `int64`).  Missing for the full statement: negative integers, which wrap. -/
theorem C22_unsigned_value_partial (X : Xyml) (ps : List (Node × Node)) (t : DT) (kd : Kind)
    (key : String) (get : DT → Option Nat) (v : Node) (i : Int) (hu : Unsigned kd key get)
    (h : hat X (.map ps) = .ok t) (hk : t.kind = kd) (hl : lastVal key ps = some v)
    (hi : X.toInt v = some i) (h0 : 0 ≤ i) (h1 : i < 2 ^ 63) : get t = some i.toNat := by
  have := unsigned_last hu h hk hl
  simp only [asUint, asInt, hi, Res.map_ok] at this
  have h2 : i % 18446744073709551616 = i := Int.emod_eq_of_lt h0 (by omega)
  rw [h2] at this
  exact (Res.ok.inj this).symm

example (t : DT) (h : hat Xyml.std (.map [(.str "type", .str "string"), (.str "minLength", .str "x"),
    (.str "minLength", Xyml.std.ofInt 7)]) = .ok t) : minLength t = some 7 :=
  C22_unsigned_value_partial Xyml.std _ t .string "minLength" minLength _ 7 .stringMinLength h
    (Option.some.inj ((C15_kind_of_mapping _ _ t h).symm.trans (by decide))) rfl (Xyml.std_lawful.toInt_ofInt (by decide) (by decide))
    (by decide) (by decide)

/-- C22: a negative integer is not rejected; the facet holds 2^64 minus its absolute value. -/
theorem C22_negative_wraps (X : Xyml) (ps : List (Node × Node)) (t : DT) (kd : Kind)
    (key : String) (get : DT → Option Nat) (v : Node) (n : Nat) (hu : Unsigned kd key get)
    (h : hat X (.map ps) = .ok t) (hk : t.kind = kd) (hl : lastVal key ps = some v)
    (hi : X.toInt v = some (-(n : Int))) (h0 : 0 < n) (h1 : n ≤ 2 ^ 63) :
    get t = some (2 ^ 64 - n) := by
  have := unsigned_last hu h hk hl
  simp only [asUint, asInt, hi, Res.map_ok] at this
  have h2 : ((-(n : Int)) % 18446744073709551616).toNat = 2 ^ 64 - n := by
    have : (-(n : Int)) % 18446744073709551616 = 18446744073709551616 - n := by
      rw [Int.emod_def]
      have : (-(n : Int)) / 18446744073709551616 = -1 := by omega
      rw [this]; omega
    rw [this]; omega
  rw [h2] at this
  exact (Res.ok.inj this).symm

example (t : DT) (h : hat Xyml.std (.map [(.str "type", .str "string"),
    (.str "minLength", Xyml.std.ofInt (-7))]) = .ok t) : minLength t = some (2 ^ 64 - 7) :=
  C22_negative_wraps Xyml.std _ t .string "minLength" minLength _ 7 .stringMinLength h
    (Option.some.inj ((C15_kind_of_mapping _ _ t h).symm.trans (by decide))) rfl (Xyml.std_lawful.toInt_ofInt (by decide) (by decide))
    (by decide) (by decide)

/-- C22: an unsigned facet whose value is no integer makes the parse fail. -/
theorem C22_not_integer_rejected (X : Xyml) (ps : List (Node × Node)) (t : DT) (kd : Kind)
    (key : String) (get : DT → Option Nat) (v : Node) (hu : Unsigned kd key get)
    (hk : kindOf ps = some kd) (hl : lastVal key ps = some v) (hi : X.toInt v = none) :
    hat X (.map ps) ≠ .ok t := by
  intro h
  have hk' : t.kind = kd := by
    have := C15_kind_of_mapping X ps t h
    rw [hk] at this
    exact (Option.some.inj this).symm
  have := unsigned_last hu h hk' hl
  simp [asUint, asInt, hi] at this

example (t : DT) : hat Xyml.std (.map [(.str "minLength", .map []), (.str "type", .str "string")]) ≠
    .ok t :=
  C22_not_integer_rejected Xyml.std _ t .string "minLength" minLength (.map []) .stringMinLength
    (by decide) rfl rfl

/-- C22 as stated is false: for every unsigned facet and every negative integer there is a
definition that parses and whose getter reports a huge positive number instead of the integer
written. -/
theorem C22_negative_false (X : Xyml) (kd : Kind) (key : String) (get : DT → Option Nat)
    (v : Node) (n : Nat) (hu : Unsigned kd key get) (hi : X.toInt v = some (-(n : Int)))
    (h0 : 0 < n) (h1 : n ≤ 2 ^ 63) :
    ∃ t, hat X (.map [(.str "type", .str kd.name), (.str key, v)]) = .ok t ∧
      get t = some (2 ^ 64 - n) := by
  have hok : ∃ t, hat X (.map [(.str "type", .str kd.name), (.str key, v)]) = .ok t := by
    cases hu <;>
    · simp only [hat, siftType, siftScan, Node.str, Node.value, Kind.name, Node.isStr]
      simp [typeToKind, assignAll, assign, DT.new, DT.newExt, assignFlat, Hdr.assignCommon,
        Body.assign, Hdr.assignExt, Node.value, Node.isStr, annIn, firstChar, Hdr.assignBase,
        Doc.assignBase, asString, asUint, asInt, hi, Body.isObject, Body.isArray]
  obtain ⟨t, ht⟩ := hok
  have hkd : t.kind = kd := by
    have := C15_kind_of_mapping X _ t ht
    cases hu <;> exact (Option.some.inj this).symm
  have hl : lastVal key [(.str "type", .str kd.name), (.str key, v)] = some v := by
    simp [lastVal, lastBy, Node.str, Node.value]
  exact ⟨t, ht, C22_negative_wraps X _ t kd key get v n hu ht hkd hl hi h0 h1⟩

/-- `minLength: -1` is read as 18446744073709551615. -/
example : ∃ t, hat Xyml.std (.map [(.str "type", .str "string"),
    (.str "minLength", Xyml.std.ofInt (-1))]) = .ok t ∧
    minLength t = some 18446744073709551615 :=
  C22_negative_false Xyml.std .string "minLength" minLength _ 1 .stringMinLength
    (Xyml.std_lawful.toInt_ofInt (by decide) (by decide)) (by decide) (by decide)

/-! ### C23 -/

theorem enumVal_eq (X : Xyml) (kd : Kind) (n : Node) (x : Val) :
    enumVal X kd n = .ok x ↔ enumElem X kd n = some x := by
  cases kd <;> simp only [enumVal, enumElem, asBool, asInt, asFlt] <;>
    cases X.toStr n <;> cases X.toBool n <;> cases X.toInt n <;> cases X.toFlt n <;> simp

theorem loadEnum_items (X : Xyml) (kd : Kind) (ns : List Node) (l l' : Option (List Val))
    (h : forItems (fun n l => (enumVal X kd n).map fun x => pushEnum x l) ns l = .ok l') :
    ∃ vs, ns.mapM (enumElem X kd) = some vs ∧ listOf l' = listOf l ++ vs ∧
      (l' = none ↔ l = none ∧ ns = []) := by
  induction ns generalizing l with
  | nil => cases h; exact ⟨[], by simp, by simp, by simp⟩
  | cons n ns ih =>
    obtain ⟨l1, h1, h2⟩ := Res.bind_eq_ok.mp h
    obtain ⟨x, hx, rfl⟩ := Res.map_eq_ok.mp h1
    obtain ⟨vs, hvs, hl, hn⟩ := ih _ h2
    refine ⟨x :: vs, ?_, ?_, ?_⟩
    · simp [List.mapM_cons, (enumVal_eq X kd n x).mp hx, hvs]
    · rw [hl]; simp [pushEnum, listOf]
    · simp [pushEnum] at hn
      simp [hn]

private theorem mapM_append_some {α β : Type} {f : α → Option β} {a b : List α} {x y : List β}
    (ha : a.mapM f = some x) (hb : b.mapM f = some y) : (a ++ b).mapM f = some (x ++ y) := by
  simp [List.mapM_append, ha, hb]

/-- C23: `Enum()` is the concatenation, in document order, of the sequences under the `enum`
key(s), every element converted; in particular each such entry is a sequence and each element
converts. -/
theorem C23_enum_in_order (X : Xyml) (ps : List (Node × Node)) (t : DT)
    (h : hat X (.map ps) = .ok t) (hb : isBasic t.kind = false) :
    (∀ v ∈ allVals "enum" ps, isSeq v = true) ∧
    ((allVals "enum" ps).flatMap seqItems).mapM (enumElem X t.kind) = some (listOf (enum t)) ∧
    (enum t = none ↔ (allVals "enum" ps).flatMap seqItems = []) := by
  obtain ⟨t0, _, _, hbare, h1, hk0⟩ := hat_map_ok h
  rw [assignAll_eq] at h1
  have hcont : (facetNames t.kind).contains "enum" = true := by
    generalize t.kind = k at hb
    cases k <;> first | rfl | (exact absurd hb (by decide))
  have hq := facetOf_iff_name (f := .enum) hcont (by decide) (by decide)
  have key : ∀ (ps : List (Node × Node)) (s s' : DT), s.kind = t.kind →
      forPairs (fun k v t => assign X (k, v) t) ps s = .ok s' →
      (∀ v ∈ allVals "enum" ps, isSeq v = true) ∧
      ∃ vs, ((allVals "enum" ps).flatMap seqItems).mapM (enumElem X t.kind) = some vs ∧
        listOf (enum s') = listOf (enum s) ++ vs ∧
        (enum s' = none ↔ enum s = none ∧ (allVals "enum" ps).flatMap seqItems = []) := by
    intro ps
    induction ps with
    | nil => intro s s' _ h; cases h; exact ⟨by simp [allVals], [], by simp [allVals]⟩
    | cons p ps ih =>
      intro s s' hs h
      obtain ⟨s1, h1, h2⟩ := Res.bind_eq_ok.mp h
      obtain ⟨i1, vs, i2, i3, i4⟩ := ih s1 s' ((assign_kind h1).trans hs) h2
      have hqp : (facetOf t.kind p == Facet.enum) = (p.1.value == "enum") := congrFun hq p
      by_cases hp : p.1.value = "enum"
      · have hf : facetOf t.kind p = .enum := by
          rw [hp] at hqp; simpa using hqp
        obtain ⟨g1, _⟩ := assign_ok hs h1
        have hf' : facetOf t.kind (p.1, p.2) = .enum := hf
        rw [hf'] at g1
        replace g1 : loadEnum X t.kind (enum s) p.2 = .ok (enum s1) := g1
        have hv : allVals "enum" (p :: ps) = p.2 :: allVals "enum" ps := by
          simp [allVals, hp]
        rw [hv]
        cases hp2 : p.2 with
        | scalar a b => rw [hp2] at g1; cases g1
        | map a => rw [hp2] at g1; cases g1
        | seq tag ns =>
          rw [hp2] at g1
          obtain ⟨ws, w1, w2, w3⟩ := loadEnum_items X t.kind ns _ _ g1
          refine ⟨?_, ws ++ vs, ?_, ?_, ?_⟩
          · intro v hv
            rcases List.mem_cons.mp hv with rfl | hv
            · rfl
            · exact i1 v hv
          · rw [List.flatMap_cons]; exact mapM_append_some w1 i2
          · rw [i3, w2, List.append_assoc]
          · rw [i4, w3, List.flatMap_cons]
            simp [seqItems, and_assoc]
      · have hf : Facet.enum ≠ facetOf t.kind (p.1, p.2) := by
          intro he
          have : (facetOf t.kind p == Facet.enum) = true := by
            rw [show facetOf t.kind p = Facet.enum from he.symm]; rfl
          rw [hqp] at this
          exact hp (by simpa using this)
        have he : enum s1 = enum s := (assign_ok hs h1).2 .enum hf
        have hv : allVals "enum" (p :: ps) = allVals "enum" ps := by
          simp [allVals, hp]
        rw [hv]
        rw [he] at i3 i4
        exact ⟨i1, vs, i2, i3, i4⟩
  obtain ⟨i1, vs, i2, i3, i4⟩ := key ps t0 t hk0.symm h1
  rw [hbare.enum] at i3 i4
  have hnil : listOf (none : Option (List Val)) = [] := rfl
  rw [hnil, List.nil_append] at i3
  rw [← i3] at i2
  exact ⟨i1, i2, by simpa using i4⟩

/-- Two `enum` entries of an integer type. -/
example : ∃ t, hat Xyml.std (.map [(.str "type", .str "boolean"),
    (.str "enum", .seq "!!seq" [.scalar "!!bool" "true", .scalar "!!bool" "false"]),
    (.str "enum", .seq "!!seq" [.scalar "!!bool" "true"])]) = .ok t ∧
    enum t = some [.bool true, .bool false, .bool true] := ⟨_, rfl, rfl⟩

/-! ### C24 -/

theorem exampleVal_eq (X : Xyml) (kd : Kind) (n : Node) (x : Val) :
    exampleVal X kd n = .ok x ↔ exampleElem X kd n = some x := by
  cases kd <;> simp only [exampleVal, exampleElem, asBool, asInt, asFlt, asString] <;>
    cases n.isStr <;> cases X.toBool n <;> cases X.toInt n <;> cases X.toFlt n <;>
      cases n <;> simp [isSeq, seqItems]

/-- The kinds that have examples. -/
def hasExamples (kd : Kind) : Bool := !isBasic kd && kd != .any

theorem unmarshal_scalar {X : Xyml} {kd : Kind} {v : Node} {e : Example}
    (hm : isMap v = false) (h : (Example.new kd).unmarshal X v = .ok e) :
    ∃ x, exampleElem X kd v = some x ∧ e = { Example.new kd with value := some x } := by
  have : (Example.new kd).unmarshal X v =
      (exampleVal X kd v).map fun x => { Example.new kd with value := some x } := by
    cases v <;> first | rfl | cases hm
  rw [this] at h
  obtain ⟨x, hx, rfl⟩ := Res.map_eq_ok.mp h
  exact ⟨x, (exampleVal_eq X kd v x).mp hx, rfl⟩

theorem loadExample_ok {X : Xyml} {kd : Kind} {v : Node} {e : Example}
    (h : loadExample X kd v = .ok e) :
    hasExamples kd = true ∧ (Example.new kd).unmarshal X v = .ok e := by
  unfold loadExample at h
  obtain ⟨e0, h1, h2⟩ := Res.bind_eq_ok.mp h
  cases kd <;> simp only [exampleSortingHat, reduceCtorEq, Res.ok.injEq] at h1 <;>
    (subst h1; exact ⟨rfl, h2⟩)

/-- C24: in a definition that parses, the example is the one of the last `example` entry; when
that is not a mapping, `Value()` is its conversion and nothing else is set. -/
theorem C24_example_value (X : Xyml) (ps : List (Node × Node)) (t : DT) (v : Node)
    (h : hat X (.map ps) = .ok t) (hb : isBasic t.kind = false)
    (hl : lastVal "example" ps = some v) (hm : isMap v = false) :
    hasExamples t.kind = true ∧ ∃ e x, exampleOf t = some e ∧ e.kind = t.kind ∧
      exampleElem X t.kind v = some x ∧ e.value = some x ∧ e.displayName = none ∧
      e.description = none ∧ e.annotations.ents = [] ∧ e.strict = true ∧ e.extra.ents = [] := by
  have hcont : (facetNames t.kind).contains "example" = true := by
    generalize t.kind = k at hb
    cases k <;> first | rfl | (exact absurd hb (by decide))
  have := hat_map_lastVal (f := .example) h rfl hcont (by decide) (by decide)
    (fun _ _ _ _ => rfl) (fun _ _ _ _ => rfl)
  rw [hl] at this
  have h1 : (loadExample X t.kind v).map some = .ok (exampleOf t) := this v (exampleOf t)
  obtain ⟨e, he, h2⟩ := Res.map_eq_ok.mp h1
  obtain ⟨h3, h4⟩ := loadExample_ok he
  obtain ⟨x, hx, rfl⟩ := unmarshal_scalar hm h4
  exact ⟨h3, _, x, h2.symm, rfl, hx, rfl, rfl, rfl, rfl, rfl, rfl⟩

example (X : Xyml) (t : DT) (h : hat X (.map [(.str "type", .str "string"), (.str "example", .map []),
    (.str "example", .str "x")]) = .ok t) : ∃ e x, exampleOf t = some e ∧ e.kind = .string ∧
      exampleElem X .string (.str "x") = some x ∧ e.value = some x ∧ e.displayName = none := by
  have hk : t.kind = .string := Option.some.inj ((C15_kind_of_mapping _ _ t h).symm.trans (by decide))
  obtain ⟨-, e, x, h1, h2, h3, h4, h5, -⟩ := C24_example_value X _ t (.str "x") h (by rw [hk]; rfl) rfl rfl
  exact ⟨e, x, h1, h2.trans hk, hk ▸ h3, h4, h5⟩

/-- C24: for every kind but `any` (and nil/include types, which have no facets), a definition with
an example that converts parses and reports its value.  Missing for the full statement: kind
`any`. -/
theorem C24_example_accepted_partial (X : Xyml) (s : String) (v : Node) (x : Val)
    (hk : hasExamples (classify s) = true) (hm : isMap v = false)
    (hx : exampleElem X (classify s) v = some x) :
    ∃ t e, hat X (.map [(.str "type", .str s), (.str "example", v)]) = .ok t ∧
      t.kind = classify s ∧ exampleOf t = some e ∧ e.value = some x := by
  have hty : ∀ t : DT, assign X (.str "type", .str s) t = .ok (t.setSchema s) := by
    intro t
    rw [assign_eq, facetOf_type (by rfl)]; rfl
  obtain ⟨hkd, -, -⟩ := typeToKind_spec s
  have hkd' : ((typeToKind s).setSchema s).kind = classify s := by
    rw [← hkd]; cases typeToKind s <;> rfl
  have hb : isBasic (classify s) = false := by
    simp only [hasExamples, Bool.and_eq_true] at hk
    simpa using hk.1
  have hcont : (facetNames (classify s)).contains "example" = true := by
    generalize classify s = k at hb
    cases k <;> first | rfl | (exact absurd hb (by decide))
  have hload : loadExample X (classify s) v =
      .ok { Example.new (classify s) with value := some x } := by
    have h1 : exampleSortingHat (classify s) = .ok (Example.new (classify s)) := by
      generalize classify s = k at hk
      cases k <;> first | rfl | (exact absurd hk (by decide))
    have h2 := (exampleVal_eq X _ v x).mpr hx
    unfold loadExample
    rw [h1]
    have : (Example.new (classify s)).unmarshal X v =
        (exampleVal X (classify s) v).map fun x =>
          { Example.new (classify s) with value := some x } := by
      cases v <;> first | rfl | cases hm
    simp only [Res.bind_ok, this, h2, Res.map_ok]
  have hstep : assign X (.str "example", v) ((typeToKind s).setSchema s) =
      .ok (((typeToKind s).setSchema s).setFacet .example
        (some { Example.new (classify s) with value := some x })) := by
    rw [assign_eq, hkd', facetOf_eq (f := .example) rfl hcont (by decide)]
    simp only [DT.step, facetStep, hkd', hload]
    rfl
  refine ⟨((typeToKind s).setSchema s).setFacet .example
      (some { Example.new (classify s) with value := some x }),
    { Example.new (classify s) with value := some x }, ?_, ?_, ?_, rfl⟩
  · have h0 : siftType [(Node.str "type", Node.str s), (.str "example", v)] =
        .ok (typeToKind s) := by
      rw [(siftType_spec _).1 (.str "type", .str s) (by rfl)]; rfl
    unfold hat
    rw [h0]
    simp only [Res.bind_ok, assignAll, hty, hstep]
  · exact (setFacet_kind _ _ _).trans hkd'
  · refine look_setFacet_self (X := X) (k := .str "example") (v := v) (f := .example) ?_ ?_
    · rw [hkd']
      have := facetOf_has (classify s) (Node.str "example", v)
      rwa [facetOf_eq (f := .example) rfl hcont (by decide)] at this
    · simp only [facetStep, hkd', hload]
      rfl

example : ∃ t e, hat Xyml.std (.map [(.str "type", .str "boolean"),
      (.str "example", .scalar "!!bool" "true")]) = .ok t ∧ t.kind = .boolean ∧ exampleOf t = some e ∧
    e.value = some (.bool true) :=
  C24_example_accepted_partial Xyml.std "boolean" (.scalar "!!bool" "true") (.bool true) rfl rfl rfl

/-- C24 as stated is false: for kind `any` every definition with an `example` entry is rejected,
whatever the entry and the rest of the definition. -/
theorem C24_any_example_false (X : Xyml) (ps : List (Node × Node)) (k v : Node) (t : DT)
    (hk : kindOf ps = some .any) (hm : (k, v) ∈ ps) (hv : k.value = "example") :
    hat X (.map ps) ≠ .ok t := by
  intro h
  obtain ⟨s, x, _, hx⟩ := hat_map_step (f := .example) h hk hm
    (facetOf_eq hv (by decide) (by decide))
  obtain ⟨e, he, _⟩ := Res.map_eq_ok.mp hx
  exact absurd (loadExample_ok he).1 (by decide)

example (X : Xyml) (t : DT) : hat X (.map [(.str "example", .str "x"), (.str "type", .str "any")]) ≠ .ok t :=
  C24_any_example_false X _ (.str "example") (.str "x") t (by decide) (.head _) rfl

/-- C24: an expanded example (`example: {value: …}`): `Value()` is the conversion of the last
`value` entry whose key is a string. -/
theorem C24_expanded_example_value (X : Xyml) (ps es : List (Node × Node)) (t : DT)
    (h : hat X (.map ps) = .ok t) (hb : isBasic t.kind = false)
    (hl : lastVal "example" ps = some (.map es)) :
    ∃ e, exampleOf t = some e ∧ e.kind = t.kind ∧
      match lastBy (fun p => p.1.isStr && p.1.value == "value") es with
      | some v => exampleElem X t.kind v = e.value ∧ e.value ≠ none
      | none => e.value = none := by
  have hcont : (facetNames t.kind).contains "example" = true := by
    generalize t.kind = k at hb
    cases k <;> first | rfl | (exact absurd hb (by decide))
  have := hat_map_lastVal (f := .example) h rfl hcont (by decide) (by decide)
    (fun _ _ _ _ => rfl) (fun _ _ _ _ => rfl)
  rw [hl] at this
  have h1 : (loadExample X t.kind (.map es)).map some = .ok (exampleOf t) :=
    this (.map es) (exampleOf t)
  obtain ⟨e, he, h2⟩ := Res.map_eq_ok.mp h1
  obtain ⟨h3, h4⟩ := loadExample_ok he
  replace h4 : forPairs (Example.assign X) es (Example.new t.kind) = .ok e := h4
  have hkind : ∀ k v (s s' : Example), Example.assign X k v s = .ok s' → s'.kind = s.kind := by
    intro k v s s' hs
    unfold Example.assign Example.putExtra at hs
    repeat' split at hs
    all_goals first
      | (cases hs; done)
      | (obtain ⟨_, _, rfl⟩ := Res.map_eq_ok.mp hs; rfl)
  have hek : e.kind = t.kind :=
    forPairs_inv (I := fun u : Example => u.kind = t.kind)
      (fun k v s s' hI h => (hkind k v s s' h).trans hI) es (Example.new t.kind) e rfl h4
  refine ⟨e, h2.symm, hek, ?_⟩
  have hlast := forPairs_lastBy (I := fun u : Example => u.kind = t.kind) Example.value
    (fun p => p.1.isStr && p.1.value == "value")
    (fun v y => exampleElem X t.kind v = y ∧ y ≠ none)
    (fun k v s s' hI h => (hkind k v s s' h).trans hI)
    (fun k v s s' hI hq hs => by
      simp only [Bool.and_eq_true, beq_iff_eq] at hq
      unfold Example.assign at hs
      simp [hq.1, hq.2, firstChar] at hs
      obtain ⟨x, hx, rfl⟩ := Res.map_eq_ok.mp hs
      have := (exampleVal_eq X _ v x).mp hx
      rw [hI] at this
      exact ⟨this, by simp⟩)
    (fun k v s s' hI hq hs => by
      simp only [Bool.and_eq_false_iff, beq_eq_false_iff_ne] at hq
      unfold Example.assign Example.putExtra at hs
      by_cases hstr : k.isStr = true
      · have hv : k.value ≠ "value" := by
          rcases hq with hq | hq
          · simp [hstr] at hq
          · exact hq
        simp only [hstr, Bool.not_true, Bool.false_eq_true, if_false, hv] at hs
        repeat' split at hs
        all_goals first
          | (cases hs; done)
          | (obtain ⟨_, _, rfl⟩ := Res.map_eq_ok.mp hs; rfl)
      · have hstr : k.isStr = false := by simpa using hstr
        simp only [hstr, Bool.not_false, if_true] at hs
        obtain ⟨_, _, rfl⟩ := Res.map_eq_ok.mp hs; rfl)
    es (Example.new t.kind) e rfl h4
  cases hlb : lastBy (fun p => p.1.isStr && p.1.value == "value") es with
  | some v => rw [hlb] at hlast; exact hlast
  | none => rw [hlb] at hlast; exact hlast

example : hasExamples (classify "integer") = true ∧ hasExamples (classify "A | B") = true ∧
    hasExamples (classify "any") = false ∧
    kindOf [(.str "example", .str "x"), (.str "type", .str "any")] = some .any := by decide

/-! ### C25 -/

/-- C25 as stated is false: `Default()` is unset after every parse. -/
theorem C25_default_unset_false (X : Xyml) (n : Node) (t : DT) (h : hat X n = .ok t) :
    dflt t = none := hat_dflt h

example (X : Xyml) (v : Node) (t : DT) (h : hat X (.map [(.str "type", .str "string"),
    (.str "default", v)]) = .ok t) : dflt t = none :=
  C25_default_unset_false X _ t h

private theorem lastWins_mem {K V : Type} [DecidableEq K] (l : List (K × V)) (k : K) (v : V)
    (h : (l.reverse.find? fun e => e.1 == k) = some (k, v)) : (k, v) ∈ lastWins l := by
  induction l with
  | nil => cases h
  | cons e l ih =>
    rw [List.reverse_cons, List.find?_append] at h
    cases hf : l.reverse.find? fun e => e.1 == k with
    | some q =>
      rw [hf] at h
      simp only [Option.some_or, Option.some.injEq] at h
      subst h
      have := ih hf
      unfold lastWins
      split
      · exact this
      · exact List.mem_cons_of_mem _ this
    | none =>
      rw [hf] at h
      simp only [Option.none_or, List.find?_cons, List.find?_nil] at h
      split at h
      · cases h
        unfold lastWins
        rw [if_neg]
        · simp
        · intro hm
          obtain ⟨x, hx, hxk⟩ := List.mem_map.mp hm
          have := List.find?_eq_none.mp hf x (by simpa using hx)
          exact this (by simpa using hxk)
      · cases h

private theorem find?_map_filter {ps : List (Node × Node)} {q : Node × Node → Bool}
    (s : String) (v : Node) (h : lastVal s ps = some v)
    (hq : ∀ p, p.1.value = s → q p = true) :
    (((ps.filter q).map fun p => (Scalar.str p.1.value, p.2)).reverse.find?
      fun e => e.1 == Scalar.str s) = some (.str s, v) := by
  unfold lastVal lastBy at h
  rw [← List.map_reverse, ← List.filter_reverse]
  generalize ps.reverse = rs at h
  induction rs with
  | nil => cases h
  | cons p rs ih =>
    by_cases hp : p.1.value = s
    · have hqp := hq p hp
      simp only [List.find?_cons, hp, beq_self_eq_true, Option.map_some, Option.some.injEq] at h
      simp [hqp, hp, h]
    · have hb : (p.1.value == s) = false := by simpa using hp
      simp only [List.find?_cons, hb] at h
      have := ih h
      cases hqp : q p with
      | true => simpa [hqp, hp] using this
      | false => simpa [hqp] using this

/-- C25: what becomes of a `default` entry: it is kept verbatim among the extra facets.  Missing
for the full statement: `Default()` itself never reports it (`C25_default_unset_false`). -/
theorem C25_default_is_extra_partial (X : Xyml) (ps : List (Node × Node)) (t : DT) (v : Node)
    (h : hat X (.map ps) = .ok t) (hl : lastVal "default" ps = some v) :
    (Scalar.str "default", v) ∈ t.extra.ents := by
  rw [C18_extra_facets X ps t h]
  apply lastWins_mem
  apply find?_map_filter _ _ hl
  intro p hp
  have h1 : ∀ kd, ¬ "default" ∈ facetNames kd := by intro kd; cases kd <;> decide
  simp [isExtra, hp, h1, startsWith]

example : ∃ t, hat Xyml.std (.map [(.str "type", .str "integer"),
    (.str "default", .scalar "!!int" "3")]) = .ok t ∧ dflt t = none ∧
    t.extra.ents = [(.str "default", .scalar "!!int" "3")] := ⟨_, rfl, rfl, rfl⟩

/-! ### C31 -/

/-- The setting of a boolean key: unset without an entry, otherwise the last entry's boolean. -/
def boolSetting (X : Xyml) (k : String) (ps : List (Node × Node)) (o : Option Bool) : Prop :=
  match lastVal k ps with
  | some v => X.toBool v = o ∧ o ≠ none
  | none => o = none

/-- The setting of a text key: unset without an entry, otherwise the last entry's text, which is
a string node. -/
def textSetting (k : String) (ps : List (Node × Node)) (o : Option String) : Prop :=
  match lastVal k ps with
  | some v => v.isStr = true ∧ o = some v.value
  | none => o = none

private theorem xml_bool {X : Xyml} {ps : List (Node × Node)} {x : XML} (key : String)
    (π : XML → Option Bool)
    (hin : ∀ k v s s', k.value = key → XML.assign X k v s = .ok s' → X.toBool v = π s' ∧ π s' ≠ none)
    (hout : ∀ k v s s', k.value ≠ key → XML.assign X k v s = .ok s' → π s' = π s)
    (h0 : π XML.new = none) (h : loadXML X (.map ps) = .ok x) : boolSetting X key ps (π x) := by
  have := forPairs_lastBy (I := fun _ : XML => True) π (fun p => p.1.value == key)
    (fun v y => X.toBool v = y ∧ y ≠ none) (fun _ _ _ _ _ _ => trivial)
    (fun k v s s' _ hq hs => hin k v s s' (by simpa using hq) hs)
    (fun k v s s' _ hq hs => hout k v s s' (by simpa using hq) hs) ps XML.new x trivial h
  unfold boolSetting lastVal
  cases hl : lastBy (fun p => p.1.value == key) ps with
  | some v => rw [hl] at this; exact this
  | none => rw [hl] at this; exact this.trans h0

private theorem xml_text {X : Xyml} {ps : List (Node × Node)} {x : XML} (key : String)
    (π : XML → Option String)
    (hin : ∀ k v s s', k.value = key → XML.assign X k v s = .ok s' →
      v.isStr = true ∧ π s' = some v.value)
    (hout : ∀ k v s s', k.value ≠ key → XML.assign X k v s = .ok s' → π s' = π s)
    (h0 : π XML.new = none) (h : loadXML X (.map ps) = .ok x) : textSetting key ps (π x) := by
  have := forPairs_lastBy (I := fun _ : XML => True) π (fun p => p.1.value == key)
    (fun v y => v.isStr = true ∧ y = some v.value) (fun _ _ _ _ _ _ => trivial)
    (fun k v s s' _ hq hs => hin k v s s' (by simpa using hq) hs)
    (fun k v s s' _ hq hs => hout k v s s' (by simpa using hq) hs) ps XML.new x trivial h
  unfold textSetting lastVal
  cases hl : lastBy (fun p => p.1.value == key) ps with
  | some v => rw [hl] at this; exact this
  | none => rw [hl] at this; exact this.trans h0

private theorem asBool_ok {X : Xyml} {v : Node} {b : Bool} (h : asBool X v = .ok b) :
    X.toBool v = some b := by
  unfold asBool at h
  split at h
  · cases h; assumption
  · cases h

private theorem asString_ok {v : Node} {b : String} (h : asString v = .ok b) :
    v.isStr = true ∧ b = v.value := by
  unfold asString at h
  split at h
  · cases h; exact ⟨by assumption, rfl⟩
  · cases h

/-- C31: XML settings hold exactly the five settings present, the last entry of each winning. -/
theorem C31_xml_settings (X : Xyml) (ps : List (Node × Node)) (x : XML)
    (h : loadXML X (.map ps) = .ok x) :
    boolSetting X "attribute" ps x.isAttr ∧ boolSetting X "wrapped" ps x.isWrap ∧
    textSetting "name" ps x.name ∧ textSetting "namespace" ps x.ns ∧
    textSetting "prefix" ps x.pref := by
  refine ⟨xml_bool "attribute" XML.isAttr ?_ ?_ rfl h, xml_bool "wrapped" XML.isWrap ?_ ?_ rfl h,
    xml_text "name" XML.name ?_ ?_ rfl h, xml_text "namespace" XML.ns ?_ ?_ rfl h,
    xml_text "prefix" XML.pref ?_ ?_ rfl h⟩
  all_goals
    intro k v s s' hk hs
    unfold XML.assign at hs
    repeat' split at hs
  all_goals first
    | (obtain ⟨b, hb, rfl⟩ := Res.map_eq_ok.mp hs
       first
         | rfl
         | exact ⟨asBool_ok hb, by simp⟩
         | (obtain ⟨h1, rfl⟩ := asString_ok hb; exact ⟨h1, rfl⟩)
         | (exfalso; simp_all; done))

example (X : Xyml) (x : XML) (h : loadXML X (.map [(.str "name", .str "a"), (.str "prefix", .str "p"),
    (.str "name", .str "b")]) = .ok x) :
    textSetting "name" [(.str "name", .str "a"), (.str "prefix", .str "p"), (.str "name", .str "b")]
      x.name := (C31_xml_settings X _ x h).2.2.1

/-- C31: the settings of a type are those of the last `xml` entry. -/
theorem C31_type_xml (X : Xyml) (ps : List (Node × Node)) (t : DT)
    (h : hat X (.map ps) = .ok t) (hb : isBasic t.kind = false) :
    match lastVal "xml" ps with
    | some v => ∃ x qs, v = .map qs ∧ loadXML X (.map qs) = .ok x ∧ xml t = some x
    | none => xml t = none := by
  have hcont : (facetNames t.kind).contains "xml" = true := by
    generalize t.kind = k at hb
    cases k <;> first | rfl | (exact absurd hb (by decide))
  have := hat_map_lastVal (f := .xml) h rfl hcont (by decide) (by decide)
    (fun _ _ _ _ => rfl) (fun _ _ _ _ => rfl)
  cases hl : lastVal "xml" ps with
  | some v =>
    rw [hl] at this
    have h1 : (loadXML X v).map some = .ok (xml t) := this v (xml t)
    obtain ⟨x, hx, h2⟩ := Res.map_eq_ok.mp h1
    cases v with
    | map qs => exact ⟨x, qs, rfl, hx, h2.symm⟩
    | scalar a b => cases hx
    | seq a b => cases hx
  | none =>
    rw [hl] at this
    obtain ⟨t0, h0, hx⟩ := this
    obtain ⟨t0', h0', _, hb', _⟩ := hat_map_ok h
    rw [h0] at h0'
    cases h0'
    exact (show xml t = xml t0 from hx).trans hb'.xml

example : ∃ x, loadXML Xyml.std (.map [(.str "name", .str "a"), (.str "wrapped",
    .scalar "!!bool" "true"), (.str "name", .str "b")]) = .ok x ∧ x.name = some "b" ∧
    x.isWrap = some true ∧ x.isAttr = none := ⟨_, rfl, rfl, rfl, rfl⟩

end Verif.Props
