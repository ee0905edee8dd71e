import Verif.Doc.WriteSpec
import Verif.Doc.FacetLemmas
import Verif.Doc.ApiLemmas
import Verif.Doc.Laws

/-! # Reading what was written: data types -/

namespace Verif.Doc
open Verif Verif.Doc.Spec
open scoped List

/-! ### Lists of puts -/

section
variable {K V : Type} [DecidableEq K]

theorem optEnt_keys (k : K) (o : Option V) : ((OM.optEnt k o).map Prod.fst) <+ [k] := by
  cases o <;> simp [OM.optEnt]

theorem nodup_map_str {l : List String} (h : l.Nodup) : (l.map Scalar.str).Nodup :=
  List.pairwise_map.mpr (h.imp fun hne heq => hne (by cases heq; rfl))

theorem putAll_distinct {es : List (K × V)} (b : Bool) (h : Distinct es) :
    (OM.empty b : OM K V).putAll es = ⟨es, b⟩ := by
  unfold Distinct at h
  rw [OM.putAll_eq_append (by simpa using h)]; rfl

end

theorem typeToKind_eq (s : String) : typeToKind s = (DT.new (classify s)).setSchema s := by
  obtain ⟨h1, h2, _⟩ := typeToKind_spec s
  by_cases h : s ∈ builtins.map Prod.fst
  · simp only [builtins, List.map_cons, List.map_nil, List.mem_cons, List.not_mem_nil,
      or_false] at h
    rcases h with rfl | rfl | rfl | rfl | rfl | rfl | rfl | rfl | rfl | rfl | rfl | rfl | rfl <;> rfl
  · have hk : typeToKind s =
        if "!include ".toList.isPrefixOf s.toList then (DT.new .include).setSchema s
        else if s.toList.contains '|' then (DT.new .union).setSchema s
        else (DT.new .custom).setSchema s := by
      simp only [builtins, List.map_cons, List.map_nil, List.mem_cons, List.not_mem_nil,
        or_false, not_or] at h
      obtain ⟨h1, h2, h3, h4, h5, h6, h7, h8, h9, h10, h11, h12, h13⟩ := h
      unfold typeToKind
      rw [if_neg h1, if_neg h2, if_neg h3, if_neg h4, if_neg h5, if_neg h6, if_neg h7,
        if_neg h8, if_neg h9, if_neg h10, if_neg h11, if_neg h12, if_neg h13]
    rw [← h1]
    rw [hk]
    split
    · rfl
    · split <;> rfl

/-- The default kind-specific part (auxiliary). -/
def freshBody : Body → Body
  | .string _ => .string ⟨none, 0, none⟩
  | .file _ => .file ⟨none, 0, 2147483647⟩
  | .array _ => .array ⟨false, 0, 2147483647⟩
  | .object _ => .object ⟨none, none, true, none, none⟩
  | .datetime _ => .datetime none
  | .number _ => .number ⟨none, none, none, none⟩
  | .integer _ => .integer ⟨none, none, none, none⟩
  | b => b

theorem new_body (b : Body) (s : String) : (DT.new b.kind).setSchema s =
    .ext { Hdr.new b.kind with schema := s } (freshBody b) (OM.empty true) (OM.empty false) none := by
  cases b <;> rfl

theorem freshBody_kind (b : Body) : (freshBody b).kind = b.kind := by cases b <;> rfl

/-! ### The written entries -/

/-- The kind-specific entries (auxiliary). -/
def Body.ents (X : Xyml) (props items : Option Node) : Body → List (Scalar × Node)
  | .string f => OM.optEnt (.str "pattern") (f.pattern.map .str) ++
      (OM.optEnt (.str "minLength") (if f.minLength > 0 then some (X.ofInt f.minLength) else none) ++
      OM.optEnt (.str "maxLength") (f.maxLength.map fun n : Nat => X.ofInt n))
  | .file f => OM.optEnt (.str "fileTypes") (f.fileTypes.map (renderList .str)) ++
      (OM.optEnt (.str "minLength") (if f.minLength ≠ 0 then some (X.ofInt f.minLength) else none) ++
      OM.optEnt (.str "maxLength")
        (if f.maxLength ≠ 2147483647 then some (X.ofInt f.maxLength) else none))
  | .array f => OM.optEnt (.str "uniqueItems")
        (if f.uniqueItems ≠ false then some (X.ofBool f.uniqueItems) else none) ++
      (OM.optEnt (.str "minItems") (if f.minItems ≠ 0 then some (X.ofInt f.minItems) else none) ++
      (OM.optEnt (.str "maxItems")
        (if f.maxItems ≠ 2147483647 then some (X.ofInt f.maxItems) else none) ++
      OM.optEnt (.str "items") items))
  | .object f => OM.optEnt (.str "additionalProperties")
        (if f.addtlProps then none else some (X.ofBool f.addtlProps)) ++
      (OM.optEnt (.str "minProperties") (f.minProps.map fun n : Nat => X.ofInt n) ++
      (OM.optEnt (.str "maxProperties") (f.maxProps.map fun n : Nat => X.ofInt n) ++
      (OM.optEnt (.str "discriminator") (f.discrim.map .str) ++
      (OM.optEnt (.str "discriminatorValue") f.discrimVal ++
      OM.optEnt (.str "properties") props))))
  | .datetime f => OM.optEnt (.str "format") (f.map .str)
  | .number f => OM.optEnt (.str "format") (f.format.map .str) ++
      (OM.optEnt (.str "minimum") (f.minimum.map X.ofFlt) ++
      (OM.optEnt (.str "maximum") (f.maximum.map X.ofFlt) ++
      OM.optEnt (.str "multipleOf") (f.multipleOf.map X.ofFlt)))
  | .integer f => OM.optEnt (.str "format") (f.format.map .str) ++
      (OM.optEnt (.str "minimum") (f.minimum.map X.ofInt) ++
      (OM.optEnt (.str "maximum") (f.maximum.map X.ofInt) ++
      OM.optEnt (.str "multipleOf") (f.multipleOf.map X.ofFlt)))
  | _ => []

theorem Body.marshal_eq (X : Xyml) (props items : Option Node) (b : Body) (out : OM Scalar Node) :
    b.marshal X props items out = out.putAll (b.ents X props items) := by
  cases b <;> simp only [Body.marshal, Body.ents, OM.putOpt_eq, OM.putAll_append, OM.putAll_nil]

/-- The keys of the kind-specific entries, in writing order (auxiliary). -/
def bodyKeys : Kind → List String
  | .string => ["pattern", "minLength", "maxLength"]
  | .file => ["fileTypes", "minLength", "maxLength"]
  | .array => ["uniqueItems", "minItems", "maxItems", "items"]
  | .object => ["additionalProperties", "minProperties", "maxProperties", "discriminator",
      "discriminatorValue", "properties"]
  | .datetime => ["format"]
  | .number => ["format", "minimum", "maximum", "multipleOf"]
  | .integer => ["format", "minimum", "maximum", "multipleOf"]
  | _ => []

theorem Body.ents_keys (X : Xyml) (props items : Option Node) (b : Body) :
    ((b.ents X props items).map Prod.fst) <+ (bodyKeys b.kind).map .str := by
  cases b <;> simp only [Body.ents, Body.kind, bodyKeys, List.map_append, List.map_cons,
    List.map_nil]
  all_goals first
    | exact List.Sublist.refl _
    | exact optEnt_keys _ _
    | exact (optEnt_keys _ _).append ((optEnt_keys _ _).append (optEnt_keys _ _))
    | exact (optEnt_keys _ _).append ((optEnt_keys _ _).append
        ((optEnt_keys _ _).append (optEnt_keys _ _)))
    | exact (optEnt_keys _ _).append ((optEnt_keys _ _).append
        ((optEnt_keys _ _).append ((optEnt_keys _ _).append
          ((optEnt_keys _ _).append (optEnt_keys _ _)))))

/-- The entries written for an extended type before, and after, the extra facets (auxiliary). -/
def Hdr.headEnts (h : Hdr) : List (Scalar × Node) :=
  OM.optEnt (.str "displayName") (h.displayName.map .str) ++
    (OM.optEnt (.str "description") (h.description.map .str) ++ [(.str "type", .str h.schema)])

/-- The `required` entry (auxiliary). -/
def Hdr.reqEnts (X : Xyml) (h : Hdr) : List (Scalar × Node) :=
  OM.optEnt (.str "required") (if h.required then none else some (X.ofBool h.required))

/-- The entries after the annotations (auxiliary). -/
def Hdr.tailEnts (X : Xyml) (h : Hdr) (b : Body) (facets props items : Option Node) :
    List (Scalar × Node) :=
  OM.optEnt (.str "facets") facets ++
    (OM.optEnt (.str "xml") (h.xml.map XML.toYAML) ++
    (b.ents X props items ++
    (OM.optEnt (.str "enum") (h.enum.map (renderList (Val.render X))) ++
    (OM.optEnt (.str "example") (h.example.map (Example.toYAML X)) ++
    OM.optEnt (.str "examples") (if h.examples.len > 0 then
      some (renderStrMap (Example.toYAML X) h.examples) else none)))))

/-- All entries written for an extended type (auxiliary). -/
def dtEnts (X : Xyml) (h : Hdr) (b : Body) (facets props items : Option Node) :
    List (Scalar × Node) :=
  OM.optEnt (.str "default") h.dflt ++ (h.headEnts ++ (h.extra.ents ++ (h.reqEnts X ++
    (annEnts h.annotations ++ h.tailEnts X b facets props items))))

theorem marshalDT_eq (X : Xyml) (h : Hdr) (b : Body) (facets props items : Option Node) :
    marshalDT X h b facets props items =
      (OM.empty false).putAll (dtEnts X h b facets props items) := by
  have hr : ∀ out : OM Scalar Node,
      (if h.required then out else out.put (.str "required") (X.ofBool h.required)) =
        out.putAll (h.reqEnts X) := by
    intro out
    unfold Hdr.reqEnts
    cases h.required <;> rfl
  simp only [marshalDT, Hdr.marshalExt, marshalBase, dtEnts, Hdr.headEnts, Hdr.tailEnts,
    Body.marshal_eq, OM.putOpt_eq, OM.putAll_append, OM.putAll_cons, OM.putAll_nil, hr]

/-- The keys with a meaning, in writing order (auxiliary). -/
def writeKeys (kd : Kind) : List String :=
  (["displayName", "description", "type"] ++ ["required"]) ++
    (["facets", "xml"] ++ (bodyKeys kd ++ ["enum", "example", "examples"]))

theorem writeKeys_nodup (kd : Kind) : ((writeKeys kd).map Scalar.str).Nodup := by
  cases kd <;> decide

theorem writeKeys_names (b : Body) : ∀ s ∈ writeKeys b.kind,
    s ∈ facetNames b.kind ∧ s.toList.head? ≠ some '(' := by
  cases b <;> (simp only [Body.kind]; decide)

theorem annEnts_keys (m : OM String Ann) :
    (annEnts m).map Prod.fst = m.ents.map fun e => Scalar.str e.1 := by
  simp [annEnts, List.map_map, Function.comp_def]

theorem extraWithDefault_eq (h : Hdr) :
    extraWithDefault h = OM.optEnt (.str "default") h.dflt ++ h.extra.ents := by
  unfold extraWithDefault
  cases h.dflt <;> rfl

theorem isBasic_ext (b : Body) : isBasic b.kind = false := by cases b <;> rfl

theorem Spec.WritableHdr.clean {b : Body} {h : Hdr} (hw : WritableHdr b.kind h) :
    CleanHdr b.kind h where
  extra := hw.extra.1
  extraKeys := fun p hp s hs => by
    obtain ⟨s', h1, h2, h3⟩ := hw.extra.2 p hp
    rw [h1] at hs
    cases hs
    rcases h3 with h3 | h3
    · rw [isBasic_ext] at h3; cases h3
    · exact ⟨h2, h3.2⟩
  annotations := hw.annotations.1
  annotationKeys := fun e he => (hw.annotations.2 e he).1

/-- Without key clashes all written keys are distinct. -/
theorem dtEnts_distinct {X : Xyml} {h : Hdr} {b : Body} (facets props items : Option Node)
    (hw : CleanHdr b.kind h) : Distinct (dtEnts X h b facets props items) := by
  let F : List Scalar := ((h.headEnts ++ h.reqEnts X) ++
    h.tailEnts X b facets props items).map Prod.fst
  let E := (extraWithDefault h).map Prod.fst
  let N := (annEnts h.annotations).map Prod.fst
  have hF : F <+ (writeKeys b.kind).map .str := by
    simp only [F, Hdr.headEnts, Hdr.reqEnts, Hdr.tailEnts, writeKeys, List.map_append]
    refine ((((optEnt_keys _ _).append ((optEnt_keys _ _).append (List.Sublist.refl _))).append
      (optEnt_keys _ _)).append ?_)
    exact ((optEnt_keys (.str "facets") _).append ((optEnt_keys (.str "xml") _).append
      ((Body.ents_keys X props items b).append ((optEnt_keys (.str "enum") _).append
        ((optEnt_keys (.str "example") _).append (optEnt_keys (.str "examples") _))))))
  have hp : ((dtEnts X h b facets props items).map Prod.fst).Perm (F ++ (E ++ N)) := by
    classical
    rw [List.perm_iff_count]
    intro a
    simp only [F, E, N, dtEnts, extraWithDefault_eq, List.map_append, List.count_append]
    omega
  unfold Distinct
  rw [hp.nodup_iff, List.nodup_append, List.nodup_append]
  have hN : ∀ x ∈ N, ∃ s : String, x = .str s ∧ s.toList.head? = some '(' := by
    intro x hx
    simp only [N, annEnts_keys, List.mem_map] at hx
    obtain ⟨e, he, rfl⟩ := hx
    exact ⟨e.1, rfl, hw.annotationKeys e he⟩
  have hE : ∀ x ∈ E, ∀ s, x = .str s → s ∉ facetNames b.kind ∧ s.toList.head? ≠ some '(' := by
    intro x hx
    obtain ⟨p, hp, rfl⟩ := List.mem_map.mp hx
    exact hw.extraKeys p hp
  refine ⟨hF.nodup (writeKeys_nodup _), ⟨hw.extra, ?_, ?_⟩, ?_⟩
  · simp only [N, annEnts_keys]
    have := hw.annotations
    unfold Distinct at this
    rw [show (fun e : String × Ann => Scalar.str e.1) = Scalar.str ∘ Prod.fst from rfl,
      ← List.map_map]
    exact nodup_map_str this
  · intro x hx y hy hxy
    obtain ⟨s', h3, h4⟩ := hN y hy
    exact (hE x hx s' (hxy.trans h3)).2 h4
  · intro x hx y hy hxy
    subst hxy
    obtain ⟨k, hk, rfl⟩ := List.mem_map.mp (hF.subset hx)
    obtain ⟨h1, h2⟩ := writeKeys_names b k hk
    rcases List.mem_append.mp hy with hy | hy
    · exact (hE _ hy k rfl).1 h1
    · obtain ⟨s, h3, h4⟩ := hN _ hy
      cases h3
      exact h2 h4

/-- The written form as entries of a mapping (auxiliary). -/
def asPairs (X : Xyml) (es : List (Scalar × Node)) : List (Node × Node) :=
  es.map fun e => (X.ofKey e.1, e.2)

theorem asPairs_append (X : Xyml) (a b : List (Scalar × Node)) :
    asPairs X (a ++ b) = asPairs X a ++ asPairs X b := List.map_append

/-! ### Reading scalars back -/

section Scalars
variable {X : Xyml} (hX : Lawful X)
include hX

omit hX in
theorem asString_str (s : String) : asString (Node.str s) = .ok s := rfl

theorem asBool_ofBool (b : Bool) : asBool X (X.ofBool b) = .ok b := by
  simp [asBool, hX.toBool_ofBool]

theorem asInt_ofInt {i : Int} (h : IsInt64 i) : asInt X (X.ofInt i) = .ok i := by
  simp [asInt, hX.toInt_ofInt h.1 h.2]

theorem asFlt_ofFlt (f : Flt) : asFlt X (X.ofFlt f) = .ok f := by
  simp [asFlt, hX.toFlt_ofFlt]

theorem asUint_ofInt {n : Nat} (h : IsSmall n) : asUint X (X.ofInt n) = .ok n := by
  unfold IsSmall at h
  have h1 : asInt X (X.ofInt n) = .ok n := asInt_ofInt hX ⟨by omega, by omega⟩
  simp only [asUint, h1, Res.map_ok]
  congr 1
  omega

omit hX in
theorem asStringList_render (l : List String) : asStringList (renderList .str l) = .ok l := by
  have key : ∀ (l acc : List String),
      forItems (fun n acc => (asString n).map fun s => acc ++ [s]) (l.map Node.str) acc =
        .ok (acc ++ l) := by
    intro l
    induction l with
    | nil => intro acc; simp [forItems]
    | cons s l ih =>
      intro acc
      simp only [List.map_cons, forItems]
      rw [show asString (Node.str s) = .ok s from rfl]
      simp only [Res.map_ok, Res.bind_ok, ih]
      simp
  exact key l []

theorem enumVal_render {kd : Kind} {v : Val} (h : FitsEnum kd v) :
    enumVal X kd (v.render X) = .ok v := by
  cases kd <;> simp only [FitsEnum] at h
  all_goals first
    | (obtain ⟨s, rfl⟩ := h; simp [enumVal, Val.render, hX.toStr_str]; done)
    | (obtain ⟨b, rfl⟩ := h; simp [enumVal, Val.render, asBool_ofBool hX]; done)
    | (obtain ⟨i, rfl, hi⟩ := h; simp [enumVal, Val.render, asInt_ofInt hX hi]; done)
    | (obtain ⟨f, rfl⟩ := h; simp [enumVal, Val.render, asFlt_ofFlt hX]; done)
    | (obtain ⟨n, rfl⟩ := h; rfl)

theorem loadEnum_render {kd : Kind} {l : List Val} (h : ∀ v ∈ l, FitsEnum kd v) :
    loadEnum X kd none (renderList (Val.render X) l) =
      .ok (match some l with | some [] => none | o => o) := by
  have key : ∀ (l : List Val) (acc : Option (List Val)), (∀ v ∈ l, FitsEnum kd v) →
      forItems (fun n l => (enumVal X kd n).map fun x => pushEnum x l) (l.map (Val.render X)) acc =
        .ok (if l = [] then acc else some (acc.getD [] ++ l)) := by
    intro l
    induction l with
    | nil => intro acc _; rfl
    | cons v l ih =>
      intro acc hl
      simp only [List.map_cons, forItems, enumVal_render hX (hl v (by simp)), Res.map_ok,
        Res.bind_ok, ih _ fun w hw => hl w (by simp [hw])]
      simp only [pushEnum]
      by_cases hl : l = [] <;> simp [hl]
  have := key l none h
  cases l with
  | nil => exact this
  | cons v l => simpa [loadEnum, renderList, seqForEach] using this

theorem exampleVal_render {kd : Kind} {v : Val} (h : FitsExample kd v) :
    exampleVal X kd (v.render X) = .ok v := by
  cases kd <;> simp only [FitsExample] at h
  all_goals first
    | (obtain ⟨s, rfl⟩ := h; rfl)
    | (obtain ⟨b, rfl⟩ := h; simp [exampleVal, Val.render, asBool_ofBool hX]; done)
    | (obtain ⟨i, rfl, hi⟩ := h; simp [exampleVal, Val.render, asInt_ofInt hX hi]; done)
    | (obtain ⟨f, rfl⟩ := h; simp [exampleVal, Val.render, asFlt_ofFlt hX]; done)

end Scalars

/-! ### Dictionaries -/

/-- Reading a plain mapping with string keys back. -/
theorem loader_render {V : Type} {g : Node → Res V} {vn : V → Node} {c : V → V}
    (es : List (String × V)) (m : OM String V)
    (hg : ∀ e ∈ es, g (vn e.2) = .ok (c e.2)) :
    forPairs (fun k v m => (asString k).bind fun s => (g v).map fun x => m.put s x)
      (es.map fun e => (Node.str e.1, vn e.2)) m = .ok (m.putAll (es.map fun e => (e.1, c e.2))) := by
  induction es generalizing m with
  | nil => rfl
  | cons e es ih =>
    simp only [List.map_cons, forPairs, asString_str', Res.bind_ok, hg e (by simp), Res.map_ok]
    exact ih _ fun x hx => hg x (by simp [hx])
where
  asString_str' {s : String} : asString (Node.str s) = .ok s := rfl

theorem loadAnn_render {a : Ann} (h1 : a.omap = false) (h2 : Distinct a.ents) :
    loadAnn (renderStrMap id a) = .ok ⟨a.ents, true⟩ := by
  unfold loadAnn renderStrMap renderPairs
  rw [h1]
  have := loader_render (g := Res.ok) (vn := id) (c := id) a.ents (OM.empty true : OM String Node)
    fun _ _ => rfl
  have h3 : loadUntyped (OM.empty true) (.map (a.ents.map fun e => (Node.str e.1, id e.2))) =
      .ok ((OM.empty true).putAll (a.ents.map fun e => (e.1, id e.2))) := this
  simp only [Bool.false_eq_true, if_false]
  rw [h3]
  congr 1
  have h4 : (a.ents.map fun e => (e.1, id e.2)) = a.ents := by simp
  rw [h4, putAll_distinct _ h2]

/-! ### Examples -/

section
variable {X : Xyml} (hX : Lawful X)
include hX

theorem example_render {kd : Kind} {e : Example} (h : WritableExample kd e) :
    (Example.new kd).unmarshal X (e.toYAML X) = .ok (canonExample e) := by
  have hexp : e.expand = true := by
    have h := h.expanded
    simp only [Example.expand, OM.len, Bool.or_eq_true, Bool.not_eq_true', decide_eq_true_eq,
      Option.isSome_iff_ne_none]
    rcases h with h | h | h | h | h
    · simp [h]
    · simp [h]
    · have := List.length_pos_iff.mpr h; simp [this]
    · have := List.length_pos_iff.mpr h; simp [this]
    · simp [h]
  let head : List (Scalar × Node) :=
    OM.optEnt (.str "displayName") (e.displayName.map .str) ++
    (OM.optEnt (.str "description") (e.description.map .str) ++
    (OM.optEnt (.str "value") (e.value.map (Val.render X)) ++
    OM.optEnt (.str "strict") (if e.strict then none else some (X.ofBool e.strict))))
  let L := head ++ (annEnts e.annotations ++ e.extra.ents)
  have hm : e.marshal X = (OM.empty false).putAll L := by
    have hr : ∀ out : OM Scalar Node,
        (if e.strict then out else out.put (.str "strict") (X.ofBool e.strict)) =
          out.putAll (OM.optEnt (.str "strict")
            (if e.strict then none else some (X.ofBool e.strict))) := by
      intro out; cases e.strict <;> rfl
    simp only [Example.marshal, hexp, if_true, hr, OM.putOpt_eq, L, head, OM.putAll_append]
  have hhead : head.map Prod.fst <+
      ["displayName", "description", "value", "strict"].map Scalar.str := by
    simp only [head, List.map_append]
    exact (optEnt_keys (Scalar.str "displayName") _).append
      ((optEnt_keys (Scalar.str "description") _).append
        ((optEnt_keys (Scalar.str "value") _).append (optEnt_keys (Scalar.str "strict") _)))
  have hN : ∀ x ∈ (annEnts e.annotations).map Prod.fst, ∃ s : String, x = .str s ∧
      s.toList.head? = some '(' := by
    intro x hx
    simp only [annEnts_keys, List.mem_map] at hx
    obtain ⟨y, hy, rfl⟩ := hx
    exact ⟨y.1, rfl, (h.annotations.2 y hy).1⟩
  have hd : Distinct L := by
    unfold Distinct
    simp only [L, List.map_append]
    rw [List.nodup_append, List.nodup_append]
    refine ⟨hhead.nodup (by decide), ⟨?_, h.extra, ?_⟩, ?_⟩
    · rw [annEnts_keys, show (fun e : String × Ann => Scalar.str e.1) = Scalar.str ∘ Prod.fst
        from rfl, ← List.map_map]
      exact nodup_map_str h.annotations.1
    · intro x hx y hy hxy
      subst hxy
      obtain ⟨s, h1, h2⟩ := hN x hx
      obtain ⟨p, hp, rfl⟩ := List.mem_map.mp hy
      exact (h.extraKeys p hp s h1).1.2 h2
    · intro x hx y hy hxy
      subst hxy
      have hx' := hhead.subset hx
      have hs : ∃ s : String, x = .str s ∧ s ∈ exampleKeys ∧ s.toList.head? ≠ some '(' := by
        simp only [List.map_cons, List.map_nil, List.mem_cons, List.not_mem_nil, or_false] at hx'
        rcases hx' with rfl | rfl | rfl | rfl
        · exact ⟨_, rfl, by decide, by decide⟩
        · exact ⟨_, rfl, by decide, by decide⟩
        · exact ⟨_, rfl, by decide, by decide⟩
        · exact ⟨_, rfl, by decide, by decide⟩
      obtain ⟨s, rfl, h1, h2⟩ := hs
      rcases List.mem_append.mp hy with hy | hy
      · obtain ⟨s', h3, h4⟩ := hN _ hy
        cases h3
        exact h2 h4
      · obtain ⟨p, hp, hp2⟩ := List.mem_map.mp hy
        exact (h.extraKeys p hp s hp2).2 h1
  have hy : e.toYAML X = .map (asPairs X L) := by
    unfold Example.toYAML renderAny renderPairs
    rw [hm, putAll_distinct _ hd]
    rfl
  rw [hy]
  show forPairs (Example.assign X) (asPairs X L) (Example.new kd) = _
  simp only [L, head, asPairs_append, List.append_assoc]
  -- the head, key by key
  have s1 : ∀ (x : Example), x.displayName = none →
      forPairs (Example.assign X) (asPairs X (OM.optEnt (.str "displayName")
        (e.displayName.map .str))) x = .ok { x with displayName := e.displayName } := by
    intro x hx
    cases hd : e.displayName with
    | none => cases x; cases hx; rfl
    | some s =>
      simp only [OM.optEnt, asPairs, Option.map_some, List.map_cons, List.map_nil, hX.ofKey_str,
        forPairs]
      rfl
  have s2 : ∀ (x : Example), x.description = none →
      forPairs (Example.assign X) (asPairs X (OM.optEnt (.str "description")
        (e.description.map .str))) x = .ok { x with description := e.description } := by
    intro x hx
    cases hd : e.description with
    | none => cases x; cases hx; rfl
    | some s =>
      simp only [OM.optEnt, asPairs, Option.map_some, List.map_cons, List.map_nil, hX.ofKey_str,
        forPairs]
      rfl
  have s3 : ∀ (x : Example), x.value = none → x.kind = kd →
      forPairs (Example.assign X) (asPairs X (OM.optEnt (.str "value")
        (e.value.map (Val.render X)))) x = .ok { x with value := e.value } := by
    intro x hx hk
    cases hd : e.value with
    | none => cases x; cases hx; rfl
    | some v =>
      simp only [OM.optEnt, asPairs, Option.map_some, List.map_cons, List.map_nil, hX.ofKey_str,
        forPairs]
      have : x.assign X (Node.str "value") (v.render X) =
          (exampleVal X x.kind (v.render X)).map fun y => { x with value := some y } := rfl
      rw [this, hk, exampleVal_render hX (h.value v hd)]
      rfl
  have s4 : ∀ (x : Example), x.strict = true →
      forPairs (Example.assign X) (asPairs X (OM.optEnt (.str "strict")
        (if e.strict then none else some (X.ofBool e.strict)))) x =
        .ok { x with strict := e.strict } := by
    intro x hx
    cases hd : e.strict with
    | true => cases x; cases hx; rfl
    | false =>
      simp only [OM.optEnt, asPairs, List.map_cons, List.map_nil, hX.ofKey_str,
        forPairs, Bool.false_eq_true, if_false]
      have : x.assign X (Node.str "strict") (X.ofBool false) =
          (asBool X (X.ofBool false)).map fun y => { x with strict := y } := rfl
      rw [this, asBool_ofBool hX]
      rfl
  -- annotations
  have s5 : ∀ (es : List (String × Ann)) (x : Example),
      (∀ a ∈ es, a.1.toList.head? = some '(' ∧ a.2.omap = false ∧ Distinct a.2.ents) →
      forPairs (Example.assign X) (asPairs X (es.map fun e => (Scalar.str e.1, renderStrMap id e.2))) x =
        .ok { x with annotations :=
          (x.annotations.putAll (es.map fun e => (e.1, ⟨e.2.ents, true⟩))) } := by
    intro es
    induction es with
    | nil => intro x _; rfl
    | cons a es ih =>
      intro x hes
      obtain ⟨a1, a2, a3⟩ := hes a (by simp)
      simp only [asPairs, List.map_cons, forPairs, hX.ofKey_str]
      have : x.assign X (Node.str a.1) (renderStrMap id a.2) =
          .ok { x with annotations := x.annotations.put a.1 ⟨a.2.ents, true⟩ } := by
        unfold Example.assign
        rw [if_neg (by simp [Node.str, Node.isStr])]
        rw [show firstChar (Node.str a.1).value = some '(' from a1]
        simp only [if_true, loadAnn_render a2 a3, Res.map_ok]
        rfl
      rw [this]
      simp only [Res.bind_ok]
      rw [show (List.map (fun e : Scalar × Node => (X.ofKey e.1, e.2)) (List.map
        (fun e : String × Ann => (Scalar.str e.1, renderStrMap id e.2)) es)) =
        asPairs X (es.map fun e => (Scalar.str e.1, renderStrMap id e.2)) from rfl,
        ih _ fun y hy => hes y (by simp [hy])]
      rfl
  -- extra facets
  have s6 : ∀ (es : List (Scalar × Node)) (x : Example),
      (∀ p ∈ es, ∀ s, p.1 = .str s → PlainKey s ∧ s ∉ exampleKeys) →
      forPairs (Example.assign X) (asPairs X es) x =
        .ok { x with extra := x.extra.putAll es } := by
    intro es
    induction es with
    | nil => intro x _; rfl
    | cons p es ih =>
      intro x hes
      have : x.assign X (X.ofKey p.1) p.2 = .ok { x with extra := x.extra.put p.1 p.2 } := by
        have hput : x.putExtra X (X.ofKey p.1) p.2 =
            .ok { x with extra := x.extra.put p.1 p.2 } := by
          simp [Example.putExtra, asScalar, hX.toScalar_ofKey]
        unfold Example.assign
        by_cases hs : ∃ s, p.1 = .str s
        · obtain ⟨s, hs⟩ := hs
          obtain ⟨⟨h1, h2⟩, h3⟩ := hes p (by simp) s hs
          rw [hs, hX.ofKey_str, if_neg (by simp [Node.str, Node.isStr])]
          rw [hs, hX.ofKey_str] at hput
          simp only [exampleKeys, List.mem_cons, List.not_mem_nil, or_false, not_or] at h3
          cases hc : firstChar (Node.str s).value with
          | none => exact absurd (firstChar_none.mp hc) h1
          | some c =>
            have hc' : c ≠ '(' := by rintro rfl; exact h2 hc
            simp only [hc', if_false]
            rw [show (Node.str s).value = s from rfl, if_neg h3.1, if_neg h3.2.1, if_neg h3.2.2.1,
              if_neg h3.2.2.2]
            exact hput
        · rw [if_pos (by simp [hX.ofKey_isStr (fun s hs' => hs ⟨s, hs'⟩)])]
          exact hput
      simp only [asPairs, List.map_cons, forPairs, this, Res.bind_ok]
      rw [show (List.map (fun e : Scalar × Node => (X.ofKey e.1, e.2)) es) = asPairs X es from rfl,
        ih _ fun q hq => hes q (by simp [hq])]
      rfl
  rw [forPairs_append, s1 _ rfl, Res.bind_ok, forPairs_append, s2 _ rfl, Res.bind_ok,
    forPairs_append, s3 _ rfl rfl, Res.bind_ok, forPairs_append, s4 _ rfl, Res.bind_ok,
    forPairs_append]
  rw [show annEnts e.annotations = e.annotations.ents.map fun e => (Scalar.str e.1,
    renderStrMap id e.2) from rfl, s5 _ _ h.annotations.2]
  simp only [Res.bind_ok]
  rw [s6 _ _ h.extraKeys]
  have hk := h.kind
  have e1 : (OM.empty false : OM String Ann).putAll
      (e.annotations.ents.map fun e => (e.1, (⟨e.2.ents, true⟩ : Ann))) =
      canonAnns false e.annotations := by
    rw [putAll_distinct]
    · rfl
    · have := h.annotations.1
      unfold Distinct at this ⊢
      rwa [List.map_map]
  have e2 : (OM.empty false : OM Scalar Node).putAll e.extra.ents = ⟨e.extra.ents, false⟩ :=
    putAll_distinct _ h.extra
  simp only [Example.new, e1, e2, canonExample, ← hk]

end

end Verif.Doc
