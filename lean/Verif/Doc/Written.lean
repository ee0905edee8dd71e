import Verif.Doc.Parsed

/-! # The entries of a written type -/

namespace Verif.Doc
open Verif Verif.Doc.Spec
open scoped List

section
variable {K V : Type} [DecidableEq K]

theorem mem_lastWins {es : List (K × V)} {e : K × V} (h : e ∈ lastWins es) : e ∈ es := by
  induction es with
  | nil => cases h
  | cons a es ih =>
    unfold lastWins at h
    split at h
    · exact List.mem_cons_of_mem _ (ih h)
    · rcases List.mem_cons.mp h with rfl | h
      · simp
      · exact List.mem_cons_of_mem _ (ih h)

/-- A key put in the second part keeps a value from the second part. -/
theorem lastWins_suffix {A B : List (K × V)} {k : K} (h : k ∈ B.map Prod.fst) :
    ∃ v, (k, v) ∈ B ∧ (k, v) ∈ lastWins (A ++ B) := by
  induction A with
  | nil =>
    induction B with
    | nil => cases h
    | cons b B ih =>
      by_cases hk : k ∈ B.map Prod.fst
      · obtain ⟨v, h1, h2⟩ := ih hk
        refine ⟨v, by simp [h1], ?_⟩
        show (k, v) ∈ lastWins (b :: B)
        unfold lastWins
        split
        · exact h2
        · exact List.mem_cons_of_mem _ h2
      · have hb : b.1 = k := by
          simp only [List.map_cons, List.mem_cons] at h
          rcases h with h | h
          · exact h.symm
          · exact absurd h hk
        refine ⟨b.2, by rw [← hb]; simp, ?_⟩
        show (k, b.2) ∈ lastWins (b :: B)
        unfold lastWins
        rw [hb, if_neg hk, ← hb]
        simp
  | cons a A ih =>
    obtain ⟨v, h1, h2⟩ := ih
    refine ⟨v, h1, ?_⟩
    show (k, v) ∈ lastWins (a :: (A ++ B))
    unfold lastWins
    split
    · exact h2
    · exact List.mem_cons_of_mem _ h2

theorem two_le_length {α : Type} {l : List α} {a b : α} (ha : a ∈ l) (hb : b ∈ l) (h : a ≠ b) :
    2 ≤ l.length := by
  match l with
  | [] => cases ha
  | [x] => simp only [List.mem_singleton] at ha hb; exact absurd (ha.trans hb.symm) h
  | _ :: _ :: _ => simp

end

theorem finish_map {X : Xyml} {E : List (Scalar × Node)} {k : Scalar}
    (hk : k ∈ E.map Prod.fst) (ht : Scalar.str "type" ∈ E.map Prod.fst) (hne : k ≠ .str "type") :
    finish X ((OM.empty false).putAll E) = .map (asPairs X (lastWins E)) := by
  obtain ⟨v, _, h1⟩ := lastWins_suffix (A := []) hk
  obtain ⟨w, _, h2⟩ := lastWins_suffix (A := []) ht
  have h3 := two_le_length h1 h2 (fun h => hne (congrArg Prod.fst h))
  unfold finish
  have he : ((OM.empty false).putAll E : OM Scalar Node).ents = lastWins E := OM.empty_putAll_ents _ _
  rw [if_neg (by rintro ⟨h, _⟩; simp only [OM.len, he, List.nil_append] at h h3; omega)]
  unfold renderAny renderPairs
  rw [OM.omap_putAll, he]
  rfl

/-- All puts of a written type (auxiliary). -/
def DT.ents (X : Xyml) : DT → List (Scalar × Node)
  | .basic i s x => (.str "type", if i then .scalar "!include" s else .str s) :: x.ents
  | .ext h b fs ps it => dtEnts X h b (facetsNode X fs) (propsNode X ps) (itemsNode X it)

theorem toYAML_eq (X : Xyml) (t : DT) : t.toYAML X = finish X ((OM.empty false).putAll (t.ents X)) := by
  cases t with
  | basic i s x => unfold DT.toYAML marshalBase; rfl
  | ext h b fs ps it => unfold DT.toYAML; rw [marshalDT_eq]; rfl

/-- The node of the `type` entry (auxiliary). -/
def DT.typeNode : DT → Node
  | .basic true s _ => .scalar "!include" s
  | t => .str t.type

theorem type_mem (X : Xyml) (t : DT) : (Scalar.str "type", t.typeNode) ∈ t.ents X := by
  cases t with
  | basic i s x => cases i <;> simp [DT.ents, DT.typeNode, DT.type]
  | ext h b fs ps it => simp [DT.ents, dtEnts, Hdr.headEnts, DT.typeNode, DT.type]

theorem type_key (X : Xyml) (t : DT) : Scalar.str "type" ∈ (t.ents X).map Prod.fst :=
  List.mem_map_of_mem (type_mem X t)

/-- An entry put late is in the written form, and reading it must succeed. -/
theorem reread_suffix {X : Xyml} (hX : Lawful X) {t t' : DT} {A B : List (Scalar × Node)}
    {k : String} (hE : t.ents X = A ++ B) (hk : Scalar.str k ∈ B.map Prod.fst) (hne : k ≠ "type")
    (h : hat X (t.toYAML X) = .ok t') :
    ∃ v, (Scalar.str k, v) ∈ B ∧ ∀ f, facetOf t'.kind (Node.str k, v) = f → ∃ s x,
      s.kind = t'.kind ∧ facetStep X t'.kind (Node.str k) v f (look f s) = .ok x := by
  obtain ⟨v, h1, h2⟩ := lastWins_suffix (A := A) hk
  have hk' : Scalar.str k ∈ (t.ents X).map Prod.fst := by
    rw [hE, List.map_append]; exact List.mem_append_right _ hk
  rw [toYAML_eq, finish_map hk' (type_key X t) (by simpa using hne), hE] at h
  refine ⟨v, h1, fun f hf => ?_⟩
  subst hf
  have h3 : (Node.str k, v) ∈ asPairs X (lastWins (A ++ B)) := by
    rw [← hX.ofKey_str]
    exact List.mem_map_of_mem (f := fun e : Scalar × Node => (X.ofKey e.1, e.2)) h2
  exact hat_map_entry h _ h3

theorem basic_of_kind {t : DT} (h : isBasic t.kind = true) : ∃ i s x, t = .basic i s x := by
  cases t with
  | basic i s x => exact ⟨i, s, x, rfl⟩
  | ext g b fs ps it => rw [show (DT.ext g b fs ps it).kind = b.kind from rfl, isBasic_ext] at h; cases h

theorem tailEnts_keys (X : Xyml) (h : Hdr) (b : Body) (facets props items : Option Node) :
    (h.tailEnts X b facets props items).map Prod.fst <+ (writeKeys b.kind).map .str := by
  simp only [Hdr.tailEnts, writeKeys, List.map_append]
  refine List.Sublist.trans ?_ (List.sublist_append_right _ _)
  exact ((optEnt_keys _ _).append ((optEnt_keys _ _).append ((Body.ents_keys _ _ _ _).append
    ((optEnt_keys _ _).append ((optEnt_keys _ _).append (optEnt_keys _ _))))))

end Verif.Doc
