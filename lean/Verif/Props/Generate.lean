import Verif.Doc.Generate
import Verif.Doc.Laws

/-!
# C92: the code generators

`typeTable`, `exampleTable` and `docTable` are data of the program; what a run should leave on the
disk is said with lists of a path and a text.
-/

namespace Verif.Props

open Verif Verif.Doc Verif.Doc.Gen

/-- The files a table with two templates is for, and the text each should get. -/
def filesOf {ρ : Type} (iP mP : ρ → String) (iT mT : Templates ρ) (rs : List ρ) :
    List (String × String) :=
  rs.flatMap fun r => [(iP r, (iT.exec r).1), (mP r, (mT.exec r).1)]

/-- The files of the data types. -/
def typeFiles (iT mT : Templates TypeRow) (now : String) : List (String × String) :=
  filesOf TypeRow.iPath TypeRow.mPath iT mT (typeTable now)

/-- The files of the examples. -/
def exampleFiles (iT mT : Templates ExampleRow) (now : String) : List (String × String) :=
  filesOf ExampleRow.iPath ExampleRow.mPath iT mT (exampleTable now)

/-- The files of the documents. -/
def docFiles (T : Templates (String × String × String)) : List (String × String) :=
  docTable.map fun r => (docPath r, (T.exec r).1)

/-- The disk holds the files `fs`, and otherwise what `D` holds. -/
def Holds (D D' : Disk) (fs : List (String × String)) : Prop :=
  (∀ f ∈ fs, D' f.1 = some f.2) ∧ ∀ q, q ∉ fs.map (·.1) → D' q = D q

/-! ### Helpers -/

private theorem put_same (D : Disk) (p t : String) : D.put p t p = some t := by
  simp [Disk.put]

private theorem put_ne (D : Disk) {p q : String} (t : String) (h : q ≠ p) : D.put p t q = D q := by
  simp [Disk.put, h]

section pairs
variable {ρ : Type} {S : Sys} {iT mT : Templates ρ} {iP mP : ρ → String}

private theorem pair_other (r : ρ) (D : Disk) {q : String} (h1 : q ≠ iP r) (h2 : q ≠ mP r) :
    (pair S iT mT iP mP r D).1 q = D q := by
  unfold pair; split
  · rfl
  split
  · simp [put_ne, h1]
  split <;> simp [put_ne, h1, h2]

private theorem pair_true (r : ρ) (D : Disk) :
    (pair S iT mT iP mP r D).2 = true ↔ S.create (iP r) = true ∧ S.create (mP r) = true ∧
      (iT.exec r).2 = true ∧ (mT.exec r).2 = true := by
  unfold pair
  cases S.create (iP r) <;> cases S.create (mP r) <;> cases h : (iT.exec r).2 <;> simp

private theorem pair_written {r : ρ} (D : Disk) (hne : iP r ≠ mP r)
    (h : (pair S iT mT iP mP r D).2 = true) :
    (pair S iT mT iP mP r D).1 (iP r) = some (iT.exec r).1 ∧
      (pair S iT mT iP mP r D).1 (mP r) = some (mT.exec r).1 := by
  obtain ⟨h1, h2, h3, -⟩ := (pair_true r D).1 h
  unfold pair
  simp [h1, h2, h3, put_same, put_ne, hne]

private theorem pairs_cons_true {r : ρ} {rs : List ρ} {D : Disk}
    (h : (pair S iT mT iP mP r D).2 = true) :
    pairs S iT mT iP mP (r :: rs) D = pairs S iT mT iP mP rs (pair S iT mT iP mP r D).1 := by
  simp [pairs, h]

private theorem pairs_cons_false {r : ρ} {rs : List ρ} {D : Disk}
    (h : (pair S iT mT iP mP r D).2 = false) :
    pairs S iT mT iP mP (r :: rs) D = pair S iT mT iP mP r D := by
  simp [pairs, h]

private theorem filesOf_cons (r : ρ) (rs : List ρ) :
    filesOf iP mP iT mT (r :: rs) =
      (iP r, (iT.exec r).1) :: (mP r, (mT.exec r).1) :: filesOf iP mP iT mT rs := rfl

private theorem filesOf_append (as bs : List ρ) :
    filesOf iP mP iT mT (as ++ bs) = filesOf iP mP iT mT as ++ filesOf iP mP iT mT bs := by
  simp [filesOf]

private theorem pairs_other (rs : List ρ) (D : Disk) {q : String}
    (h : q ∉ (filesOf iP mP iT mT rs).map (·.1)) : (pairs S iT mT iP mP rs D).1 q = D q := by
  induction rs generalizing D with
  | nil => rfl
  | cons r rs ih =>
    simp only [filesOf_cons, List.map_cons, List.mem_cons, not_or] at h
    cases hp : (pair S iT mT iP mP r D).2 with
    | true => rw [pairs_cons_true hp, ih _ h.2.2]; exact pair_other r D h.1 h.2.1
    | false => rw [pairs_cons_false hp]; exact pair_other r D h.1 h.2.1

private theorem pairs_true (rs : List ρ) (D : Disk) :
    (pairs S iT mT iP mP rs D).2 = true ↔ ∀ r ∈ rs, S.create (iP r) = true ∧
      S.create (mP r) = true ∧ (iT.exec r).2 = true ∧ (mT.exec r).2 = true := by
  induction rs generalizing D with
  | nil => simp [pairs]
  | cons r rs ih =>
    rw [List.forall_mem_cons, ← pair_true (iT := iT) r D]
    cases hp : (pair S iT mT iP mP r D).2 with
    | true => rw [pairs_cons_true hp, ih]; simp
    | false => rw [pairs_cons_false hp, hp]; simp

private theorem pairs_holds (rs : List ρ) (D : Disk)
    (hn : ((filesOf iP mP iT mT rs).map (·.1)).Nodup) (h : (pairs S iT mT iP mP rs D).2 = true) :
    Holds D (pairs S iT mT iP mP rs D).1 (filesOf iP mP iT mT rs) := by
  refine ⟨?_, fun q hq => pairs_other rs D hq⟩
  induction rs generalizing D with
  | nil => intro f hf; cases hf
  | cons r rs ih =>
    simp only [filesOf_cons, List.map_cons, List.nodup_cons, List.mem_cons, not_or] at hn
    have hp : (pair S iT mT iP mP r D).2 = true := by
      cases hp : (pair S iT mT iP mP r D).2 with
      | true => rfl
      | false => rw [pairs_cons_false hp, hp] at h; cases h
    rw [pairs_cons_true hp] at h ⊢
    have hw := pair_written D hn.1.1 hp
    intro f hf
    rw [filesOf_cons, List.mem_cons, List.mem_cons] at hf
    rcases hf with rfl | rfl | hf
    · rw [pairs_other rs _ hn.1.2]; exact hw.1
    · rw [pairs_other rs _ hn.2.1]; exact hw.2
    · exact ih _ hn.2.2 h f hf

/-- What a failed run leaves at the row it stopped at, seen from the disk before. -/
def StoppedAt {ρ : Type} (S : Sys) (iT mT : Templates ρ) (iP mP : ρ → String) (r : ρ)
    (D D' : Disk) : Prop :=
  (S.create (iP r) = false ∧ D' (iP r) = D (iP r) ∧ D' (mP r) = D (mP r)) ∨
  (S.create (iP r) = true ∧ S.create (mP r) = false ∧ D' (iP r) = some "" ∧
    D' (mP r) = D (mP r)) ∨
  (S.create (iP r) = true ∧ S.create (mP r) = true ∧ (iT.exec r).2 = false ∧
    D' (iP r) = some (iT.exec r).1 ∧ D' (mP r) = some "") ∨
  (S.create (iP r) = true ∧ S.create (mP r) = true ∧ (iT.exec r).2 = true ∧
    (mT.exec r).2 = false ∧ D' (iP r) = some (iT.exec r).1 ∧ D' (mP r) = some (mT.exec r).1)

private theorem pair_false {r : ρ} (D : Disk) (hne : iP r ≠ mP r)
    (h : (pair S iT mT iP mP r D).2 = false) :
    StoppedAt S iT mT iP mP r D (pair S iT mT iP mP r D).1 := by
  revert h; unfold pair StoppedAt
  cases h1 : S.create (iP r)
  · simp
  cases h2 : S.create (mP r)
  · simp [put_same, put_ne, hne.symm]
  cases h3 : (iT.exec r).2
  · simp [put_same, put_ne, hne.symm]
  cases h4 : (mT.exec r).2 <;> simp [put_same, put_ne, hne]

private theorem stopped_congr {r : ρ} {D D₁ D' D'' : Disk} (h1 : D₁ (iP r) = D (iP r))
    (h2 : D₁ (mP r) = D (mP r)) (h3 : D'' (iP r) = D' (iP r)) (h4 : D'' (mP r) = D' (mP r))
    (h : StoppedAt S iT mT iP mP r D₁ D') : StoppedAt S iT mT iP mP r D D'' := by
  unfold StoppedAt at *; rwa [h3, h4, ← h1, ← h2]

private theorem pairs_false (rs : List ρ) (D : Disk)
    (hn : ((filesOf iP mP iT mT rs).map (·.1)).Nodup) (h : (pairs S iT mT iP mP rs D).2 = false) :
    ∃ as r bs, rs = as ++ r :: bs ∧
      (∀ f ∈ filesOf iP mP iT mT as, (pairs S iT mT iP mP rs D).1 f.1 = some f.2) ∧
      StoppedAt S iT mT iP mP r D (pairs S iT mT iP mP rs D).1 ∧
      ∀ f ∈ filesOf iP mP iT mT bs, (pairs S iT mT iP mP rs D).1 f.1 = D f.1 := by
  induction rs generalizing D with
  | nil => cases h
  | cons r rs ih =>
    simp only [filesOf_cons, List.map_cons, List.nodup_cons, List.mem_cons, not_or] at hn
    cases hp : (pair S iT mT iP mP r D).2 with
    | false =>
      rw [pairs_cons_false hp]
      refine ⟨[], r, rs, rfl, fun f hf => (nomatch hf), pair_false D hn.1.1 hp, fun f hf => ?_⟩
      have hf' := List.mem_map_of_mem (f := (·.1)) hf
      exact pair_other r D (fun e => hn.1.2 (e ▸ hf')) (fun e => hn.2.1 (e ▸ hf'))
    | true =>
      rw [pairs_cons_true hp] at h ⊢
      obtain ⟨as, r', bs, hrs, ha, hs, hb⟩ := ih _ hn.2.2 h
      have hw := pair_written D hn.1.1 hp
      have back : ∀ q, q ∈ (filesOf iP mP iT mT rs).map (·.1) →
          (pair S iT mT iP mP r D).1 q = D q := fun q hq =>
        pair_other r D (fun e => hn.1.2 (e ▸ hq)) (fun e => hn.2.1 (e ▸ hq))
      refine ⟨r :: as, r', bs, by rw [hrs]; rfl, fun f hf => ?_, ?_, fun f hf => ?_⟩
      · rw [filesOf_cons, List.mem_cons, List.mem_cons] at hf
        rcases hf with rfl | rfl | hf
        · rw [pairs_other rs _ hn.1.2]; exact hw.1
        · rw [pairs_other rs _ hn.2.1]; exact hw.2
        · exact ha f hf
      · exact stopped_congr
          (back _ (by rw [hrs, filesOf_append]; simp [filesOf_cons]))
          (back _ (by rw [hrs, filesOf_append]; simp [filesOf_cons])) rfl rfl hs
      · rw [hb f hf]
        exact back _ (by
          rw [hrs, filesOf_append, filesOf_cons]
          exact List.mem_map_of_mem (List.mem_append_right _ (List.mem_cons_of_mem _
            (List.mem_cons_of_mem _ hf))))

end pairs

section docs
variable {S : Sys} {T : Templates (String × String × String)}

private theorem docLoop_other (rs : List (String × String × String)) (D : Disk) {q : String}
    (h : q ∉ rs.map docPath) : (docLoop S T rs D).1 q = D q := by
  induction rs generalizing D with
  | nil => rfl
  | cons r rs ih =>
    simp only [List.map_cons, List.mem_cons, not_or] at h
    unfold docLoop
    split
    · rfl
    split
    · simp [put_ne, h.1]
    · rw [ih _ h.2]; simp [put_ne, h.1]

private theorem docLoop_true (rs : List (String × String × String)) (D : Disk) :
    (docLoop S T rs D).2 = true ↔ ∀ r ∈ rs, S.create (docPath r) = true ∧ (T.exec r).2 = true ∧
      S.close (docPath r) = true := by
  induction rs generalizing D with
  | nil => simp [docLoop]
  | cons r rs ih =>
    rw [List.forall_mem_cons]
    unfold docLoop
    cases S.create (docPath r) <;> cases h : (T.exec r).2 <;> cases S.close (docPath r) <;>
      simp [ih]

private theorem docLoop_written (rs : List (String × String × String)) (D : Disk)
    (hn : (rs.map docPath).Nodup) (h : (docLoop S T rs D).2 = true) :
    ∀ r ∈ rs, (docLoop S T rs D).1 (docPath r) = some (T.exec r).1 := by
  induction rs generalizing D with
  | nil => intro r hr; cases hr
  | cons r rs ih =>
    simp only [List.map_cons, List.nodup_cons] at hn
    obtain ⟨⟨h1, h2, h3⟩, -⟩ := List.forall_mem_cons.1 ((docLoop_true _ D).1 h)
    have e : docLoop S T (r :: rs) D =
        docLoop S T rs ((D.put (docPath r) "").put (docPath r) (T.exec r).1) := by
      simp [docLoop, h1, h2, h3]
    rw [e] at h ⊢
    rw [List.forall_mem_cons]
    refine ⟨?_, fun r' hr' => ih _ hn.2 h r' hr'⟩
    rw [docLoop_other rs _ hn.1]; exact put_same _ _ _

private theorem docLoop_false (rs : List (String × String × String)) (D : Disk)
    (hn : (rs.map docPath).Nodup) (h : (docLoop S T rs D).2 = false) :
    ∃ as r bs, rs = as ++ r :: bs ∧
      (∀ x ∈ as, (docLoop S T rs D).1 (docPath x) = some (T.exec x).1) ∧
      ((S.create (docPath r) = false ∧ (docLoop S T rs D).1 (docPath r) = D (docPath r)) ∨
        (S.create (docPath r) = true ∧ ((T.exec r).2 = false ∨ S.close (docPath r) = false) ∧
          (docLoop S T rs D).1 (docPath r) = some (T.exec r).1)) ∧
      ∀ x ∈ bs, (docLoop S T rs D).1 (docPath x) = D (docPath x) := by
  induction rs generalizing D with
  | nil => cases h
  | cons r rs ih =>
    simp only [List.map_cons, List.nodup_cons] at hn
    have ne : ∀ x ∈ rs, docPath x ≠ docPath r := fun x hx e =>
      hn.1 (e ▸ List.mem_map_of_mem hx)
    cases h1 : S.create (docPath r) with
    | false =>
      have e : docLoop S T (r :: rs) D = (D, false) := by simp [docLoop, h1]
      rw [e]
      exact ⟨[], r, rs, rfl, fun x hx => (nomatch hx), .inl ⟨h1, rfl⟩, fun x _ => rfl⟩
    | true =>
      cases h2 : (!(T.exec r).2 || !S.close (docPath r)) with
      | true =>
        have e : docLoop S T (r :: rs) D =
            ((D.put (docPath r) "").put (docPath r) (T.exec r).1, false) := by
          simp only [docLoop, h1, h2]; rfl
        rw [e]
        refine ⟨[], r, rs, rfl, fun x hx => (nomatch hx), .inr ⟨h1, by simpa using h2, put_same _ _ _⟩,
          fun x hx => ?_⟩
        simp [put_ne, ne x hx]
      | false =>
        have e : docLoop S T (r :: rs) D =
            docLoop S T rs ((D.put (docPath r) "").put (docPath r) (T.exec r).1) := by
          simp only [docLoop, h1, h2]; rfl
        rw [e] at h ⊢
        obtain ⟨as, r', bs, hrs, ha, hs, hb⟩ := ih _ hn.2 h
        have back : ∀ x ∈ rs, ((D.put (docPath r) "").put (docPath r) (T.exec r).1) (docPath x) =
            D (docPath x) := fun x hx => by simp [put_ne, ne x hx]
        refine ⟨r :: as, r', bs, by rw [hrs]; rfl, ?_, ?_, fun x hx => ?_⟩
        · rw [List.forall_mem_cons]
          refine ⟨?_, ha⟩
          rw [docLoop_other rs _ hn.1]; exact put_same _ _ _
        · rcases hs with ⟨a, b⟩ | hs
          · exact .inl ⟨a, by rw [b]; exact back r' (by rw [hrs]; simp)⟩
          · exact .inr hs
        · rw [hb x hx]; exact back x (by rw [hrs]; simp [hx])

end docs

/-- The 66 paths. -/
def genPaths : List String :=
  (typeTable "").flatMap (fun r => [r.iPath, r.mPath]) ++
    (exampleTable "").flatMap (fun r => [r.iPath, r.mPath]) ++ docTable.map docPath

private theorem genPaths_eq (iT mT : Templates TypeRow) (jT nT : Templates ExampleRow)
    (T : Templates (String × String × String)) (now now' : String) :
    (typeFiles iT mT now ++ exampleFiles jT nT now' ++ docFiles T).map (·.1) = genPaths := rfl

private theorem genPaths_nodup : genPaths.Nodup := by decide +kernel

/-! ### The paths -/

/-- Each generator writes every file once, and no two generators write the same file, whatever the
time and the templates. -/
theorem C92_paths_apart (iT mT : Templates TypeRow) (jT nT : Templates ExampleRow)
    (T : Templates (String × String × String)) (now now' : String) :
    ((typeFiles iT mT now ++ exampleFiles jT nT now' ++ docFiles T).map (·.1)).Nodup := by
  rw [genPaths_eq]; exact genPaths_nodup

example : genPaths.length = 66 ∧ "v0/internal/raml/x-gen-type-date-only.go" ∈ genPaths ∧
    "v0/pkg/raml/x-gen-ex-dateonly.go" ∈ genPaths ∧ "v0/pkg/raml/Overlay.go" ∈ genPaths := by
  decide +kernel

/-- The files are those of the repository. -/
theorem C92_paths (iT mT : Templates TypeRow) (jT nT : Templates ExampleRow)
    (T : Templates (String × String × String)) (now : String) :
    (typeFiles iT mT now).map (·.1) =
    ["v0/pkg/raml/x-gen-type-include.go",
     "v0/internal/raml/x-gen-type-include.go",
     "v0/pkg/raml/x-gen-type-nil.go",
     "v0/internal/raml/x-gen-type-nil.go",
     "v0/pkg/raml/x-gen-type-any.go",
     "v0/internal/raml/x-gen-type-any.go",
     "v0/pkg/raml/x-gen-type-array.go",
     "v0/internal/raml/x-gen-type-array.go",
     "v0/pkg/raml/x-gen-type-bool.go",
     "v0/internal/raml/x-gen-type-bool.go",
     "v0/pkg/raml/x-gen-type-custom.go",
     "v0/internal/raml/x-gen-type-custom.go",
     "v0/pkg/raml/x-gen-type-date-only.go",
     "v0/internal/raml/x-gen-type-date-only.go",
     "v0/pkg/raml/x-gen-type-time-only.go",
     "v0/internal/raml/x-gen-type-time-only.go",
     "v0/pkg/raml/x-gen-type-datetime-only.go",
     "v0/internal/raml/x-gen-type-datetime-only.go",
     "v0/pkg/raml/x-gen-type-datetime.go",
     "v0/internal/raml/x-gen-type-datetime.go",
     "v0/pkg/raml/x-gen-type-file.go",
     "v0/internal/raml/x-gen-type-file.go",
     "v0/pkg/raml/x-gen-type-integer.go",
     "v0/internal/raml/x-gen-type-integer.go",
     "v0/pkg/raml/x-gen-type-number.go",
     "v0/internal/raml/x-gen-type-number.go",
     "v0/pkg/raml/x-gen-type-object.go",
     "v0/internal/raml/x-gen-type-object.go",
     "v0/pkg/raml/x-gen-type-string.go",
     "v0/internal/raml/x-gen-type-string.go",
     "v0/pkg/raml/x-gen-type-union.go",
     "v0/internal/raml/x-gen-type-union.go"] ∧
    (exampleFiles jT nT now).map (·.1) =
    ["v0/pkg/raml/x-gen-ex-any.go",
     "v0/internal/raml/x-gen-ex-any.go",
     "v0/pkg/raml/x-gen-ex-array.go",
     "v0/internal/raml/x-gen-ex-array.go",
     "v0/pkg/raml/x-gen-ex-bool.go",
     "v0/internal/raml/x-gen-ex-bool.go",
     "v0/pkg/raml/x-gen-ex-custom.go",
     "v0/internal/raml/x-gen-ex-custom.go",
     "v0/pkg/raml/x-gen-ex-dateonly.go",
     "v0/internal/raml/x-gen-ex-dateonly.go",
     "v0/pkg/raml/x-gen-ex-timeonly.go",
     "v0/internal/raml/x-gen-ex-timeonly.go",
     "v0/pkg/raml/x-gen-ex-datetimeonly.go",
     "v0/internal/raml/x-gen-ex-datetimeonly.go",
     "v0/pkg/raml/x-gen-ex-datetime.go",
     "v0/internal/raml/x-gen-ex-datetime.go",
     "v0/pkg/raml/x-gen-ex-file.go",
     "v0/internal/raml/x-gen-ex-file.go",
     "v0/pkg/raml/x-gen-ex-integer.go",
     "v0/internal/raml/x-gen-ex-integer.go",
     "v0/pkg/raml/x-gen-ex-number.go",
     "v0/internal/raml/x-gen-ex-number.go",
     "v0/pkg/raml/x-gen-ex-object.go",
     "v0/internal/raml/x-gen-ex-object.go",
     "v0/pkg/raml/x-gen-ex-string.go",
     "v0/internal/raml/x-gen-ex-string.go",
     "v0/pkg/raml/x-gen-ex-union.go",
     "v0/internal/raml/x-gen-ex-union.go"] ∧
    (docFiles T).map (·.1) =
    ["v0/pkg/raml/APISpec.go",
     "v0/pkg/raml/Documentation.go",
     "v0/pkg/raml/Library.go",
     "v0/pkg/raml/Method.go",
     "v0/pkg/raml/Overlay.go",
     "v0/pkg/raml/Response.go"] := by
  refine ⟨(?_ : (typeTable "").flatMap (fun r => [r.iPath, r.mPath]) = _),
    (?_ : (exampleTable "").flatMap (fun r => [r.iPath, r.mPath]) = _),
    (?_ : docTable.map docPath = _)⟩ <;> decide +kernel

example : ((typeFiles ⟨true, fun r => (r.time, true)⟩ ⟨true, fun r => (r.name, true)⟩ "t").take 3) =
    [("v0/pkg/raml/x-gen-type-include.go", "t"), ("v0/internal/raml/x-gen-type-include.go", "Include"),
     ("v0/pkg/raml/x-gen-type-nil.go", "t")] := by decide +kernel

private theorem nodup_types (iT mT : Templates TypeRow) (now : String) :
    ((typeFiles iT mT now).map (·.1)).Nodup := by
  have h := C92_paths_apart iT mT ⟨true, fun _ => ("", true)⟩ ⟨true, fun _ => ("", true)⟩
    ⟨true, fun _ => ("", true)⟩ now now
  rw [List.map_append, List.map_append] at h
  exact (List.nodup_append.1 (List.nodup_append.1 h).1).1

private theorem nodup_examples (iT mT : Templates ExampleRow) (now : String) :
    ((exampleFiles iT mT now).map (·.1)).Nodup := by
  have h := C92_paths_apart ⟨true, fun _ => ("", true)⟩ ⟨true, fun _ => ("", true)⟩ iT mT
    ⟨true, fun _ => ("", true)⟩ now now
  rw [List.map_append, List.map_append] at h
  exact (List.nodup_append.1 (List.nodup_append.1 h).1).2.1

private theorem nodup_docs : (docTable.map docPath).Nodup := by decide +kernel

/-- A system on which everything works. -/
def demoSys : Sys := ⟨fun _ => true, fun _ => true⟩

/-- A system on which one file cannot be created. -/
def demoSysNo (p : String) : Sys := ⟨fun q => q != p, fun _ => true⟩

/-- Templates that write the name of the row. -/
def demoTypeT (pre : String) : Templates TypeRow := ⟨true, fun r => (pre ++ r.name, true)⟩

/-- Templates that fail at one row. -/
def demoTypeNo (pre name : String) : Templates TypeRow :=
  ⟨true, fun r => (pre ++ r.name, r.name != name)⟩

/-- The same for examples. -/
def demoExT (pre : String) : Templates ExampleRow := ⟨true, fun r => (pre ++ r.name, true)⟩

/-- The same for documents. -/
def demoDocT : Templates (String × String × String) := ⟨true, fun r => (r.2.1, true)⟩

/-- A disk with old versions of all files. -/
def demoDisk : Disk := fun _ => some "old"

/-! ### Runs that succeed -/

/-- The generator of data types ends normally exactly when the templates can be parsed, every file
can be created and every execution works; and then each file holds its text and no other file is
changed. -/
theorem C92_types (S : Sys) (iT mT : Templates TypeRow) (now : String) (D : Disk) :
    ((types S iT mT now D).2 = true ↔ iT.parsed = true ∧ mT.parsed = true ∧
      ∀ r ∈ typeTable now, S.create r.iPath = true ∧ S.create r.mPath = true ∧
        (iT.exec r).2 = true ∧ (mT.exec r).2 = true) ∧
    ((types S iT mT now D).2 = true → Holds D (types S iT mT now D).1 (typeFiles iT mT now)) := by
  unfold types
  cases h1 : iT.parsed
  · simp
  cases h2 : mT.parsed
  · simp
  simp only [Bool.and_self, if_true, true_and]
  exact ⟨pairs_true _ D, pairs_holds _ D (nodup_types iT mT now)⟩

example : (types demoSys (demoTypeT "I") (demoTypeT "M") "t" demoDisk).2 = true ∧
    (types demoSys (demoTypeT "I") (demoTypeT "M") "t" demoDisk).1
      "v0/internal/raml/x-gen-type-bool.go" = some "MBool" ∧
    (types demoSys (demoTypeT "I") (demoTypeT "M") "t" demoDisk).1 "README.md" = some "old" ∧
    (types demoSys (demoTypeNo "I" "File") (demoTypeT "M") "t" demoDisk).2 = false := by
  decide +kernel

/-- The same for examples. -/
theorem C92_examples (S : Sys) (iT mT : Templates ExampleRow) (now : String) (D : Disk) :
    ((examples S iT mT now D).2 = true ↔ iT.parsed = true ∧ mT.parsed = true ∧
      ∀ r ∈ exampleTable now, S.create r.iPath = true ∧ S.create r.mPath = true ∧
        (iT.exec r).2 = true ∧ (mT.exec r).2 = true) ∧
    ((examples S iT mT now D).2 = true →
      Holds D (examples S iT mT now D).1 (exampleFiles iT mT now)) := by
  unfold examples
  cases h1 : iT.parsed
  · simp
  cases h2 : mT.parsed
  · simp
  simp only [Bool.and_self, if_true, true_and]
  exact ⟨pairs_true _ D, pairs_holds _ D (nodup_examples iT mT now)⟩

example : (examples demoSys (demoExT "I") (demoExT "M") "t" demoDisk).2 = true ∧
    (examples demoSys (demoExT "I") (demoExT "M") "t" demoDisk).1
      "v0/pkg/raml/x-gen-ex-dateonly.go" = some "IDateOnly" := by
  decide +kernel

/-- The same for documents; this generator also looks at what `Close` returns. -/
theorem C92_docs (S : Sys) (T : Templates (String × String × String)) (D : Disk) :
    ((docs S T D).2 = true ↔ T.parsed = true ∧ ∀ r ∈ docTable, S.create (docPath r) = true ∧
      (T.exec r).2 = true ∧ S.close (docPath r) = true) ∧
    ((docs S T D).2 = true → Holds D (docs S T D).1 (docFiles T)) := by
  unfold docs
  cases h1 : T.parsed
  · simp
  simp only [if_true, true_and]
  refine ⟨docLoop_true _ D, fun h => ⟨fun f hf => ?_, fun q hq => ?_⟩⟩
  · obtain ⟨r, hr, rfl⟩ := List.mem_map.1 hf
    exact docLoop_written _ D nodup_docs h r hr
  · exact docLoop_other _ D (by simpa [docFiles] using hq)

example : (docs demoSys demoDocT demoDisk).2 = true ∧
    (docs demoSys demoDocT demoDisk).1 "v0/pkg/raml/Library.go" = some "library-interface" ∧
    (docs ⟨fun _ => true, fun q => q != "v0/pkg/raml/Library.go"⟩ demoDocT demoDisk).2 = false := by
  decide +kernel

/-! ### Runs that fail -/

/-- However a run ends, a file that is not one of the generator's own is not changed. -/
theorem C92_only_own (S : Sys) (iT mT : Templates TypeRow) (jT nT : Templates ExampleRow)
    (T : Templates (String × String × String)) (now : String) (D : Disk) (q : String) :
    (q ∉ (typeFiles iT mT now).map (·.1) → (types S iT mT now D).1 q = D q) ∧
    (q ∉ (exampleFiles jT nT now).map (·.1) → (examples S jT nT now D).1 q = D q) ∧
    (q ∉ (docFiles T).map (·.1) → (docs S T D).1 q = D q) := by
  refine ⟨fun h => ?_, fun h => ?_, fun h => ?_⟩
  · unfold types; split
    · exact pairs_other _ D h
    · rfl
  · unfold examples; split
    · exact pairs_other _ D h
    · rfl
  · unfold docs; split
    · exact docLoop_other _ D (by simpa [docFiles] using h)
    · rfl

example : "v0/pkg/raml/Extra.go" ∉ (typeFiles (demoTypeT "I") (demoTypeT "M") "t").map (·.1) ∧
    "v0/pkg/raml/Extra.go" ∉ (docFiles demoDocT).map (·.1) ∧
    (types (demoSysNo "v0/pkg/raml/x-gen-type-any.go") (demoTypeT "I") (demoTypeT "M") "t"
      demoDisk).1 "v0/pkg/raml/Extra.go" = some "old" := by
  decide +kernel

/-- A generator of data types that does not end normally has changed nothing, or has stopped at a
row: the files of the rows before it are complete, those of the rows after it are as they were, and
of the two files of the row itself both have been emptied as soon as both could be created, before
anything was written to either. -/
theorem C92_types_failed {S : Sys} {iT mT : Templates TypeRow} {now : String} {D : Disk}
    (h : (types S iT mT now D).2 = false) :
    (types S iT mT now D).1 = D ∨
    ∃ as r bs, typeTable now = as ++ r :: bs ∧
      (∀ f ∈ filesOf TypeRow.iPath TypeRow.mPath iT mT as,
        (types S iT mT now D).1 f.1 = some f.2) ∧
      StoppedAt S iT mT TypeRow.iPath TypeRow.mPath r D (types S iT mT now D).1 ∧
      ∀ f ∈ filesOf TypeRow.iPath TypeRow.mPath iT mT bs,
        (types S iT mT now D).1 f.1 = D f.1 := by
  revert h; unfold types; split
  · intro h; exact .inr (pairs_false _ D (nodup_types iT mT now) h)
  · intro _; exact .inl rfl

example : (types demoSys (demoTypeNo "I" "Bool") (demoTypeT "M") "t" demoDisk).2 = false ∧
    ["v0/pkg/raml/x-gen-type-array.go", "v0/internal/raml/x-gen-type-array.go",
      "v0/pkg/raml/x-gen-type-bool.go", "v0/internal/raml/x-gen-type-bool.go",
      "v0/pkg/raml/x-gen-type-custom.go"].map
      (types demoSys (demoTypeNo "I" "Bool") (demoTypeT "M") "t" demoDisk).1 =
    [some "IArray", some "MArray", some "IBool", some "", some "old"] := by
  decide +kernel

/-- The same for examples. -/
theorem C92_examples_failed {S : Sys} {iT mT : Templates ExampleRow} {now : String} {D : Disk}
    (h : (examples S iT mT now D).2 = false) :
    (examples S iT mT now D).1 = D ∨
    ∃ as r bs, exampleTable now = as ++ r :: bs ∧
      (∀ f ∈ filesOf ExampleRow.iPath ExampleRow.mPath iT mT as,
        (examples S iT mT now D).1 f.1 = some f.2) ∧
      StoppedAt S iT mT ExampleRow.iPath ExampleRow.mPath r D (examples S iT mT now D).1 ∧
      ∀ f ∈ filesOf ExampleRow.iPath ExampleRow.mPath iT mT bs,
        (examples S iT mT now D).1 f.1 = D f.1 := by
  revert h; unfold examples; split
  · intro h; exact .inr (pairs_false _ D (nodup_examples iT mT now) h)
  · intro _; exact .inl rfl

example : (examples (demoSysNo "v0/internal/raml/x-gen-ex-bool.go") (demoExT "I") (demoExT "M") "t"
      demoDisk).2 = false ∧
    ["v0/pkg/raml/x-gen-ex-array.go", "v0/pkg/raml/x-gen-ex-bool.go",
      "v0/internal/raml/x-gen-ex-bool.go", "v0/pkg/raml/x-gen-ex-custom.go"].map
      (examples (demoSysNo "v0/internal/raml/x-gen-ex-bool.go") (demoExT "I") (demoExT "M") "t"
        demoDisk).1 =
    [some "IArray", some "", some "old", some "old"] := by
  decide +kernel

/-- A generator of documents that does not end normally has changed nothing, or has stopped at a
file: those before it are complete, those after it as they were, and the file itself is as it was or
holds what the template wrote. -/
theorem C92_docs_failed {S : Sys} {T : Templates (String × String × String)} {D : Disk}
    (h : (docs S T D).2 = false) :
    (docs S T D).1 = D ∨
    ∃ as r bs, docTable = as ++ r :: bs ∧
      (∀ x ∈ as, (docs S T D).1 (docPath x) = some (T.exec x).1) ∧
      ((S.create (docPath r) = false ∧ (docs S T D).1 (docPath r) = D (docPath r)) ∨
        (S.create (docPath r) = true ∧ ((T.exec r).2 = false ∨ S.close (docPath r) = false) ∧
          (docs S T D).1 (docPath r) = some (T.exec r).1)) ∧
      ∀ x ∈ bs, (docs S T D).1 (docPath x) = D (docPath x) := by
  revert h; unfold docs; split
  · intro h; exact .inr (docLoop_false _ D nodup_docs h)
  · intro _; exact .inl rfl

example : (docs (demoSysNo "v0/pkg/raml/Library.go") demoDocT demoDisk).2 = false ∧
    ["v0/pkg/raml/Documentation.go", "v0/pkg/raml/Library.go", "v0/pkg/raml/Method.go"].map
      (docs (demoSysNo "v0/pkg/raml/Library.go") demoDocT demoDisk).1 =
    [some "documentation-interface", some "old", some "old"] := by
  decide +kernel

/-! ### Several runs -/

private theorem holds_unique {D D₁ D₂ : Disk} {fs : List (String × String)} (h1 : Holds D D₁ fs)
    (h2 : Holds D D₂ fs) : D₁ = D₂ := by
  funext q
  by_cases h : q ∈ fs.map (·.1)
  · obtain ⟨f, hf, rfl⟩ := List.mem_map.1 h
    rw [h1.1 f hf, h2.1 f hf]
  · rw [h1.2 q h, h2.2 q h]

private theorem holds_append {D D₁ D₂ : Disk} {fs gs : List (String × String)}
    (hd : ∀ q, q ∈ fs.map (·.1) → q ∉ gs.map (·.1)) (h1 : Holds D D₁ fs) (h2 : Holds D₁ D₂ gs) :
    Holds D D₂ (fs ++ gs) := by
  constructor
  · intro f hf
    rcases List.mem_append.1 hf with hf | hf
    · rw [h2.2 _ (hd _ (List.mem_map_of_mem hf)), h1.1 f hf]
    · exact h2.1 f hf
  · intro q hq
    rw [List.map_append, List.mem_append, not_or] at hq
    rw [h2.2 q hq.2, h1.2 q hq.1]

/-- A second run, with the same templates and time, of a generator that has ended normally ends
normally and changes nothing. -/
theorem C92_again (S : Sys) (iT mT : Templates TypeRow) (jT nT : Templates ExampleRow)
    (T : Templates (String × String × String)) (now : String) (D : Disk) :
    ((types S iT mT now D).2 = true →
      types S iT mT now (types S iT mT now D).1 = types S iT mT now D) ∧
    ((examples S jT nT now D).2 = true →
      examples S jT nT now (examples S jT nT now D).1 = examples S jT nT now D) ∧
    ((docs S T D).2 = true → docs S T (docs S T D).1 = docs S T D) := by
  have key : ∀ {D D₁ D₂ : Disk} {fs : List (String × String)}, Holds D D₁ fs → Holds D₁ D₂ fs →
      Holds D D₂ fs := fun h1 h2 => ⟨h2.1, fun q hq => (h2.2 q hq).trans (h1.2 q hq)⟩
  refine ⟨fun h => ?_, fun h => ?_, fun h => ?_⟩
  · have h' := ((C92_types S iT mT now (types S iT mT now D).1).1).2
      (((C92_types S iT mT now D).1).1 h)
    refine Prod.ext (holds_unique (key ((C92_types S iT mT now D).2 h)
      ((C92_types S iT mT now _).2 h')) ((C92_types S iT mT now D).2 h)) (h'.trans h.symm)
  · have h' := ((C92_examples S jT nT now (examples S jT nT now D).1).1).2
      (((C92_examples S jT nT now D).1).1 h)
    refine Prod.ext (holds_unique (key ((C92_examples S jT nT now D).2 h)
      ((C92_examples S jT nT now _).2 h')) ((C92_examples S jT nT now D).2 h)) (h'.trans h.symm)
  · have h' := ((C92_docs S T (docs S T D).1).1).2 (((C92_docs S T D).1).1 h)
    refine Prod.ext (holds_unique (key ((C92_docs S T D).2 h)
      ((C92_docs S T _).2 h')) ((C92_docs S T D).2 h)) (h'.trans h.symm)

example : (types demoSys (demoTypeT "I") (demoTypeT "M") "t" demoDisk).2 = true ∧
    (types demoSys (demoTypeT "I") (demoTypeT "M") "t"
      (types demoSys (demoTypeT "I") (demoTypeT "M") "t" demoDisk).1).1
      "v0/pkg/raml/x-gen-type-any.go" = some "IAny" := by
  decide +kernel

/-- The three generators, run one after the other where each ends normally, leave the 66 files with
their texts and everything else as it was. -/
theorem C92_all {S : Sys} {iT mT : Templates TypeRow} {jT nT : Templates ExampleRow}
    {T : Templates (String × String × String)} {now now' : String} {D D₁ D₂ D₃ : Disk}
    (h1 : types S iT mT now D = (D₁, true)) (h2 : examples S jT nT now' D₁ = (D₂, true))
    (h3 : docs S T D₂ = (D₃, true)) :
    Holds D D₃ (typeFiles iT mT now ++ exampleFiles jT nT now' ++ docFiles T) := by
  have hn := C92_paths_apart iT mT jT nT T now now'
  rw [List.map_append] at hn
  have hd := (List.nodup_append.1 hn).2.2
  have hn' := (List.nodup_append.1 hn).1
  rw [List.map_append] at hn'
  have hd' := (List.nodup_append.1 hn').2.2
  have k1 : Holds D D₁ (typeFiles iT mT now) := by
    have := (C92_types S iT mT now D).2 (by rw [h1]); rwa [h1] at this
  have k2 : Holds D₁ D₂ (exampleFiles jT nT now') := by
    have := (C92_examples S jT nT now' D₁).2 (by rw [h2]); rwa [h2] at this
  have k3 : Holds D₂ D₃ (docFiles T) := by
    have := (C92_docs S T D₂).2 (by rw [h3]); rwa [h3] at this
  exact holds_append (fun q a b => hd q a q b rfl)
    (holds_append (fun q a b => hd' q a q b rfl) k1 k2) k3

example : (types demoSys (demoTypeT "I") (demoTypeT "M") "t" demoDisk).2 = true ∧
    (examples demoSys (demoExT "I") (demoExT "M") "u"
      (types demoSys (demoTypeT "I") (demoTypeT "M") "t" demoDisk).1).2 = true ∧
    (docs demoSys demoDocT (examples demoSys (demoExT "I") (demoExT "M") "u"
      (types demoSys (demoTypeT "I") (demoTypeT "M") "t" demoDisk).1).1).2 = true ∧
    ["v0/internal/raml/x-gen-type-union.go", "v0/pkg/raml/x-gen-ex-union.go",
      "v0/pkg/raml/Method.go", "go.mod"].map
      (docs demoSys demoDocT (examples demoSys (demoExT "I") (demoExT "M") "u"
        (types demoSys (demoTypeT "I") (demoTypeT "M") "t" demoDisk).1).1).1 =
    [some "MUnion", some "IUnion", some "method-interface", some "old"] := by
  decide +kernel

private theorem pair_local {ρ : Type} {S : Sys} {iT mT : Templates ρ} {iP mP : ρ → String} (r : ρ)
    {D E : Disk} {q : String} (h : D q = E q) :
    (pair S iT mT iP mP r D).1 q = (pair S iT mT iP mP r E).1 q ∧
      (pair S iT mT iP mP r D).2 = (pair S iT mT iP mP r E).2 := by
  unfold pair
  split
  · exact ⟨h, rfl⟩
  split
  · simp only [Disk.put, h, and_self]
  split <;> simp only [Disk.put, h, and_self]

private theorem pairs_local {ρ : Type} {S : Sys} {iT mT : Templates ρ} {iP mP : ρ → String}
    (rs : List ρ) {D E : Disk} {q : String} (h : D q = E q) :
    (pairs S iT mT iP mP rs D).1 q = (pairs S iT mT iP mP rs E).1 q ∧
      (pairs S iT mT iP mP rs D).2 = (pairs S iT mT iP mP rs E).2 := by
  induction rs generalizing D E with
  | nil => exact ⟨h, rfl⟩
  | cons r rs ih =>
    have hl := pair_local (S := S) (iT := iT) (mT := mT) (iP := iP) (mP := mP) r h
    cases hp : (pair S iT mT iP mP r E).2 with
    | true => rw [pairs_cons_true hp, pairs_cons_true (hl.2.trans hp)]; exact ih hl.1
    | false => rw [pairs_cons_false hp, pairs_cons_false (hl.2.trans hp)]; exact hl

private theorem docLoop_local {S : Sys} {T : Templates (String × String × String)}
    (rs : List (String × String × String)) {D E : Disk} {q : String} (h : D q = E q) :
    (docLoop S T rs D).1 q = (docLoop S T rs E).1 q ∧
      (docLoop S T rs D).2 = (docLoop S T rs E).2 := by
  induction rs generalizing D E with
  | nil => exact ⟨h, rfl⟩
  | cons r rs ih =>
    unfold docLoop
    split
    · exact ⟨h, rfl⟩
    split
    · simp only [Disk.put, h, and_self]
    · exact ih (by simp only [Disk.put, h])

/-- What a generator leaves in a file depends on the disk before only through that file, and whether
it ends normally does not depend on the disk at all. -/
theorem C92_local (S : Sys) (iT mT : Templates TypeRow) (jT nT : Templates ExampleRow)
    (T : Templates (String × String × String)) (now : String) {D E : Disk} {q : String}
    (h : D q = E q) :
    ((types S iT mT now D).1 q = (types S iT mT now E).1 q ∧
      (types S iT mT now D).2 = (types S iT mT now E).2) ∧
    ((examples S jT nT now D).1 q = (examples S jT nT now E).1 q ∧
      (examples S jT nT now D).2 = (examples S jT nT now E).2) ∧
    ((docs S T D).1 q = (docs S T E).1 q ∧ (docs S T D).2 = (docs S T E).2) := by
  refine ⟨?_, ?_, ?_⟩
  · unfold types; split
    · exact pairs_local _ h
    · exact ⟨h, rfl⟩
  · unfold examples; split
    · exact pairs_local _ h
    · exact ⟨h, rfl⟩
  · unfold docs; split
    · exact docLoop_local _ h
    · exact ⟨h, rfl⟩

example : (types demoSys (demoTypeNo "I" "Bool") (demoTypeT "M") "t" demoDisk).1
      "v0/pkg/raml/x-gen-type-file.go" =
    (types demoSys (demoTypeNo "I" "Bool") (demoTypeT "M") "t" fun q =>
      if q = "go.mod" then none else some "old").1 "v0/pkg/raml/x-gen-type-file.go" := by
  decide +kernel

private theorem commute {f g : Disk → Disk} {ps qs : List String}
    (fl : ∀ (D E : Disk) (q : String), D q = E q → f D q = f E q)
    (gl : ∀ (D E : Disk) (q : String), D q = E q → g D q = g E q)
    (fo : ∀ (D : Disk) (q : String), q ∉ ps → f D q = D q)
    (go : ∀ (D : Disk) (q : String), q ∉ qs → g D q = D q) (hd : ∀ q ∈ ps, q ∉ qs) (D : Disk) :
    f (g D) = g (f D) := by
  funext q
  by_cases h : q ∈ ps
  · rw [go _ q (hd q h)]; exact fl _ _ q (go D q (hd q h))
  · rw [fo _ q h]; exact (gl _ _ q (fo D q h)).symm

/-- The order in which the generators run does not matter for the disk, however each of them ends
and whenever it runs. -/
theorem C92_any_order (S S' : Sys) (iT mT : Templates TypeRow) (jT nT : Templates ExampleRow)
    (T : Templates (String × String × String)) (now now' : String) (D : Disk) :
    (types S iT mT now (examples S' jT nT now' D).1).1 =
      (examples S' jT nT now' (types S iT mT now D).1).1 ∧
    (types S iT mT now (docs S' T D).1).1 = (docs S' T (types S iT mT now D).1).1 ∧
    (examples S jT nT now (docs S' T D).1).1 = (docs S' T (examples S jT nT now D).1).1 := by
  have hn := C92_paths_apart iT mT jT nT T now now'
  rw [List.map_append] at hn
  have hd := (List.nodup_append.1 hn).2.2
  have hn' := (List.nodup_append.1 hn).1
  rw [List.map_append] at hn' hd
  have hd' := (List.nodup_append.1 hn').2.2
  have tl : ∀ (D E : Disk) (q : String), D q = E q →
      (types S iT mT now D).1 q = (types S iT mT now E).1 q := fun D E q h =>
    (C92_local S iT mT jT nT T now h).1.1
  have el : ∀ (S : Sys) (now : String) (D E : Disk) (q : String), D q = E q →
      (examples S jT nT now D).1 q = (examples S jT nT now E).1 q := fun S now D E q h =>
    (C92_local S iT mT jT nT T now h).2.1.1
  have dl : ∀ (D E : Disk) (q : String), D q = E q → (docs S' T D).1 q = (docs S' T E).1 q :=
    fun D E q h => (C92_local S' iT mT jT nT T now h).2.2.1
  have to : ∀ (D : Disk) (q : String), _ → (types S iT mT now D).1 q = D q := fun D q =>
    (C92_only_own S iT mT jT nT T now D q).1
  have eo : ∀ (S : Sys) (now : String) (D : Disk) (q : String), _ →
      (examples S jT nT now D).1 q = D q := fun S now D q =>
    (C92_only_own S iT mT jT nT T now D q).2.1
  have do' : ∀ (D : Disk) (q : String), _ → (docs S' T D).1 q = D q := fun D q =>
    (C92_only_own S' iT mT jT nT T now D q).2.2
  exact ⟨commute tl (el S' now') to (eo S' now') (fun q a b => hd' q a q b rfl) D,
    commute tl dl to do' (fun q a b => hd q (List.mem_append_left _ a) q b rfl) D,
    commute (el S now) dl (eo S now) do'
      (fun q a b => hd q (List.mem_append_right _ a) q b rfl) D⟩

example : (types demoSys (demoTypeNo "I" "Bool") (demoTypeT "M") "t"
      (docs (demoSysNo "v0/pkg/raml/Library.go") demoDocT demoDisk).1).1 "v0/pkg/raml/APISpec.go" =
      some "api-interface" ∧
    (docs (demoSysNo "v0/pkg/raml/Library.go") demoDocT
      (types demoSys (demoTypeNo "I" "Bool") (demoTypeT "M") "t" demoDisk).1).1
      "v0/internal/raml/x-gen-type-bool.go" = some "" := by
  decide +kernel

/-! ### The tables -/

/-- The Go name of a kind: `<name>Type`, `<name>Example` (v0/pkg/raml/x-gen-type-*.go). -/
def goName : Kind → String
  | .any => "Any"
  | .array => "Array"
  | .boolean => "Bool"
  | .dateOnly => "DateOnly"
  | .datetime => "Datetime"
  | .datetimeOnly => "DatetimeOnly"
  | .file => "File"
  | .integer => "Integer"
  | .nil => "Nil"
  | .number => "Number"
  | .object => "Object"
  | .string => "String"
  | .timeOnly => "TimeOnly"
  | .union => "Union"
  | .custom => "Custom"
  | .include => "Include"

/-- Each kind has exactly one row in the table of data types, and each kind but `nil` and `include`
exactly one in the table of examples; there are no other rows. -/
theorem C92_every_kind (now : String) :
    (∀ k, ((typeTable now).filter fun r => r.name = goName k).length = 1) ∧
    (∀ k, ((exampleTable now).filter fun r => r.name = goName k).length =
      if k = .nil ∨ k = .include then 0 else 1) ∧
    (typeTable now).length = 16 ∧ (exampleTable now).length = 14 := by
  refine ⟨fun k => ?_, fun k => ?_, rfl, rfl⟩ <;> cases k <;> rfl

example : ((typeTable "t").filter fun r => r.name = goName .datetime).map (·.type) = ["datetime"] ∧
    ((exampleTable "t").filter fun r => r.name = goName .include) = [] := by decide +kernel

/-- The Go type of the value of an example and of a default, without the pointer
(v0/internal/raml/x-gen-ex-*.go, field `value`). -/
def goType : Kind → String
  | .string | .dateOnly | .datetime | .datetimeOnly | .timeOnly => "string"
  | .boolean => "bool"
  | .integer => "int64"
  | .number => "float64"
  | .array => "[]interface{}"
  | .nil | .include => ""
  | _ => "interface{}"

/-- Every row has the time of the run, the rows of a kind have its Go type, only `nil` and `include`
are base types, and the types are those in the names of the files. -/
theorem C92_rows (now : String) :
    (∀ r ∈ typeTable now, r.time = now ∧ ∀ k, r.name = goName k → r.defType = goType k ∧
      (r.base = true ↔ k = .nil ∨ k = .include)) ∧
    (∀ r ∈ exampleTable now, r.time = now ∧ ∀ k, r.name = goName k → r.type = goType k) ∧
    (typeTable now).map (·.type) = ["include", "nil", "any", "array", "bool", "custom", "date-only",
      "time-only", "datetime-only", "datetime", "file", "integer", "number", "object", "string",
      "union"] := by
  refine ⟨?_, ?_, rfl⟩
  · simp only [typeTable, List.forall_mem_cons, true_and]
    repeat' apply And.intro
    all_goals first | (intro k; cases k <;> simp [goName, goType]) | simp
  · simp only [exampleTable, List.forall_mem_cons, true_and]
    repeat' apply And.intro
    all_goals first | (intro k; cases k <;> simp [goName, goType]) | simp

example : ((typeTable "t").filter fun r => r.name = goName .number).map
    (fun r => (r.time, r.defType, r.type)) = [("t", "float64", "number")] := by decide +kernel

/-- The values of examples are read, for each row, as the model reads them for the kind of that
name. -/
theorem C92_example_values (X : Xyml) (now : String) (k : Kind) (v : Node) :
    ∀ r ∈ exampleTable now, r.name = goName k → r.read X v = exampleVal X k v := by
  simp only [exampleTable, List.forall_mem_cons]
  cases k <;> simp [goName, ExampleRow.read, exampleVal] <;> rfl

example : ((exampleTable "t").filter fun r => r.name = goName .timeOnly).map
      (fun r => (r.read Xyml.std (.str "10:00"), r.read Xyml.std (.map []))) =
    [(.ok (.str "10:00"), .err .notString)] := rfl

/-- The same for the elements of `enum`, for each row that has any. -/
theorem C92_enum_values (X : Xyml) (now : String) (k : Kind) (v : Node) :
    ∀ r ∈ typeTable now, r.base = false → r.name = goName k → r.readEnum X v = enumVal X k v := by
  simp only [typeTable, List.forall_mem_cons]
  cases k <;> simp [goName, TypeRow.readEnum, enumVal] <;> rfl

example : ((typeTable "t").filter fun r => r.name = goName .file).map
      (fun r => r.readEnum Xyml.std (.str "a")) = [.ok (.node (.str "a"))] := rfl

/-- The two tables agree: a kind has examples exactly when its type is not a base type, and then
the value of an example and a default have the same Go type, and so do an element of `enum` except
that for arrays it is anything. -/
theorem C92_tables_agree (now : String) (r : TypeRow) (hr : r ∈ typeTable now) :
    (r.base = false ↔ ∃ e ∈ exampleTable now, e.name = r.name) ∧
    ∀ e ∈ exampleTable now, e.name = r.name → e.type = r.defType ∧ e.eType = r.defTypeName ∧
      e.useOption = r.defIsOpt ∧ r.enumType = (if r.name = "Array" then "interface{}" else r.defType) := by
  revert r
  simp only [typeTable, exampleTable, List.forall_mem_cons]
  simp

example : (typeTable "t").filterMap (fun r => if r.name = "Array" then some (r.defType, r.enumType)
      else none) = [("[]interface{}", "interface{}")] ∧
    (exampleTable "t").filterMap (fun r => if r.name = "Array" then some r.type else none) =
      ["[]interface{}"] := by decide +kernel

end Verif.Props
