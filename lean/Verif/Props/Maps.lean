import Verif.OMap.Refine
import Verif.OMap.Keys

/-!
# Properties of the generated ordered maps (C01-C10)

`after ops` is the map after the calls `ops` on a fresh map, `answer ops op` what the user sees
when calling `op` then.
-/

namespace Verif.Props
open Verif.OMap

section
variable {K V : Type} [GoKey K]

/-- The map after a history of calls. -/
def after (ops : List (Op K V)) : Impl K V := (run ops new).2

/-- What the user sees from calling `op` after the history `ops`. -/
def answer (ops : List (Op K V)) (op : Op K V) : Out (Obs K V) := (call op (after ops)).1

end

/-! ### Helper lemmas -/
section
variable {K V : Type} [GoKey K]

/-- Abstract dictionary after a history. -/
private abbrev dict (ops : List (Op K V)) : List (K × V) := (Spec.run ops []).2

private theorem spec_run_append (a b : List (Op K V)) (d : List (K × V)) :
    Spec.run (a ++ b) d = ((Spec.run a d).1 ++ (Spec.run b (Spec.run a d).2).1,
      (Spec.run b (Spec.run a d).2).2) := by
  induction a generalizing d with
  | nil => rfl
  | cons op a ih => simp [Spec.run, ih]

private theorem dict_snoc (ops : List (Op K V)) (op : Op K V) :
    dict (ops ++ [op]) = (Spec.step op (dict ops)).2 := by
  simp [dict, spec_run_append, Spec.run]

private theorem answer_spec [LawfulGoKey K] (ops : List (Op K V)) (op : Op K V) :
    answer ops op = (Spec.step op (dict ops)).1 := by
  have h := run_refines ops (inv_new : SyncInv (new : Impl K V))
  have := (call_refines h.2.2 op).1
  rw [h.2.1] at this
  exact this

private theorem dict_distinct [LawfulGoKey K] (ops : List (Op K V)) :
    (dict ops).Pairwise (fun a b => (a.1 == b.1) = false) := by
  have h := run_refines ops (inv_new : SyncInv (new : Impl K V))
  have := h.2.2.distinct
  rw [h.2.1] at this
  exact this

private theorem step_no_sync (op : Op K V) (d : List (K × V)) :
    (Spec.step op d).1 ≠ .panic .outOfSync := by
  cases op with
  | putIfNotNil k v =>
    cases v with
    | none => simp [Spec.step, Spec.keyOf, Spec.answer]
    | some v => simp only [Spec.step, Spec.keyOf]; split <;> simp [Spec.answer]
  | at' j => simp only [Spec.step, Spec.keyOf, Spec.answer]; split <;> simp
  | serializeOrdered b => simp [Spec.step, Spec.keyOf, Spec.answer]
  | len => simp [Spec.step, Spec.keyOf, Spec.answer]
  | entries => simp [Spec.step, Spec.keyOf, Spec.answer]
  | _ => simp only [Spec.step, Spec.keyOf]; split <;> simp [Spec.answer]

private theorem entries_spec [LawfulGoKey K] (ops : List (Op K V)) :
    answer ops .entries = .val (.entries (dict ops)) := by
  rw [answer_spec]; rfl

end

/-! ### C01 -/

/-- C01: every history of calls on a generated map gives, call by call, the answers of an
ordered dictionary.  `LawfulGoKey` is what Go guarantees of `==` on any key type. -/
theorem C01_histories_refine_dictionary {K V : Type} [GoKey K] [LawfulGoKey K]
    (ops : List (Op K V)) : (run ops new).1 = (Spec.run ops []).1 :=
  (run_refines ops inv_new).1

example : (run (K := String) (V := Nat) [.put "a" 1, .put "b" 2, .put "a" 3, .indexOf "a"] new).1 =
    [.val .unit, .val .unit, .val .unit, .val (.int 1)] :=
  (C01_histories_refine_dictionary _).trans (by decide)

/-- C01, panics: a call panics only if its key cannot be hashed or it is `At` outside
`0 ≤ j < Len`. -/
theorem C01_panics_only_where_documented {K V : Type} [GoKey K] [LawfulGoKey K]
    (ops : List (Op K V)) (op : Op K V) (p : Panic) (h : answer ops op = .panic p) :
    (p = .unhashable ∧ ∃ k, Spec.keyOf op = some k ∧ GoKey.hashable k = false) ∨
    (p = .indexRange ∧ ∃ j n, op = .at' j ∧ answer ops .len = .val (.int n) ∧ ¬ (0 ≤ j ∧ j < n)) := by
  rw [answer_spec] at h
  have hkey : ∀ k, (∀ d : List (K × V), ∃ x, (Spec.answer op d).1 = .val x) →
      Spec.keyOf op = some k → (p = .unhashable ∧ ∃ k, Spec.keyOf op = some k ∧ GoKey.hashable k = false) := by
    intro k ha hk
    simp only [Spec.step, hk] at h
    split at h
    · obtain ⟨x, hx⟩ := ha (dict ops)
      simp only [dict] at hx
      rw [hx] at h; cases h
    · next hh =>
      simp at h
      exact ⟨h.symm, k, hk, by simpa using hh⟩
  cases op with
  | putIfNotNil k v =>
    cases v with
    | none => simp [Spec.step, Spec.keyOf, Spec.answer] at h
    | some v => exact .inl (hkey k (fun _ => ⟨_, rfl⟩) rfl)
  | at' j =>
    simp only [Spec.step, Spec.keyOf, Spec.answer] at h
    split at h
    · cases h
    · next hn =>
      simp at h
      refine .inr ⟨h.symm, j, (dict ops).length, rfl, by rw [answer_spec]; rfl, ?_⟩
      intro h0; simp only [dict] at *; omega
  | serializeOrdered b => simp [Spec.step, Spec.keyOf, Spec.answer] at h
  | len => simp [Spec.step, Spec.keyOf, Spec.answer] at h
  | entries => simp [Spec.step, Spec.keyOf, Spec.answer] at h
  | put k => exact .inl (hkey k (fun _ => ⟨_, rfl⟩) rfl)
  | replaceOrPut k => exact .inl (hkey k (fun _ => ⟨_, rfl⟩) rfl)
  | replaceIfExists k => exact .inl (hkey k (fun _ => ⟨_, rfl⟩) rfl)
  | delete k => exact .inl (hkey k (fun _ => ⟨_, rfl⟩) rfl)
  | get k => exact .inl (hkey k (fun _ => ⟨_, rfl⟩) rfl)
  | has k => exact .inl (hkey k (fun _ => ⟨_, rfl⟩) rfl)
  | indexOf k => exact .inl (hkey k (fun _ => ⟨_, rfl⟩) rfl)

/-- Non-trivial case for C01: a history with re-puts, replaces and deletes on string keys. -/
example : (run (K := String) (V := Nat)
    [.put "a" 1, .put "b" 2, .put "a" 3, .replaceIfExists "b" 4, .entries, .delete "b",
     .indexOf "a", .at' 1] new).1
    = [.val .unit, .val .unit, .val .unit, .val .unit, .val (.entries [("b", 4), ("a", 3)]),
       .val .unit, .val (.int 0), .panic .indexRange] := by decide

/-! ### C02 -/

/-- C02: no call of any history raises the "out of sync" panic, whatever the key type. -/
theorem C02_never_out_of_sync {K V : Type} [GoKey K] [LawfulGoKey K] (ops : List (Op K V)) :
    Out.panic Panic.outOfSync ∉ (run ops new).1 := by
  have key : ∀ (ops : List (Op K V)) (s : Impl K V), SyncInv s →
      Out.panic Panic.outOfSync ∉ (run ops s).1 := by
    intro ops
    induction ops with
    | nil => intro s _; simp [run]
    | cons op ops ih =>
      intro s hs
      obtain ⟨h1, _, h3⟩ := call_refines hs op
      simp only [run, List.mem_cons, not_or]
      refine ⟨?_, ih _ h3⟩
      rw [h1]
      exact fun h => step_no_sync op s.ordered h.symm
  exact key ops new inv_new

example : Out.panic Panic.outOfSync ∉ (run (K := String) (V := Nat)
    [.put "a" 1, .put "b" 2, .delete "a", .put "b" 3, .replaceIfExists "b" 4, .delete "b"] new).1 :=
  C02_never_out_of_sync _

/-- C02, positively: an entry is found by key exactly when it is visited in iteration order. -/
theorem C02_found_iff_listed {K V : Type} [GoKey K] [LawfulGoKey K]
    (ops : List (Op K V)) (k : K) (hk : GoKey.hashable k = true) (es : List (K × V))
    (he : answer ops .entries = .val (.entries es)) :
    answer ops (.has k) = .val (.bool true) ↔ ∃ e ∈ es, (e.1 == k) = true := by
  rw [entries_spec] at he
  simp at he; subst he
  rw [answer_spec]
  simp [Spec.step, Spec.keyOf, hk, Spec.answer, Spec.mem]

/-- C02 covers keys with non-reflexive equality: NaN is put twice, is listed twice, is never
found, and still nothing panics. -/
example : (run (K := AnyKey) (V := Nat)
    [.put .nan 1, .put .nan 2, .len, .has .nan, .indexOf .nan, .delete .nan, .entries, .put .slice 3] new).1
    = [.val .unit, .val .unit, .val (.int 2), .val (.bool false), .val (.int (-1)), .val .unit,
       .val (.entries [(.nan, 1), (.nan, 2)]), .panic .unhashable] := by decide

/-- The two float zeros are one key, which keeps the sign it was put with last; `1` and `"1"` are two. -/
example : (run (K := AnyKey) (V := Nat)
    [.put (.zero false) 1, .put (.zero true) 2, .put (.int 1) 3, .put (.str "1") 4, .get (.zero false),
      .entries] new).1
    = [.val .unit, .val .unit, .val .unit, .val .unit, .val (.val (some 2)),
       .val (.entries [(.zero true, 2), (.int 1, 3), (.str "1", 4)])] := by decide

/-! ### C03 -/

section Strict
variable {K V : Type} [GoKey K] [StrictGoKey K]

/-- C03: keys are unique, `Len` counts them, and `Has` holds exactly for them. -/
theorem C03_keys_unique (ops : List (Op K V)) (es : List (K × V))
    (he : answer ops .entries = .val (.entries es)) :
    (es.map (·.1)).Nodup ∧ answer ops .len = .val (.int (es.map (·.1)).length) ∧
    ∀ k, answer ops (.has k) = .val (.bool true) ↔ k ∈ es.map (·.1) := by
  have hd := dict_distinct ops
  rw [entries_spec] at he
  simp at he; subst he
  refine ⟨?_, ?_, ?_⟩
  · rw [List.Nodup, List.pairwise_map]
    refine hd.imp ?_
    intro a b h he
    rw [StrictGoKey.eq_iff.2 he] at h; cases h
  · rw [answer_spec]; simp [Spec.step, Spec.keyOf, Spec.answer]
  · intro k
    rw [answer_spec]
    simp [Spec.step, Spec.keyOf, StrictGoKey.hash, Spec.answer, Spec.mem, StrictGoKey.eq_iff]

example : answer (K := String) (V := Nat) [.put "a" 1, .put "b" 2, .put "a" 3] .len = .val (.int 2) ∧
    answer (K := String) (V := Nat) [.put "a" 1, .put "b" 2, .put "a" 3] (.has "c") ≠
      .val (.bool true) :=
  have h := C03_keys_unique (K := String) (V := Nat) [.put "a" 1, .put "b" 2, .put "a" 3]
    [("b", 2), ("a", 3)] (by decide)
  ⟨h.2.1, fun hc => absurd ((h.2.2 "c").1 hc) (by decide)⟩

/-- The hypothesis of C03 is met by every history (`entries` never panics). -/
theorem C03_entries_total {K V : Type} [GoKey K] [LawfulGoKey K] (ops : List (Op K V)) :
    ∃ es, answer ops .entries = .val (.entries es) := ⟨_, entries_spec ops⟩

example : ∃ es, answer (K := AnyKey) (V := Nat) [.put .nan 1, .put .nan 2, .put .slice 3] .entries =
    .val (.entries es) := C03_entries_total _

/-- C03 fails for non-reflexive keys: after two `Put(NaN, _)` on an `AnyMap`, `Len` is 2 and
`Has(NaN)` is false. -/
theorem C03_nan_false :
    answer (K := AnyKey) [.put .nan 1, .put .nan 2] .len = .val (.int 2) ∧
    answer (K := AnyKey) [.put .nan 1, .put .nan 2] (.has .nan) = .val (.bool false) := by
  decide

end Strict

/-! ### C04-C06 -/

section
variable {K V : Type} [GoKey K] [LawfulGoKey K]

/-- C04: after `Put(k, v)` the entries are the previous ones without `k`, then `(k, v)`. -/
theorem C04_put_appends (ops : List (Op K V)) (k : K) (v : V) (hk : GoKey.hashable k = true)
    (es : List (K × V)) (he : answer ops .entries = .val (.entries es)) :
    answer (ops ++ [.put k v]) .entries
      = .val (.entries (es.filter (fun e => !(e.1 == k)) ++ [(k, v)])) := by
  rw [entries_spec] at he ⊢
  simp at he; subst he
  rw [dict_snoc]
  simp [Spec.step, Spec.keyOf, hk, Spec.answer, Spec.put, Spec.remove]

example : answer (K := String) (V := Nat) ([.put "a" 1, .put "b" 2] ++ [.put "a" 3]) .entries =
    .val (.entries [("b", 2), ("a", 3)]) :=
  C04_put_appends _ "a" 3 rfl [("a", 1), ("b", 2)] (by decide)

/-- C04: `Get` after `Put`, for keys equal to themselves. -/
theorem C04_put_get (ops : List (Op K V)) (k : K) (v : V) (hk : GoKey.hashable k = true)
    (hr : (k == k) = true) : answer (ops ++ [.put k v]) (.get k) = .val (.val (some v)) := by
  rw [answer_spec, dict_snoc]
  simp only [Spec.step, Spec.keyOf, hk, if_true, Spec.answer, Spec.put, Spec.find]
  rw [List.find?_append]
  have : (Spec.remove k (dict ops)).find? (fun e => e.1 == k) = none := by
    simp [Spec.remove]
  simp [this, hr]

example : answer (K := String) (V := Nat) [.put "a" 1, .put "b" 2, .put "c" 3, .put "b" 9] .entries
    = .val (.entries [("a", 1), ("c", 3), ("b", 9)]) := by decide

/-- C05: `ReplaceIfExists` changes the value at `k` and nothing else; in particular the keys and
their order stay the same. -/
theorem C05_replaceIfExists (ops : List (Op K V)) (k : K) (v : V) (hk : GoKey.hashable k = true)
    (es : List (K × V)) (he : answer ops .entries = .val (.entries es)) :
    ∃ es', answer (ops ++ [.replaceIfExists k v]) .entries = .val (.entries es') ∧
      es'.map (·.1) = es.map (·.1) ∧
      ∀ (i : Nat) (h : i < es.length) (h' : i < es'.length),
        es'[i].2 = if es[i].1 == k then v else es[i].2 := by
  rw [entries_spec] at he
  simp at he; subst he
  refine ⟨_, entries_spec _, ?_, ?_⟩
  · rw [dict_snoc]
    simp only [Spec.step, Spec.keyOf, hk, if_true, Spec.answer, Spec.replace, List.map_map]
    apply List.map_congr_left
    intro e _; simp only [Function.comp]; split <;> rfl
  · intro i h h'
    simp only [dict_snoc] at h' ⊢
    simp only [Spec.step, Spec.keyOf, hk, if_true, Spec.answer, Spec.replace, List.getElem_map]
    split <;> rfl

example : ∃ es', answer (K := String) (V := Nat) ([.put "a" 1, .put "b" 2] ++
      [.replaceIfExists "a" 3]) .entries = .val (.entries es') ∧ es'.map (·.1) = ["a", "b"] :=
  (C05_replaceIfExists _ "a" 3 rfl [("a", 1), ("b", 2)] (by decide)).imp fun _ h => ⟨h.1, h.2.1⟩

/-- C05: on an absent key `ReplaceIfExists` is invisible. -/
theorem C05_replaceIfExists_absent (ops rest : List (Op K V)) (k : K) (v : V)
    (ha : answer ops (.has k) = .val (.bool false)) :
    (run (ops ++ .replaceIfExists k v :: rest) new).1
      = (run ops new).1 ++ .val .unit :: (run rest (after ops)).1 := by
  have hk : GoKey.hashable k = true := by
    cases hh : GoKey.hashable k
    · rw [answer_spec] at ha; simp [Spec.step, Spec.keyOf, hh] at ha
    · rfl
  have hm : Spec.mem k (dict ops) = false := by
    rw [answer_spec] at ha; simpa [Spec.step, Spec.keyOf, hk, Spec.answer] using ha
  have h := run_refines ops (inv_new : SyncInv (new : Impl K V))
  rw [C01_histories_refine_dictionary, spec_run_append]
  rw [h.1, after, (run_refines rest h.2.2).1, h.2.1]
  have : Spec.replace k v (dict ops) = dict ops :=
    replace_of_not_mem (by simpa [Spec.mem] using hm)
  simp only [dict] at this
  simp [Spec.run, Spec.step, Spec.keyOf, hk, Spec.answer, new, this]

example : (run (K := String) (V := Nat) ([.put "a" 1] ++ .replaceIfExists "b" 2 :: [.entries]) new).1 =
    [.val .unit] ++ .val .unit :: [.val (.entries [("a", 1)])] :=
  C05_replaceIfExists_absent [.put "a" 1] [.entries] "b" 2 (by decide)

/-- C05: `ReplaceOrPut` is `ReplaceIfExists` on a present key and `Put` on an absent one. -/
theorem C05_replaceOrPut (ops rest : List (Op K V)) (k : K) (v : V) :
    (answer ops (.has k) = .val (.bool true) →
      (run (ops ++ .replaceOrPut k v :: rest) new).1
        = (run (ops ++ .replaceIfExists k v :: rest) new).1) ∧
    (answer ops (.has k) = .val (.bool false) →
      (run (ops ++ .replaceOrPut k v :: rest) new).1
        = (run (ops ++ .put k v :: rest) new).1) := by
  have hm : ∀ b, answer ops (.has k) = .val (.bool b) →
      GoKey.hashable k = true ∧ Spec.mem k (dict ops) = b := by
    intro b h
    rw [answer_spec] at h
    cases hh : GoKey.hashable k
    · simp [Spec.step, Spec.keyOf, hh] at h
    · exact ⟨rfl, by simpa [Spec.step, Spec.keyOf, hh, Spec.answer] using h⟩
  constructor <;> intro h <;> obtain ⟨hk, hm⟩ := hm _ h <;>
    rw [C01_histories_refine_dictionary, C01_histories_refine_dictionary, spec_run_append,
      spec_run_append] <;>
    simp only [dict] at hm <;>
    simp [Spec.run, Spec.step, Spec.keyOf, hk, Spec.answer, hm]

example : answer (K := String) (V := Nat)
    [.put "a" 1, .put "b" 2, .replaceOrPut "a" 7, .replaceOrPut "c" 8, .replaceIfExists "z" 0] .entries
    = .val (.entries [("a", 7), ("b", 2), ("c", 8)]) := by decide

/-- C06: `Delete(k)` removes exactly the entry for `k` and keeps the order of the rest. -/
theorem C06_delete_exact (ops : List (Op K V)) (k : K) (hk : GoKey.hashable k = true)
    (es : List (K × V)) (he : answer ops .entries = .val (.entries es)) :
    ∃ es', answer (ops ++ [.delete k]) .entries = .val (.entries es') ∧
      List.Sublist es' es ∧ (∀ e ∈ es, (e.1 == k) = false → e ∈ es') ∧
      (∀ e ∈ es', (e.1 == k) = false) ∧
      (answer ops (.has k) = .val (.bool true) → es'.length + 1 = es.length) ∧
      (answer ops (.has k) = .val (.bool false) → es' = es) := by
  have hd := dict_distinct ops
  rw [entries_spec] at he
  simp at he; subst he
  refine ⟨_, entries_spec _, ?_⟩
  rw [dict_snoc]
  simp only [Spec.step, Spec.keyOf, hk, if_true, Spec.answer]
  refine ⟨List.filter_sublist, ?_, ?_, ?_, ?_⟩
  · intro e he h; simp [Spec.remove, he, h]
  · intro e he; simp [Spec.remove] at he; simpa using he.2
  · intro h
    rw [answer_spec] at h
    simp only [Spec.step, Spec.keyOf, hk, if_true, Spec.answer, Out.val.injEq, Obs.bool.injEq] at h
    rw [mem_iff_findIdx] at h
    obtain ⟨j, hj⟩ := Option.isSome_iff_exists.1 h
    rw [← cut_eq hd hj]
    have := (List.findIdx?_eq_some_iff_getElem.1 hj).1
    simp; omega
  · intro h
    rw [answer_spec] at h
    simp only [Spec.step, Spec.keyOf, hk, if_true, Spec.answer, Out.val.injEq, Obs.bool.injEq] at h
    exact remove_of_not_mem (by simpa [Spec.mem] using h)

example : ∃ es', answer (K := String) (V := Nat) ([.put "a" 1, .put "b" 2] ++ [.delete "a"]) .entries =
    .val (.entries es') ∧ ("b", 2) ∈ es' ∧ es'.length = 1 := by
  obtain ⟨es', h1, _, h3, _, h5, _⟩ := C06_delete_exact (K := String) (V := Nat)
    [.put "a" 1, .put "b" 2] "a" rfl [("a", 1), ("b", 2)] (by decide)
  exact ⟨es', h1, h3 _ (.tail _ (.head _)) (by decide), Nat.succ.inj (h5 (by decide))⟩

/-- C06: deleting twice is deleting once, for all later calls. -/
theorem C06_delete_idempotent (ops rest : List (Op K V)) (k : K) (hk : GoKey.hashable k = true) :
    (run (ops ++ .delete k :: .delete k :: rest) new).1
      = (run ops new).1 ++ .val .unit :: .val .unit :: (run rest (after (ops ++ [.delete k]))).1 := by
  have h := run_refines ops (inv_new : SyncInv (new : Impl K V))
  have h' := run_refines (ops ++ [.delete k]) (inv_new : SyncInv (new : Impl K V))
  rw [C01_histories_refine_dictionary, spec_run_append]
  rw [h.1, after, (run_refines rest h'.2.2).1, h'.2.1]
  have : ∀ d : List (K × V), Spec.remove k (Spec.remove k d) = Spec.remove k d := by
    intro d; simp [Spec.remove]
  simp [Spec.run, Spec.step, Spec.keyOf, hk, Spec.answer, new, this, spec_run_append]

example : answer (K := String) (V := Nat)
    [.put "a" 1, .put "b" 2, .put "c" 3, .delete "a", .delete "z", .delete "a"] .entries
    = .val (.entries [("b", 2), ("c", 3)]) := by decide

end

/-! ### C07 -/

section
variable {K V : Type} [GoKey K] [LawfulGoKey K]

/-- C07: `IndexOf(k) = i ≥ 0` exactly when `At(i)` has key `k`. -/
theorem C07_indexOf_at (ops : List (Op K V)) (k : K) (hk : GoKey.hashable k = true) (i : Int)
    (hi : 0 ≤ i) :
    answer ops (.indexOf k) = .val (.int i) ↔
      ∃ k' v, answer ops (.at' i) = .val (.entry (k', v)) ∧ (k' == k) = true := by
  have hd := dict_distinct ops
  rw [answer_spec, answer_spec]
  simp only [Spec.step, Spec.keyOf, hk, if_true, Spec.answer, Out.val.injEq, Obs.int.injEq,
    Spec.position]
  obtain ⟨n, rfl⟩ := Int.eq_ofNat_of_zero_le hi
  constructor
  · intro h
    split at h
    · next j hj =>
      have : j = n := by omega
      subst this
      obtain ⟨hlt, h2, _⟩ := List.findIdx?_eq_some_iff_getElem.1 hj
      refine ⟨(dict ops)[j].1, (dict ops)[j].2, ?_, h2⟩
      simp only [dict] at *
      simp [hlt]
    · omega
  · rintro ⟨k', v, h, hkk⟩
    split at h
    · next hlt =>
      simp at h hlt
      have hj : (dict ops).findIdx? (fun e => e.1 == k) = some n := by
        rw [List.findIdx?_eq_some_iff_getElem]
        refine ⟨hlt, by simp only [dict] at *; simp [h, hkk], ?_⟩
        intro j hjn hjk
        have := (List.pairwise_iff_getElem.1 hd) j n (by omega) hlt hjn
        simp only [dict] at *
        rw [h, LawfulGoKey.trans hjk (LawfulGoKey.symm hkk)] at this
        cases this
      simp only [dict] at hj
      rw [hj]
    · simp at h

example : answer (K := String) (V := Nat) [.put "a" 1, .put "b" 2, .put "a" 3] (.indexOf "a") =
    .val (.int 1) :=
  (C07_indexOf_at _ "a" rfl 1 (by decide)).2 ⟨"a", 3, by decide, rfl⟩

/-- C07: `IndexOf(k)` is -1 exactly when `Has(k)` is false, and is never below -1. -/
theorem C07_indexOf_absent (ops : List (Op K V)) (k : K) (hk : GoKey.hashable k = true) :
    (answer ops (.indexOf k) = .val (.int (-1)) ↔ answer ops (.has k) = .val (.bool false)) ∧
    ∃ i : Int, -1 ≤ i ∧ answer ops (.indexOf k) = .val (.int i) := by
  rw [answer_spec, answer_spec]
  simp only [Spec.step, Spec.keyOf, hk, if_true, Spec.answer, Out.val.injEq, Obs.int.injEq,
    Obs.bool.injEq, Spec.position, mem_iff_findIdx]
  constructor
  · cases List.findIdx? (fun e : K × V => e.1 == k) (dict ops) <;> simp [dict] <;> omega
  · exact ⟨_, by split <;> omega, rfl⟩

example : answer (K := String) (V := Nat) [.put "a" 1, .put "b" 2, .delete "a"] (.indexOf "a") =
    .val (.int (-1)) :=
  (C07_indexOf_absent _ "a" rfl).1.2 (by decide)

/-- C07: the value at `IndexOf(k)` is the value `Get(k)` returns. -/
theorem C07_at_indexOf_get (ops : List (Op K V)) (k : K) (i : Int)
    (hi : 0 ≤ i) (h : answer ops (.indexOf k) = .val (.int i)) :
    ∃ k' v, answer ops (.at' i) = .val (.entry (k', v)) ∧ answer ops (.get k) = .val (.val (some v)) := by
  have hk : GoKey.hashable k = true := by
    cases hh : GoKey.hashable k
    · rw [answer_spec] at h; simp [Spec.step, Spec.keyOf, hh] at h
    · rfl
  obtain ⟨k', v, h1, h2⟩ := (C07_indexOf_at ops k hk i hi).1 h
  refine ⟨k', v, h1, ?_⟩
  have hd := dict_distinct ops
  rw [answer_spec] at h1 h ⊢
  simp only [Spec.step, Spec.keyOf, hk, if_true, Spec.answer, Out.val.injEq, Obs.int.injEq, Obs.val.injEq,
    Spec.position, Spec.find] at h h1 ⊢
  split at h
  · next j hj =>
    obtain ⟨hlt, h3, h4⟩ := List.findIdx?_eq_some_iff_getElem.1 hj
    subst h
    split at h1
    · next hlt' =>
      simp at h1
      have : (dict ops).find? (fun e => e.1 == k) = some (dict ops)[j] := by
        rw [List.find?_eq_some_iff_getElem]
        exact ⟨h3, j, hlt, rfl, fun j' hj' => by simpa using h4 j' hj'⟩
      simp only [dict] at *
      rw [this, h1]; rfl
    · simp at h1
  · omega

example : answer (K := String) (V := Nat) [.put "a" 1, .put "b" 2, .put "a" 3] (.indexOf "a")
    = .val (.int 1) ∧
    answer (K := String) (V := Nat) [.put "a" 1, .put "b" 2, .put "a" 3] (.at' 1)
    = .val (.entry ("a", 3)) := by decide

end

/-! ### C08, C09 -/

section
variable {K V : Type} [GoKey K]

private theorem find_remove [StrictGoKey K] (k k' : K) (d : List (K × V)) :
    Spec.find k (Spec.remove k' d) = if k' == k then none else Spec.find k d := by
  induction d with
  | nil => simp [Spec.remove, Spec.find]
  | cons e d ih =>
    simp only [Spec.find, Spec.remove, List.filter_cons, List.find?_cons] at ih ⊢
    by_cases h1 : k' = k
    · subst h1
      have : (k' == k') = true := StrictGoKey.eq_iff.2 rfl
      simp only [this, if_true] at ih ⊢
      cases h2 : (e.1 == k')
      · simp only [Bool.not_false, if_true, List.find?_cons, h2]
        exact ih
      · simpa using ih
    · have : (k' == k) = false := by
        cases h : (k' == k)
        · rfl
        · exact absurd (StrictGoKey.eq_iff.1 h) h1
      simp only [this] at ih ⊢
      cases h2 : (e.1 == k')
      · simp only [Bool.not_false, if_true, List.find?_cons]
        cases h3 : (e.1 == k)
        · simpa using ih
        · simp
      · have : (e.1 == k) = false := by
          cases h : (e.1 == k)
          · rfl
          · rw [StrictGoKey.eq_iff] at h h2; exact absurd (h2.symm.trans h) h1
        simp [this]
        simpa using ih

private theorem find_put [StrictGoKey K] (k k' : K) (v : V) (d : List (K × V)) :
    Spec.find k (Spec.put k' v d) = if k' == k then some v else Spec.find k d := by
  have := find_remove k k' d
  simp only [Spec.find, Spec.put, List.find?_append] at this ⊢
  cases h : (k' == k)
  · simp only [h] at this ⊢
    have h3 : ([(k', v)] : List (K × V)).find? (fun e => e.1 == k) = none := by simp [h]
    rw [h3, Option.or_none]
    simpa using this
  · simp only [h, if_true] at this ⊢
    simp at this
    have h2 : (Spec.remove k' d).find? (fun e => e.1 == k) = none := by simpa using this
    simp [h2, h]

private theorem find_replace [StrictGoKey K] (k k' : K) (v : V) (d : List (K × V)) :
    Spec.find k (Spec.replace k' v d)
      = if k' == k then (Spec.find k d).map (fun _ => v) else Spec.find k d := by
  induction d with
  | nil => simp [Spec.replace, Spec.find]
  | cons e d ih =>
    simp only [Spec.find, Spec.replace, List.map_cons, List.find?_cons] at ih ⊢
    cases h2 : (e.1 == k')
    · simp only [Bool.false_eq_true, if_false]
      cases h3 : (e.1 == k)
      · simpa using ih
      · have : (k' == k) = false := by
          cases h : (k' == k)
          · rfl
          · rw [StrictGoKey.eq_iff] at h h3
            subst h; rw [StrictGoKey.eq_iff.2 h3] at h2; cases h2
        simp [this]
    · simp only [if_true]
      cases h3 : (e.1 == k)
      · simpa using ih
      · have : (k' == k) = true := by
          rw [StrictGoKey.eq_iff] at *; exact h2.symm.trans h3
        simp [this]

private theorem mem_eq_find [StrictGoKey K] (k : K) (d : List (K × V)) :
    Spec.mem k d = (Spec.find k d).isSome := (find_isSome k d).symm

private theorem find_dict [StrictGoKey K] (k : K) (h : List (Op K V)) :
    Spec.find k (dict h.reverse) = Spec.lastWrite k h := by
  induction h with
  | nil => rfl
  | cons op h ih =>
    rw [List.reverse_cons, dict_snoc]
    cases op with
    | put k' v => simp [Spec.step, Spec.keyOf, StrictGoKey.hash, Spec.answer, find_put, ih, Spec.lastWrite]
    | putIfNotNil k' v =>
      cases v with
      | none => simp [Spec.step, Spec.keyOf, Spec.answer, ih, Spec.lastWrite]
      | some v => simp [Spec.step, Spec.keyOf, StrictGoKey.hash, Spec.answer, find_put, ih, Spec.lastWrite]
    | replaceIfExists k' v =>
      simp [Spec.step, Spec.keyOf, StrictGoKey.hash, Spec.answer, find_replace, ih, Spec.lastWrite]
    | replaceOrPut k' v =>
      simp only [Spec.step, Spec.keyOf, StrictGoKey.hash, Spec.answer, Spec.lastWrite, if_true]
      rw [← ih]
      cases hm : Spec.mem k' (dict h.reverse)
      · simp [find_put]
      · simp only [if_true, find_replace]
        cases hk : (k' == k)
        · simp
        · rw [StrictGoKey.eq_iff] at hk
          subst hk
          rw [mem_eq_find] at hm
          obtain ⟨w, hw⟩ := Option.isSome_iff_exists.1 hm
          simp [hw]
    | delete k' => simp [Spec.step, Spec.keyOf, StrictGoKey.hash, Spec.answer, find_remove, ih, Spec.lastWrite]
    | serializeOrdered b => simpa [Spec.step, Spec.keyOf, Spec.answer, Spec.lastWrite] using ih
    | get k' => simpa [Spec.step, Spec.keyOf, StrictGoKey.hash, Spec.answer, Spec.lastWrite] using ih
    | has k' => simpa [Spec.step, Spec.keyOf, StrictGoKey.hash, Spec.answer, Spec.lastWrite] using ih
    | indexOf k' => simpa [Spec.step, Spec.keyOf, StrictGoKey.hash, Spec.answer, Spec.lastWrite] using ih
    | at' j => simpa [Spec.step, Spec.keyOf, Spec.answer, Spec.lastWrite] using ih
    | len => simpa [Spec.step, Spec.keyOf, Spec.answer, Spec.lastWrite] using ih
    | entries => simpa [Spec.step, Spec.keyOf, Spec.answer, Spec.lastWrite] using ih

/-- C08: `Get(k)` after a history is given by scanning the history backwards for the latest call
that wrote or removed `k`. -/
theorem C08_get_is_last_write [StrictGoKey K] (ops : List (Op K V)) (k : K) :
    answer ops (.get k) = .val (.val (Spec.lastWrite k ops.reverse)) := by
  rw [answer_spec, ← find_dict, List.reverse_reverse]
  simp [Spec.step, Spec.keyOf, StrictGoKey.hash, Spec.answer]

example : answer (K := String) (V := Nat)
    [.replaceIfExists "k" 0, .put "k" 1, .put "j" 2, .delete "k", .replaceOrPut "k" 5,
     .putIfNotNil "k" none, .replaceIfExists "k" 6, .delete "j"] (.get "k") = .val (.val (some 6)) := by
  decide

private theorem run_append' (a b : List (Op K V)) (s : Impl K V) :
    run (a ++ b) s = ((run a s).1 ++ (run b (run a s).2).1, (run b (run a s).2).2) := by
  induction a generalizing s with
  | nil => rfl
  | cons op a ih => simp [run, ih]

/-- C09: a nil `PutIfNotNil` inserted anywhere changes no other answer. -/
theorem C09_putIfNotNil_nil_invisible (a b : List (Op K V)) (k : K) :
    (run (a ++ .putIfNotNil k none :: b) new).1
      = (run (a ++ b) new).1.take a.length ++ .val .unit :: (run (a ++ b) new).1.drop a.length := by
  have hl : ∀ (a : List (Op K V)) s, (run a s).1.length = a.length := by
    intro a; induction a with
    | nil => intro s; rfl
    | cons op a ih => intro s; simp [run, ih]
  rw [run_append', run_append']
  have h := hl a (new : Impl K V)
  have h1 : ((run a new).1 ++ (run b (run a new).2).1).take a.length = (run a (new : Impl K V)).1 := by
    rw [← h]; simp
  have h2 : ((run a new).1 ++ (run b (run a new).2).1).drop a.length = (run b (run a (new : Impl K V)).2).1 := by
    rw [← h]; simp
  simp only [h1, h2]
  rfl

example : (run (K := String) (V := Nat) ([.put "a" 1] ++ .putIfNotNil "b" none :: [.entries, .len]) new).1 =
    [.val .unit, .val .unit, .val (.entries [("a", 1)]), .val (.int 1)] :=
  (C09_putIfNotNil_nil_invisible [.put "a" 1] [.entries, .len] "b").trans (by decide)

/-- C09, other direction: a non-nil `PutIfNotNil` is a `Put`. -/
theorem C09_putIfNotNil_some (a b : List (Op K V)) (k : K) (v : V) :
    (run (a ++ .putIfNotNil k (some v) :: b) new).1 = (run (a ++ .put k v :: b) new).1 := by
  rw [run_append', run_append']
  rfl

example : (run (K := String) (V := Nat) [.put "a" 1, .putIfNotNil "a" none, .get "a"] new).1
    = [.val .unit, .val .unit, .val (.val (some 1))] := by decide

end

/-! ### C10 -/

section ForEach
variable {K V : Type} [GoKey K]

/-- `ForEach` with callback `f`, logging which entries were visited. -/
def visiting {S : Type} (f : S → K → V → Prog K V S) :
    List (K × V) × S → K → V → M (Impl K V) (List (K × V) × S) :=
  fun ls k v => do
    let s' ← (f ls.2 k v).run
    return (ls.1 ++ [(k, v)], s')

/-- Callbacks whose program never calls an operation satisfying `bad`. -/
def Avoids {S : Type} (bad : Op K V → Prop) : Prog K V S → Prop
  | .ret _ => True
  | .call op next => ¬ bad op ∧ ∀ r, Avoids bad (next r)

/-- C10: a callback that does not touch the map is called exactly once per entry, in order, and
the map is unchanged. -/
theorem C10_forEach_in_order {S : Type} (f : S → K → V → S) (s0 : S) (m : Impl K V) :
    forEach (fun s k v => M.pure (f s k v)) s0 m
      = (.val (m.ordered.foldl (fun s e => f s e.1 e.2) s0), m) := by
  have key : ∀ n j s, j + n = m.ordered.length →
      forEachLoop (fun s k v => M.pure (f s k v)) n j s m
        = (.val ((m.ordered.drop j).foldl (fun s e => f s e.1 e.2) s), m) := by
    intro n
    induction n with
    | zero =>
      intro j s h
      have : m.ordered.drop j = [] := by simp; omega
      simp [forEachLoop, M.pure, this]
    | succ n ih =>
      intro j s h
      have hj : j < m.ordered.length := by omega
      simp only [forEachLoop, bind, M.bind, M.get, List.getElem?_eq_getElem hj, M.pure]
      rw [ih _ _ (by omega), List.drop_eq_getElem_cons hj (l := m.ordered)]
      rfl
  simp only [forEach, bind, M.bind, M.get]
  rw [key _ _ _ (by omega)]
  simp

example : forEach (K := String) (V := Nat) (fun s k v => M.pure (s ++ [(k, v + 1)])) []
      (after [.put "a" 1, .put "b" 2, .put "a" 3]) =
    (.val [("b", 3), ("a", 4)], after [.put "a" 1, .put "b" 2, .put "a" 3]) :=
  C10_forEach_in_order (fun s k v => s ++ [(k, v + 1)]) [] _

private theorem prog_run_inv [LawfulGoKey K] {S : Type} (P : Impl K V → Prop) (bad : Op K V → Prop)
    (hP : ∀ op m, ¬ bad op → SyncInv m → P m → P (call op m).2)
    (p : Prog K V S) (hp : Avoids bad p) (m : Impl K V) (hi : SyncInv m) (hm : P m) :
    ∃ s m', p.run m = (.val s, m') ∧ SyncInv m' ∧ P m' := by
  induction p generalizing m with
  | ret s => exact ⟨s, m, rfl, hi, hm⟩
  | call op next ih =>
    simp only [Prog.run]
    exact ih _ (hp.2 _) _ (call_refines hi op).2.2 (hP op m hp.1 hi hm)

private theorem forEachLoop_inv [LawfulGoKey K] {S : Type} (P : Impl K V → Prop) (bad : Op K V → Prop)
    (hP : ∀ op m, ¬ bad op → SyncInv m → P m → P (call op m).2)
    (f : S → K → V → Prog K V S) (hf : ∀ s k v, Avoids bad (f s k v))
    (ks : List K) (hlen : ∀ m, P m → ∀ j, (h : j < ks.length) →
      ∃ e, m.ordered[j]? = some e)
    (n j : Nat) (hj : j + n = ks.length) (log : List (K × V)) (s : S) (m : Impl K V)
    (hi : SyncInv m) (hm : P m) :
    ∃ log' s' m', forEachLoop (visiting f) n j (log, s) m = (.val (log ++ log', s'), m') ∧
      log'.length = n ∧ SyncInv m' ∧ P m' ∧
      ∀ i, (h : i < log'.length) → ∃ m, P m ∧ m.ordered[j + i]? = some (log'[i]) := by
  induction n generalizing j log s m with
  | zero => exact ⟨[], s, m, by simp [forEachLoop, M.pure], rfl, hi, hm, by simp⟩
  | succ n ih =>
    obtain ⟨e, he⟩ := hlen m hm j (by omega)
    obtain ⟨s1, m1, hr, hi1, hm1⟩ := prog_run_inv P bad hP (f s e.1 e.2) (hf ..) m hi hm
    obtain ⟨log', s', m', h1, h2, h3, h4, h5⟩ := ih (j + 1) (by omega) (log ++ [e]) s1 m1 hi1 hm1
    refine ⟨e :: log', s', m', ?_, by simp [h2], h3, h4, ?_⟩
    · simp only [forEachLoop, bind, M.bind, M.get, he, visiting, hr, pure, M.pure]
      rw [show (e.1, e.2) = e from rfl]
      simpa [visiting, bind, M.bind, pure, M.pure] using h1
    · intro i hlt
      cases i with
      | zero => exact ⟨m, hm, by simpa using he⟩
      | succ i =>
        obtain ⟨m2, hm2, h6⟩ := h5 i (by simpa using hlt)
        exact ⟨m2, hm2, by simpa [Nat.add_assoc, Nat.add_comm 1] using h6⟩

private theorem length_mono [LawfulGoKey K] (op : Op K V) (m : Impl K V) (hi : SyncInv m)
    (hop : ∀ k, op ≠ .delete k) : m.ordered.length ≤ (call op m).2.ordered.length := by
  have hput : ∀ (k : K) (v : V), m.ordered.length ≤ (Spec.put k v m.ordered).length := by
    intro k v
    cases hf : m.ordered.findIdx? (fun e => e.1 == k) with
    | none =>
      have hnm : ∀ x ∈ m.ordered, (x.1 == k) = false := by
        intro x hx; simpa using (List.findIdx?_eq_none_iff.1 hf) x hx
      simp [Spec.put, remove_of_not_mem hnm]
    | some j =>
      simp only [Spec.put, ← cut_eq hi.distinct hf]
      simp; omega
  rw [(call_refines hi op).2.1]
  cases op with
  | delete k => exact absurd rfl (hop k)
  | put k v => simp only [Spec.step, Spec.keyOf]; split <;> simp [Spec.answer, hput]
  | putIfNotNil k v =>
    cases v with
    | none => simp [Spec.step, Spec.keyOf, Spec.answer]
    | some v => simp only [Spec.step, Spec.keyOf]; split <;> simp [Spec.answer, hput]
  | replaceIfExists k v =>
    simp only [Spec.step, Spec.keyOf]; split <;> simp [Spec.answer, Spec.replace]
  | replaceOrPut k v =>
    simp only [Spec.step, Spec.keyOf]
    split
    · simp only [Spec.answer]; split
      · simp [Spec.replace]
      · exact hput k v
    · simp
  | serializeOrdered b => simp [Spec.step, Spec.keyOf, Spec.answer]
  | get k => simp only [Spec.step, Spec.keyOf]; split <;> simp [Spec.answer]
  | has k => simp only [Spec.step, Spec.keyOf]; split <;> simp [Spec.answer]
  | indexOf k => simp only [Spec.step, Spec.keyOf]; split <;> simp [Spec.answer]
  | at' j => simp [Spec.step, Spec.keyOf, Spec.answer]
  | len => simp [Spec.step, Spec.keyOf, Spec.answer]
  | entries => simp [Spec.step, Spec.keyOf, Spec.answer]

/-- C10: a callback that may call anything on the map except `Delete` never makes the traversal
panic, and it is called exactly `Len` times (the length on entry), even if it adds entries. -/
theorem C10_forEach_no_delete [LawfulGoKey K] {S : Type} (f : S → K → V → Prog K V S)
    (hf : ∀ s k v, Avoids (fun op => ∃ k, op = .delete k) (f s k v)) (s0 : S)
    (ops : List (Op K V)) (n : Nat) (hn : answer ops .len = .val (.int n)) :
    ∃ log s' m', forEach (visiting f) ([], s0) (after ops) = (.val (log, s'), m') ∧
      log.length = n := by
  have hi : SyncInv (after ops) := inv_of_reachable ⟨ops, rfl⟩
  have hn' : (after ops).ordered.length = n := by
    have : ((after ops).ordered.length : Int) = n := by
      simpa [answer, call, len, bind, M.bind, M.get, pure, M.pure] using hn
    omega
  obtain ⟨log, s', m', h1, h2, -⟩ := forEachLoop_inv
    (fun m => (after ops).ordered.length ≤ m.ordered.length) _
    (fun op m hb hi hm => Nat.le_trans hm (length_mono op m hi (fun k h => hb ⟨k, h⟩))) f hf
    ((after ops).ordered.map (·.1))
    (fun m hm j hj => ⟨m.ordered[j]'(by simp at hj; omega), by simp⟩)
    (after ops).ordered.length 0 (by simp) [] s0 (after ops) hi (Nat.le_refl _)
  refine ⟨log, s', m', ?_, by omega⟩
  simpa [forEach, bind, M.bind, M.get] using h1

example : ∃ log s' m', forEach (visiting fun (n : Nat) k v =>
      Prog.call (.put k (v + 1)) fun _ => Prog.call (.put "fresh" n) fun _ => .ret (n + 1)) ([], 0)
      (after (K := String) (V := Nat) [.put "a" 1, .put "b" 2]) = (.val (log, s'), m') ∧
    log.length = 2 :=
  C10_forEach_no_delete _ (fun _ _ _ => by simp [Avoids]) 0 _ 2 (by decide)

/-- Calls that may disturb the order of the keys `ks`: deletes, and puts of one of those keys. -/
def Disturbs (ks : List K) : Op K V → Prop
  | .delete _ => True
  | .put k _ => ∃ k' ∈ ks, (k' == k) = true
  | .putIfNotNil k (some _) => ∃ k' ∈ ks, (k' == k) = true
  | _ => False

private theorem prefix_kept [LawfulGoKey K] (ks : List K) (op : Op K V) (m : Impl K V) (hi : SyncInv m)
    (hop : ¬ Disturbs ks op) (hm : ks <+: m.ordered.map (·.1)) :
    ks <+: (call op m).2.ordered.map (·.1) := by
  have hput : ∀ (k : K) (v : V), (∀ k' ∈ ks, ¬ (k' == k) = true) →
      ks <+: (Spec.put k v m.ordered).map (·.1) := by
    intro k v hk
    obtain ⟨rest, hr⟩ := hm
    have : (Spec.put k v m.ordered).map (·.1)
        = (m.ordered.map (·.1)).filter (fun x => !(x == k)) ++ [k] := by
      simp [Spec.put, Spec.remove, List.filter_map, Function.comp_def]
    rw [this, ← hr, List.filter_append]
    have : ks.filter (fun x => !(x == k)) = ks := by
      rw [List.filter_eq_self]; intro a ha; simpa using hk a ha
    rw [this, List.append_assoc]
    exact ⟨_, rfl⟩
  have hrep : ∀ (k : K) (v : V), ks <+: (Spec.replace k v m.ordered).map (·.1) := by
    intro k v
    have : (Spec.replace k v m.ordered).map (·.1) = m.ordered.map (·.1) := by
      simp only [Spec.replace, List.map_map]
      apply List.map_congr_left
      intro e _; simp only [Function.comp]; split <;> rfl
    rw [this]; exact hm
  rw [(call_refines hi op).2.1]
  cases op with
  | delete k => exact absurd trivial hop
  | put k v =>
    have := hput k v (fun k' hk' h => hop ⟨k', hk', h⟩)
    simp only [Spec.step, Spec.keyOf]
    split
    · exact this
    · exact hm
  | putIfNotNil k v =>
    cases v with
    | none => exact hm
    | some v =>
      have := hput k v (fun k' hk' h => hop ⟨k', hk', h⟩)
      simp only [Spec.step, Spec.keyOf]
      split
      · exact this
      · exact hm
  | replaceIfExists k v =>
    simp only [Spec.step, Spec.keyOf]
    split
    · exact hrep k v
    · exact hm
  | replaceOrPut k v =>
    simp only [Spec.step, Spec.keyOf]
    split
    · simp only [Spec.answer]
      split
      · exact hrep k v
      · next hmem =>
        refine hput k v ?_
        intro k' hk' h
        apply hmem
        have : k' ∈ m.ordered.map (·.1) := hm.subset hk'
        obtain ⟨e, he, rfl⟩ := List.mem_map.1 this
        simp only [Spec.mem, List.any_eq_true]
        exact ⟨e, he, h⟩
    · exact hm
  | serializeOrdered b => exact hm
  | get k => simp only [Spec.step, Spec.keyOf]; split <;> exact hm
  | has k => simp only [Spec.step, Spec.keyOf]; split <;> exact hm
  | indexOf k => simp only [Spec.step, Spec.keyOf]; split <;> exact hm
  | at' j => exact hm
  | len => exact hm
  | entries => exact hm

/-- C10: if the callback deletes nothing and puts no key that was in the map on entry (it may
replace values and add fresh keys), the traversal visits exactly the keys present on entry, in
order. -/
theorem C10_forEach_visits_original_keys [LawfulGoKey K] {S : Type} (f : S → K → V → Prog K V S)
    (s0 : S) (ops : List (Op K V)) (es : List (K × V))
    (he : answer ops .entries = .val (.entries es))
    (hf : ∀ s k v, Avoids (Disturbs (es.map (·.1))) (f s k v)) :
    ∃ log s' m', forEach (visiting f) ([], s0) (after ops) = (.val (log, s'), m') ∧
      log.map (·.1) = es.map (·.1) := by
  have hi : SyncInv (after ops) := inv_of_reachable ⟨ops, rfl⟩
  have hes : (after ops).ordered = es := by
    rw [entries_spec] at he
    simp at he; subst he
    exact (run_refines ops inv_new).2.1
  subst hes
  obtain ⟨log, s', m', h1, h2, -, -, h5⟩ := forEachLoop_inv
    (fun m => (after ops).ordered.map (·.1) <+: m.ordered.map (·.1)) _
    (fun op m hb hi hm => prefix_kept _ op m hi hb hm) f hf
    ((after ops).ordered.map (·.1))
    (fun m hm j hj => by
      have := hm.length_le
      simp at this hj
      exact ⟨m.ordered[j]'(by omega), by simp⟩)
    (after ops).ordered.length 0 (by simp) [] s0 (after ops) hi (List.prefix_refl _)
  refine ⟨log, s', m', ?_, ?_⟩
  · simpa [forEach, bind, M.bind, M.get] using h1
  · apply List.ext_getElem
    · simp [h2]
    · intro i hi1 hi2
      simp at hi1 hi2
      obtain ⟨m, hm, h6⟩ := h5 i hi1
      rw [Nat.zero_add] at h6
      have := hm.getElem (i := i) (by simpa using hi2)
      rw [this]
      simp
      obtain ⟨hlt, h7⟩ := List.getElem?_eq_some_iff.1 h6
      rw [h7]

/-- Cases meeting the hypotheses of the two theorems above: replacing each visited value and
adding a fresh key. -/
example : ∃ m', forEach (visiting (fun (n : Nat) k v =>
      Prog.call (.replaceIfExists k (v + 10)) fun _ =>
      Prog.call (.put "fresh" n) fun _ => .ret (n + 1))) ([], 0)
    (after (K := String) (V := Nat) [.put "a" 1, .put "b" 2])
    = (.val ([("a", 1), ("b", 2)], 2), m') ∧ m'.ordered = [("a", 11), ("b", 12), ("fresh", 1)] :=
  ⟨_, rfl, rfl⟩

/-- The callback "delete the current key". -/
def deleteCurrent : Unit → K → V → Prog K V Unit :=
  fun _ k _ => .call (.delete k) fun _ => .ret ()

/-- C10, negative part: a callback that deletes the entry it is given makes the traversal of
every map of ordinary keys with two or more entries panic with an index out of range. -/
theorem C10_forEach_delete_panics [StrictGoKey K] (ops : List (Op K V)) (n : Nat)
    (hn : answer ops .len = .val (.int n)) (hpos : 2 ≤ n) :
    ∃ m', forEach (visiting deleteCurrent) ([], ()) (after ops) = (.panic .indexRange, m') := by
  have hi : SyncInv (after ops) := inv_of_reachable ⟨ops, rfl⟩
  have hn' : (after ops).ordered.length = n := by
    have : ((after ops).ordered.length : Int) = n := by
      simpa [answer, call, len, bind, M.bind, M.get, pure, M.pure] using hn
    omega
  have key : ∀ (r j : Nat) (log : List (K × V)) (m : Impl K V), SyncInv m →
      ((m.ordered.length ≤ j + r ∧ 2 ≤ r) ∨ (m.ordered.length < j + r ∧ 1 ≤ r)) →
      ∃ m', forEachLoop (visiting deleteCurrent) r j (log, ()) m = (.panic .indexRange, m') := by
    intro r
    induction r with
    | zero => intro j log m _ h; omega
    | succ r ih =>
      intro j log m hm hlt
      by_cases hj : j < m.ordered.length
      · simp only [forEachLoop, bind, M.bind, M.get, List.getElem?_eq_getElem hj, visiting,
          deleteCurrent, Prog.run]
        generalize he : m.ordered[j] = e at *
        have hmem : e ∈ m.ordered := he ▸ List.getElem_mem hj
        have hfind : ∃ i, m.ordered.findIdx? (fun x => x.1 == e.1) = some i := by
          have : Spec.mem e.1 m.ordered = true := by
            simp only [Spec.mem, List.any_eq_true]
            exact ⟨e, hmem, StrictGoKey.eq_iff.2 rfl⟩
          rw [mem_iff_findIdx] at this
          exact Option.isSome_iff_exists.1 this
        obtain ⟨i, hfi⟩ := hfind
        have hcall : (call (.delete e.1) m).2.ordered.length + 1 = m.ordered.length := by
          rw [(call_refines hm (.delete e.1)).2.1]
          simp only [Spec.step, Spec.keyOf, StrictGoKey.hash, if_true, Spec.answer]
          rw [← cut_eq hm.distinct hfi]
          have := (List.findIdx?_eq_some_iff_getElem.1 hfi).1
          simp; omega
        obtain ⟨m', hm'⟩ := ih (j + 1) (log ++ [(e.1, e.2)]) (call (.delete e.1) m).2
          (call_refines hm _).2.2 (by omega)
        exact ⟨m', hm'⟩
      · have : m.ordered[j]? = none := by simp; omega
        exact ⟨m, by simp [forEachLoop, bind, M.bind, M.get, this, M.throw]⟩
  obtain ⟨m', hm'⟩ := key n 0 [] (after ops) hi (by omega)
  refine ⟨m', ?_⟩
  simpa [forEach, bind, M.bind, M.get, hn'] using hm'

example : (forEach (visiting deleteCurrent) ([], ())
    (after (K := String) (V := Nat) [.put "a" 1, .put "b" 2])).1 = .panic .indexRange := rfl

end ForEach

end Verif.Props
