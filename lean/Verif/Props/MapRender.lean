import Verif.OMap.Render
import Verif.Props.Maps

/-! # C12, C13: YAML and JSON forms of a map -/

namespace Verif.Props
open Verif.OMap

section
variable {K V : Type} [GoKey K]

private theorem ordered_of_entries [LawfulGoKey K] {ops : List (Op K V)} {es : List (K × V)}
    (he : answer ops .entries = .val (.entries es)) : (after ops).ordered = es := by
  simpa [answer, call, forEach, bind, M.bind, M.get, pure, M.pure,
    forEachLoop_entries (after ops) [] (after ops).ordered.length 0 (by omega)] using he

/-- The flag set by the last `SerializeOrdered` of a history (most recent call first). -/
def lastFlag : List (Op K V) → Bool
  | [] => true
  | .serializeOrdered b :: _ => b
  | _ :: h => lastFlag h

private theorem flag_call [LawfulGoKey K] (op : Op K V) (s : Impl K V) (hs : SyncInv s) :
    (call op s).2.outOrder = match op with | .serializeOrdered b => b | _ => s.outOrder := by
  cases op with
  | put k v => simp only [call, bind, M.bind, put_eq hs]; cases GoKey.hashable k <;> rfl
  | putIfNotNil k v =>
    cases v with
    | none => rfl
    | some v =>
      simp only [call, bind, M.bind, putIfNotNil, put_eq hs]; cases GoKey.hashable k <;> rfl
  | replaceIfExists k v =>
    obtain ⟨i, he, -⟩ := replaceIfExists_eq hs k v
    simp only [call, bind, M.bind, he]; cases GoKey.hashable k <;> rfl
  | replaceOrPut k v =>
    obtain ⟨i, he, -⟩ := replaceIfExists_eq hs k v
    simp only [call, bind, M.bind, replaceOrPut, has, indexRead_eq hs]
    cases hk : GoKey.hashable k
    · rfl
    · simp only [pure, M.pure, if_true]
      cases (Spec.find k s.ordered).isSome
      · simp [put_eq hs, hk, putState]
      · simp [he, hk]
  | delete k => simp only [call, bind, M.bind, delete_eq hs]; cases GoKey.hashable k <;> rfl
  | serializeOrdered b => rfl
  | get k => simp only [call, bind, M.bind, OMap.get, indexRead_eq hs]; cases GoKey.hashable k <;> rfl
  | has k => simp only [call, bind, M.bind, has, indexRead_eq hs]; cases GoKey.hashable k <;> rfl
  | indexOf k => simp only [call, bind, M.bind, indexOf_eq hs]; cases GoKey.hashable k <;> rfl
  | at' j =>
    simp only [call, at', bind, M.bind, M.get]
    by_cases h0 : 0 ≤ j
    · simp only [h0, if_true]; cases s.ordered[j.toNat]? <;> rfl
    · simp only [h0, if_false]; rfl
  | len => rfl
  | entries =>
    simp only [call, forEach, bind, M.bind, M.get,
      forEachLoop_entries s [] s.ordered.length 0 (by omega)]
    rfl

private theorem run_snoc (ops : List (Op K V)) (op : Op K V) (s : Impl K V) :
    (run (ops ++ [op]) s).2 = (call op (run ops s).2).2 := by
  induction ops generalizing s with
  | nil => rfl
  | cons o ops ih => simp only [List.cons_append, run]; exact ih _

private theorem flag_after [LawfulGoKey K] (h : List (Op K V)) :
    (after h.reverse).outOrder = lastFlag h := by
  induction h with
  | nil => rfl
  | cons op h ih =>
    rw [List.reverse_cons, after, run_snoc, flag_call _ _ (inv_of_reachable ⟨_, rfl⟩)]
    cases op <;> simp only [lastFlag] <;> exact ih

/-- C12: the YAML form after any history is the !!omap sequence of the entries if the last
`SerializeOrdered` (or the default) says so, and one mapping of the entries otherwise. -/
theorem C12_yaml_form [LawfulGoKey K] (kn : K → Node) (vn : V → Node) (ops : List (Op K V))
    (es : List (K × V)) (he : answer ops .entries = .val (.entries es)) :
    toYAML kn vn (after ops) =
      if lastFlag ops.reverse then
        .seq "!!omap" (es.map fun e => .map [(kn e.1, vn e.2)])
      else .map (es.map fun e => (kn e.1, vn e.2)) := by
  rw [toYAML, ordered_of_entries he, ← flag_after, List.reverse_reverse]
  rfl

example : toYAML Node.str Node.str (after (K := String) (V := String)
      [.serializeOrdered false, .put "a" "1", .serializeOrdered true, .put "b" "2", .put "a" "3"]) =
    .seq "!!omap" [.map [(.str "b", .str "2")], .map [(.str "a", .str "3")]] :=
  C12_yaml_form _ _ _ [("b", "2"), ("a", "3")] (by decide)

/-- C12: the entries can be recovered from the YAML form: two maps with the same YAML form have
the same flag and the same entries, if distinct keys and distinct values render differently. -/
theorem C12_yaml_injective [LawfulGoKey K] (kn : K → Node) (vn : V → Node)
    (hk : ∀ a b, kn a = kn b → a = b) (hv : ∀ a b, vn a = vn b → a = b)
    (ops ops' : List (Op K V)) (h : toYAML kn vn (after ops) = toYAML kn vn (after ops')) :
    answer ops .entries = answer ops' .entries ∧ lastFlag ops.reverse = lastFlag ops'.reverse := by
  obtain ⟨es, he⟩ := C03_entries_total ops
  obtain ⟨es', he'⟩ := C03_entries_total ops'
  rw [C12_yaml_form kn vn ops es he, C12_yaml_form kn vn ops' es' he'] at h
  have inj : ∀ (es es' : List (K × V)),
      es.map (fun e => (kn e.1, vn e.2)) = es'.map (fun e => (kn e.1, vn e.2)) → es = es' := by
    intro es es' h
    refine List.map_inj_right (f := fun e : K × V => (kn e.1, vn e.2)) ?_ |>.1 h
    rintro ⟨a, b⟩ ⟨c, d⟩ h
    simp at h
    rw [hk _ _ h.1, hv _ _ h.2]
  have inj' : ∀ (es es' : List (K × V)),
      es.map (fun e => Node.map [(kn e.1, vn e.2)]) = es'.map (fun e => Node.map [(kn e.1, vn e.2)]) →
        es = es' := by
    intro es es' h
    refine List.map_inj_right (f := fun e : K × V => Node.map [(kn e.1, vn e.2)]) ?_ |>.1 h
    rintro ⟨a, b⟩ ⟨c, d⟩ h
    simp at h
    rw [hk _ _ h.1, hv _ _ h.2]
  rw [he, he']
  split at h <;> split at h
  · simp only [Node.seq.injEq, true_and] at h
    simp_all [inj' _ _ h]
  · cases h
  · cases h
  · simp only [Node.map.injEq] at h
    simp_all [inj _ _ h]

example (ops : List (Op String String)) (h : toYAML Node.str Node.str (after ops) =
      toYAML Node.str Node.str (after [.put "a" "1", .put "b" "2", .put "a" "3"])) :
    answer ops .entries = .val (.entries [("b", "2"), ("a", "3")]) ∧ lastFlag ops.reverse = true :=
  have inj : ∀ a b : String, Node.str a = Node.str b → a = b := fun a b h => by simpa [Node.str] using h
  (C12_yaml_injective _ _ inj inj ops _ h).imp_left fun h => h.trans (by decide)

/-- C12: `SerializeOrdered` changes no answer of any other call. -/
theorem C12_serializeOrdered_neutral [LawfulGoKey K] (a b : List (Op K V)) (flag : Bool) :
    (run (a ++ .serializeOrdered flag :: b) new).1
      = (run (a ++ b) new).1.take a.length ++ .val .unit :: (run (a ++ b) new).1.drop a.length := by
  have hl : ∀ (a : List (Op K V)) d, (Spec.run a d).1.length = a.length := by
    intro a; induction a with
    | nil => intro s; rfl
    | cons op a ih => intro s; simp [Spec.run, ih]
  have happ : ∀ (a b : List (Op K V)) d, (Spec.run (a ++ b) d).1
      = (Spec.run a d).1 ++ (Spec.run b (Spec.run a d).2).1 := by
    intro a; induction a with
    | nil => intro b d; rfl
    | cons op a ih => intro b d; simp [Spec.run, ih]
  rw [C01_histories_refine_dictionary, C01_histories_refine_dictionary, happ, happ]
  have h := hl a []
  have h1 : ∀ x : List (Out (Obs K V)), ((Spec.run a []).1 ++ x).take a.length = (Spec.run a []).1 := by
    intro x; rw [← h]; simp
  have h2 : ∀ x : List (Out (Obs K V)), ((Spec.run a []).1 ++ x).drop a.length = x := by
    intro x; rw [← h]; simp
  rw [h1, h2]
  rfl

example : toYAML Node.str Node.str
    (after (K := String) (V := String) [.put "a" "1", .put "b" "2", .put "a" "3"])
    = .seq "!!omap" [.map [(.str "b", .str "2")], .map [(.str "a", .str "3")]] := rfl

example : toYAML Node.str Node.str
    (after (K := String) (V := String) [.serializeOrdered false, .put "a" "1", .put "b" "2", .put "a" "3"])
    = .map [(.str "b", .str "2"), (.str "a", .str "3")] := rfl

/-! ### C13 -/

/-- C13: ordered JSON is the array of the entries in map order, whatever Go's iteration order. -/
theorem C13_ordered_json [LawfulGoKey K] (print : K → String) (ops : List (Op K V))
    (es : List (K × V)) (he : answer ops .entries = .val (.entries es))
    (hf : lastFlag ops.reverse = true) (iter : List (K × V)) :
    marshalJSON print (after ops) iter = .array es := by
  rw [← flag_after, List.reverse_reverse] at hf
  simp [marshalJSON, hf, ordered_of_entries he]

example (iter : List (AnyKey × Nat)) : marshalJSON AnyKey.print
      (after [.put (.int 1) 10, .put (.str "1") 20, .put (.int 1) 30]) iter =
    .array [(.str "1", 20), (.int 1, 30)] :=
  C13_ordered_json _ _ [(.str "1", 20), (.int 1, 30)] (by decide) rfl iter

private theorem foldl_assign (print : K → String) (iter acc : List (K × V))
    (hn : ((acc ++ iter).map (fun e => print e.1)).Nodup) :
    iter.foldl (fun m e => strAssign m (print e.1) e.2) (acc.map fun e => (print e.1, e.2))
      = (acc ++ iter).map fun e => (print e.1, e.2) := by
  induction iter generalizing acc with
  | nil => simp
  | cons e iter ih =>
    simp only [List.foldl_cons]
    have hna : (acc.map fun e => (print e.1, e.2)).any (fun x => x.1 == print e.1) = false := by
      simp only [List.map_append, List.map_cons, List.nodup_append] at hn
      rw [Bool.eq_false_iff]
      intro h
      simp only [List.any_map, List.any_eq_true, Function.comp] at h
      obtain ⟨x, hx, hxe⟩ := h
      exact hn.2.2 (print x.1) (List.mem_map.2 ⟨x, hx, rfl⟩) (print e.1) (by simp) (by simpa using hxe)
    have : strAssign (acc.map fun e => (print e.1, e.2)) (print e.1) e.2
        = (acc ++ [e]).map fun e => (print e.1, e.2) := by
      simp only [strAssign, hna]
      simp
    rw [this, ih (acc ++ [e]) (by simpa using hn)]
    simp

private theorem sort_perm_eq {V : Type} {a b : List (String × V)} (hp : a.Perm b)
    (hn : (a.map (·.1)).Nodup) : sortFields a = sortFields b := by
  have htr : ∀ x y z : String × V, decide (x.1 ≤ y.1) = true → decide (y.1 ≤ z.1) = true →
      decide (x.1 ≤ z.1) = true := by
    intro x y z h1 h2
    simp only [decide_eq_true_eq] at *
    exact String.le_trans h1 h2
  have hto : ∀ x y : String × V, (decide (x.1 ≤ y.1) || decide (y.1 ≤ x.1)) = true := by
    intro x y
    simp only [Bool.or_eq_true, decide_eq_true_eq]
    exact String.le_total ..
  refine List.Perm.eq_of_pairwise (le := fun x y : String × V => decide (x.1 ≤ y.1) = true) ?_
    (List.pairwise_mergeSort htr hto a) (List.pairwise_mergeSort htr hto b)
    ((List.mergeSort_perm a _).trans (hp.trans (List.mergeSort_perm b _).symm))
  intro x y hx hy h1 h2
  simp only [decide_eq_true_eq] at h1 h2
  have hk : x.1 = y.1 := String.le_antisymm h1 h2
  have hx' : x ∈ a := by simpa [sortFields] using hx
  have hy' : y ∈ a := by
    have : y ∈ b := by simpa [sortFields] using hy
    exact hp.symm.subset this
  rw [List.Nodup, List.pairwise_map] at hn
  obtain ⟨i, hi, rfl⟩ := List.getElem_of_mem hx'
  obtain ⟨j, hj, rfl⟩ := List.getElem_of_mem hy'
  rw [List.pairwise_iff_getElem] at hn
  rcases Nat.lt_trichotomy i j with h | h | h
  · exact absurd hk (hn i j hi hj h)
  · subst h; rfl
  · exact absurd hk.symm (hn j i hj hi h)

/-- C13: unordered JSON does not depend on Go's iteration order when no two keys in the index
print alike. -/
theorem C13_unordered_json_deterministic (print : K → String) (s : Impl K V)
    (hn : (s.index.map fun e => print e.1).Nodup) (iter iter' : List (K × V))
    (hi : iter.Perm s.index) (hi' : iter'.Perm s.index) :
    marshalJSON print s iter = marshalJSON print s iter' := by
  simp only [marshalJSON]
  split
  · rfl
  · have key : ∀ it : List (K × V), it.Perm s.index →
        sortFields (it.foldl (fun m e => strAssign m (print e.1) e.2) [])
          = sortFields (s.index.map fun e => (print e.1, e.2)) := by
      intro it hit
      have hn' : (it.map fun e => print e.1).Nodup := (hit.map _).nodup_iff.2 hn
      have := foldl_assign print it [] (by simpa using hn')
      simp only [List.map_nil, List.nil_append] at this
      rw [this]
      exact sort_perm_eq (hit.map _) (by simpa [List.map_map, Function.comp_def] using hn')
    rw [key iter hi, key iter' hi']

example : marshalJSON id (after (K := String) (V := Nat)
      [.serializeOrdered false, .put "b" 1, .put "a" 2]) [("a", 2), ("b", 1)] =
    marshalJSON id (after (K := String) (V := Nat)
      [.serializeOrdered false, .put "b" 1, .put "a" 2]) [("b", 1), ("a", 2)] :=
  C13_unordered_json_deterministic _ _ (by decide) _ _ (by decide) (by decide)

private theorem index_eq_ordered [StrictGoKey K] {s : Impl K V} (h : SyncInv s) :
    s.index = s.ordered := by
  have : ∀ o i : List (K × V), All2 Rel o i → i = o := by
    intro o i h
    induction h with
    | nil => rfl
    | @cons a b l m r _ ih =>
      have h1 := r.1 a.1
      have h2 : a.1 = b.1 := by
        have : (b.1 == a.1) = true := by rw [← h1]; exact StrictGoKey.eq_iff.2 rfl
        exact (StrictGoKey.eq_iff.1 this).symm
      rw [ih, show a = b from Prod.ext h2 r.2]
  exact this _ _ h.sync

/-- C13, string-keyed maps: whatever the iteration order, the unordered JSON object is sorted, has
no duplicate field, and has exactly the map's bindings. -/
theorem C13_string_map_json (ops : List (Op String V)) (es : List (String × V))
    (he : answer ops .entries = .val (.entries es)) (hf : lastFlag ops.reverse = false)
    (iter : List (String × V)) (hi : iter.Perm (after ops).index) :
    ∃ fields, marshalJSON id (after ops) iter = .object fields ∧
      fields.Perm es ∧ (fields.map (·.1)).Nodup ∧ fields.Pairwise (fun a b => a.1 ≤ b.1) := by
  have hinv : SyncInv (after ops) := inv_of_reachable ⟨ops, rfl⟩
  have hidx := index_eq_ordered hinv
  rw [ordered_of_entries he] at hidx
  rw [← flag_after, List.reverse_reverse] at hf
  have hnd := (C03_keys_unique ops es he).1
  have hn' : (iter.map fun e => id e.1).Nodup := by
    rw [hidx] at hi
    exact (hi.map _).nodup_iff.2 hnd
  have hfold := foldl_assign id iter [] (by simpa using hn')
  simp only [List.map_nil, List.nil_append] at hfold
  have hfold' : iter.foldl (fun m e => strAssign m (id e.1) e.2) [] = iter := by
    rw [hfold]; simp
  refine ⟨sortFields iter, ?_, ?_, ?_, ?_⟩
  · simp [marshalJSON, hf] at *
    rw [hfold']
  · rw [hidx] at hi
    exact (List.mergeSort_perm _ _).trans hi
  · have : ((sortFields iter).map (·.1)).Perm (iter.map (·.1)) := (List.mergeSort_perm _ _).map _
    exact this.nodup_iff.2 (by simpa using hn')
  · have htr : ∀ x y z : String × V, decide (x.1 ≤ y.1) = true → decide (y.1 ≤ z.1) = true →
        decide (x.1 ≤ z.1) = true := by
      intro x y z h1 h2
      simp only [decide_eq_true_eq] at *
      exact String.le_trans h1 h2
    have hto : ∀ x y : String × V, (decide (x.1 ≤ y.1) || decide (y.1 ≤ x.1)) = true := by
      intro x y
      simp only [Bool.or_eq_true, decide_eq_true_eq]
      exact String.le_total ..
    have := List.pairwise_mergeSort htr hto iter
    exact this.imp (by intro a b h; simpa using h)

example : ∃ fields, marshalJSON id (after (K := String) (V := Nat)
      [.serializeOrdered false, .put "b" 1, .put "a" 2]) [("a", 2), ("b", 1)] = .object fields ∧
    ("b", 1) ∈ fields ∧ fields.Pairwise (fun a b => a.1 ≤ b.1) := by
  obtain ⟨fields, h1, h2, _, h4⟩ := C13_string_map_json (V := Nat)
    [.serializeOrdered false, .put "b" 1, .put "a" 2] [("b", 1), ("a", 2)] (by decide) rfl
    [("a", 2), ("b", 1)] (by decide)
  exact ⟨fields, h1, h2.mem_iff.2 (.head _), h4⟩

end

private theorem mem_strAssign {V : Type} (m : List (String × V)) (k : String) (v : V)
    (f : String × V) :
    f ∈ strAssign m k v ↔ f = (k, v) ∨ (f ∈ m ∧ f.1 ≠ k) := by
  unfold strAssign
  split
  · rename_i h
    simp only [List.any_eq_true, beq_iff_eq] at h
    obtain ⟨e, he, hk⟩ := h
    simp only [List.mem_map, beq_iff_eq]
    constructor
    · rintro ⟨x, hx, rfl⟩
      split
      · exact .inl rfl
      · rename_i hn; exact .inr ⟨hx, hn⟩
    · rintro (rfl | ⟨hf, hn⟩)
      · exact ⟨e, he, if_pos hk⟩
      · exact ⟨f, hf, if_neg hn⟩
  · rename_i h
    simp only [List.any_eq_true, beq_iff_eq, not_exists, not_and] at h
    simp only [List.mem_append, List.mem_singleton]
    constructor
    · rintro (hf | rfl)
      · exact .inr ⟨hf, h f hf⟩
      · exact .inl rfl
    · rintro (rfl | ⟨hf, _⟩)
      · exact .inr rfl
      · exact .inl hf

private theorem nodup_strAssign {V : Type} (m : List (String × V)) (k : String) (v : V)
    (h : (m.map (·.1)).Nodup) : ((strAssign m k v).map (·.1)).Nodup := by
  unfold strAssign
  split
  · rw [List.map_map]
    have : ((fun e : String × V => e.1) ∘ fun e => if e.1 == k then (k, v) else e) = (·.1) := by
      funext e
      simp only [Function.comp, beq_iff_eq]
      split
      · rename_i hk; exact hk.symm
      · rfl
    rw [this]; exact h
  · rename_i hn
    simp only [List.any_eq_true, beq_iff_eq, not_exists, not_and] at hn
    rw [List.map_append, List.nodup_append]
    refine ⟨h, by simp, ?_⟩
    intro a ha b hb
    simp only [List.map_cons, List.map_nil, List.mem_singleton] at hb
    obtain ⟨e, he, rfl⟩ := List.mem_map.1 ha
    rw [hb]; exact hn e he

private theorem fields_fold {K V : Type} (print : K → String) (it : List (K × V)) :
    ∀ m : List (String × V), (m.map (·.1)).Nodup →
    let r := it.foldl (fun m e => strAssign m (print e.1) e.2) m
    (r.map (·.1)).Nodup ∧ ∀ name v, (name, v) ∈ r ↔
      ((it.reverse.find? fun e => print e.1 == name).map (·.2) = some v ∨
        ((∀ e ∈ it, print e.1 ≠ name) ∧ (name, v) ∈ m)) := by
  induction it with
  | nil => intro m h; exact ⟨h, fun name v => by simp⟩
  | cons e it ih =>
    intro m h
    obtain ⟨h1, h2⟩ := ih _ (nodup_strAssign m (print e.1) e.2 h)
    refine ⟨h1, fun name v => ?_⟩
    rw [List.foldl_cons, h2, mem_strAssign, List.reverse_cons, List.find?_append]
    by_cases hx : ∃ x ∈ it, print x.1 = name
    · obtain ⟨x, hx, hn⟩ := hx
      have hs : (it.reverse.find? fun e => print e.1 == name).isSome := by
        rw [List.find?_isSome]
        exact ⟨x, List.mem_reverse.2 hx, by simpa using hn⟩
      obtain ⟨y, hy⟩ := Option.isSome_iff_exists.1 hs
      rw [hy]
      simp only [Option.map_some, Option.some_or, List.mem_cons, forall_eq_or_imp]
      constructor
      · rintro (h | ⟨h, _⟩)
        · exact .inl h
        · exact absurd hn (h x hx)
      · rintro (h | ⟨⟨_, h⟩, _⟩)
        · exact .inl h
        · exact absurd hn (h x hx)
    · have hx : ∀ x ∈ it, print x.1 ≠ name := fun x h1 h2 => hx ⟨x, h1, h2⟩
      have hs : (it.reverse.find? fun e => print e.1 == name) = none := by
        rw [List.find?_eq_none]
        intro x h1 h2
        exact hx x (List.mem_reverse.1 h1) (by simpa using h2)
      rw [hs]
      simp only [Option.map_none, Option.none_or, reduceCtorEq, false_or, List.mem_cons,
        forall_eq_or_imp, Prod.mk.injEq]
      by_cases hn : print e.1 = name
      · subst hn
        simp only [List.find?_cons, beq_self_eq_true, Option.map_some, Option.some.injEq, true_and,
          ne_eq, not_true_eq_false, and_false, false_and, or_false]
        exact ⟨fun h => h.2.symm, fun h => ⟨hx, h.symm⟩⟩
      · simp [hn, Ne.symm hn]

/-- C13, any map: whatever the iteration order and however keys print, the fields of the unordered
JSON object are sorted and none is repeated; the field of a name holds the value of the last
entry, in iteration order, whose key prints as that name. -/
theorem C13_json_fields {K V : Type} (print : K → String) (s : Impl K V)
    (hf : s.outOrder = false) (iter : List (K × V)) :
    ∃ fields, marshalJSON print s iter = .object fields ∧ (fields.map (·.1)).Nodup ∧
      fields.Pairwise (fun a b => a.1 ≤ b.1) ∧
      ∀ name v, (name, v) ∈ fields ↔
        (iter.reverse.find? fun e => print e.1 == name).map (·.2) = some v := by
  obtain ⟨h1, h2⟩ := fields_fold print iter [] List.nodup_nil
  have hp := List.mergeSort_perm (iter.foldl (fun m e => strAssign m (print e.1) e.2) [])
    (fun a b => decide (a.1 ≤ b.1))
  refine ⟨sortFields (iter.foldl (fun m e => strAssign m (print e.1) e.2) []), ?_, ?_, ?_, ?_⟩
  · simp [marshalJSON, hf]
  · exact (hp.map (·.1)).nodup_iff.2 h1
  · have htr : ∀ x y z : String × V, decide (x.1 ≤ y.1) = true → decide (y.1 ≤ z.1) = true →
        decide (x.1 ≤ z.1) = true := by
      intro x y z h1 h2
      simp only [decide_eq_true_eq] at *
      exact String.le_trans h1 h2
    have hto : ∀ x y : String × V, (decide (x.1 ≤ y.1) || decide (y.1 ≤ x.1)) = true := by
      intro x y
      simp only [Bool.or_eq_true, decide_eq_true_eq]
      exact String.le_total ..
    exact (List.pairwise_mergeSort htr hto _).imp (by intro a b h; simpa using h)
  · intro name v
    rw [show ((name, v) ∈ sortFields (iter.foldl (fun m e => strAssign m (print e.1) e.2) [])) ↔ _
      from hp.mem_iff, h2]
    simp

/-- Keys `1` and `"1"` give one field. -/
example (s : Impl AnyKey Nat) (hf : s.outOrder = false) : ∃ fields,
    marshalJSON AnyKey.print s [(.int 1, 10), (.str "1", 20)] = .object fields ∧
      (fields.map (·.1)).Nodup ∧ ("1", 20) ∈ fields ∧ ("1", 10) ∉ fields := by
  obtain ⟨fields, h1, h2, _, h3⟩ := C13_json_fields AnyKey.print s hf
    [(.int 1, 10), (.str "1", 20)]
  exact ⟨fields, h1, h2, (h3 _ _).2 (by decide), fun h => absurd ((h3 _ _).1 h) (by decide)⟩

/-- The names of the fields are the printed keys. -/
example (s : Impl AnyKey Nat) (hf : s.outOrder = false) : ∃ fields,
    marshalJSON AnyKey.print s [(.nan, 1), (.zero true, 2), (.zero false, 3), (.str "s", 4)] =
      .object fields ∧ ("NaN", 1) ∈ fields ∧ ("-0", 2) ∈ fields ∧ ("0", 3) ∈ fields ∧
      ("s", 4) ∈ fields := by
  obtain ⟨fields, h1, _, _, h3⟩ := C13_json_fields AnyKey.print s hf
    [(.nan, 1), (.zero true, 2), (.zero false, 3), (.str "s", 4)]
  exact ⟨fields, h1, (h3 _ _).2 (by decide), (h3 _ _).2 (by decide), (h3 _ _).2 (by decide),
    (h3 _ _).2 (by decide)⟩

/-- C13 is false for `AnyMap` in general: with keys `1` and `"1"` the unordered JSON depends on
Go's iteration order. -/
theorem C13_any_map_json_false :
    ∃ (ops : List (Op AnyKey Nat)) (iter iter' : List (AnyKey × Nat)),
      iter.Perm (after ops).index ∧ iter'.Perm (after ops).index ∧
      marshalJSON AnyKey.print (after ops) iter ≠ marshalJSON AnyKey.print (after ops) iter' := by
  refine ⟨[.serializeOrdered false, .put (.int 1) 10, .put (.str "1") 20],
    [(.int 1, 10), (.str "1", 20)], [(.str "1", 20), (.int 1, 10)], .refl _, .swap .., ?_⟩
  have hf : ((after [.serializeOrdered false, .put (.int 1) 10, .put (.str "1") 20]
      : Impl AnyKey Nat).outOrder) = false := rfl
  have h1 : ([(.int 1, 10), (.str "1", 20)] : List (AnyKey × Nat)).foldl
      (fun m e => strAssign m (AnyKey.print e.1) e.2) [] = [("1", 20)] := by decide
  have h2 : ([(.str "1", 20), (.int 1, 10)] : List (AnyKey × Nat)).foldl
      (fun m e => strAssign m (AnyKey.print e.1) e.2) [] = [("1", 10)] := by decide
  simp [marshalJSON, hf, h1, h2, sortFields]

/-- A case meeting the hypotheses of C13: two keys iterated in reverse. -/
example : marshalJSON id (after (K := String) (V := Nat) [.serializeOrdered false, .put "b" 1, .put "a" 2])
    [("a", 2), ("b", 1)] = .object [("a", 2), ("b", 1)] := by
  have hf : ((after [.serializeOrdered false, .put "b" 1, .put "a" 2]
      : Impl String Nat).outOrder) = false := rfl
  have h1 : ([("a", 2), ("b", 1)] : List (String × Nat)).foldl
      (fun m e => strAssign m (id e.1) e.2) [] = [("a", 2), ("b", 1)] := by decide
  simp only [marshalJSON, hf, h1, sortFields]
  rw [List.mergeSort_of_pairwise (by decide)]
  rfl

end Verif.Props
