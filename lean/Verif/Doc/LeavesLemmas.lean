import Verif.Doc.LeavesSpec

/-!
# Lemmas on annotations, documentation entries and examples as objects
-/

namespace Verif.Doc

namespace Leaves

/-- Every pointer leads to an object that exists. -/
structure Ok (L : Leaves) : Prop where
  am : ∀ m, ∀ e ∈ (L.am m).ents, e.2 < L.next
  ex : ∀ e, (L.ex e).annotations < L.next ∧ (L.ex e).extra < L.next
  doc : ∀ d, (L.doc d).extra < L.next
  api : ∀ d, (L.api d).annotations < L.next
  docs : ∀ d, ∀ x ∈ (L.api d).docs.getD [], x < L.next
  lib : ∀ d, (L.lib d).annotations < L.next

/-- The old objects other than those of `T` are as they were. -/
structure Kept (T : List Leaf) (L L' : Leaves) : Prop where
  next : L.next ≤ L'.next
  um : ∀ a < L.next, .ann a ∉ T → L'.um a = L.um a
  am : ∀ a < L.next, .anns a ∉ T → L'.am a = L.am a
  xm : ∀ a < L.next, .extra a ∉ T → L'.xm a = L.xm a
  ex : ∀ a < L.next, .ex a ∉ T → L'.ex a = L.ex a
  doc : ∀ a < L.next, .doc a ∉ T → L'.doc a = L.doc a
  api : ∀ a < L.next, .api a ∉ T → L'.api a = L.api a
  lib : ∀ a < L.next, .lib a ∉ T → L'.lib a = L.lib a

theorem Kept.refl {T : List Leaf} (L : Leaves) : Kept T L L :=
  ⟨Nat.le_refl _, fun _ _ _ => rfl, fun _ _ _ => rfl, fun _ _ _ => rfl, fun _ _ _ => rfl,
    fun _ _ _ => rfl, fun _ _ _ => rfl, fun _ _ _ => rfl⟩

theorem Kept.trans {T : List Leaf} {A B C : Leaves} (h : Kept T A B) (g : Kept T B C) :
    Kept T A C := by
  have lt : ∀ {a : Nat}, a < A.next → a < B.next := fun ha => Nat.lt_of_lt_of_le ha h.next
  exact ⟨Nat.le_trans h.next g.next,
    fun a ha hT => (g.um a (lt ha) hT).trans (h.um a ha hT),
    fun a ha hT => (g.am a (lt ha) hT).trans (h.am a ha hT),
    fun a ha hT => (g.xm a (lt ha) hT).trans (h.xm a ha hT),
    fun a ha hT => (g.ex a (lt ha) hT).trans (h.ex a ha hT),
    fun a ha hT => (g.doc a (lt ha) hT).trans (h.doc a ha hT),
    fun a ha hT => (g.api a (lt ha) hT).trans (h.api a ha hT),
    fun a ha hT => (g.lib a (lt ha) hT).trans (h.lib a ha hT)⟩

theorem Kept.mono {T T' : List Leaf} {A B : Leaves} (h : Kept T A B) (hs : ∀ o ∈ T, o ∈ T') :
    Kept T' A B :=
  ⟨h.next, fun a ha hT => h.um a ha (fun hm => hT (hs _ hm)),
    fun a ha hT => h.am a ha (fun hm => hT (hs _ hm)),
    fun a ha hT => h.xm a ha (fun hm => hT (hs _ hm)),
    fun a ha hT => h.ex a ha (fun hm => hT (hs _ hm)),
    fun a ha hT => h.doc a ha (fun hm => hT (hs _ hm)),
    fun a ha hT => h.api a ha (fun hm => hT (hs _ hm)),
    fun a ha hT => h.lib a ha (fun hm => hT (hs _ hm))⟩

theorem upd_same {α : Type} (f : Addr → α) (a : Addr) (x : α) : upd f a x a = x := by simp [upd]

theorem upd_other {α : Type} (f : Addr → α) {a b : Addr} (x : α) (h : b ≠ a) : upd f a x b = f b := by
  simp [upd, h]

theorem ok_start : Ok start :=
  ⟨fun _ e he => by simp [start, OM.empty] at he, fun _ => ⟨Nat.one_pos, Nat.one_pos⟩,
    fun _ => Nat.one_pos, fun _ => Nat.one_pos, fun _ x hx => by simp [start] at hx,
    fun _ => Nat.one_pos⟩

/-! ### What is shown depends on the parts only -/

theorem annsVal_kept {T : List Leaf} {L L' : Leaves} (h : Kept T L L') (ho : Ok L) {m : Addr}
    (hm : m < L.next) (hd : ∀ o ∈ T, o ∉ L.annsParts m) :
    L'.annsVal m = L.annsVal m ∧ L'.am m = L.am m := by
  have h1 : L'.am m = L.am m := h.am m hm fun hT => hd _ hT (by simp [annsParts])
  refine ⟨?_, h1⟩
  simp only [annsVal, h1]
  congr 1
  refine List.map_congr_left fun e he => ?_
  rw [h.um e.2 (ho.am m e he) fun hT => hd _ hT ?_]
  exact List.mem_cons_of_mem _ (List.mem_map.mpr ⟨e, he, rfl⟩)

theorem docVal_kept {T : List Leaf} {L L' : Leaves} (h : Kept T L L') (ho : Ok L) {d : Addr}
    (hm : d < L.next) (hd : ∀ o ∈ T, o ∉ L.docParts d) :
    L'.docVal d = L.docVal d ∧ L'.doc d = L.doc d := by
  have h1 : L'.doc d = L.doc d := h.doc d hm fun hT => hd _ hT (by simp [docParts])
  refine ⟨?_, h1⟩
  simp only [docVal, h1]
  rw [h.xm _ (ho.doc d) fun hT => hd _ hT (by simp [docParts])]

theorem shown_kept {T : List Leaf} {L L' : Leaves} (h : Kept T L L') (ho : Ok L) {x : Leaf}
    (hx : x.addr < L.next) (hd : ∀ o ∈ T, o ∉ L.parts x) :
    L'.shown x = L.shown x ∧ L'.parts x = L.parts x := by
  cases x with
  | ann a =>
    have := h.um a hx fun hT => hd _ hT (by simp [parts])
    simp [shown, parts, this]
  | anns m =>
    have := annsVal_kept h ho (m := m) hx hd
    simp [shown, parts, annsParts, this.1, this.2]
  | extra a =>
    have := h.xm a hx fun hT => hd _ hT (by simp [parts])
    simp [shown, parts, this]
  | ex e =>
    have h1 : L'.ex e = L.ex e := h.ex e hx fun hT => hd _ hT (by simp [parts])
    have h2 := annsVal_kept h ho (ho.ex e).1 fun o hT hp => hd _ hT (by simp [parts, hp])
    have h3 := h.xm _ (ho.ex e).2 fun hT => hd _ hT (by simp [parts])
    simp [shown, parts, exVal, annsParts, h1, h2.1, h2.2, h3]
  | doc d =>
    have := docVal_kept h ho (d := d) hx hd
    simp [shown, parts, docParts, this.1, this.2]
  | api d =>
    have h1 : L'.api d = L.api d := h.api d hx fun hT => hd _ hT (by simp [parts])
    have h2 := annsVal_kept h ho (ho.api d) fun o hT hp => hd _ hT (by simp [parts, hp])
    have h3 : ∀ y ∈ (L.api d).docs.getD [], L'.docVal y = L.docVal y ∧ L'.doc y = L.doc y :=
      fun y hy => docVal_kept h ho (ho.docs d y hy) fun o hT hp => hd _ hT (by
        simp only [parts, List.mem_cons, List.mem_append, List.mem_flatMap]
        exact .inr (.inr ⟨y, hy, hp⟩))
    have h4 : (L'.api d).docs.map (fun l => l.map L'.docVal) =
        (L.api d).docs.map fun l => l.map L.docVal := by
      rw [h1]
      cases hq : (L.api d).docs with
      | none => rfl
      | some l =>
        rw [hq] at h3
        simp only [Option.map_some, Option.some.injEq]
        exact List.map_congr_left fun y hy => (h3 y hy).1
    refine ⟨?_, ?_⟩
    · simp only [shown, apiVal, h4]
      simp [h1, h2.1]
    · simp only [parts, h1, annsParts, h2.2]
      congr 2
      have : ∀ l : List Addr, (∀ y ∈ l, L'.docParts y = L.docParts y) →
          l.flatMap L'.docParts = l.flatMap L.docParts := by
        intro l hl
        induction l with
        | nil => rfl
        | cons y ys ih =>
          simp only [List.flatMap_cons]
          rw [hl y (by simp), ih fun z hz => hl z (by simp [hz])]
      exact this _ fun y hy => by simp only [docParts, (h3 y hy).2]
  | lib d =>
    have h1 : L'.lib d = L.lib d := h.lib d hx fun hT => hd _ hT (by simp [parts])
    have h2 := annsVal_kept h ho (ho.lib d) fun o hT hp => hd _ hT (by simp [parts, hp])
    simp [shown, parts, libVal, annsParts, h1, h2.1, h2.2]

/-! ### Iteration -/

theorem livePairs_inv {σ : Type} {f : Node → Node → σ → Live σ} {I : σ → Prop}
    (h : ∀ k v s, I s → I (f k v s).1) (ps : List (Node × Node)) (s : σ) (hs : I s) :
    I (livePairs f ps s).1 := by
  induction ps generalizing s with
  | nil => exact hs
  | cons p ps ih =>
    have h1 := h p.1 p.2 s hs
    unfold livePairs
    rcases hf : f p.1 p.2 s with ⟨s', r⟩
    rw [hf] at h1
    cases r with
    | ok u => exact ih s' h1
    | err e => exact h1
    | panic c => exact h1

theorem liveMap_inv {σ : Type} {f : Node → Node → σ → Live σ} {I : σ → Prop}
    (h : ∀ k v s, I s → I (f k v s).1) (v : Node) (s : σ) (hs : I s) : I (liveMap f v s).1 := by
  cases v with
  | map ps => exact livePairs_inv h ps s hs
  | scalar t v => exact hs
  | seq t l => exact hs

theorem liveSeq_inv {σ : Type} {f : Node → σ → Live σ} {I : σ → Prop}
    (h : ∀ n s, I s → I (f n s).1) (v : Node) (s : σ) (hs : I s) : I (liveSeq f v s).1 := by
  have items : ∀ (l : List Node) (s : σ), I s → I (liveItems f l s).1 := by
    intro l
    induction l with
    | nil => exact fun s hs => hs
    | cons n l ih =>
      intro s hs
      have h1 := h n s hs
      unfold liveItems
      rcases hf : f n s with ⟨s', r⟩
      rw [hf] at h1
      cases r with
      | ok u => exact ih s' h1
      | err e => exact h1
      | panic c => exact h1
  cases v with
  | seq t l => exact items l s hs
  | scalar t v => exact hs
  | map ps => exact hs

theorem livePairs_sim {σ τ : Type} {f : Node → Node → σ → Live σ} {g : Node → Node → τ → Live τ}
    {I : σ → Prop} {V : σ → τ} (h : ∀ k v s, I s → I (f k v s).1)
    (hv : ∀ k v s, I s → (V (f k v s).1, (f k v s).2) = g k v (V s))
    (ps : List (Node × Node)) (s : σ) (hs : I s) :
    (V (livePairs f ps s).1, (livePairs f ps s).2) = livePairs g ps (V s) := by
  induction ps generalizing s with
  | nil => rfl
  | cons p ps ih =>
    have h1 := h p.1 p.2 s hs
    have h2 := hv p.1 p.2 s hs
    unfold livePairs
    rw [← h2]
    rcases hf : f p.1 p.2 s with ⟨s', r⟩
    rw [hf] at h1
    cases r with
    | ok u => exact ih s' h1
    | err e => rfl
    | panic c => rfl

theorem liveMap_sim {σ τ : Type} {f : Node → Node → σ → Live σ} {g : Node → Node → τ → Live τ}
    {I : σ → Prop} {V : σ → τ} (h : ∀ k v s, I s → I (f k v s).1)
    (hv : ∀ k v s, I s → (V (f k v s).1, (f k v s).2) = g k v (V s))
    (v : Node) (s : σ) (hs : I s) :
    (V (liveMap f v s).1, (liveMap f v s).2) = liveMap g v (V s) := by
  cases v with
  | map ps => exact livePairs_sim h hv ps s hs
  | scalar t v => rfl
  | seq t l => rfl

theorem liveSeq_sim {σ τ : Type} {f : Node → σ → Live σ} {g : Node → τ → Live τ}
    {I : σ → Prop} {V : σ → τ} (h : ∀ n s, I s → I (f n s).1)
    (hv : ∀ n s, I s → (V (f n s).1, (f n s).2) = g n (V s))
    (v : Node) (s : σ) (hs : I s) :
    (V (liveSeq f v s).1, (liveSeq f v s).2) = liveSeq g v (V s) := by
  have items : ∀ (l : List Node) (s : σ), I s →
      (V (liveItems f l s).1, (liveItems f l s).2) = liveItems g l (V s) := by
    intro l
    induction l with
    | nil => exact fun s hs => rfl
    | cons n l ih =>
      intro s hs
      have h1 := h n s hs
      have h2 := hv n s hs
      unfold liveItems
      rw [← h2]
      rcases hf : f n s with ⟨s', r⟩
      rw [hf] at h1
      cases r with
      | ok u => exact ih s' h1
      | err e => rfl
      | panic c => rfl
  cases v with
  | seq t l => exact items l s hs
  | scalar t v => rfl
  | map ps => rfl

theorem store_inv {σ α : Type} {r : Res α} {set : σ → α → σ} {I : σ → Prop}
    (h : ∀ s a, I s → I (set s a)) (s : σ) (hs : I s) : I (store r set s).1 := by
  cases r with
  | ok a => exact h s a hs
  | err e => exact hs
  | panic c => exact hs

theorem store_sim {σ τ α : Type} {r : Res α} {set : σ → α → σ} {set' : τ → α → τ}
    {V : σ → τ} (s : σ) (h : ∀ a, V (set s a) = set' (V s) a) :
    (V (store r set s).1, (store r set s).2) = store r set' (V s) := by
  cases r with
  | ok a => simp [store, h a]
  | err e => rfl
  | panic c => rfl

/-! ### The primitive changes -/

theorem put_mem {V : Type} {m : OM String V} {k : String} {v : V} {e : String × V}
    (h : e ∈ (m.put k v).ents) : e ∈ m.ents ∨ e = (k, v) := by
  simp only [OM.put, List.mem_append, List.mem_filter, List.mem_singleton] at h
  exact h.imp (·.1) id

theorem put_map {V W : Type} (m : OM String V) (k : String) (v : V) (f : V → W) :
    (⟨(m.put k v).ents.map fun e => (e.1, f e.2), (m.put k v).omap⟩ : OM String W) =
      (⟨m.ents.map fun e => (e.1, f e.2), m.omap⟩ : OM String W).put k (f v) := by
  simp only [OM.put, List.map_append, List.map_cons, List.map_nil, List.filter_map]
  rfl

theorem kept_putAnn {T : List Leaf} (L : Leaves) {m : Addr} (hm : .anns m ∈ T) (k : String)
    (x : Ann) : Kept T L (L.putAnn m k x) :=
  ⟨Nat.le_succ _, fun _ ha _ => upd_other _ _ (Nat.ne_of_lt ha),
    fun _ _ hT => upd_other _ _ (fun e => hT (e ▸ hm)),
    fun _ _ _ => rfl, fun _ _ _ => rfl, fun _ _ _ => rfl, fun _ _ _ => rfl, fun _ _ _ => rfl⟩

theorem ok_putAnn {L : Leaves} (ho : Ok L) (m : Addr) (k : String) (x : Ann) :
    Ok (L.putAnn m k x) := by
  have lt : ∀ {a : Nat}, a < L.next → a < L.next + 1 := fun h => Nat.lt_succ_of_lt h
  refine ⟨fun b e he => ?_, fun e => ⟨lt (ho.ex e).1, lt (ho.ex e).2⟩, fun d => lt (ho.doc d),
    fun d => lt (ho.api d), fun d y hy => lt (ho.docs d y hy), fun d => lt (ho.lib d)⟩
  by_cases hb : b = m
  · subst hb
    simp only [putAnn, upd_same] at he
    rcases put_mem he with h | h
    · exact lt (ho.am b e h)
    · rw [h]; exact Nat.lt_succ_self _
  · simp only [putAnn, upd_other _ _ hb] at he
    exact lt (ho.am b e he)

theorem annsVal_putAnn {L : Leaves} (ho : Ok L) (m : Addr) (k : String) (x : Ann) :
    (L.putAnn m k x).annsVal m = (L.annsVal m).put k x := by
  have h1 : (L.putAnn m k x).annsVal m =
      ⟨((L.am m).put k L.next).ents.map fun e => (e.1, upd L.um L.next x e.2),
        ((L.am m).put k L.next).omap⟩ := by
    simp only [annsVal, putAnn, upd_same]
  rw [h1, put_map, upd_same]
  congr 1
  simp only [annsVal]
  congr 1
  exact List.map_congr_left fun e he => by rw [upd_other _ _ (Nat.ne_of_lt (ho.am m e he))]

theorem kept_putExtra {T : List Leaf} (L : Leaves) {x : Addr} (hm : .extra x ∈ T) (k : Scalar)
    (v : Node) : Kept T L (L.putExtra x k v) :=
  ⟨Nat.le_refl _, fun _ _ _ => rfl, fun _ _ _ => rfl,
    fun _ _ hT => upd_other _ _ (fun e => hT (e ▸ hm)),
    fun _ _ _ => rfl, fun _ _ _ => rfl, fun _ _ _ => rfl, fun _ _ _ => rfl⟩

theorem ok_putExtra {L : Leaves} (ho : Ok L) (x : Addr) (k : Scalar) (v : Node) :
    Ok (L.putExtra x k v) := ⟨ho.am, ho.ex, ho.doc, ho.api, ho.docs, ho.lib⟩

theorem kept_setEx {T : List Leaf} (L : Leaves) {e : Addr} (hm : .ex e ∈ T) (v : Example) :
    Kept T L (L.setEx e v) :=
  ⟨Nat.le_refl _, fun _ _ _ => rfl, fun _ _ _ => rfl, fun _ _ _ => rfl,
    fun _ _ hT => upd_other _ _ (fun h => hT (h ▸ hm)),
    fun _ _ _ => rfl, fun _ _ _ => rfl, fun _ _ _ => rfl⟩

theorem ex_setEx (L : Leaves) (e b : Addr) (v : Example) :
    ((L.setEx e v).ex b).annotations = (L.ex b).annotations ∧
      ((L.setEx e v).ex b).extra = (L.ex b).extra := by
  by_cases h : b = e
  · subst h; simp [setEx, upd_same]
  · simp [setEx, upd_other _ _ h]

theorem ok_setEx {L : Leaves} (ho : Ok L) (e : Addr) (v : Example) : Ok (L.setEx e v) := by
  refine ⟨ho.am, fun b => ?_, ho.doc, ho.api, ho.docs, ho.lib⟩
  rw [(ex_setEx L e b v).1, (ex_setEx L e b v).2]
  exact ho.ex b

/-! ### Examples -/

/-- What stays true while an example is loaded. -/
structure ExInv (e : Addr) (A L : Leaves) : Prop where
  ok : Ok L
  kept : Kept [.ex e, .extra (A.ex e).extra, .anns (A.ex e).annotations] A L
  anns : (L.ex e).annotations = (A.ex e).annotations
  extra : (L.ex e).extra = (A.ex e).extra
  annsNew : ∀ p ∈ (L.am (A.ex e).annotations).ents,
    p ∈ (A.am (A.ex e).annotations).ents ∨ A.next ≤ p.2
  exs : ∀ b, (L.ex b).extra = (A.ex b).extra
  docs : L.doc = A.doc

theorem ExInv.step {e : Addr} {A L : Leaves} (h : ExInv e A L) (X : Xyml) (k v : Node) :
    ExInv e A (exAssign X e k v L).1 := by
  have hann : ∀ (L : Leaves) (x : Ann), ExInv e A L →
      ExInv e A (L.putAnn (L.ex e).annotations k.value x) := fun L x h =>
    ⟨ok_putAnn h.ok _ _ _, h.kept.trans (kept_putAnn L (by simp [h.anns]) _ _), h.anns, h.extra,
      fun p hp => by
        rw [h.anns] at hp
        simp only [putAnn, upd_same] at hp
        rcases put_mem hp with hp | hp
        · exact h.annsNew p hp
        · rw [hp]; exact .inr h.kept.next, h.exs, h.docs⟩
  have hext : ∀ (L : Leaves) (s : Scalar), ExInv e A L →
      ExInv e A (L.putExtra (L.ex e).extra s v) := fun L s h =>
    ⟨ok_putExtra h.ok _ _ _, h.kept.trans (kept_putExtra L (by simp [h.extra]) _ _), h.anns, h.extra,
      h.annsNew, h.exs, h.docs⟩
  have hset : ∀ (L : Leaves) (x : Example), ExInv e A L → ExInv e A (L.setEx e x) := fun L x h =>
    ⟨ok_setEx h.ok _ _, h.kept.trans (kept_setEx L (by simp) _), (ex_setEx L e e x).1.trans h.anns,
      (ex_setEx L e e x).2.trans h.extra, h.annsNew, fun b => (ex_setEx L e b x).2.trans (h.exs b),
      h.docs⟩
  unfold exAssign
  split
  · exact store_inv (fun L s hL => hext L s hL) L h
  · split
    · exact h
    · split
      · exact store_inv (fun L s hL => hann L s hL) L h
      · split
        · exact store_inv (fun L s hL => hset L _ hL) L h
        · split
          · exact store_inv (fun L s hL => hset L _ hL) L h
          · split
            · exact store_inv (fun L s hL => hset L _ hL) L h
            · split
              · exact hset L _ h
              · exact store_inv (fun L s hL => hext L s hL) L h

theorem ExInv.load {e : Addr} {L : Leaves} (ho : Ok L) (X : Xyml) (v : Node) :
    ExInv e L (exLoad X e v L).1 := by
  have h0 : ExInv e L L := ⟨ho, Kept.refl L, rfl, rfl, fun _ hp => .inl hp, fun _ => rfl, rfl⟩
  cases v with
  | map ps => exact livePairs_inv (fun k v s hs => hs.step X k v) ps L h0
  | scalar t x =>
    exact ⟨ok_setEx ho _ _, kept_setEx L (by simp) _, (ex_setEx L e e _).1, (ex_setEx L e e _).2,
      fun _ hp => .inl hp, fun b => (ex_setEx L e b _).2, rfl⟩
  | seq t l =>
    exact ⟨ok_setEx ho _ _, kept_setEx L (by simp) _, (ex_setEx L e e _).1, (ex_setEx L e e _).2,
      fun _ hp => .inl hp, fun b => (ex_setEx L e b _).2, rfl⟩

theorem liveVal_maps (X : Xyml) (v : Node) (x : Example) (A : OM String Ann) (E : OM Scalar Node) :
    ({ x with annotations := A, extra := E } : Example).liveVal X v =
      ({ (x.liveVal X v).1 with annotations := A, extra := E }, (x.liveVal X v).2) := by
  obtain ⟨kd, n, d, a, w, s, ex⟩ := x
  unfold Example.liveVal
  cases kd <;> simp only <;> (generalize exampleVal X _ v = r; cases r <;> rfl)

theorem exVal_setEx (L : Leaves) (e : Addr) (v : Example) :
    (L.setEx e v).exVal e =
      { v with annotations := (L.exVal e).annotations, extra := (L.exVal e).extra } := by
  simp only [exVal, setEx, upd_same, annsVal]

theorem exAssign_sim {X : Xyml} {e : Addr} {L : Leaves} (ho : Ok L) (k v : Node) :
    ((exAssign X e k v L).1.exVal e, (exAssign X e k v L).2) =
      (L.exVal e).liveAssign X k v := by
  have hext : ∀ s, (L.putExtra (L.ex e).extra s v).exVal e =
      { L.exVal e with extra := (L.exVal e).extra.put s v } := fun s => by
    simp only [exVal, putExtra, upd_same, annsVal]
  have hann : ∀ x, (L.putAnn (L.ex e).annotations k.value x).exVal e =
      { L.exVal e with annotations := (L.exVal e).annotations.put k.value x } := fun x => by
    have := annsVal_putAnn ho (L.ex e).annotations k.value x
    simp only [exVal]
    rw [← this]
    rfl
  unfold exAssign Example.liveAssign Example.assign Example.putExtra
  by_cases hk : k.isStr = true
  · simp only [hk, Bool.not_true, Bool.false_eq_true, if_false, Bool.true_and]
    cases hc : firstChar k.value with
    | none =>
      by_cases hv : k.value = "value"
      · rw [hv] at hc; exact absurd hc (by decide)
      · simp [hv, store]
    | some c =>
      simp only
      by_cases hp : c = '('
      · have hv : k.value ≠ "value" := by
          intro hv; rw [hv, hp] at hc; exact absurd hc (by decide)
        simp only [hp, if_true, beq_iff_eq, hv, if_false]
        cases loadAnn v with
        | ok a => simp only [store, Res.map, Res.bind, hann]
        | err e => rfl
        | panic c => rfl
      · simp only [hp, if_false]
        have hv : ∀ s : String, s ≠ "value" → k.value = s → ¬ (k.value == "value") = true :=
          fun s hs e => by rw [e]; simpa using hs
        by_cases h1 : k.value = "displayName"
        · rw [if_pos h1, if_pos h1, if_neg (hv _ (by decide) h1)]
          cases asString v <;> simp only [store, Res.map, Res.bind, exVal_setEx] <;> rfl
        · by_cases h2 : k.value = "description"
          · rw [if_neg h1, if_neg h1, if_pos h2, if_pos h2, if_neg (hv _ (by decide) h2)]
            cases asString v <;> simp only [store, Res.map, Res.bind, exVal_setEx] <;> rfl
          · by_cases h3 : k.value = "strict"
            · rw [if_neg h1, if_neg h1, if_neg h2, if_neg h2, if_pos h3, if_pos h3,
                if_neg (hv _ (by decide) h3)]
              cases asBool X v <;> simp only [store, Res.map, Res.bind, exVal_setEx] <;> rfl
            · by_cases h4 : k.value = "value"
              · rw [if_neg h1, if_neg h2, if_neg h3, if_pos h4, if_pos (by simp [h4])]
                have := liveVal_maps X v (L.ex e).v (L.exVal e).annotations (L.exVal e).extra
                simp only [Live.within, exVal_setEx]
                exact this.symm
              · simp only [h1, h2, h3, h4, beq_iff_eq, if_false]
                cases asScalar X k with
                | ok a => simp only [store, Res.map, Res.bind, hext]
                | err e => rfl
                | panic c => rfl
  · simp only [Bool.not_eq_true] at hk
    simp only [hk, Bool.not_false, if_true, Bool.false_and, Bool.false_eq_true, if_false]
    cases asScalar X k with
    | ok a => simp only [store, Res.map, Res.bind, hext]
    | err e => rfl
    | panic c => rfl

theorem exLoad_sim {X : Xyml} {e : Addr} {L : Leaves} (ho : Ok L) (v : Node) :
    ((exLoad X e v L).1.exVal e, (exLoad X e v L).2) = (L.exVal e).load X v := by
  have hval : ∀ w, ((((L.ex e).v.liveVal X w).within fun x => L.setEx e x).1.exVal e,
      (((L.ex e).v.liveVal X w).within fun x => L.setEx e x).2) = (L.exVal e).liveVal X w := by
    intro w
    have := liveVal_maps X w (L.ex e).v (L.exVal e).annotations (L.exVal e).extra
    simp [Live.within, exVal_setEx]
    exact this.symm
  cases v with
  | map ps =>
    exact livePairs_sim (I := Ok) (V := fun L => L.exVal e)
      (fun k v s hs => (ExInv.step ⟨hs, Kept.refl s, rfl, rfl, fun _ hp => .inl hp, fun _ => rfl, rfl⟩ X k v).ok)
      (fun k v s hs => exAssign_sim hs k v) ps L ho
  | scalar t x => exact hval _
  | seq t l => exact hval _

/-! ### Documentation entries -/

/-- What stays true while a documentation entry is loaded. -/
structure DocInv (d : Addr) (A L : Leaves) : Prop where
  ok : Ok L
  kept : Kept [.doc d, .extra (A.doc d).extra] A L
  extra : (L.doc d).extra = (A.doc d).extra

/-- Changing the text of an entry. -/
def setDoc (L : Leaves) (d : Addr) (t c : String) : Leaves :=
  { L with doc := upd L.doc d ⟨t, c, (L.doc d).extra⟩ }

theorem kept_setDoc {T : List Leaf} (L : Leaves) {d : Addr} (hm : .doc d ∈ T) (t c : String) :
    Kept T L (L.setDoc d t c) :=
  ⟨Nat.le_refl _, fun _ _ _ => rfl, fun _ _ _ => rfl, fun _ _ _ => rfl, fun _ _ _ => rfl,
    fun _ _ hT => upd_other _ _ (fun h => hT (h ▸ hm)), fun _ _ _ => rfl, fun _ _ _ => rfl⟩

theorem doc_setDoc (L : Leaves) (d b : Addr) (t c : String) :
    ((L.setDoc d t c).doc b).extra = (L.doc b).extra := by
  by_cases h : b = d
  · subst h; simp [setDoc, upd_same]
  · simp [setDoc, upd_other _ _ h]

theorem ok_setDoc {L : Leaves} (ho : Ok L) (d : Addr) (t c : String) : Ok (L.setDoc d t c) :=
  ⟨ho.am, ho.ex, fun b => by rw [doc_setDoc]; exact ho.doc b, ho.api, ho.docs, ho.lib⟩

theorem DocInv.step {d : Addr} {A L : Leaves} (h : DocInv d A L) (X : Xyml) (k v : Node) :
    DocInv d A (docAssign X d k v L).1 := by
  have hext : ∀ (L : Leaves) (s : Scalar), DocInv d A L →
      DocInv d A (L.putExtra (L.doc d).extra s v) := fun L s h =>
    ⟨ok_putExtra h.ok _ _ _, h.kept.trans (kept_putExtra L (by simp [h.extra]) _ _), h.extra⟩
  have hset : ∀ (L : Leaves) (t c : String), DocInv d A L → DocInv d A (L.setDoc d t c) :=
    fun L t c h => ⟨ok_setDoc h.ok _ _ _, h.kept.trans (kept_setDoc L (by simp) _ _),
      (doc_setDoc L d d t c).trans h.extra⟩
  unfold docAssign
  split
  · exact hset L _ _ h
  · split
    · exact hset L _ _ h
    · exact store_inv (fun L s hL => hext L s hL) L h

theorem DocInv.load {d : Addr} {L : Leaves} (ho : Ok L) (X : Xyml) (v : Node) :
    DocInv d L (docLoad X d v L).1 :=
  liveMap_inv (I := DocInv d L) (fun k v s hs => DocInv.step hs X k v) v L ⟨ho, Kept.refl L, rfl⟩

theorem docLoad_sim (X : Xyml) (d : Addr) (L : Leaves) (v : Node) :
    ((docLoad X d v L).1.docVal d, (docLoad X d v L).2) = (L.docVal d).load X v := by
  refine liveMap_sim (I := fun _ => True) (V := fun L => L.docVal d) (fun _ _ _ _ => trivial)
    (fun k v L _ => ?_) v L trivial
  unfold docAssign Documentation.assign
  by_cases h1 : k.value = "title"
  · simp [h1, docVal, upd_same, store]
  · by_cases h2 : k.value = "content"
    · simp [h2, docVal, upd_same, store]
    · simp only [h1, h2, if_false]
      cases asScalar X k with
      | ok a => simp [store, Res.map, Res.bind, docVal, putExtra, upd_same]
      | err e => rfl
      | panic c => rfl

/-! ### API documents -/

/-- What stays true while an API document is loaded. -/
structure ApiInv (d : Addr) (A L : Leaves) : Prop where
  ok : Ok L
  kept : Kept [.api d, .anns (A.api d).annotations] A L
  anns : (L.api d).annotations = (A.api d).annotations
  annsNew : ∀ e ∈ (L.am (A.api d).annotations).ents,
    e ∈ (A.am (A.api d).annotations).ents ∨ A.next ≤ e.2
  docsNew : ∃ l : List Addr, (L.api d).docs.getD [] = (A.api d).docs.getD [] ++ l ∧ l.Nodup ∧
    ∀ x ∈ l, A.next ≤ x ∧ x < L.next ∧ (L.doc x).extra = x

theorem ApiInv.ann {d : Addr} {A L : Leaves} (h : ApiInv d A L) (k : String) (x : Ann) :
    ApiInv d A (L.putAnn (L.api d).annotations k x) := by
  refine ⟨ok_putAnn h.ok _ _ _, h.kept.trans (kept_putAnn L (by simp [h.anns]) _ _), h.anns, ?_, ?_⟩
  · intro e he
    rw [h.anns] at he
    simp only [putAnn, upd_same] at he
    rcases put_mem he with he | he
    · exact h.annsNew e he
    · rw [he]; exact .inr h.kept.next
  · obtain ⟨l, h1, h2, h3⟩ := h.docsNew
    exact ⟨l, h1, h2, fun x hx =>
      ⟨(h3 x hx).1, Nat.lt_succ_of_lt (h3 x hx).2.1, (h3 x hx).2.2⟩⟩

theorem ApiInv.value {d : Addr} {A L : Leaves} (h : ApiInv d A L) (a : APISpec) :
    ApiInv d A { L with api := upd L.api d { L.api d with v := a } } := by
  have hb : ∀ b, (upd L.api d { L.api d with v := a } b).annotations = (L.api b).annotations ∧
      (upd L.api d { L.api d with v := a } b).docs = (L.api b).docs := by
    intro b
    by_cases hb : b = d
    · subst hb; simp [upd_same]
    · simp [upd_other _ _ hb]
  refine ⟨⟨h.ok.am, h.ok.ex, h.ok.doc, fun b => ?_, fun b x hx => ?_, h.ok.lib⟩,
    h.kept.trans ⟨Nat.le_refl _, fun _ _ _ => rfl, fun _ _ _ => rfl, fun _ _ _ => rfl,
      fun _ _ _ => rfl, fun _ _ _ => rfl, fun b _ hT => ?_, fun _ _ _ => rfl⟩,
    (hb d).1.trans h.anns, h.annsNew, ?_⟩
  · rw [show (Leaves.api { L with api := upd L.api d { L.api d with v := a } } b).annotations =
      (L.api b).annotations from (hb b).1]
    exact h.ok.api b
  · rw [show (Leaves.api { L with api := upd L.api d { L.api d with v := a } } b).docs =
      (L.api b).docs from (hb b).2] at hx
    exact h.ok.docs b x hx
  · exact upd_other _ _ fun e => hT (by simp [e])
  · obtain ⟨l, h1, h2, h3⟩ := h.docsNew
    refine ⟨l, ?_, h2, h3⟩
    rw [show (Leaves.api { L with api := upd L.api d { L.api d with v := a } } d).docs =
      (L.api d).docs from (hb d).2]
    exact h1

/-- Appending a new entry. -/
def pushEntry (L : Leaves) (d : Addr) (x : Documentation) : Leaves :=
  { L.newEntry x with
    api := upd L.api d { L.api d with docs := some ((L.api d).docs.getD [] ++ [L.next]) } }

theorem kept_newEntry {T : List Leaf} (L : Leaves) (x : Documentation) : Kept T L (L.newEntry x) :=
  ⟨Nat.le_succ _, fun _ _ _ => rfl, fun _ _ _ => rfl,
    fun _ ha _ => upd_other _ _ (Nat.ne_of_lt ha), fun _ _ _ => rfl,
    fun _ ha _ => upd_other _ _ (Nat.ne_of_lt ha), fun _ _ _ => rfl, fun _ _ _ => rfl⟩

theorem ok_newEntry {L : Leaves} (ho : Ok L) (x : Documentation) : Ok (L.newEntry x) := by
  have lt : ∀ {a : Nat}, a < L.next → a < L.next + 1 := fun h => Nat.lt_succ_of_lt h
  refine ⟨fun m e he => lt (ho.am m e he), fun e => ⟨lt (ho.ex e).1, lt (ho.ex e).2⟩, fun b => ?_,
    fun d => lt (ho.api d), fun d y hy => lt (ho.docs d y hy), fun d => lt (ho.lib d)⟩
  by_cases hb : b = L.next
  · subst hb; simp only [newEntry, upd_same]; exact Nat.lt_succ_self _
  · simp only [newEntry, upd_other _ _ hb]; exact lt (ho.doc b)

theorem ApiInv.entry {d : Addr} {A L : Leaves} (h : ApiInv d A L) (x : Documentation) :
    ApiInv d A (L.pushEntry d x) := by
  have h0 := ok_newEntry h.ok x
  have hd : ∀ b ≠ d, (L.pushEntry d x).api b = L.api b := fun b hb => upd_other _ _ hb
  have hs : (L.pushEntry d x).api d =
    { L.api d with docs := some ((L.api d).docs.getD [] ++ [L.next]) } := upd_same _ _ _
  refine ⟨⟨h0.am, h0.ex, h0.doc, fun b => ?_, fun b y hy => ?_, h0.lib⟩, ?_, ?_, h.annsNew, ?_⟩
  · by_cases hb : b = d
    · subst hb; rw [hs]; exact h0.api b
    · rw [hd b hb]; exact h0.api b
  · by_cases hb : b = d
    · subst hb
      rw [hs] at hy
      simp only [Option.getD_some, List.mem_append, List.mem_singleton] at hy
      rcases hy with hy | hy
      · exact h0.docs b y hy
      · rw [hy]; exact Nat.lt_succ_self _
    · rw [hd b hb] at hy; exact h0.docs b y hy
  · have hk : Kept [.api d, .anns (A.api d).annotations] L (L.newEntry x) := kept_newEntry L x
    exact h.kept.trans ⟨hk.next, hk.um, hk.am, hk.xm, hk.ex, hk.doc,
      fun b _ hT => upd_other _ _ fun e => hT (by simp [e]), hk.lib⟩
  · rw [hs]; exact h.anns
  · obtain ⟨l, h1, h2, h3⟩ := h.docsNew
    refine ⟨l ++ [L.next], ?_, ?_, ?_⟩
    · rw [hs]; simp [h1]
    · refine List.nodup_append.mpr ⟨h2, by simp, ?_⟩
      intro a ha b hb
      simp only [List.mem_singleton] at hb
      subst hb
      exact Nat.ne_of_lt (h3 a ha).2.1
    · intro y hy
      simp only [List.mem_append, List.mem_singleton] at hy
      rcases hy with hy | hy
      · refine ⟨(h3 y hy).1, Nat.lt_succ_of_lt (h3 y hy).2.1, ?_⟩
        refine Eq.trans ?_ (h3 y hy).2.2
        exact congrArg EntryObj.extra (upd_other L.doc _ (Nat.ne_of_lt (h3 y hy).2.1))
      · rw [hy]
        exact ⟨h.kept.next, Nat.lt_succ_self _, congrArg EntryObj.extra (upd_same L.doc _ _)⟩

theorem ApiInv.step {d : Addr} {A L : Leaves} (h : ApiInv d A L) (X : Xyml) (k v : Node) :
    ApiInv d A (apiAssign X d k v L).1 := by
  unfold apiAssign
  split
  · exact store_inv (fun L s hL => hL.ann _ s) L h
  · split
    · exact liveSeq_inv (fun n s hs => store_inv (fun L x hL => hL.entry x) s hs) v L h
    · exact h.value _

theorem ApiInv.refl {d : Addr} {L : Leaves} (ho : Ok L) : ApiInv d L L :=
  ⟨ho, Kept.refl L, rfl, fun _ he => .inl he, [], by simp, by simp, by simp⟩

theorem ApiInv.load {d : Addr} {L : Leaves} (ho : Ok L) (X : Xyml) (v : Node) :
    ApiInv d L (apiLoad X d v L).1 :=
  liveMap_inv (I := ApiInv d L) (fun k v s hs => ApiInv.step hs X k v) v L (ApiInv.refl ho)

theorem liveAssign_other (X : Xyml) (k v : Node) (a : APISpec) (A : OM String Ann)
    (D : Option (List Documentation)) (h1 : ¬ (k.isStr ∧ firstChar k.value = some '('))
    (h2 : ¬ (k.isStr ∧ k.value = "documentation")) :
    ({ a with annotations := A, documentation := D } : APISpec).liveAssign X k v =
      ({ (a.liveAssign X k v).1 with annotations := A, documentation := D },
        (a.liveAssign X k v).2) := by
  have hst : ∀ {α : Type} (r : Res α) (f g : APISpec → α → APISpec),
      (∀ x, f { a with annotations := A, documentation := D } x =
        { g a x with annotations := A, documentation := D }) →
      store r f { a with annotations := A, documentation := D } =
        ({ (store r g a).1 with annotations := A, documentation := D }, (store r g a).2) := by
    intro α r f g hfg
    cases r with
    | ok x => simp [store, hfg x]
    | err e => rfl
    | panic c => rfl
  unfold APISpec.liveAssign
  by_cases hk : k.isStr = true
  · simp only [hk, Bool.not_true, Bool.false_eq_true, if_false]
    cases hc : firstChar k.value with
    | none => rfl
    | some c =>
      have hp : c ≠ '(' := fun e => h1 ⟨hk, by rw [hc, e]⟩
      have hdoc : k.value ≠ "documentation" := fun e => h2 ⟨hk, e⟩
      simp only [hp, if_false]
      by_cases hs : c = '/'
      · simp only [hs, if_true]
      · simp only [hs, if_false]
        unfold APISpec.liveKey
        simp only [hdoc, if_false]
        by_cases e1 : k.value = "title"
        · simp only [if_pos e1]; exact hst _ _ _ (fun _ => by rfl)
        simp only [if_neg e1]
        by_cases e2 : k.value = "version"
        · simp only [if_pos e2]; exact hst _ _ _ (fun _ => by rfl)
        simp only [if_neg e2]
        by_cases e3 : k.value = "baseUri"
        · simp only [if_pos e3]; exact hst _ _ _ (fun _ => by rfl)
        simp only [if_neg e3]
        by_cases e4 : k.value = "description"
        · simp only [if_pos e4]; exact hst _ _ _ (fun _ => by rfl)
        simp only [if_neg e4]
        by_cases e5 : k.value = "protocols"
        · simp only [if_pos e5]; exact hst _ _ _ (fun _ => by rfl)
        simp only [if_neg e5]
        by_cases e6 : k.value = "mediaType"
        · simp only [if_pos e6]
          by_cases hm : v.isStr = true
          · simp only [if_pos hm]
          · simp only [if_neg hm]; exact hst _ _ _ (fun _ => by rfl)
        simp only [if_neg e6]
        by_cases e7 : k.value = "securedBy"
        · simp only [if_pos e7]; exact hst _ _ _ (fun _ => by rfl)
        simp only [if_neg e7]
        by_cases e8 : k.value = "uses"
        · simp only [if_pos e8]; rfl
        simp only [if_neg e8]
        by_cases e9 : k.value = "securitySchemes"
        · simp only [if_pos e9]; rfl
        simp only [if_neg e9]
        by_cases e10 : k.value = "baseUriParameters"
        · simp only [if_pos e10]; rfl
        simp only [if_neg e10]
        by_cases e11 : k.value = "traits"
        · simp only [if_pos e11]; rfl
        simp only [if_neg e11]
        by_cases e12 : k.value = "annotationTypes"
        · simp only [if_pos e12]; rfl
        simp only [if_neg e12]
        by_cases e13 : k.value = "resourceTypes"
        · simp only [if_pos e13]; rfl
        simp only [if_neg e13]
        by_cases e14 : k.value = "types" ∨ k.value = "schemas"
        · simp only [if_pos e14]; rfl
        simp only [if_neg e14]
        exact hst _ _ _ (fun _ => by rfl)
  · simp only [Bool.not_eq_true] at hk
    simp only [hk, Bool.not_false, if_true]
    exact hst _ _ _ (fun _ => by rfl)

theorem apiVal_putAnn {L : Leaves} (ho : Ok L) (d : Addr) (k : String) (x : Ann) :
    (L.putAnn (L.api d).annotations k x).apiVal d =
      { L.apiVal d with annotations := (L.apiVal d).annotations.put k x } := by
  have := annsVal_putAnn ho (L.api d).annotations k x
  simp only [apiVal]
  rw [← this]
  rfl

theorem docVal_newEntry {L : Leaves} (ho : Ok L) (x : Documentation) :
    (L.newEntry x).docVal L.next = x ∧
      ∀ b < L.next, (L.newEntry x).docVal b = L.docVal b := by
  refine ⟨by simp [docVal, newEntry, upd_same], fun b hb => ?_⟩
  have h1 : upd L.doc L.next ⟨x.title, x.content, L.next⟩ b = L.doc b :=
    upd_other _ _ (Nat.ne_of_lt hb)
  simp only [docVal, newEntry, h1]
  rw [upd_other _ _ (Nat.ne_of_lt (ho.doc b))]

theorem apiVal_pushEntry {L : Leaves} (ho : Ok L) (d : Addr) (x : Documentation) :
    (L.pushEntry d x).apiVal d = { L.apiVal d with
      documentation := some ((L.apiVal d).documentation.getD [] ++ [x]) } := by
  have hs : (L.pushEntry d x).api d =
    { L.api d with docs := some ((L.api d).docs.getD [] ++ [L.next]) } := upd_same _ _ _
  have hv : (L.pushEntry d x).docVal = (L.newEntry x).docVal := rfl
  have ha : (L.pushEntry d x).annsVal = L.annsVal := rfl
  obtain ⟨h1, h2⟩ := docVal_newEntry ho x
  simp only [apiVal, hs, hv, ha]
  congr 1
  simp only [Option.map_some, List.map_append, List.map_cons, List.map_nil, h1]
  congr 2
  cases hq : (L.api d).docs with
  | none => rfl
  | some l =>
    simp only [Option.getD_some, Option.map_some]
    exact List.map_congr_left fun y hy => h2 y (ho.docs d y (by rw [hq]; exact hy))

theorem apiAssign_sim {X : Xyml} {d : Addr} {L : Leaves} (ho : Ok L) (k v : Node) :
    ((apiAssign X d k v L).1.apiVal d, (apiAssign X d k v L).2) =
      (L.apiVal d).liveAssign X k v := by
  unfold apiAssign
  by_cases h1 : k.isStr ∧ firstChar k.value = some '('
  · rw [if_pos h1]
    unfold APISpec.liveAssign
    simp only [h1.1, h1.2, Bool.not_true, Bool.false_eq_true, if_false, if_true]
    exact store_sim (V := fun L => L.apiVal d)
      (set := fun L x => L.putAnn (L.api d).annotations k.value x)
      (set' := fun a x => { a with annotations := a.annotations.put k.value x }) L fun x => apiVal_putAnn ho d k.value x
  · rw [if_neg h1]
    by_cases h2 : k.isStr ∧ k.value = "documentation"
    · rw [if_pos h2]
      have hc : firstChar k.value = some 'd' := by rw [h2.2]; decide
      have hk : (L.apiVal d).liveAssign X k v =
          (liveDocs X v (L.apiVal d).documentation).within fun l =>
            { L.apiVal d with documentation := l } := by
        unfold APISpec.liveAssign
        rw [hc]
        simp only [h2.1, Bool.not_true, Bool.false_eq_true, if_false,
          show ('d' : Char) ≠ '(' by decide, show ('d' : Char) ≠ '/' by decide]
        unfold APISpec.liveKey
        simp [h2.2]
      rw [hk]
      have hsim := liveSeq_sim (f := addEntry X d)
        (g := fun n (a : APISpec) => store (loadDocumentation X n)
          (fun a x => { a with documentation := some (a.documentation.getD [] ++ [x]) }) a)
        (I := Ok) (V := fun L => L.apiVal d)
        (fun n s hs => (store_inv (I := ApiInv d s) (fun L x hL => hL.entry x) s
          (ApiInv.refl hs)).ok)
        (fun n s hs => store_sim (V := fun L => L.apiVal d) s fun x => by exact apiVal_pushEntry hs d x)
        v L ho
      rw [hsim]
      have hsec := liveSeq_sim (f := fun n (l : Option (List Documentation)) =>
          store (loadDocumentation X n) (fun l x => some (l.getD [] ++ [x])) l)
        (g := fun n (a : APISpec) => store (loadDocumentation X n)
          (fun a x => { a with documentation := some (a.documentation.getD [] ++ [x]) }) a)
        (I := fun _ => True) (V := fun l => { L.apiVal d with documentation := l })
        (fun _ _ _ => trivial)
        (fun n s _ => store_sim (V := fun l => { L.apiVal d with documentation := l }) s
          fun x => by rfl) v (L.apiVal d).documentation trivial
      exact hsec.symm
    · rw [if_neg h2]
      have := liveAssign_other X k v (L.api d).v (L.apiVal d).annotations
        (L.apiVal d).documentation h1 h2
      refine Eq.trans ?_ this.symm
      simp only [Live.within, apiVal, upd_same]
      rfl

theorem apiLoad_sim {X : Xyml} {d : Addr} {L : Leaves} (ho : Ok L) (v : Node) :
    ((apiLoad X d v L).1.apiVal d, (apiLoad X d v L).2) = (L.apiVal d).load X v :=
  liveMap_sim (I := Ok) (V := fun L => L.apiVal d)
    (fun k v _ hs => (ApiInv.step (ApiInv.refl hs) X k v).ok)
    (fun k v _ hs => apiAssign_sim hs k v) v L ho

/-! ### Libraries -/

/-- What stays true while a library is loaded. -/
structure LibInv (d : Addr) (A L : Leaves) : Prop where
  ok : Ok L
  kept : Kept [.lib d, .anns (A.lib d).annotations] A L
  anns : (L.lib d).annotations = (A.lib d).annotations
  annsNew : ∀ e ∈ (L.am (A.lib d).annotations).ents,
    e ∈ (A.am (A.lib d).annotations).ents ∨ A.next ≤ e.2

theorem LibInv.ann {d : Addr} {A L : Leaves} (h : LibInv d A L) (k : String) (x : Ann) :
    LibInv d A (L.putAnn (A.lib d).annotations k x) := by
  refine ⟨ok_putAnn h.ok _ _ _, h.kept.trans (kept_putAnn L (by simp) _ _), h.anns, ?_⟩
  intro e he
  simp only [putAnn, upd_same] at he
  rcases put_mem he with he | he
  · exact h.annsNew e he
  · rw [he]; exact .inr h.kept.next

theorem LibInv.value {d : Addr} {A L : Leaves} (h : LibInv d A L) (a : Library) :
    LibInv d A { L with lib := upd L.lib d { L.lib d with v := a } } := by
  have hb : ∀ b, (upd L.lib d { L.lib d with v := a } b).annotations = (L.lib b).annotations := by
    intro b
    by_cases hb : b = d
    · subst hb; simp [upd_same]
    · simp [upd_other _ _ hb]
  refine ⟨⟨h.ok.am, h.ok.ex, h.ok.doc, h.ok.api, h.ok.docs, fun b => ?_⟩,
    h.kept.trans ⟨Nat.le_refl _, fun _ _ _ => rfl, fun _ _ _ => rfl, fun _ _ _ => rfl,
      fun _ _ _ => rfl, fun _ _ _ => rfl, fun _ _ _ => rfl, fun b _ hT => ?_⟩,
    (hb d).trans h.anns, h.annsNew⟩
  · rw [show (Leaves.lib { L with lib := upd L.lib d { L.lib d with v := a } } b).annotations =
      (L.lib b).annotations from hb b]
    exact h.ok.lib b
  · exact upd_other _ _ fun e => hT (by simp [e])

theorem LibInv.step {d : Addr} {A L : Leaves} (h : LibInv d A L) (X : Xyml) (k v : Node) :
    LibInv d A (libAssign X d k v L).1 := by
  unfold libAssign
  split
  · rw [h.anns]
    exact liveMap_inv (fun k v s hs => store_inv (fun L e hL => hL.ann e.1 e.2) s hs) v L h
  · split
    · exact store_inv (fun L s hL => by rw [hL.anns]; exact hL.ann _ s) L h
    · exact h.value _

theorem LibInv.refl {d : Addr} {L : Leaves} (ho : Ok L) : LibInv d L L :=
  ⟨ho, Kept.refl L, rfl, fun _ he => .inl he⟩

theorem LibInv.load {d : Addr} {L : Leaves} (ho : Ok L) (X : Xyml) (v : Node) :
    LibInv d L (libLoad X d v L).1 :=
  liveMap_inv (I := LibInv d L) (fun k v s hs => LibInv.step hs X k v) v L (LibInv.refl ho)

theorem libVal_putAnn {L : Leaves} (ho : Ok L) (d : Addr) (k : String) (x : Ann) :
    (L.putAnn (L.lib d).annotations k x).libVal d =
      { L.libVal d with annotations := (L.libVal d).annotations.put k x } := by
  have := annsVal_putAnn ho (L.lib d).annotations k x
  simp only [libVal]
  rw [← this]
  rfl

theorem libLive_other (X : Xyml) (k v : Node) (a : Library) (A : OM String Ann)
    (h1 : k.value ≠ "annotationTypes") (h2 : ¬ (k.isStr ∧ firstChar k.value = some '(')) :
    ({ a with annotations := A } : Library).liveAssign X k v =
      ({ (a.liveAssign X k v).1 with annotations := A }, (a.liveAssign X k v).2) := by
  have hst : ∀ {α : Type} (r : Res α) (f g : Library → α → Library),
      (∀ x, f { a with annotations := A } x = { g a x with annotations := A }) →
      store r f { a with annotations := A } =
        ({ (store r g a).1 with annotations := A }, (store r g a).2) := by
    intro α r f g hfg
    cases r with
    | ok x => simp [store, hfg x]
    | err e => rfl
    | panic c => rfl
  unfold Library.liveAssign
  simp only [h1, if_false]
  repeat' split
  all_goals first
    | rfl
    | exact hst _ _ _ (fun _ => by rfl)
    | (rename_i hk _ _ hc hp; exact absurd ⟨hk, by rw [hc, hp]⟩ h2)

theorem libAssign_sim {X : Xyml} {d : Addr} {L : Leaves} (ho : Ok L) (k v : Node) :
    ((libAssign X d k v L).1.libVal d, (libAssign X d k v L).2) =
      (L.libVal d).liveAssign X k v := by
  unfold libAssign
  by_cases h1 : k.value = "annotationTypes"
  · rw [if_pos h1]
    have hk : (L.libVal d).liveAssign X k v =
        (liveAnns v (L.libVal d).annotations).within fun m =>
          { L.libVal d with annotations := m } := by
      unfold Library.liveAssign
      simp [h1]
    rw [hk]
    have hsim := liveMap_sim (I := LibInv d L) (V := fun L => L.libVal d)
      (f := fun k v M => store ((asString k).bind fun s => (loadAnn v).map fun t => (s, t))
        (fun M e => M.putAnn (L.lib d).annotations e.1 e.2) M)
      (g := fun k v (a : Library) =>
        store ((asString k).bind fun s => (loadAnn v).map fun t => (s, t))
        (fun a e => { a with annotations := a.annotations.put e.1 e.2 }) a)
      (fun k v s hs => store_inv (fun L e hL => hL.ann e.1 e.2) s hs)
      (fun k v s hs => store_sim (V := fun L => L.libVal d) s fun e => by
        rw [← hs.anns]; exact libVal_putAnn hs.ok d e.1 e.2)
      v L (LibInv.refl ho)
    refine Eq.trans hsim ?_
    have hsec := liveMap_sim (I := fun _ => True)
      (V := fun m => { L.libVal d with annotations := m })
      (f := fun k v (m : OM String Ann) =>
        store ((asString k).bind fun s => (loadAnn v).map fun t => (s, t))
        (fun m e => m.put e.1 e.2) m)
      (g := fun k v (a : Library) =>
        store ((asString k).bind fun s => (loadAnn v).map fun t => (s, t))
        (fun a e => { a with annotations := a.annotations.put e.1 e.2 }) a)
      (fun _ _ _ _ => trivial)
      (fun k v s _ => store_sim (V := fun m => { L.libVal d with annotations := m }) s
        fun e => by rfl) v (L.libVal d).annotations trivial
    exact hsec.symm
  · rw [if_neg h1]
    by_cases h2 : k.isStr ∧ firstChar k.value = some '('
    · rw [if_pos h2]
      have hne : ∀ s : String, firstChar s ≠ some '(' → k.value ≠ s :=
        fun s hs e => hs (e ▸ h2.2)
      unfold Library.liveAssign
      simp only [h1, if_false, h2.1, h2.2, if_true,
        hne "resourceTypes" (by decide), hne "types" (by decide), hne "schemas" (by decide),
        hne "traits" (by decide), hne "uses" (by decide), hne "usage" (by decide),
        hne "securitySchemes" (by decide), or_self]
      exact store_sim (V := fun L => L.libVal d)
        (set := fun L x => L.putAnn (L.lib d).annotations k.value x)
        (set' := fun a x => { a with annotations := a.annotations.put k.value x }) L fun x => libVal_putAnn ho d k.value x
    · rw [if_neg h2]
      have := libLive_other X k v (L.lib d).v (L.libVal d).annotations h1 h2
      refine Eq.trans ?_ this.symm
      simp only [Live.within, libVal, upd_same]
      rfl

theorem libLoad_sim {X : Xyml} {d : Addr} {L : Leaves} (ho : Ok L) (v : Node) :
    ((libLoad X d v L).1.libVal d, (libLoad X d v L).2) = (L.libVal d).load X v :=
  liveMap_sim (I := Ok) (V := fun L => L.libVal d)
    (fun k v _ hs => (LibInv.step (LibInv.refl hs) X k v).ok)
    (fun k v _ hs => libAssign_sim hs k v) v L ho

/-! ### Steps -/

theorem ok_next {L : Leaves} (ho : Ok L) {um : Addr → OM String Node} {xm : Addr → OM Scalar Node} :
    Ok { L with um := um, xm := xm, next := L.next + 1 } := by
  have lt : ∀ {a : Nat}, a < L.next → a < L.next + 1 := fun h => Nat.lt_succ_of_lt h
  exact ⟨fun m e he => lt (ho.am m e he), fun e => ⟨lt (ho.ex e).1, lt (ho.ex e).2⟩,
    fun d => lt (ho.doc d), fun d => lt (ho.api d), fun d x hx => lt (ho.docs d x hx),
    fun d => lt (ho.lib d)⟩

theorem ok_am {L : Leaves} (ho : Ok L) (m : Addr) {x : OM String Addr}
    (hx : ∀ e ∈ x.ents, e.2 < L.next) : Ok { L with am := upd L.am m x } := by
  refine ⟨fun b e he => ?_, ho.ex, ho.doc, ho.api, ho.docs, ho.lib⟩
  by_cases hb : b = m
  · subst hb; simp only [upd_same] at he; exact hx e he
  · simp only [upd_other _ _ hb] at he; exact ho.am b e he

theorem ok_exs {L : Leaves} (ho : Ok L) (a : Addr) {x : ExObj}
    (hx : x.annotations < L.next ∧ x.extra < L.next) : Ok { L with ex := upd L.ex a x } := by
  refine ⟨ho.am, fun b => ?_, ho.doc, ho.api, ho.docs, ho.lib⟩
  by_cases hb : b = a
  · subst hb; simp only [upd_same]; exact hx
  · simp only [upd_other _ _ hb]; exact ho.ex b

theorem ok_apis {L : Leaves} (ho : Ok L) (a : Addr) {x : SpecObj}
    (hx : x.annotations < L.next) (hd : ∀ y ∈ x.docs.getD [], y < L.next) :
    Ok { L with api := upd L.api a x } := by
  refine ⟨ho.am, ho.ex, ho.doc, fun b => ?_, fun b => ?_, ho.lib⟩
  · by_cases hb : b = a
    · subst hb; simp only [upd_same]; exact hx
    · simp only [upd_other _ _ hb]; exact ho.api b
  · by_cases hb : b = a
    · subst hb; simp only [upd_same]; exact hd
    · simp only [upd_other _ _ hb]; exact ho.docs b

theorem ok_libs {L : Leaves} (ho : Ok L) (a : Addr) {x : ShelfObj}
    (hx : x.annotations < L.next) : Ok { L with lib := upd L.lib a x } := by
  refine ⟨ho.am, ho.ex, ho.doc, ho.api, ho.docs, fun b => ?_⟩
  by_cases hb : b = a
  · subst hb; simp only [upd_same]; exact hx
  · simp only [upd_other _ _ hb]; exact ho.lib b

theorem empty_lt {b : Bool} {n : Nat} : ∀ e ∈ (OM.empty b : OM String Addr).ents, e.2 < n :=
  fun _ he => by simp [OM.empty] at he

/-- A new annotation map. -/
theorem ok_newAnns {L : Leaves} (ho : Ok L) (b : Bool) :
    Ok { L with am := upd L.am L.next (OM.empty b), next := L.next + 1 } :=
  ok_am (L := { L with next := L.next + 1 }) (ok_next ho) L.next empty_lt

theorem ok_act {X : Xyml} {L : Leaves} (ho : Ok L) {s : Step} (hl : L.Legal s) :
    Ok (L.act X s) := by
  have lt : ∀ {a : Nat}, a < L.next → a < L.next + 1 := fun h => Nat.lt_succ_of_lt h
  cases s with
  | newAnn => exact ok_next ho
  | newAnns => exact ok_newAnns ho true
  | newExtra => exact ok_next ho
  | newExample k =>
    exact ok_exs
      (L := { L with
        am := upd L.am L.next (OM.empty false)
        next := L.next + 1
        xm := upd L.xm L.next (OM.empty false) })
      (ok_am (L := { L with next := L.next + 1, xm := upd L.xm L.next (OM.empty false) })
        (ok_next ho) L.next empty_lt) L.next ⟨Nat.lt_succ_self _, Nat.lt_succ_self _⟩
  | newDoc => exact ok_newEntry ho _
  | newApi =>
    exact ok_apis (ok_newAnns ho false) L.next (Nat.lt_succ_self _) (fun y hy => by simp at hy)
  | newLib => exact ok_libs (ok_newAnns ho false) L.next (Nat.lt_succ_self _)
  | editAnn a f => exact ⟨ho.am, ho.ex, ho.doc, ho.api, ho.docs, ho.lib⟩
  | editAnns m f => exact ok_am ho m hl.2
  | editExtra x f => exact ⟨ho.am, ho.ex, ho.doc, ho.api, ho.docs, ho.lib⟩
  | onEx e op => exact ok_setEx ho _ _
  | setExAnns e m =>
    cases m with
    | some m => exact ok_exs ho e ⟨hl.2 m rfl, (ho.ex e).2⟩
    | none => exact ok_exs (ok_newAnns ho true) e ⟨Nat.lt_succ_self _, lt (ho.ex e).2⟩
  | setTitle d s => exact ok_setDoc ho d s (L.doc d).content
  | setContent d s => exact ok_setDoc ho d (L.doc d).title s
  | onApi d op =>
    simp only [act]
    split
    · exact ok_apis ho d (ho.api d) (ho.docs d)
    · exact ho
  | setApiAnns d m =>
    cases m with
    | some m => exact ok_apis ho d (hl.2 m rfl) (ho.docs d)
    | none =>
      exact ok_apis (ok_newAnns ho true) d (Nat.lt_succ_self _)
        (fun y hy => lt (ho.docs d y hy))
  | setDocs d l => exact ok_apis ho d (ho.api d) hl.2
  | onLib d op =>
    simp only [act]
    split
    · exact ok_libs ho d (ho.lib d)
    · exact ho
  | setLibAnns d m =>
    cases m with
    | some m => exact ok_libs ho d (hl.2 m rfl)
    | none => exact ok_libs (ok_newAnns ho true) d (Nat.lt_succ_self _)
  | loadEx e v => exact (ExInv.load ho X v).ok
  | loadDoc d v => exact (DocInv.load ho X v).ok
  | loadApi d v => exact (ApiInv.load ho X v).ok
  | loadLib d v => exact (LibInv.load ho X v).ok

theorem kept_act {X : Xyml} {L : Leaves} (ho : Ok L) (s : Step) :
    Kept (L.touches s) L (L.act X s) := by
  have new : ∀ {α : Type} (f : Addr → α) (x : α) (a : Addr), a < L.next → upd f L.next x a = f a :=
    fun f x a ha => upd_other _ _ (Nat.ne_of_lt ha)
  have old : ∀ {α : Type} {T : List Leaf} (f : Addr → α) (x : α) (a b : Addr) (c : Addr → Leaf),
      c b ∈ T → c a ∉ T → upd f b x a = f a :=
    fun f x a b c hb ha => upd_other _ _ fun e => ha (e ▸ hb)
  have r : ∀ {α : Type} {T : List Leaf} (f : Addr → α) (c : Addr → Leaf), ∀ a < L.next, c a ∉ T →
      f a = f a := fun _ _ _ _ _ => rfl
  cases s with
  | newAnn =>
    exact ⟨Nat.le_succ _, fun a ha _ => new _ _ a ha, r L.am .anns, r L.xm .extra, r L.ex .ex,
      r L.doc .doc, r L.api .api, r L.lib .lib⟩
  | newAnns =>
    exact ⟨Nat.le_succ _, r L.um .ann, fun a ha _ => new _ _ a ha, r L.xm .extra, r L.ex .ex,
      r L.doc .doc, r L.api .api, r L.lib .lib⟩
  | newExtra =>
    exact ⟨Nat.le_succ _, r L.um .ann, r L.am .anns, fun a ha _ => new _ _ a ha, r L.ex .ex,
      r L.doc .doc, r L.api .api, r L.lib .lib⟩
  | newExample k =>
    exact ⟨Nat.le_succ _, r L.um .ann, fun a ha _ => new _ _ a ha, fun a ha _ => new _ _ a ha,
      fun a ha _ => new _ _ a ha, r L.doc .doc, r L.api .api, r L.lib .lib⟩
  | newDoc => exact kept_newEntry L _
  | newApi =>
    exact ⟨Nat.le_succ _, r L.um .ann, fun a ha _ => new _ _ a ha, r L.xm .extra, r L.ex .ex,
      r L.doc .doc, fun a ha _ => new _ _ a ha, r L.lib .lib⟩
  | newLib =>
    exact ⟨Nat.le_succ _, r L.um .ann, fun a ha _ => new _ _ a ha, r L.xm .extra, r L.ex .ex,
      r L.doc .doc, r L.api .api, fun a ha _ => new _ _ a ha⟩
  | editAnn a f =>
    exact ⟨Nat.le_refl _, fun b _ hT => old _ _ b a .ann (by simp [touches]) hT, r L.am .anns,
      r L.xm .extra, r L.ex .ex, r L.doc .doc, r L.api .api, r L.lib .lib⟩
  | editAnns m f =>
    exact ⟨Nat.le_refl _, r L.um .ann, fun b _ hT => old _ _ b m .anns (by simp [touches]) hT,
      r L.xm .extra, r L.ex .ex, r L.doc .doc, r L.api .api, r L.lib .lib⟩
  | editExtra x f =>
    exact ⟨Nat.le_refl _, r L.um .ann, r L.am .anns,
      fun b _ hT => old _ _ b x .extra (by simp [touches]) hT, r L.ex .ex, r L.doc .doc,
      r L.api .api, r L.lib .lib⟩
  | onEx e op => exact kept_setEx L (by simp [touches]) _
  | setExAnns e m =>
    cases m with
    | some m =>
      exact ⟨Nat.le_refl _, r L.um .ann, r L.am .anns, r L.xm .extra,
        fun b _ hT => old _ _ b e .ex (by simp [touches]) hT, r L.doc .doc, r L.api .api,
        r L.lib .lib⟩
    | none =>
      exact ⟨Nat.le_succ _, r L.um .ann, fun a ha _ => new _ _ a ha, r L.xm .extra,
        fun b _ hT => old _ _ b e .ex (by simp [touches]) hT, r L.doc .doc, r L.api .api,
        r L.lib .lib⟩
  | setTitle d s => exact kept_setDoc L (by simp [touches]) s (L.doc d).content
  | setContent d s => exact kept_setDoc L (by simp [touches]) (L.doc d).title s
  | onApi d op =>
    simp only [act]
    split
    · exact ⟨Nat.le_refl _, r L.um .ann, r L.am .anns, r L.xm .extra, r L.ex .ex, r L.doc .doc,
        fun b _ hT => old _ _ b d .api (by simp [touches]) hT, r L.lib .lib⟩
    · exact Kept.refl L
  | setApiAnns d m =>
    cases m with
    | some m =>
      exact ⟨Nat.le_refl _, r L.um .ann, r L.am .anns, r L.xm .extra, r L.ex .ex, r L.doc .doc,
        fun b _ hT => old _ _ b d .api (by simp [touches]) hT, r L.lib .lib⟩
    | none =>
      exact ⟨Nat.le_succ _, r L.um .ann, fun a ha _ => new _ _ a ha, r L.xm .extra, r L.ex .ex,
        r L.doc .doc, fun b _ hT => old _ _ b d .api (by simp [touches]) hT, r L.lib .lib⟩
  | setDocs d l =>
    exact ⟨Nat.le_refl _, r L.um .ann, r L.am .anns, r L.xm .extra, r L.ex .ex, r L.doc .doc,
      fun b _ hT => old _ _ b d .api (by simp [touches]) hT, r L.lib .lib⟩
  | onLib d op =>
    simp only [act]
    split
    · exact ⟨Nat.le_refl _, r L.um .ann, r L.am .anns, r L.xm .extra, r L.ex .ex, r L.doc .doc,
        r L.api .api, fun b _ hT => old _ _ b d .lib (by simp [touches]) hT⟩
    · exact Kept.refl L
  | setLibAnns d m =>
    cases m with
    | some m =>
      exact ⟨Nat.le_refl _, r L.um .ann, r L.am .anns, r L.xm .extra, r L.ex .ex, r L.doc .doc,
        r L.api .api, fun b _ hT => old _ _ b d .lib (by simp [touches]) hT⟩
    | none =>
      exact ⟨Nat.le_succ _, r L.um .ann, fun a ha _ => new _ _ a ha, r L.xm .extra, r L.ex .ex,
        r L.doc .doc, r L.api .api, fun b _ hT => old _ _ b d .lib (by simp [touches]) hT⟩
  | loadEx e v => exact (ExInv.load ho X v).kept
  | loadDoc d v => exact (DocInv.load ho X v).kept
  | loadApi d v => exact (ApiInv.load ho X v).kept
  | loadLib d v => exact (LibInv.load ho X v).kept

theorem Made.ok {X : Xyml} {L : Leaves} (h : Made X L) : Ok L := by
  induction h with
  | start => exact ok_start
  | act s _ hl ih => exact ok_act ih hl

theorem Made.run {X : Xyml} {L : Leaves} (h : Made X L) {ss : List Step} (hl : LegalAll X L ss) :
    Made X (L.run X ss) := by
  induction ss generalizing L with
  | nil => exact h
  | cons s ss ih => exact ih (.act s h hl.1) hl.2

theorem frame {X : Xyml} {L : Leaves} (ho : Ok L) {ss : List Step} (hl : LegalAll X L ss) {x : Leaf}
    (hx : x.addr < L.next) (hd : ∀ o ∈ touchesAll X L ss, o ∉ L.parts x) :
    (L.run X ss).shown x = L.shown x ∧ (L.run X ss).parts x = L.parts x := by
  induction ss generalizing L with
  | nil => exact ⟨rfl, rfl⟩
  | cons s ss ih =>
    have hk := kept_act (X := X) ho s
    obtain ⟨h1, h2⟩ := shown_kept hk ho hx fun o hT => hd o (by simp [touchesAll, hT])
    obtain ⟨h3, h4⟩ := ih (ok_act ho hl.1) hl.2 (Nat.lt_of_lt_of_le hx hk.next) fun o hT => by
      rw [h2]; exact hd o (by simp [touchesAll, hT])
    exact ⟨h3.trans h1, h4.trans h2⟩

/-! ### Sharing -/

theorem annsOf_act {X : Xyml} {L : Leaves} (ho : Ok L) {s : Step} {x : Leaf} (hx : x.addr < L.next)
    (hs : ∀ m, setAnns x m ≠ some s) : (L.act X s).annsOf x = L.annsOf x := by
  have hk := kept_act (X := X) ho s
  cases x with
  | ann a => rfl
  | anns a => rfl
  | extra a => rfl
  | doc a => rfl
  | ex e =>
    by_cases ht : Leaf.ex e ∈ L.touches s
    · cases s <;> simp [touches] at ht
      · subst ht; simp [act, annsOf, (ex_setEx L _ _ _).1]
      · subst ht; exact absurd rfl (hs _)
      · subst ht; simp only [act, annsOf, (ExInv.load ho X _).anns]
    · simp only [annsOf, hk.ex e hx ht]
  | api d =>
    by_cases ht : Leaf.api d ∈ L.touches s
    · cases s <;> simp [touches] at ht
      · subst ht
        simp only [act, annsOf]
        split
        · simp [upd_same]
        · rfl
      · subst ht; exact absurd rfl (hs _)
      · subst ht; simp [act, annsOf, upd_same]
      · subst ht; simp only [act, annsOf, (ApiInv.load ho X _).anns]
    · simp only [annsOf, hk.api d hx ht]
  | lib d =>
    by_cases ht : Leaf.lib d ∈ L.touches s
    · cases s <;> simp [touches] at ht
      · subst ht
        simp only [act, annsOf]
        split
        · simp [upd_same]
        · rfl
      · subst ht; exact absurd rfl (hs _)
      · subst ht; simp only [act, annsOf, (LibInv.load ho X _).anns]
    · simp only [annsOf, hk.lib d hx ht]

theorem annsOf_run {X : Xyml} {L : Leaves} (ho : Ok L) {ss : List Step} (hl : LegalAll X L ss)
    {x : Leaf} (hx : x.addr < L.next) (hs : ∀ m, ∀ s ∈ ss, setAnns x m ≠ some s) :
    (L.run X ss).annsOf x = L.annsOf x := by
  induction ss generalizing L with
  | nil => rfl
  | cons s ss ih =>
    have h1 := annsOf_act (X := X) ho hx fun m => hs m s (by simp)
    exact (ih (ok_act ho hl.1) hl.2 (Nat.lt_of_lt_of_le hx (kept_act ho s).next)
      fun m t ht => hs m t (by simp [ht])).trans h1

/-- Changes that leave an object itself alone, and change at most the map of annotations. -/
theorem shown_anns {T : List Leaf} {L L' : Leaves} (h : Kept T L L') (ho : Ok L) {y : Leaf}
    (hy : y.addr < L.next) (hn : L.annsOf y ≠ none) (hyT : y ∉ T)
    (hx : ∀ o ∈ T, o ∉ L.parts y ∨ some o = (L.annsOf y).map .anns) :
    L'.shown y = (L.shown y).withAnns (L'.annotations y) ∧ L'.annsOf y = L.annsOf y := by
  cases y with
  | ann a => exact absurd rfl hn
  | anns a => exact absurd rfl hn
  | extra a => exact absurd rfl hn
  | doc a => exact absurd rfl hn
  | ex e =>
    have h1 := h.ex e hy hyT
    have h2 := h.xm _ (ho.ex e).2 fun hT => (hx _ hT).elim (fun hp => hp (by simp [parts]))
      (fun hp => by simp [annsOf] at hp)
    simp [shown, exVal, annotations, annsOf, Shown.withAnns, h1, h2]
  | api d =>
    have h1 := h.api d hy hyT
    have h3 : ∀ z ∈ (L.api d).docs.getD [], L'.docVal z = L.docVal z := fun z hz =>
      (docVal_kept h ho (ho.docs d z hz) fun o hT hp => (hx _ hT).elim
        (fun hq => hq (by
          simp only [parts, List.mem_cons, List.mem_append, List.mem_flatMap]
          exact .inr (.inr ⟨z, hz, hp⟩)))
        (fun hq => by
          simp [annsOf] at hq
          simp [hq, docParts] at hp)).1
    have h4 : (L'.api d).docs.map (fun l => l.map L'.docVal) =
        (L.api d).docs.map fun l => l.map L.docVal := by
      rw [h1]
      cases hq : (L.api d).docs with
      | none => rfl
      | some l =>
        rw [hq] at h3
        simp only [Option.map_some, Option.some.injEq]
        exact List.map_congr_left fun y hy => h3 y hy
    refine ⟨?_, by simp [annsOf, h1]⟩
    rw [h1] at h4
    simp only [shown, apiVal, annotations, annsOf, Option.map_some, Shown.withAnns, h1, h4]
  | lib d =>
    have h1 := h.lib d hy hyT
    simp [shown, libVal, annotations, annsOf, Shown.withAnns, h1]

theorem annsVal_other {T : List Leaf} {L L' : Leaves} (h : Kept T L L') (ho : Ok L) {m : Addr}
    (hm : m < L.next) (h1 : .anns m ∉ T) (h2 : ∀ a, .ann a ∉ T) : L'.annsVal m = L.annsVal m :=
  (annsVal_kept h ho hm fun o hT hp => by
    simp only [annsParts, List.mem_cons, List.mem_map] at hp
    rcases hp with hp | ⟨e, -, hp⟩
    · exact h1 (hp ▸ hT)
    · exact h2 e.2 (hp ▸ hT)).1

theorem annsOf_lt {L : Leaves} (ho : Ok L) {y : Leaf} {m : Addr} (h : L.annsOf y = some m) :
    m < L.next := by
  cases y <;> simp only [annsOf, Option.some.injEq, reduceCtorEq] at h <;> subst h
  · exact (ho.ex _).1
  · exact ho.api _
  · exact ho.lib _

theorem parts_lt {L : Leaves} (ho : Ok L) {x : Leaf} (hx : x.addr < L.next) :
    ∀ o ∈ L.parts x, o.addr < L.next := by
  have han : ∀ m, m < L.next → ∀ o ∈ L.annsParts m, o.addr < L.next := by
    intro m hm o h
    simp only [annsParts, List.mem_cons, List.mem_map] at h
    rcases h with h | ⟨e, he, h⟩
    · rw [h]; exact hm
    · rw [← h]; exact ho.am m e he
  have hdo : ∀ d, d < L.next → ∀ o ∈ L.docParts d, o.addr < L.next := by
    intro d hd o h
    simp only [docParts, List.mem_cons, List.not_mem_nil, or_false] at h
    rcases h with h | h
    · rw [h]; exact hd
    · rw [h]; exact ho.doc d
  intro o h
  cases x with
  | ann a => simp only [parts, List.mem_singleton] at h; rw [h]; exact hx
  | anns m => exact han m hx o h
  | extra a => simp only [parts, List.mem_singleton] at h; rw [h]; exact hx
  | ex e =>
    simp only [parts, List.mem_cons] at h
    rcases h with h | h | h
    · rw [h]; exact hx
    · rw [h]; exact (ho.ex e).2
    · exact han _ (ho.ex e).1 o h
  | doc d => exact hdo d hx o h
  | api d =>
    simp only [parts, List.mem_cons, List.mem_append, List.mem_flatMap] at h
    rcases h with h | h | ⟨y, hy, h⟩
    · rw [h]; exact hx
    · exact han _ (ho.api d) o h
    · exact hdo y (ho.docs d y hy) o h
  | lib d =>
    simp only [parts, List.mem_cons] at h
    rcases h with h | h
    · rw [h]; exact hx
    · exact han _ (ho.lib d) o h

theorem api_not_part {L : Leaves} {y : Leaf} {d : Addr} (h : y ≠ .api d) : .api d ∉ L.parts y := by
  intro hp
  cases y <;> simp [parts, annsParts, docParts] at hp
  exact h (by rw [hp])

theorem anns_not_part {L : Leaves} {y : Leaf} {m : Addr} (hn : L.annsOf y ≠ none)
    (h : L.annsOf y ≠ some m) : .anns m ∉ L.parts y := by
  intro hp
  cases y <;> simp [parts, annsParts, docParts, annsOf] at hp hn h
  · exact h hp.symm
  · exact h hp.symm
  · exact h hp.symm

theorem holder_not_part {L : Leaves} {x y : Leaf} (hx : L.annsOf x ≠ none) (h : y ≠ x) :
    x ∉ L.parts y := by
  intro hp
  cases x <;> simp [annsOf] at hx <;>
    (cases y <;> simp [parts, annsParts, docParts] at hp <;> exact h (by rw [hp]))

theorem shown_others {T : List Leaf} {L L' : Leaves} (hk : Kept T L L') (ho : Ok L) {x y : Leaf}
    {m : Addr} (hm : L.annsOf x = some m) (hm' : L'.annsOf x = some m) (hne : y ≠ x)
    (hy : y.addr < L.next) (hn : L.annsOf y ≠ none)
    (hT : ∀ o ∈ T, o = x ∨ o = .anns m ∨ (∃ z, o = .extra z) ∧ o ∉ L.parts y) :
    L'.shown y = (L.shown y).withAnns
      (if L.annsOf y = L.annsOf x then L'.annotations x else L.annotations y) := by
  have hxn : L.annsOf x ≠ none := by rw [hm]; simp
  obtain ⟨h1, h2⟩ := shown_anns hk ho hy hn
    (fun h => by
      rcases hT _ h with h | h | ⟨⟨z, h⟩, -⟩
      · exact hne h
      · exact hn (by rw [h]; rfl)
      · exact hn (by rw [h]; rfl))
    (fun o h => by
      rcases hT _ h with h | h | h
      · exact .inl (h ▸ holder_not_part hxn hne)
      · by_cases hs : L.annsOf y = some m
        · exact .inr (by rw [hs, h]; rfl)
        · exact .inl (h ▸ anns_not_part hn hs)
      · exact .inl h.2)
  rw [h1]
  congr 1
  split
  · rename_i hs
    simp only [annotations, h2, hs, hm, hm']
  · rename_i hs
    simp only [annotations, h2]
    cases hq : L.annsOf y with
    | none => exact absurd hq hn
    | some m' =>
      simp only [Option.map_some, Option.some.injEq]
      refine annsVal_other hk ho (annsOf_lt ho hq) ?_ ?_
      · intro h
        rcases hT _ h with h | h | ⟨⟨z, h⟩, -⟩
        · rw [← h] at hm; simp [annsOf] at hm
        · exact hs (by rw [hq, hm]; simpa using h)
        · simp at h
      · intro a h
        rcases hT _ h with h | h | ⟨⟨z, h⟩, -⟩
        · rw [← h] at hm; simp [annsOf] at hm
        · simp at h
        · simp at h

/-! ### The map of extra facets of an example -/

/-- Only the example at `a` has the map of extra facets at `a`. -/
structure ExtraOf (a : Addr) (L : Leaves) : Prop where
  own : (L.ex a).extra = a
  exs : ∀ e ≠ a, (L.ex e).extra ≠ a
  docs : ∀ d, (L.doc d).extra ≠ a
  old : a < L.next

theorem ExtraOf.keep {a : Addr} {L L' : Leaves} (h : ExtraOf a L) (hn : L.next ≤ L'.next)
    (he : ∀ b, (L'.ex b).extra = (L.ex b).extra ∨ b ≠ a ∧ L.next ≤ (L'.ex b).extra)
    (hd : ∀ b, (L'.doc b).extra = (L.doc b).extra ∨ L.next ≤ (L'.doc b).extra) :
    ExtraOf a L' := by
  refine ⟨?_, fun e hne => ?_, fun d => ?_, Nat.lt_of_lt_of_le h.old hn⟩
  · rcases he a with e | e
    · exact e.trans h.own
    · exact absurd rfl e.1
  · rcases he e with e1 | e1
    · rw [e1]; exact h.exs e hne
    · exact Nat.ne_of_gt (Nat.lt_of_lt_of_le h.old e1.2)
  · rcases hd d with e1 | e1
    · rw [e1]; exact h.docs d
    · exact Nat.ne_of_gt (Nat.lt_of_lt_of_le h.old e1)

/-- Loading an API document leaves the pointers to extra facets of old objects. -/
structure SameEx (A L : Leaves) : Prop where
  next : A.next ≤ L.next
  ex : L.ex = A.ex
  doc : ∀ b, (L.doc b).extra = (A.doc b).extra ∨ A.next ≤ (L.doc b).extra

theorem SameEx.ann {A L : Leaves} (h : SameEx A L) (m : Addr) (k : String) (x : Ann) :
    SameEx A (L.putAnn m k x) := ⟨Nat.le_succ_of_le h.next, h.ex, h.doc⟩

theorem SameEx.put {A L : Leaves} (h : SameEx A L) (x : Addr) (k : Scalar) (v : Node) :
    SameEx A (L.putExtra x k v) := ⟨h.next, h.ex, h.doc⟩

theorem SameEx.api {X : Xyml} {d : Addr} (A : Leaves) (v : Node) : SameEx A (apiLoad X d v A).1 := by
  refine liveMap_inv (I := SameEx A) (fun k v L h => ?_) v A
    ⟨Nat.le_refl _, rfl, fun _ => .inl rfl⟩
  have hent : ∀ (L : Leaves) (x : Documentation), SameEx A L → SameEx A (L.pushEntry d x) := by
    intro L x h
    refine ⟨Nat.le_succ_of_le h.next, h.ex, fun b => ?_⟩
    by_cases hb : b = L.next
    · right
      have : ((L.pushEntry d x).doc b).extra = L.next := by
        rw [hb]; exact congrArg EntryObj.extra (upd_same L.doc _ _)
      rw [this]; exact h.next
    · have : ((L.pushEntry d x).doc b).extra = (L.doc b).extra :=
        congrArg EntryObj.extra (upd_other L.doc _ hb)
      rw [this]; exact h.doc b
  unfold apiAssign
  split
  · exact store_inv (I := SameEx A) (fun L s hL => hL.ann _ _ _) L h
  · split
    · exact liveSeq_inv (I := SameEx A)
        (fun n s hs => store_inv (fun L x hL => hent L x hL) s hs) v L h
    · exact ⟨h.next, h.ex, h.doc⟩

theorem SameEx.lib {X : Xyml} {d : Addr} (A : Leaves) (v : Node) : SameEx A (libLoad X d v A).1 := by
  refine liveMap_inv (I := SameEx A) (fun k v L h => ?_) v A
    ⟨Nat.le_refl _, rfl, fun _ => .inl rfl⟩
  unfold libAssign
  split
  · exact liveMap_inv (I := SameEx A) (fun k v s hs => store_inv (I := SameEx A)
      (fun L s hL => hL.ann _ _ _) s hs) v L h
  · split
    · exact store_inv (I := SameEx A) (fun L s hL => hL.ann _ _ _) L h
    · exact ⟨h.next, h.ex, h.doc⟩

theorem SameEx.entry {X : Xyml} {d : Addr} (A : Leaves) (v : Node) :
    SameEx A (docLoad X d v A).1 := by
  refine liveMap_inv (I := SameEx A) (fun k v L h => ?_) v A
    ⟨Nat.le_refl _, rfl, fun _ => .inl rfl⟩
  have hset : ∀ t c, SameEx A (L.setDoc d t c) := fun t c =>
    ⟨h.next, h.ex, fun b => by rw [doc_setDoc]; exact h.doc b⟩
  unfold docAssign
  split
  · exact hset _ _
  · split
    · exact hset _ _
    · exact store_inv (I := SameEx A) (fun L s hL => hL.put _ _ _) L h

theorem ExtraOf.act {X : Xyml} {a : Addr} {L : Leaves} (h : ExtraOf a L) (ho : Ok L) (s : Step) :
    ExtraOf a (L.act X s) := by
  have hn := (kept_act (X := X) ho s).next
  have same : ∀ {L' : Leaves}, SameEx L L' → ExtraOf a L' := fun hs =>
    h.keep hs.next (fun b => .inl (by rw [hs.ex])) hs.doc
  have hupd : ∀ (e : Addr) (x : ExObj), x.extra = (L.ex e).extra → ∀ b,
      (upd L.ex e x b).extra = (L.ex b).extra := by
    intro e x hx b
    by_cases hb : b = e
    · subst hb; rw [upd_same]; exact hx
    · rw [upd_other _ _ hb]
  cases s with
  | newExample k =>
    refine h.keep hn (fun b => ?_) fun b => .inl rfl
    by_cases hb : b = L.next
    · subst hb
      right
      refine ⟨Nat.ne_of_gt h.old, ?_⟩
      simp only [Leaves.act, upd_same]
      exact Nat.le_refl _
    · left; simp only [Leaves.act, upd_other _ _ hb]
  | newDoc =>
    refine h.keep hn (fun b => .inl rfl) fun b => ?_
    by_cases hb : b = L.next
    · subst hb
      right
      simp only [Leaves.act, newEntry, upd_same]
      exact Nat.le_refl _
    · left; simp only [Leaves.act, newEntry, upd_other _ _ hb]
  | onEx e op => exact h.keep hn (fun b => .inl (ex_setEx L e b _).2) fun b => .inl rfl
  | setExAnns e m =>
    refine h.keep hn (fun b => .inl ?_) fun b => .inl ?_
    · cases m with
      | some m => exact hupd e { L.ex e with annotations := m } rfl b
      | none => exact hupd e { L.ex e with annotations := L.next } rfl b
    · cases m <;> rfl
  | setTitle d s => exact h.keep hn (fun b => .inl rfl) fun b => .inl (doc_setDoc L d b _ _)
  | setContent d s => exact h.keep hn (fun b => .inl rfl) fun b => .inl (doc_setDoc L d b _ _)
  | loadEx e v =>
    have hi := ExInv.load (e := e) ho X v
    exact h.keep hn (fun b => .inl (hi.exs b)) fun b => .inl (by simp only [Leaves.act, hi.docs])
  | loadDoc d v => exact same (SameEx.entry L v)
  | loadApi d v => exact same (SameEx.api L v)
  | loadLib d v => exact same (SameEx.lib L v)
  | setApiAnns d m =>
    exact h.keep hn (fun b => .inl (by cases m <;> rfl)) fun b => .inl (by cases m <;> rfl)
  | setLibAnns d m =>
    exact h.keep hn (fun b => .inl (by cases m <;> rfl)) fun b => .inl (by cases m <;> rfl)
  | onApi d op =>
    simp only [Leaves.act] at hn ⊢
    split
    · exact h.keep (Nat.le_refl _) (fun b => .inl rfl) fun b => .inl rfl
    · exact h
  | onLib d op =>
    simp only [Leaves.act] at hn ⊢
    split
    · exact h.keep (Nat.le_refl _) (fun b => .inl rfl) fun b => .inl rfl
    · exact h
  | _ => exact h.keep hn (fun b => .inl rfl) fun b => .inl rfl

theorem ExtraOf.run {X : Xyml} {a : Addr} {L : Leaves} (h : ExtraOf a L) (hr : Made X L)
    {ss : List Step} (hl : LegalAll X L ss) : ExtraOf a (L.run X ss) := by
  induction ss generalizing L with
  | nil => exact h
  | cons s ss ih => exact ih (h.act hr.ok s) (.act s hr hl.1) hl.2

/-! ### What something consists of -/

/-- The pointers of an object. -/
def points (L : Leaves) : Leaf → List Leaf
  | .ann _ => []
  | .anns m => (L.am m).ents.map fun e => .ann e.2
  | .extra _ => []
  | .ex e => [.extra (L.ex e).extra, .anns (L.ex e).annotations]
  | .doc d => [.extra (L.doc d).extra]
  | .api d => .anns (L.api d).annotations :: ((L.api d).docs.getD []).map .doc
  | .lib d => [.anns (L.lib d).annotations]

theorem parts_self (L : Leaves) (x : Leaf) : x ∈ L.parts x := by
  cases x <;> simp [parts, annsParts, docParts]

theorem parts_points (L : Leaves) {x o p : Leaf} (ho : o ∈ L.parts x) (hp : p ∈ L.points o) :
    p ∈ L.parts x := by
  cases x <;>
    simp only [parts, annsParts, docParts, List.mem_cons, List.mem_append, List.mem_map,
      List.mem_flatMap, List.not_mem_nil, or_false] at ho ⊢
  · subst ho; simp [points] at hp
  · rcases ho with ho | ⟨e, he, ho⟩
    · subst ho
      simp only [points, List.mem_map] at hp
      exact .inr hp
    · subst ho; simp [points] at hp
  · subst ho; simp [points] at hp
  · rcases ho with ho | ho | ho | ⟨e, he, ho⟩
    · subst ho
      simp only [points, List.mem_cons, List.not_mem_nil, or_false] at hp
      exact hp.elim (fun h => .inr (.inl h)) fun h => .inr (.inr (.inl h))
    · subst ho; simp [points] at hp
    · subst ho
      simp only [points, List.mem_map] at hp
      exact .inr (.inr (.inr hp))
    · subst ho; simp [points] at hp
  · rcases ho with ho | ho
    · subst ho
      simp only [points, List.mem_cons, List.not_mem_nil, or_false] at hp
      exact .inr hp
    · subst ho; simp [points] at hp
  · rcases ho with ho | (ho | ⟨e, he, ho⟩) | ⟨y, hy, ho | ho⟩
    · subst ho
      simp only [points, List.mem_cons, List.mem_map] at hp
      rcases hp with hp | ⟨y, hy, hp⟩
      · exact .inr (.inl (.inl hp))
      · exact .inr (.inr ⟨y, hy, .inl hp.symm⟩)
    · subst ho
      simp only [points, List.mem_map] at hp
      exact .inr (.inl (.inr hp))
    · subst ho; simp [points] at hp
    · subst ho
      simp only [points, List.mem_cons, List.not_mem_nil, or_false] at hp
      exact .inr (.inr ⟨y, hy, .inr hp⟩)
    · subst ho; simp [points] at hp
  · rcases ho with ho | ho | ⟨e, he, ho⟩
    · subst ho
      simp only [points, List.mem_cons, List.not_mem_nil, or_false] at hp
      exact .inr (.inl hp)
    · subst ho
      simp only [points, List.mem_map] at hp
      exact .inr (.inr hp)
    · subst ho; simp [points] at hp

theorem parts_closed (L : Leaves) {S : Leaf → Prop} (h : ∀ o, S o → ∀ p ∈ L.points o, S p) {x : Leaf}
    (hx : S x) : ∀ o ∈ L.parts x, S o := by
  have han : ∀ m, S (.anns m) → ∀ o ∈ L.annsParts m, S o := by
    intro m hm o ho
    simp only [annsParts, List.mem_cons, List.mem_map] at ho
    rcases ho with ho | ⟨e, he, ho⟩
    · rw [ho]; exact hm
    · exact h _ hm o (by simp only [points, List.mem_map]; exact ⟨e, he, ho⟩)
  have hdo : ∀ d, S (.doc d) → ∀ o ∈ L.docParts d, S o := by
    intro d hd o ho
    simp only [docParts, List.mem_cons, List.not_mem_nil, or_false] at ho
    rcases ho with ho | ho
    · rw [ho]; exact hd
    · exact h _ hd o (by simp [points, ho])
  intro o ho
  cases x with
  | ann a => simp only [parts, List.mem_singleton] at ho; rw [ho]; exact hx
  | anns m => exact han m hx o ho
  | extra a => simp only [parts, List.mem_singleton] at ho; rw [ho]; exact hx
  | ex e =>
    simp only [parts, List.mem_cons] at ho
    rcases ho with ho | ho | ho
    · rw [ho]; exact hx
    · exact h _ hx o (by simp [points, ho])
    · exact han _ (h _ hx _ (by simp [points])) o ho
  | doc d => exact hdo d hx o ho
  | api d =>
    simp only [parts, List.mem_cons, List.mem_append, List.mem_flatMap] at ho
    rcases ho with ho | ho | ⟨y, hy, ho⟩
    · rw [ho]; exact hx
    · exact han _ (h _ hx _ (by simp [points])) o ho
    · exact hdo y (h _ hx _ (by simp [points, hy])) o ho
  | lib d =>
    simp only [parts, List.mem_cons] at ho
    rcases ho with ho | ho
    · rw [ho]; exact hx
    · exact han _ (h _ hx _ (by simp [points])) o ho

theorem points_kept {T : List Leaf} {L L' : Leaves} (h : Kept T L L') {o : Leaf}
    (ho : o.addr < L.next) (hT : o ∉ T) : L'.points o = L.points o := by
  cases o with
  | ann a => rfl
  | extra a => rfl
  | anns m => simp only [points, h.am m ho hT]
  | ex e => simp only [points, h.ex e ho hT]
  | doc d => simp only [points, h.doc d ho hT]
  | api d => simp only [points, h.api d ho hT]
  | lib d => simp only [points, h.lib d ho hT]

/-- What a pointer stored by a step leads to. -/
def Stored (X : Xyml) (L : Leaves) (s : Step) (o p : Leaf) : Prop :=
  p ∈ L.points o ∨ p ∈ L.gives s ∨ ∀ q ∈ (L.act X s).parts p, L.next ≤ q.addr

theorem stored {X : Xyml} {L : Leaves} (ho : Ok L) (s : Step) {o : Leaf} (hx : o.addr < L.next) :
    ∀ p ∈ (L.act X s).points o, Stored X L s o p := by
  have hk := kept_act (X := X) ho s
  by_cases hT : o ∈ L.touches s
  · have hann : ∀ (p : Leaf), (∃ a, p = .ann a ∧ L.next ≤ a) →
        ∀ q ∈ (L.act X s).parts p, L.next ≤ q.addr := by
      rintro p ⟨a, rfl, ha⟩ q hq
      simp only [parts, List.mem_singleton] at hq
      rw [hq]; exact ha
    cases s <;> simp only [touches, List.mem_cons, List.not_mem_nil, or_false] at hT
    case editAnn a f => subst hT; intro p hp; simp [points] at hp
    case editAnns m f =>
      subst hT
      intro p hp
      simp only [points, act, upd_same] at hp
      exact .inr (.inl hp)
    case editExtra a f => subst hT; intro p hp; simp [points] at hp
    case onEx e op =>
      subst hT
      intro p hp
      refine .inl ?_
      simpa only [points, act, (ex_setEx L _ _ _).1, (ex_setEx L _ _ _).2] using hp
    case setExAnns e m =>
      subst hT
      intro p hp
      cases m with
      | some m =>
        simp only [points, act, withAnns, upd_same, List.mem_cons, List.not_mem_nil, or_false] at hp
        rcases hp with hp | hp
        · exact .inl (by simp [points, hp])
        · exact .inr (.inl (by simp [gives, hp]))
      | none =>
        simp only [points, act, withAnns, upd_same, List.mem_cons, List.not_mem_nil, or_false] at hp
        rcases hp with hp | hp
        · exact .inl (by simp [points, hp])
        · refine .inr (.inr fun q hq => ?_)
          subst hp
          simp [parts, annsParts, act, withAnns, upd_same, OM.empty] at hq
          rw [hq]; exact Nat.le_refl _
    case setTitle d s =>
      subst hT
      intro p hp
      exact .inl (by simpa only [points, act, upd_same] using hp)
    case setContent d s =>
      subst hT
      intro p hp
      exact .inl (by simpa only [points, act, upd_same] using hp)
    case onApi d op =>
      subst hT
      intro p hp
      refine .inl ?_
      simp only [act] at hp
      split at hp
      · simpa only [points, upd_same] using hp
      · exact hp
    case setApiAnns d m =>
      subst hT
      intro p hp
      cases m with
      | some m =>
        simp only [points, act, withAnns, upd_same, List.mem_cons] at hp
        rcases hp with hp | hp
        · exact .inr (.inl (by simp [gives, hp]))
        · exact .inl (by simp only [points, List.mem_cons]; exact .inr hp)
      | none =>
        simp only [points, act, withAnns, upd_same, List.mem_cons] at hp
        rcases hp with hp | hp
        · refine .inr (.inr fun q hq => ?_)
          subst hp
          simp [parts, annsParts, act, withAnns, upd_same, OM.empty] at hq
          rw [hq]; exact Nat.le_refl _
        · exact .inl (by simp only [points, List.mem_cons]; exact .inr hp)
    case setDocs d l =>
      subst hT
      intro p hp
      simp only [points, act, upd_same, List.mem_cons] at hp
      rcases hp with hp | hp
      · exact .inl (by simp [points, hp])
      · exact .inr (.inl hp)
    case onLib d op =>
      subst hT
      intro p hp
      refine .inl ?_
      simp only [act] at hp
      split at hp
      · simpa only [points, upd_same] using hp
      · exact hp
    case setLibAnns d m =>
      subst hT
      intro p hp
      cases m with
      | some m =>
        simp only [points, act, withAnns, upd_same, List.mem_cons, List.not_mem_nil, or_false] at hp
        exact .inr (.inl (by simp [gives, hp]))
      | none =>
        simp only [points, act, withAnns, upd_same, List.mem_cons, List.not_mem_nil, or_false] at hp
        refine .inr (.inr fun q hq => ?_)
        subst hp
        simp [parts, annsParts, act, withAnns, upd_same, OM.empty] at hq
        rw [hq]; exact Nat.le_refl _
    case loadEx e v =>
      have hi := ExInv.load (e := e) ho X v
      intro p hp
      rcases hT with hT | hT | hT <;> subst hT
      · exact .inl (by simpa only [points, act, hi.anns, hi.extra] using hp)
      · simp [points] at hp
      · simp only [points, List.mem_map] at hp
        obtain ⟨e, he, hp⟩ := hp
        rcases hi.annsNew e he with h | h
        · exact .inl (by simp only [points, List.mem_map]; exact ⟨e, h, hp⟩)
        · exact .inr (.inr (hann p ⟨e.2, hp.symm, h⟩))
    case loadDoc d v =>
      have hi := DocInv.load (d := d) ho X v
      intro p hp
      rcases hT with hT | hT <;> subst hT
      · exact .inl (by simpa only [points, act, hi.extra] using hp)
      · simp [points] at hp
    case loadApi d v =>
      have hi := ApiInv.load (d := d) ho X v
      intro p hp
      rcases hT with hT | hT <;> subst hT
      · simp only [points, act, hi.anns, List.mem_cons, List.mem_map] at hp
        rcases hp with hp | ⟨y, hy, hp⟩
        · exact .inl (by simp [points, hp])
        · obtain ⟨l, h1, -, h3⟩ := hi.docsNew
          rw [h1] at hy
          rcases List.mem_append.mp hy with hy | hy
          · exact .inl (by simp only [points, List.mem_cons, List.mem_map]; exact .inr ⟨y, hy, hp⟩)
          · refine .inr (.inr fun q hq => ?_)
            subst hp
            simp only [parts, docParts, act, (h3 y hy).2.2, List.mem_cons, List.not_mem_nil,
              or_false] at hq
            rcases hq with hq | hq <;> rw [hq] <;> exact (h3 y hy).1
      · simp only [points, List.mem_map] at hp
        obtain ⟨e, he, hp⟩ := hp
        rcases hi.annsNew e he with h | h
        · exact .inl (by simp only [points, List.mem_map]; exact ⟨e, h, hp⟩)
        · exact .inr (.inr (hann p ⟨e.2, hp.symm, h⟩))
    case loadLib d v =>
      have hi := LibInv.load (d := d) ho X v
      intro p hp
      rcases hT with hT | hT <;> subst hT
      · exact .inl (by simpa only [points, act, hi.anns] using hp)
      · simp only [points, List.mem_map] at hp
        obtain ⟨e, he, hp⟩ := hp
        rcases hi.annsNew e he with h | h
        · exact .inl (by simp only [points, List.mem_map]; exact ⟨e, h, hp⟩)
        · exact .inr (.inr (hann p ⟨e.2, hp.symm, h⟩))
  · intro p hp
    rw [points_kept hk hx hT] at hp
    exact .inl hp

theorem gives_lt {L : Leaves} {s : Step} (hl : L.Legal s) : ∀ g ∈ L.gives s, g.addr < L.next := by
  intro g hg
  cases s <;> simp only [gives, List.not_mem_nil, List.mem_map, Option.mem_toList] at hg
  case editAnns m f => obtain ⟨e, he, rfl⟩ := hg; exact hl.2 e he
  case setExAnns e m => obtain ⟨x, hx, rfl⟩ := hg; exact hl.2 x hx
  case setApiAnns e m => obtain ⟨x, hx, rfl⟩ := hg; exact hl.2 x hx
  case setLibAnns e m => obtain ⟨x, hx, rfl⟩ := hg; exact hl.2 x hx
  case setDocs e m => obtain ⟨x, hx, rfl⟩ := hg; exact hl.2 x hx

/-- What is in something after a step was in it, was given to it, or is new. -/
theorem parts_act {X : Xyml} {L : Leaves} (ho : Ok L) {s : Step} (hl : L.Legal s) {x : Leaf}
    (hx : x.addr < L.next) : ∀ o ∈ (L.act X s).parts x,
    o ∈ L.parts x ∨ (∃ g ∈ L.gives s, o ∈ L.parts g) ∨ L.next ≤ o.addr := by
  have key := parts_closed (L.act X s)
    (S := fun o => o ∈ L.parts x ∨ (∃ g ∈ L.gives s, o ∈ L.parts g) ∨
      ∀ q ∈ (L.act X s).parts o, L.next ≤ q.addr) (x := x)
    (fun o hS p hp => by
      rcases hS with hS | ⟨g, hg, hS⟩ | hS
      · rcases stored (X := X) ho s (parts_lt ho hx o hS) p hp with h | h | h
        · exact .inl (parts_points L hS h)
        · exact .inr (.inl ⟨p, h, parts_self L p⟩)
        · exact .inr (.inr h)
      · rcases stored (X := X) ho s (parts_lt ho (gives_lt hl g hg) o hS) p hp with h | h | h
        · exact .inr (.inl ⟨g, hg, parts_points L hS h⟩)
        · exact .inr (.inl ⟨p, h, parts_self L p⟩)
        · exact .inr (.inr h)
      · have hpo : p ∈ (L.act X s).parts o := parts_points _ (parts_self _ o) hp
        refine .inr (.inr fun q hq => hS q ?_)
        exact parts_closed (L.act X s) (S := fun q => q ∈ (L.act X s).parts o)
          (fun _ h1 _ h2 => parts_points _ h1 h2) hpo q hq)
    (.inl (parts_self L x))
  intro o h
  rcases key o h with h | h | h
  · exact .inl h
  · exact .inr (.inl h)
  · exact .inr (.inr (h o (parts_self _ o)))

theorem apart_act {X : Xyml} {L : Leaves} (ho : Ok L) {s : Step} (hl : L.Legal s) {x y : Leaf}
    (hx : x.addr < L.next) (hy : y.addr < L.next) (h : L.Apart x y)
    (h1 : ∀ o ∈ L.touches s, o ∉ L.parts y) (h2 : ∀ g ∈ L.gives s, L.Apart g y) :
    (L.act X s).Apart x y ∧ (L.act X s).shown y = L.shown y ∧ (L.act X s).parts y = L.parts y := by
  obtain ⟨h3, h4⟩ := shown_kept (kept_act (X := X) ho s) ho hy h1
  refine ⟨fun o hp hq => ?_, h3, h4⟩
  rw [h4] at hq
  rcases parts_act ho hl hx o hp with hp | ⟨g, hg, hp⟩ | hp
  · exact h o hp hq
  · exact h2 g hg o hp hq
  · exact absurd (parts_lt ho hy o hq) (Nat.not_lt.mpr hp)

end Leaves

end Verif.Doc
