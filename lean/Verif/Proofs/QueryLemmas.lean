import Verif.Proofs.TypeLemmas
import Verif.Proofs.SortLemmas

namespace Dnmx
open Spec

theorem typeAt_filter {D : Decls} {W W' : World} {d : DomId} (h : TypesInv D W d) (p : TypeRec → Bool)
    (h1 : (W'.doms d).types = (W.doms d).types.filter p) (tid : TypeId) (r : TypeRec) (hr : (W.doms d).typeAt d tid = some r)
    (hp : r ∈ (W.doms d).types → p r = true) : (W'.doms d).typeAt d tid = some r := by
  rcases typeAt_some hr with ⟨a, b⟩ | ⟨a, b, c⟩
  · rw [a, b]; exact typeAt_empty _ _
  · unfold Dom.typeAt
    rw [if_neg a, h1, ← c]
    exact find?_tid (h.tids.filter p) r (List.mem_filter.2 ⟨b, hp b⟩)

theorem typeAt_congr {x y : Dom} (d : DomId) (tid : TypeId) (h : y.types = x.types) : y.typeAt d tid = x.typeAt d tid := by
  simp [Dom.typeAt, h]

/-- where the stored queries of a step come from -/
theorem TypeStep.query {D : Decls} {W W' : World} {d : DomId} (hs : TypeStep D W d W') (h : TypesInv D W d)
    (e : List Mix × TypeId) (he : e ∈ (W'.doms d).queries) :
    (e ∈ (W.doms d).queries ∧ (∃ r, (W.doms d).typeAt d e.2 = some r ∧ (W'.doms d).typeAt d e.2 = some r ∧
        ∀ m ∈ r.mixins, W'.mixId m = W.mixId m) ∧ (W'.doms d).rules.map (·.1) = (W.doms d).rules.map (·.1)) ∨
    (∃ r, (W'.doms d).typeAt d e.2 = some r ∧
      (applyMutationRules D (rulesOf D (W.view D d) (W.doms d)) e.1).result = .ok (e.1, r.mixins) ∧
      (W'.doms d).rules = (W.doms d).rules ∧ W'.mixId = W.mixId) := by
  cases hs with
  | keep h1 h2 h3 h4 h5 =>
    rw [h2] at he
    obtain ⟨r, hr⟩ := h.queries e he
    refine .inl ⟨he, ⟨r, hr, by rw [typeAt_congr d e.2 h1]; exact hr, ?_⟩, h3⟩
    intro m hm
    rcases typeAt_some hr with ⟨a, b⟩ | ⟨a, b, c⟩
    · subst b; simp [emptyType] at hm
    · obtain ⟨⟨i, hi⟩, hd⟩ := (h.ok r b).reg m hm
      exact (h4 m (by rw [hi]; simp) hd).1
  | clear h1 h2 h3 h4 => rw [h2] at he; simp at he
  | filter p pq h1 h2 h3 h4 h5 h6 =>
    rw [h2, List.mem_filter] at he
    obtain ⟨r, hr⟩ := h.queries e he.1
    have hp : r ∈ (W.doms d).types → p r = true := by
      intro hm
      exact h3 e he.1 he.2 r hm (typeAt_tid hr)
    refine .inl ⟨he.1, ⟨r, hr, typeAt_filter h p h1 e.2 r hr hp, ?_⟩, h4⟩
    intro m hm
    rcases typeAt_some hr with ⟨a, b⟩ | ⟨a, b, c⟩
    · subst b; simp [emptyType] at hm
    · exact (h5 r b (hp b) m hm).1
  | get q res hc =>
    have hinv := (getCase_types hc h).1
    cases hc with
    | hit t ht =>
      obtain ⟨r, hr⟩ := h.queries e he
      exact .inl ⟨he, ⟨r, hr, hr, fun _ _ => rfl⟩, rfl⟩
    | ruleError err _ =>
      obtain ⟨r, hr⟩ := h.queries e he
      exact .inl ⟨he, ⟨r, hr, hr, fun _ _ => rfl⟩, rfl⟩
    | buildError ms err _ _ _ _ =>
      obtain ⟨r, hr⟩ := h.queries e he
      exact .inl ⟨he, ⟨r, hr, hr, fun _ _ => rfl⟩, rfl⟩
    | empty hres =>
      simp only [setDom_same] at he ⊢
      rcases storeQuery_mem _ _ _ e he with h1 | ⟨h1, -⟩
      · subst h1
        exact .inr ⟨emptyType d, typeAt_empty _ _, hres, trivial, rfl⟩
      · obtain ⟨r, hr⟩ := h.queries e h1
        exact .inl ⟨h1, ⟨r, hr, hr, fun _ _ => rfl⟩, trivial⟩
    | found r hne hres hr hf =>
      simp only [setDom_same] at he ⊢
      rcases storeQuery_mem _ _ _ e he with h1 | ⟨h1, -⟩
      · subst h1
        exact .inr ⟨r, h.typeAt_mem r hr, hres, trivial, rfl⟩
      · obtain ⟨r, hr⟩ := h.queries e h1
        exact .inl ⟨h1, ⟨r, hr, hr, fun _ _ => rfl⟩, trivial⟩
    | built r hne hres hn hb ht =>
      simp only [setDom_same] at he ⊢
      rcases storeQuery_mem _ _ _ e he with h1 | ⟨h1, -⟩
      · subst h1
        refine .inr ⟨r, ?_, hres, trivial, rfl⟩
        have := hinv.typeAt_mem r (by simp)
        simpa using this
      · obtain ⟨s, hs⟩ := h.queries e h1
        refine .inl ⟨h1, ⟨s, hs, ?_, fun _ _ => rfl⟩, trivial⟩
        unfold Dom.typeAt at hs ⊢
        split
        · rename_i hz; rw [if_pos hz] at hs; exact hs
        · rename_i hz; rw [if_neg hz] at hs; exact find?_append_fresh _ _ _ _ hs

/-- the type at an address does not change while it exists -/
theorem TypeStep.stable {D : Decls} {W W' : World} {d : DomId} (hs : TypeStep D W d W') (h : TypesInv D W d)
    (tid : TypeId) (hlt : tid < W.nextType) (r : TypeRec) (hr : (W'.doms d).typeAt d tid = some r) :
    (W.doms d).typeAt d tid = some r ∧ W.nextType ≤ W'.nextType := by
  cases hs with
  | keep h1 h2 h3 h4 h5 => rw [typeAt_congr d tid h1] at hr; exact ⟨hr, h5⟩
  | clear h1 h2 h3 h4 => rw [typeAt_congr d tid h1] at hr; exact ⟨hr, h4⟩
  | filter p pq h1 h2 h3 h4 h5 h6 =>
    refine ⟨?_, h6⟩
    rcases typeAt_some hr with ⟨a, b⟩ | ⟨a, b, c⟩
    · rw [a, b]; exact typeAt_empty _ _
    · rw [h1, List.mem_filter] at b
      rw [← c]; exact h.typeAt_mem r b.1
  | get q res hc =>
    cases hc with
    | hit => exact ⟨hr, Nat.le_refl _⟩
    | ruleError => exact ⟨hr, Nat.le_refl _⟩
    | buildError => exact ⟨hr, Nat.le_refl _⟩
    | empty => simp only [setDom_same] at hr; exact ⟨hr, Nat.le_refl _⟩
    | found => simp only [setDom_same] at hr; exact ⟨hr, Nat.le_refl _⟩
    | built r' _ _ _ _ ht =>
      simp only [setDom_same] at hr
      refine ⟨?_, by simp⟩
      rcases typeAt_some hr with ⟨a, b⟩ | ⟨a, b, c⟩
      · rw [a, b]; exact typeAt_empty _ _
      · rcases List.mem_append.1 b with b | b
        · rw [← c]; exact h.typeAt_mem r b
        · simp at b; subst b; omega

theorem TypesInv.typeAt_lt {D : Decls} {W : World} {d : DomId} (h : TypesInv D W d) {tid : TypeId} {r : TypeRec}
    (hr : (W.doms d).typeAt d tid = some r) : tid < W.nextType := by
  rcases typeAt_some hr with ⟨a, b⟩ | ⟨a, b, c⟩
  · rw [a]; exact h.nextPos
  · rw [← c]; exact (h.tidPos r b).2

/-- over a whole history: an address that led to a type before the history leads to the same type afterwards, or nowhere -/
theorem run_stable (D : Decls) (d : DomId) (ops : List Op) : ∀ W, RegInv W → TypesInv D W d → ∀ tid r r',
    (W.doms d).typeAt d tid = some r → ((run D W ops).doms d).typeAt d tid = some r' → r' = r := by
  have key : ∀ (ops : List Op) W, RegInv W → TypesInv D W d → ∀ tid r', tid < W.nextType →
      ((run D W ops).doms d).typeAt d tid = some r' → (W.doms d).typeAt d tid = some r' := by
    intro ops
    induction ops with
    | nil => intro W _ _ tid r' _ h; exact h
    | cons op ops ih =>
      intro W hr ht tid r' hlt h
      have hs := step_typeStep D W hr op d ht
      have hmono : W.nextType ≤ (step D W op).2.nextType := (hs.stable ht emptyTid ht.nextPos _ (typeAt_empty _ _)).2
      have h1 := ih _ (step_reg D W op hr) (step_types D W hr op d ht) tid r' (by omega) h
      exact (hs.stable ht tid hlt r' h1).1
  intro W hr ht tid r r' h1 h2
  have := key ops W hr ht tid r' (ht.typeAt_lt h1) h2
  rw [h1] at this; simp at this; exact this.symm

/-! ## the cache is correct for pure rules -/

/-- a rule that does not look at the registry -/
def RulePure (D : Decls) (r : Rule) : Prop := ∀ v v', ruleFn D v r = ruleFn D v' r

theorem rulesOf_keys (D : Decls) (v : ElemView) (x : Dom) : rulesOf D v x = (x.rules.map (·.1)).map (ruleFn D v) := by
  simp [rulesOf, List.map_map, Function.comp_def]

theorem rulesOf_pure {D : Decls} {x y : Dom} (hk : y.rules.map (·.1) = x.rules.map (·.1))
    (hp : ∀ r ∈ x.rules.map (·.1), RulePure D r) (v v' : ElemView) : rulesOf D v y = rulesOf D v' x := by
  rw [rulesOf_keys, rulesOf_keys, hk]
  apply List.map_congr_left
  intro r hr
  exact hp r hr v v'

/-- every stored query leads to the type that the rules in force give now, if these are pure -/
def CacheOk (D : Decls) (W : World) (d : DomId) : Prop :=
  (∀ r ∈ (W.doms d).rules.map (·.1), RulePure D r) → ∀ e ∈ (W.doms d).queries, ∃ r, (W.doms d).typeAt d e.2 = some r ∧
    (applyMutationRules D (rulesOf D (W.view D d) (W.doms d)) e.1).result = .ok (e.1, r.mixins)

theorem TypeStep.cache {D : Decls} {W W' : World} {d : DomId} (hs : TypeStep D W d W') (h : TypesInv D W d) (hc : CacheOk D W d) :
    CacheOk D W' d := by
  intro hp e he
  rcases hs.query h e he with ⟨h1, ⟨r, h2, h3, -⟩, h4⟩ | ⟨r, h2, h3, h4, h5⟩
  · rw [h4] at hp
    obtain ⟨r', h5, h6⟩ := hc hp e h1
    rw [h2] at h5; simp at h5; subst h5
    refine ⟨r, h3, ?_⟩
    rw [rulesOf_pure h4 hp (W'.view D d) (W.view D d)]; exact h6
  · refine ⟨r, h2, ?_⟩
    rw [h4] at hp
    rw [rulesOf_pure (by rw [h4]) hp (W'.view D d) (W.view D d)]; exact h3

theorem reachable_cache (D : Decls) (s : DomId → Settings) (ops : List Op) (d : DomId) : CacheOk D (run D (initWorld s) ops) d :=
  run_typeStep_induction D d (fun W => CacheOk D W d) (fun _ _ _ ht hs h => hs.cache ht h) ops _ (initWorld_reg s)
    (initWorld_types D s d) (by intro _ e he; simp [initWorld, newDom] at he)

/-- the canonicalization rule is pure if mixins are told apart by order priority and name -/
theorem canonical_pure (D : Decls) (h : ∀ a b, a ≠ b → (D.mix a).orderPriority ≠ (D.mix b).orderPriority ∨
    svCmp D.mem (D.mix a).name (D.mix b).name ≠ 0) : RulePure D 0 := by
  intro v v'
  unfold ruleFn ruleOf
  simp only [if_true]
  funext ms
  unfold sortByCanonicalOrder
  have : canonicalOrder D v.ids = canonicalOrder D v'.ids := by
    funext a b
    unfold canonicalOrder
    by_cases hab : a = b
    · subst hab; simp
    · rcases h a b hab with h1 | h1 <;> simp [h1]
  rw [this]

/-! ## domains whose only rule is canonicalization -/

theorem sortBy_congr {α : Type} (lt lt' : α → α → Bool) (l : List α) (h : ∀ a ∈ l, ∀ b ∈ l, lt a b = lt' a b) :
    sortBy lt l = sortBy lt' l := by
  have ins : ∀ (x : α) (l : List α), (∀ a ∈ l, lt a x = lt' a x) → insertBy lt x l = insertBy lt' x l := by
    intro x l
    induction l with
    | nil => intro _; rfl
    | cons y ys ih =>
      intro h
      unfold insertBy
      rw [h y List.mem_cons_self, ih fun a ha => h a (List.mem_cons_of_mem _ ha)]
  induction l with
  | nil => rfl
  | cons x xs ih =>
    unfold sortBy
    rw [ih fun a ha b hb => h a (List.mem_cons_of_mem _ ha) b (List.mem_cons_of_mem _ hb)]
    apply ins
    intro a ha
    have := (sortBy_perm lt' xs).mem_iff.1 ha
    exact h a (List.mem_cons_of_mem _ this) x List.mem_cons_self

theorem applyMutationRules_sort (D : Decls) (lt : Mix → Mix → Bool) (q k r : List Mix)
    (h : (applyMutationRules D [fun ms => .ok (sortBy lt ms)] q).result = .ok (k, r)) : r = sortBy lt (stripDeps D q) := by
  rcases applyMutationRules_cases D [fun ms => .ok (sortBy lt ms)] q with ⟨e, hp, h'⟩ | ⟨hp, h'⟩ | ⟨x, hp, _, hn, h'⟩ | ⟨x, hp, hx, _, h'⟩
  · simp [h'] at h
  · simp [h'] at h
    simp [applyPass] at hp
    rw [hp, ← h.2]
  · simp at hn
  · simp [applyPass] at hp
    rw [h', rulesLoop_step] at h
    simp only [applyPass] at h
    by_cases hz : x = sortBy lt x
    · simp [← hz] at h
      rw [← h.2, hp]
    · simp [hz] at h

theorem applyMutationRules_sort_ok (D : Decls) (lt : Mix → Mix → Bool) (q : List Mix)
    (h : sortBy lt (sortBy lt (stripDeps D q)) = sortBy lt (stripDeps D q)) :
    (applyMutationRules D [fun ms => .ok (sortBy lt ms)] q).result = .ok (q, sortBy lt (stripDeps D q)) := by
  rcases applyMutationRules_cases D [fun ms => .ok (sortBy lt ms)] q with ⟨e, hp, h'⟩ | ⟨hp, h'⟩ | ⟨x, hp, _, hn, h'⟩ | ⟨x, hp, hx, _, h'⟩
  · simp [applyPass] at hp
  · simp [applyPass] at hp
    rw [h', hp]
  · simp at hn
  · simp [applyPass] at hp
    rw [h', rulesLoop_step]
    simp only [applyPass]
    rw [← hp, h]
    simp

/-- queries of a domain with the canonicalization rule only -/
def CanonOk (D : Decls) (W : World) (d : DomId) : Prop :=
  (W.doms d).rules.map (·.1) = [0] → ∀ e ∈ (W.doms d).queries, ∃ r, (W.doms d).typeAt d e.2 = some r ∧
    r.mixins = sortBy (canonicalOrder D W.mixId) (stripDeps D e.1)

theorem rulesOf_canon (D : Decls) (v : ElemView) (x : Dom) (h : x.rules.map (·.1) = [0]) :
    rulesOf D v x = [fun ms => .ok (sortBy (canonicalOrder D v.ids) ms)] := by
  rw [rulesOf_keys, h]; rfl

theorem TypeStep.canon {D : Decls} {W W' : World} {d : DomId} (hs : TypeStep D W d W') (h : TypesInv D W d) (hc : CanonOk D W d) :
    CanonOk D W' d := by
  intro hk e he
  rcases hs.query h e he with ⟨h1, ⟨r, h2, h3, h3'⟩, h4⟩ | ⟨r, h2, h3, h4, h5⟩
  · rw [h4] at hk
    obtain ⟨r', h5, h6⟩ := hc hk e h1
    rw [h2] at h5; simp at h5; subst h5
    refine ⟨r, h3, ?_⟩
    rw [h6]
    apply sortBy_congr
    have hmem : ∀ a, a ∈ stripDeps D e.1 → W'.mixId a = W.mixId a := by
      intro a ha
      apply h3'
      rw [h6]; exact (sortBy_perm _ _).mem_iff.2 ha
    intro a ha b hb
    unfold canonicalOrder
    rw [hmem a ha, hmem b hb]
  · refine ⟨r, h2, ?_⟩
    rw [h4] at hk
    rw [rulesOf_canon D _ _ hk] at h3
    rw [h5]
    exact applyMutationRules_sort D _ _ _ _ h3

theorem reachable_canon (D : Decls) (s : DomId → Settings) (ops : List Op) (d : DomId) : CanonOk D (run D (initWorld s) ops) d :=
  run_typeStep_induction D d (fun W => CanonOk D W d) (fun _ _ _ ht hs h => hs.canon ht h) ops _ (initWorld_reg s)
    (initWorld_types D s d) (by intro _ e he; simp [initWorld, newDom] at he)

end Dnmx
