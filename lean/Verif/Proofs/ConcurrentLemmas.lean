import Verif.Spec.Concurrent
import Verif.Proofs.QueryLemmas
import Verif.Proofs.TypeApiLemmas

set_option linter.unusedSimpArgs false
set_option linter.unusedVariables false
set_option linter.unusedSectionVars false

namespace Dnmx
open Spec

/-- a domain after a call that neither changes its rules nor removes types -/
structure Mild (b : Bool) (W : World) (d : DomId) (W' : World) : Prop where
  types : ∃ l, (W'.doms d).types = (W.doms d).types ++ l
  rules : b = true → (W'.doms d).rules.map (·.1) = (W.doms d).rules.map (·.1)
  ids : ∀ m, W.mixId m ≠ none → W.mixDom m = some d → W'.mixId m = W.mixId m ∧ W'.mixDom m = W.mixDom m
  next : W.nextType ≤ W'.nextType

theorem Mild.frame {b : Bool} {W W' : World} {d : DomId} (h1 : W'.doms d = W.doms d)
    (h3 : W'.mixId = W.mixId) (h3' : W'.mixDom = W.mixDom) (h4 : W.nextType ≤ W'.nextType) : Mild b W d W' :=
  ⟨⟨[], by rw [h1]; simp⟩, fun _ => by rw [h1], fun m _ _ => by simp [h3, h3'], h4⟩

theorem Mild.refl (b : Bool) (W : World) (d : DomId) : Mild b W d W := .frame rfl rfl rfl (Nat.le_refl _)

theorem Mild.typeAt {b : Bool} {W W' : World} {d : DomId} (h : Mild b W d W') {t : TypeId} {r : TypeRec} (hr : (W.doms d).typeAt d t = some r) :
    (W'.doms d).typeAt d t = some r := by
  obtain ⟨l, hl⟩ := h.types
  unfold Dom.typeAt at hr ⊢
  split
  · rename_i he; rw [if_pos he] at hr; exact hr
  · rename_i he; rw [if_neg he] at hr; rw [hl, List.find?_append, hr]; rfl

/-- effect of calls with one locked part -/
theorem step_other {b : Bool} {D : Decls} {W : World} (hr : RegInv W) (op : Op) (hask : op.asked = none) (hun : ∀ d m, op ≠ .unregMixin d m)
    (d : DomId) :
    (disturbed b op ≠ some d → Mild b W d (step D W op).2) ∧
    (∀ t ∈ ((step D W op).2.doms d).types, t ∈ (W.doms d).types) ∧ W.nextType ≤ (step D W op).2.nextType := by
  have same : ∀ {W' : World}, (W'.doms d).types = (W.doms d).types → (W'.doms d).rules = (W.doms d).rules →
      (∀ m, W.mixId m ≠ none → W.mixDom m = some d → W'.mixId m = W.mixId m ∧ W'.mixDom m = W.mixDom m) → W.nextType ≤ W'.nextType →
      (disturbed b op ≠ some d → Mild b W d W') ∧ (∀ t ∈ (W'.doms d).types, t ∈ (W.doms d).types) ∧ W.nextType ≤ W'.nextType :=
    fun h1 h2 h3 h4 => ⟨fun _ => ⟨⟨[], by simp [h1]⟩, fun _ => by rw [h2], h3, h4⟩, by rw [h1]; simp, h4⟩
  have frame : ∀ {W' : World}, W'.doms d = W.doms d → W'.mixId = W.mixId → W'.mixDom = W.mixDom → W.nextType ≤ W'.nextType →
      (disturbed b op ≠ some d → Mild b W d W') ∧ (∀ t ∈ (W'.doms d).types, t ∈ (W.doms d).types) ∧ W.nextType ≤ W'.nextType :=
    fun h1 h2 h3 h4 => same (by rw [h1]) (by rw [h1]) (fun m _ _ => by rw [h2, h3]; simp) h4
  have grown : ∀ fs d' W', FeatsGrown D W d' fs W' →
      (disturbed b op ≠ some d → Mild b W d W') ∧ (∀ t ∈ (W'.doms d).types, t ∈ (W.doms d).types) ∧ W.nextType ≤ W'.nextType := by
    intro fs d' W' g
    have hd : (W'.doms d).types = (W.doms d).types ∧ (W'.doms d).rules = (W.doms d).rules := by
      by_cases hd : d = d'
      · subst hd; rw [g.dom]; simp
      · rw [g.other d hd]; simp
    exact same hd.1 hd.2 (fun m _ _ => by rw [g.mixId, g.mixDom]; simp) (by rw [g.next]; exact Nat.le_refl _)
  cases op with
  | regFeature d' g =>
    show _ ∧ (∀ t ∈ ((registerFeature D W d' g).2.doms d).types, _) ∧ _
    cases hres : (registerFeature D W d' g).1 with
    | error e =>
      have := registerFeature_error D W d' g e hres
      simp only [step]
      rw [this]; exact frame rfl rfl rfl (Nat.le_refl _)
    | ok u =>
      cases u
      obtain ⟨id, hi⟩ := registerFeature_ok D W d' g hres
      exact grown [g] d' _ ((FeatsGrown.refl D _ d' []).step hi)
  | unregFeature d' g =>
    simp only [step]
    rcases unregisterFeature_cases W d' g with ⟨h1, -⟩ | ⟨j, h1, h2, h3⟩
    · rw [h1]; exact frame rfl rfl rfl (Nat.le_refl _)
    · rw [h3]
      by_cases hd : d = d'
      · subst hd
        exact same (by simp) (by simp) (fun m _ _ => ⟨rfl, rfl⟩) (Nat.le_refl _)
      · exact frame (setDom_ne _ _ hd) rfl rfl (Nat.le_refl _)
  | regMixin d' m' =>
    simp only [step]
    cases hres : (registerMixin D W d' m').1 with
    | error e => exact grown _ d' _ (registerMixin_error D W d' m' hr e hres).1
    | ok u =>
      cases u
      obtain ⟨id, hi⟩ := registerMixin_ok D W d' m' hr hres
      have hd : ((registerMixin D W d' m').2.doms d).types = (W.doms d).types ∧
          ((registerMixin D W d' m').2.doms d).rules = (W.doms d).rules := by
        by_cases hd : d = d'
        · subst hd; rw [hi.dom]; simp
        · rw [hi.other d hd]; simp
      refine same hd.1 hd.2 ?_ (by rw [hi.next]; exact Nat.le_refl _)
      intro m hm _
      have : m ≠ m' := fun e => hm (by rw [e]; exact hi.wasInvalid)
      rw [hi.mixId, hi.mixDom, upd_ne _ _ this, upd_ne _ _ this]; simp
  | unregMixin d' m' => exact absurd rfl (hun d' m')
  | regClass d' c =>
    simp only [step]
    rcases registerTypeClass_cases D W d' c with h1 | h1 | h1 | h1 | ⟨h1, -⟩
    · rw [h1.1]; exact frame rfl rfl rfl (Nat.le_refl _)
    · rw [h1.1]; exact frame rfl rfl rfl (Nat.le_refl _)
    · rw [h1.1]; exact frame rfl rfl rfl (Nat.le_refl _)
    · rw [h1.1]; exact frame rfl rfl rfl (Nat.le_refl _)
    · rw [h1]
      by_cases hd : d = d'
      · subst hd
        exact same (by simp) (by simp) (fun m _ _ => ⟨rfl, rfl⟩) (Nat.le_refl _)
      · exact frame (setDom_ne _ _ hd) rfl rfl (Nat.le_refl _)
  | unregClass d' c =>
    simp only [step, unregisterTypeClass]
    by_cases hd : d = d'
    · subst hd
      exact same (by simp) (by simp) (fun m _ _ => ⟨rfl, rfl⟩) (Nat.le_refl _)
    · exact frame (setDom_ne _ _ hd) rfl rfl (Nat.le_refl _)
  | addRule d' r =>
    by_cases hd : d = d'
    · subst hd
      have hb : disturbed b (.addRule d r) ≠ some d → b = true → False := by
        intro h h2; subst h2; exact h rfl
      have mk : ∀ W' : World, (W'.doms d).types = (W.doms d).types → W'.mixId = W.mixId → W'.mixDom = W.mixDom → W'.nextType = W.nextType →
          (disturbed b (.addRule d r) ≠ some d → Mild b W d W') ∧ (∀ t ∈ (W'.doms d).types, t ∈ (W.doms d).types) ∧ W.nextType ≤ W'.nextType :=
        fun W' h1 h2 h3 h4 => ⟨fun h => ⟨⟨[], by simp [h1]⟩, fun h' => (hb h h').elim, fun m _ _ => by rw [h2, h3]; simp, by omega⟩,
          by rw [h1]; simp, by omega⟩
      simp only [step, addRule]
      split
      · exact mk W rfl rfl rfl rfl
      · split <;> exact mk _ (by simp) rfl rfl rfl
    · simp only [step, addRule]
      split
      · exact frame rfl rfl rfl (Nat.le_refl _)
      · split <;> exact frame (setDom_ne _ _ hd) rfl rfl (Nat.le_refl _)
  | removeRule d' r =>
    by_cases hd : d = d'
    · subst hd
      have hb : disturbed b (.removeRule d r) ≠ some d → b = true → False := by
        intro h h2; subst h2; exact h rfl
      have mk : ∀ W' : World, (W'.doms d).types = (W.doms d).types → W'.mixId = W.mixId → W'.mixDom = W.mixDom → W'.nextType = W.nextType →
          (disturbed b (.removeRule d r) ≠ some d → Mild b W d W') ∧ (∀ t ∈ (W'.doms d).types, t ∈ (W.doms d).types) ∧ W.nextType ≤ W'.nextType :=
        fun W' h1 h2 h3 h4 => ⟨fun h => ⟨⟨[], by simp [h1]⟩, fun h' => (hb h h').elim, fun m _ _ => by rw [h2, h3]; simp, by omega⟩,
          by rw [h1]; simp, by omega⟩
      simp only [step, removeRule]
      split
      · exact mk W rfl rfl rfl rfl
      · split <;> exact mk _ (by simp) rfl rfl rfl
    · simp only [step, removeRule]
      split
      · exact frame rfl rfl rfl (Nat.le_refl _)
      · split <;> exact frame (setDom_ne _ _ hd) rfl rfl (Nat.le_refl _)
  | getTypeMut d' md q => simp [Op.asked] at hask
  | getType d' q => simp [Op.asked] at hask
  | gc d' num =>
    by_cases hd : d = d'
    · subst hd
      refine ⟨fun h => absurd rfl h, ?_⟩
      simp only [step, garbageCollect, collectTypes_eq, setDom_same]
      exact ⟨fun t ht => (List.mem_filter.1 ht).1, Nat.le_refl _⟩
    · simp only [step, garbageCollect, collectTypes_eq]
      exact frame (setDom_ne _ _ hd) rfl rfl (Nat.le_refl _)

/-- the rules of a domain do not look at the registry -/
def PureRules (b : Bool) (D : Decls) (W : World) (d : DomId) : Prop := b = true ∧ ∀ r ∈ (W.doms d).rules.map (·.1), RulePure D r

/-- what the rules of a domain give now -/
def resolvesTo (D : Decls) (W : World) (d : DomId) (q ms : List Mix) : Prop :=
  (applyMutationRules D (rulesOf D (W.view D d) (W.doms d)) q).result = .ok (q, ms)

theorem Mild.pure {b : Bool} {D : Decls} {W W' : World} {d : DomId} (h : Mild b W d W') (hp : PureRules b D W' d) : PureRules b D W d := by
  unfold PureRules at hp ⊢; rw [h.rules hp.1] at hp; exact hp

theorem Mild.resolves {b : Bool} {D : Decls} {W W' : World} {d : DomId} (h : Mild b W d W') (hp : PureRules b D W' d) {q ms : List Mix}
    (hq : resolvesTo D W d q ms) : resolvesTo D W' d q ms := by
  have := h.pure hp
  unfold resolvesTo at *
  rw [rulesOf_pure (h.rules this.1) this.2 (W'.view D d) (W.view D d)]; exact hq

/-- what a thread knows between two parts of its call -/
def StageOk (b : Bool) (D : Decls) (W : World) (op : Op) : Stage → Prop
  | .found key t => ∃ d, op.asked = some (d, key) ∧ ∃ r, (W.doms d).typeAt d t = some r ∧ (PureRules b D W d → resolvesTo D W d key r.mixins)
  | .missing key ms => ∃ d, op.asked = some (d, key) ∧ ms ≠ [] ∧ (PureRules b D W d → resolvesTo D W d key ms)
  | .built key t => ∃ d, op.asked = some (d, key) ∧ TypeOk D W.mixId W.mixDom d t ∧ 0 < t.tid ∧ t.tid < W.nextType ∧
      (PureRules b D W d → resolvesTo D W d key t.mixins)
  | .purged => ∃ d m, op = .unregMixin d m ∧ ∀ t ∈ (W.doms d).types, m ∉ t.mixins
  | .mutating => ∃ d q, op = .getType d q
  | _ => True

theorem StageOk.mild {b : Bool} {D : Decls} {W W' : World} {op : Op} {st : Stage} (h : StageOk b D W op st)
    (hm : st.begun → ∀ d, asks op d → Mild b W d W') (hs : st.begun → ∀ d, disturbed b op = some d → ∀ t ∈ (W'.doms d).types, t ∈ (W.doms d).types) :
    StageOk b D W' op st := by
  cases st with
  | todo => trivial
  | mutating => exact h
  | done r => trivial
  | found key t =>
    obtain ⟨d, h1, r, h2, h3⟩ := h
    have m := hm trivial d ⟨key, h1⟩
    exact ⟨d, h1, r, m.typeAt h2, fun hp => m.resolves hp (h3 (m.pure hp))⟩
  | missing key ms =>
    obtain ⟨d, h1, h2, h3⟩ := h
    have m := hm trivial d ⟨key, h1⟩
    exact ⟨d, h1, h2, fun hp => m.resolves hp (h3 (m.pure hp))⟩
  | built key t =>
    obtain ⟨d, h1, h2, h3, h4, h5⟩ := h
    have m := hm trivial d ⟨key, h1⟩
    refine ⟨d, h1, ?_, h3, Nat.lt_of_lt_of_le h4 m.next, fun hp => m.resolves hp (h5 (m.pure hp))⟩
    have hids : ∀ m' ∈ t.mixins, W'.mixId m' = W.mixId m' ∧ W'.mixDom m' = W.mixDom m' := by
      intro m' hm'
      obtain ⟨⟨i, hi⟩, hd⟩ := h2.reg m' hm'
      exact m.ids m' (by rw [hi]; simp) hd
    exact h2.congr (fun m' hm' => (hids m' hm').1) (fun m' hm' => (hids m' hm').2)
  | purged =>
    obtain ⟨d, m, h1, h2⟩ := h
    exact ⟨d, m, h1, fun t ht => h2 t (hs trivial d (by rw [h1]; rfl) t ht)⟩

theorem cache_store {b : Bool} (hb : b = true) {D : Decls} {W : World} {d : DomId} (h : CacheOk D W d) (key : List Mix) (t : TypeId) (r : TypeRec)
    (ht : (W.doms d).typeAt d t = some r) (hres : PureRules b D W d → resolvesTo D W d key r.mixins) :
    CacheOk D (W.setDom d { W.doms d with queries := storeQuery key t (W.doms d).queries }) d := by
  intro hpp e he
  have hp : PureRules b D (W.setDom d { W.doms d with queries := storeQuery key t (W.doms d).queries }) d := ⟨hb, hpp⟩
  have hm : Mild b W d (W.setDom d { W.doms d with queries := storeQuery key t (W.doms d).queries }) :=
    ⟨⟨[], by simp⟩, fun _ => by simp, fun m _ _ => ⟨rfl, rfl⟩, Nat.le_refl _⟩
  have hp' := hm.pure hp
  simp only [setDom_same] at he
  rcases storeQuery_mem key t _ e he with h1 | h1
  · subst h1
    exact ⟨r, hm.typeAt ht, hm.resolves hp (hres hp')⟩
  · obtain ⟨r', h2, h3⟩ := h hp'.2 e h1.1
    exact ⟨r', hm.typeAt h2, hm.resolves hp h3⟩

theorem types_emplace {D : Decls} {W : World} {d : DomId} (h : TypesInv D W d) (key : List Mix) (r : TypeRec)
    (hok : TypeOk D W.mixId W.mixDom d r) (h0 : 0 < r.tid) (h1 : r.tid < W.nextType) (hf : ∀ t ∈ (W.doms d).types, t.tid ≠ r.tid)
    (hn : ∀ t ∈ (W.doms d).types, t.mixins ≠ r.mixins) :
    TypesInv D (W.setDom d { W.doms d with types := (W.doms d).types ++ [r], queries := storeQuery key r.tid (W.doms d).queries }) d := by
  have key1 : ∀ k s, (W.doms d).typeAt d k = some s →
      Dom.typeAt { W.doms d with types := (W.doms d).types ++ [r], queries := storeQuery key r.tid (W.doms d).queries } d k = some s := by
    intro k s hs
    unfold Dom.typeAt at hs ⊢
    split
    · rename_i he; rw [if_pos he] at hs; exact hs
    · rename_i he; rw [if_neg he] at hs; exact find?_append_fresh _ _ _ _ hs
  refine ⟨?_, ?_, ?_, ?_, ?_, ?_, h.nextPos⟩
  · simp only [setDom_same, setDom_mixId, setDom_mixDom]
    intro t htm
    rcases List.mem_append.1 htm with h1 | h1
    · exact h.ok t h1
    · simp at h1; subst h1; exact hok
  · simp only [setDom_same]
    intro t htm
    rcases List.mem_append.1 htm with h1 | h2
    · exact h.tidPos t h1
    · simp at h2; subst h2; exact ⟨h0, h1⟩
  · simp only [setDom_same]
    rw [List.pairwise_append]
    refine ⟨h.tids, by simp, ?_⟩
    intro a ha b hb
    simp at hb; subst hb
    exact hf a ha
  · simp only [setDom_same]
    rw [List.pairwise_append]
    refine ⟨h.comps, by simp, ?_⟩
    intro a ha b hb
    simp at hb; subst hb
    exact hn a ha
  · simp only [setDom_same]
    intro e he
    rcases storeQuery_mem key r.tid _ e he with h2 | h2
    · subst h2
      refine ⟨r, ?_⟩
      unfold Dom.typeAt
      rw [if_neg (by unfold emptyTid; omega)]
      simp only
      rw [List.find?_append]
      have : (W.doms d).types.find? (fun x => x.tid == r.tid) = none := by
        rw [List.find?_eq_none]
        intro x hx
        have := hf x hx
        simpa using this
      rw [this]; simp
    · obtain ⟨s, hs⟩ := h.queries e h2.1
      exact ⟨s, key1 _ _ hs⟩
  · simpa using storeQuery_keys key r.tid _ h.keys

/-- effect of one part of a call -/
structure PartOk (b : Bool) (D : Decls) (W : World) (op : Op) (st st' : Stage) (W' : World) : Prop where
  reg : RegInv W'
  types : ∀ d, TypesInv D W' d
  cache : b = true → ∀ d, CacheOk D W' d
  stage : StageOk b D W' op st'
  mild : ∀ d, disturbed b op ≠ some d → Mild b W d W'
  shrink : ∀ d, ¬ asks op d → ∀ t ∈ (W'.doms d).types, t ∈ (W.doms d).types
  new : ∀ d, ∀ t ∈ (W'.doms d).types, t ∈ (W.doms d).types ∨ ∃ key, st = .built key t
  fresh : ∀ key t, st' = .built key t → t.tid = W.nextType
  next : W.nextType ≤ W'.nextType

theorem PartOk.same {b : Bool} {D : Decls} {W : World} {op : Op} {st st' : Stage} (hr : RegInv W) (ht : ∀ d, TypesInv D W d) (hc : b = true → ∀ d, CacheOk D W d)
    (hs : StageOk b D W op st') (hb : ∀ key t, st' ≠ .built key t) : PartOk b D W op st st' W :=
  ⟨hr, ht, hc, hs, fun d _ => .refl b W d, fun _ _ _ h => h, fun _ _ h => .inl h, fun key t h => absurd h (hb key t), Nat.le_refl _⟩

theorem lookupPart_ok {b : Bool} {D : Decls} {W : World} {op : Op} {st : Stage} {d : DomId} {q : List Mix} (hr : RegInv W) (ht : ∀ d, TypesInv D W d)
    (hc : b = true → ∀ d, CacheOk D W d) (hop : op.asked = some (d, q)) : PartOk b D W op st (lookupPart D W d q) W := by
  unfold lookupPart lookupSection
  cases hf : findQuery q (W.doms d).queries with
  | some t => exact .same hr ht hc trivial (by simp)
  | none =>
    simp only
    cases ha : (applyMutationRules D (rulesOf D (W.view D d) (W.doms d)) q).result with
    | error e => exact .same hr ht hc trivial (by simp)
    | ok p =>
      obtain ⟨key, ms⟩ := p
      have hkey := applyMutationRules_key D _ q key ms ha
      subst hkey
      simp only
      by_cases hms : ms = []
      · subst hms
        simp only [List.isEmpty_nil, if_true]
        exact .same hr ht hc ⟨d, hop, emptyType d, typeAt_empty _ _, fun _ => ha⟩ (by simp)
      · rw [if_neg (by simpa using hms)]
        cases hft : findType ms (W.doms d).types with
        | none => exact .same hr ht hc ⟨d, hop, hms, fun _ => ha⟩ (by simp)
        | some r =>
          obtain ⟨h1, h2⟩ := findType_some hft
          exact .same hr ht hc ⟨d, hop, r, (ht d).typeAt_mem r h1, fun _ => by rw [h2]; exact ha⟩ (by simp)

theorem setDom_cases {W : World} {d : DomId} {x : Dom} (d' : DomId) :
    (d' = d ∧ (W.setDom d x).doms d' = x) ∨ (d' ≠ d ∧ (W.setDom d x).doms d' = W.doms d') := by
  by_cases h : d' = d
  · subst h; exact .inl ⟨rfl, setDom_same _ _ _⟩
  · exact .inr ⟨h, setDom_ne _ _ h⟩

theorem cache_frame {D : Decls} {W W' : World} {d : DomId} (h : CacheOk D W d) (h1 : W'.doms d = W.doms d)
    (h2 : W'.mixId = W.mixId) (h3 : W'.mixDom = W.mixDom) (h4 : W.nextType ≤ W'.nextType) (ht : TypesInv D W d) : CacheOk D W' d :=
  TypeStep.cache (.frame h1 h2 h3 h4) ht h

/-- storing a query that leads to a type -/
theorem storePart_ok {b : Bool} {D : Decls} {W : World} {op : Op} {st : Stage} {d : DomId} {key : List Mix} {t : TypeId} {r : TypeRec} (hr : RegInv W)
    (ht : ∀ d, TypesInv D W d) (hc : b = true → ∀ d, CacheOk D W d) (h1 : (W.doms d).typeAt d t = some r)
    (h2 : PureRules b D W d → resolvesTo D W d key r.mixins) (res : Except Err (Option TypeId)) :
    PartOk b D W op st (.done res) (W.setDom d { W.doms d with queries := storeQuery key t (W.doms d).queries }) := by
  have hsub : ∀ d', ((W.setDom d { W.doms d with queries := storeQuery key t (W.doms d).queries }).doms d').types = (W.doms d').types ∧
      ((W.setDom d { W.doms d with queries := storeQuery key t (W.doms d).queries }).doms d').rules = (W.doms d').rules := by
    intro d'
    rcases setDom_cases (W := W) (d := d) (x := { W.doms d with queries := storeQuery key t (W.doms d).queries }) d' with ⟨a, b⟩ | ⟨a, b⟩
    · rw [b, a]; simp
    · rw [b]; simp
  refine ⟨hr.congr (.setDom W d _ rfl rfl rfl), ?_, ?_, trivial, ?_, ?_, ?_, by simp, Nat.le_refl _⟩
  · intro d'
    by_cases hd : d' = d
    · subst hd; exact (ht d').store key t ⟨r, h1⟩
    · exact (ht d').frame (setDom_ne _ _ hd) rfl rfl (Nat.le_refl _)
  · intro hb d'
    by_cases hd : d' = d
    · subst hd; exact cache_store hb (hc hb d') key t r h1 h2
    · exact cache_frame (hc hb d') (setDom_ne _ _ hd) rfl rfl (Nat.le_refl _) (ht d')
  · intro d' _
    exact ⟨⟨[], by rw [(hsub d').1]; simp⟩, fun _ => by rw [(hsub d').2], fun _ _ _ => ⟨rfl, rfl⟩, Nat.le_refl _⟩
  · intro d' _ t' ht'; rw [(hsub d').1] at ht'; exact ht'
  · intro d' t' ht'; rw [(hsub d').1] at ht'; exact .inl ht'

theorem getPart_ok {b : Bool} {D : Decls} {W : World} {op : Op} {st : Stage} {d : DomId} {q : List Mix} (hr : RegInv W) (ht : ∀ d, TypesInv D W d)
    (hc : b = true → ∀ d, CacheOk D W d) (hop : op.asked = some (d, q)) (hs : StageOk b D W op st)
    (hf : ∀ key t, st = .built key t → ∀ d, ∀ r ∈ (W.doms d).types, r.tid ≠ t.tid) (hnd : st.begun) :
    PartOk b D W op st (getPart D W d q st).1 (getPart D W d q st).2 := by
  cases st with
  | todo => exact absurd hnd id
  | done r => exact absurd hnd id
  | mutating => exact lookupPart_ok hr ht hc hop
  | purged =>
    obtain ⟨d', m, h1, -⟩ := hs
    rw [h1] at hop; simp [Op.asked] at hop
  | found key t =>
    obtain ⟨d', h1, r, h2, h3⟩ := hs
    rw [hop] at h1; simp at h1; obtain ⟨h1, h1'⟩ := h1; subst h1; subst h1'
    exact storePart_ok hr ht hc h2 h3 _
  | missing key ms =>
    obtain ⟨d', h1, h2, h3⟩ := hs
    rw [hop] at h1; simp at h1; obtain ⟨h1, h1'⟩ := h1; subst h1; subst h1'
    cases hb : buildType D W d W.nextType ms with
    | error e =>
      rw [show getPart D W d q (.missing q ms) = (.done (.error e), W) by simp only [getPart, hb]]
      exact .same hr ht hc trivial (by simp)
    | ok t =>
      rw [show getPart D W d q (.missing q ms) = (.built q t, { W with nextType := W.nextType + 1 }) by simp only [getPart, hb]]
      obtain ⟨hok, h4, h5, -⟩ := buildType_ok D W d W.nextType ms t h2 hb
      have hpos := (ht d).nextPos
      have hm : ∀ d', Mild b W d' { W with nextType := W.nextType + 1 } := fun d' => .frame rfl rfl rfl (by simp)
      refine ⟨hr.congr ⟨fun _ => rfl, fun _ => rfl, fun _ => rfl, rfl, rfl, rfl⟩, fun d' => (ht d').frame rfl rfl rfl (by simp),
        fun hb d' => cache_frame (hc hb d') rfl rfl rfl (by simp) (ht d'), ?_, fun d' _ => hm d', fun _ _ _ h => h, fun _ _ h => .inl h, ?_, by simp⟩
      · refine ⟨d, hop, hok, by omega, by simp; omega, fun hp => ?_⟩
        rw [h4]; exact (hm d).resolves hp (h3 ((hm d).pure hp))
      · intro key' t' h; simp at h; rw [← h.2]; exact h5
  | built key t =>
    obtain ⟨d', h1, h2, h3, h4, h5⟩ := hs
    rw [hop] at h1; simp at h1; obtain ⟨h1, h1'⟩ := h1; subst h1; subst h1'
    cases hft : findType t.mixins (W.doms d).types with
    | some old =>
      rw [show getPart D W d q (.built q t) = (.done (.ok (some old.tid)), W.setDom d { W.doms d with
        queries := storeQuery q old.tid (W.doms d).queries }) by simp only [getPart, emplaceSection, hft]]
      obtain ⟨h6, h7⟩ := findType_some hft
      exact storePart_ok hr ht hc ((ht d).typeAt_mem old h6) (by rw [h7]; exact h5) _
    | none =>
      rw [show getPart D W d q (.built q t) = (.done (.ok (some t.tid)), W.setDom d { W.doms d with
        types := (W.doms d).types ++ [t], queries := storeQuery q t.tid (W.doms d).queries }) by simp only [getPart, emplaceSection, hft]]
      have hn := findType_none.1 hft
      have hty := types_emplace (ht d) q t h2 h3 h4 (hf q t rfl d) hn
      have hm : ∀ d', Mild b W d' (W.setDom d { W.doms d with types := (W.doms d).types ++ [t], queries := storeQuery q t.tid (W.doms d).queries }) := by
        intro d'
        by_cases hd : d' = d
        · subst hd; exact ⟨⟨[t], by simp⟩, fun _ => by simp, fun _ _ _ => ⟨rfl, rfl⟩, Nat.le_refl _⟩
        · exact .frame (setDom_ne _ _ hd) rfl rfl (Nat.le_refl _)
      refine ⟨hr.congr (.setDom W d _ rfl rfl rfl), ?_, ?_, trivial, fun d' _ => hm d', ?_, ?_, by simp, Nat.le_refl _⟩
      · intro d'
        by_cases hd : d' = d
        · subst hd; exact hty
        · exact (ht d').frame (setDom_ne _ _ hd) rfl rfl (Nat.le_refl _)
      · intro hb d'
        by_cases hd : d' = d
        · subst hd
          intro hpp e he
          have hp : PureRules b D (W.setDom d' { W.doms d' with types := (W.doms d').types ++ [t], queries := storeQuery q t.tid (W.doms d').queries }) d' := ⟨hb, hpp⟩
          simp only [setDom_same] at he
          rcases storeQuery_mem q t.tid _ e he with h8 | h8
          · subst h8
            exact ⟨t, hty.typeAt_mem t (by simp), (hm d').resolves hp (h5 ((hm d').pure hp))⟩
          · obtain ⟨r', h9, h10⟩ := hc hb d' ((hm d').pure hp).2 e h8.1
            exact ⟨r', (hm d').typeAt h9, (hm d').resolves hp h10⟩
        · exact cache_frame (hc hb d') (setDom_ne _ _ hd) rfl rfl (Nat.le_refl _) (ht d')
      · intro d' hna t' ht'
        have hd : d' ≠ d := fun e => hna ⟨q, by rw [e]; exact hop⟩
        rw [setDom_ne _ _ hd] at ht'; exact ht'
      · intro d' t' ht'
        by_cases hd : d' = d
        · subst hd
          simp only [setDom_same] at ht'
          rcases List.mem_append.1 ht' with h8 | h8
          · exact .inl h8
          · simp at h8; subst h8; exact .inr ⟨q, rfl⟩
        · rw [setDom_ne _ _ hd] at ht'; exact .inl ht'

theorem purgePart_ok {b : Bool} {D : Decls} {W : World} {st : Stage} {d : DomId} {m : Mix} (hr : RegInv W) (ht : ∀ d, TypesInv D W d)
    (hc : b = true → ∀ d, CacheOk D W d) : PartOk b D W (.unregMixin d m) st (purgePart W d m).1 (purgePart W d m).2 := by
  obtain ⟨qs, h1, h2⟩ := purgeQueries_some (W.doms d) d (W.mixId m) m (W.doms d).queries (ht d).queries
  unfold purgePart
  simp only [h1]
  have hstep : TypeStep D W d (W.setDom d { W.doms d with queries := qs, types := (W.doms d).types.filter (fun t => !t.hasId (W.mixId m)) }) := by
    refine .filter _ _ (by simp; rfl) (by simp only [setDom_same]; exact h2) ?_ (by simp) (fun _ _ _ _ _ => ⟨rfl, rfl⟩) (Nat.le_refl _)
    intro e he hp t htt hte
    have hat := (ht d).typeAt_mem t htt
    rw [hte] at hat
    simp only [hat] at hp
    simp at hp ⊢; exact hp.1
  have hsub : ∀ d', ∀ t ∈ ((W.setDom d { W.doms d with queries := qs, types := (W.doms d).types.filter (fun t => !t.hasId (W.mixId m)) }).doms d').types,
      t ∈ (W.doms d').types := by
    intro d' t htt
    by_cases hd : d' = d
    · subst hd; simp only [setDom_same] at htt; exact (List.mem_filter.1 htt).1
    · rw [setDom_ne _ _ hd] at htt; exact htt
  refine ⟨hr.congr (.setDom W d _ rfl rfl rfl), ?_, ?_, ⟨d, m, rfl, ?_⟩, ?_, fun d' _ => hsub d', fun d' t h => .inl (hsub d' t h), by simp, Nat.le_refl _⟩
  · intro d'
    by_cases hd : d' = d
    · subst hd; exact hstep.types (ht d')
    · exact (ht d').frame (setDom_ne _ _ hd) rfl rfl (Nat.le_refl _)
  · intro hb d'
    by_cases hd : d' = d
    · subst hd; exact hstep.cache (ht d') (hc hb d')
    · exact cache_frame (hc hb d') (setDom_ne _ _ hd) rfl rfl (Nat.le_refl _) (ht d')
  · intro t htt hm
    simp only [setDom_same] at htt
    obtain ⟨h3, h4⟩ := List.mem_filter.1 htt
    obtain ⟨⟨i, hi⟩, -⟩ := ((ht d).ok t h3).reg m hm
    have := (((ht d).ok t h3).hasId hr (W.mixId m)).2 ⟨i, m, hi, hm, hi⟩
    rw [this] at h4; simp at h4
  · intro d' hd
    have hd : d' ≠ d := fun e => hd (by rw [e]; rfl)
    exact .frame (setDom_ne _ _ hd) rfl rfl (Nat.le_refl _)

theorem removePart_ok {b : Bool} {D : Decls} {W : World} {d : DomId} {m : Mix} (hr : RegInv W) (ht : ∀ d, TypesInv D W d)
    (hc : b = true → ∀ d, CacheOk D W d) (hs : ∀ t ∈ (W.doms d).types, m ∉ t.mixins) :
    PartOk b D W (.unregMixin d m) .purged (removePart W d m).1 (removePart W d m).2 := by
  unfold removePart
  simp only
  cases ho : ownSlot (W.doms d).mixins (W.mixId m) m with
  | none => exact .same hr ht hc trivial (by simp)
  | some i =>
    simp only
    obtain ⟨h1, h2⟩ := (ownSlot_some _ _ _ _).1 ho
    have hmd := (hr.mixSlot d _ m h2).2
    have hdoms : ∀ d', ((W.setDom d { W.doms d with mixins := (W.doms d).mixins.set i none }).doms d').types = (W.doms d').types ∧
        ((W.setDom d { W.doms d with mixins := (W.doms d).mixins.set i none }).doms d').queries = (W.doms d').queries ∧
        ((W.setDom d { W.doms d with mixins := (W.doms d).mixins.set i none }).doms d').rules = (W.doms d').rules := by
      intro d'
      by_cases hd : d' = d
      · subst hd; simp
      · rw [setDom_ne _ _ hd]; simp
    have hstep : ∀ d', TypeStep D W d' { W.setDom d { W.doms d with mixins := (W.doms d).mixins.set i none } with
        mixId := upd W.mixId m none, mixDom := upd W.mixDom m none } := by
      intro d'
      refine .filter (fun _ => true) (fun _ => true) ((hdoms d').1.trans (List.filter_eq_self.2 (by simp)).symm) ((hdoms d').2.1.trans (List.filter_eq_self.2 (by simp)).symm) (by simp) (by rw [(hdoms d').2.2]) ?_ (Nat.le_refl _)
      intro t htt _ m' hm'
      have hne : m' ≠ m := by
        intro e; subst e
        obtain ⟨-, h3⟩ := ((ht d').ok t htt).reg m' hm'
        rw [hmd] at h3; simp at h3; subst h3
        exact hs t htt hm'
      exact ⟨upd_ne _ _ hne, upd_ne _ _ hne⟩
    refine ⟨?_, fun d' => (hstep d').types (ht d'), fun hb d' => (hstep d').cache (ht d') (hc hb d'), trivial, ?_,
      fun d' _ t h => by rw [← (hdoms d').1]; exact h, fun d' t h => .inl (by rw [← (hdoms d').1]; exact h), by simp, Nat.le_refl _⟩
    · -- like unregister_mixin of a mixin without types and queries
      obtain ⟨qs, h3, -⟩ := purgeQueries_some (W.doms d) d (W.mixId m) m (W.doms d).queries (ht d).queries
      have h4 := unregisterMixin_reg W d m hr
      unfold unregisterMixin at h4
      simp only [h3, ho] at h4
      refine h4.congr ⟨?_, ?_, ?_, rfl, rfl, rfl⟩ <;> intro d' <;> by_cases hd : d' = d
      all_goals first
        | (subst hd; simp; done)
        | (simp [setDom_ne _ _ hd])
    · intro d' hd
      have hd2 : d' ≠ d := fun e => hd (by rw [e]; rfl)
      refine ⟨⟨[], by rw [List.append_nil]; exact (hdoms d').1⟩, fun _ => congrArg (List.map (·.1)) (hdoms d').2.2, ?_, Nat.le_refl _⟩
      intro m' _ hm'
      have hne : m' ≠ m := by
        intro e; subst e
        rw [hmd] at hm'; simp at hm'; exact hd2 hm'.symm
      exact ⟨upd_ne _ _ hne, upd_ne _ _ hne⟩

theorem beginPart_other {D : Decls} {W : World} {op : Op} (hask : op.asked = none) (hun : ∀ d m, op ≠ .unregMixin d m) :
    beginPart D W op = (.done (noType (step D W op).1), (step D W op).2) := by
  cases op <;> simp_all [beginPart, Op.asked]

theorem nextPart_ok {b : Bool} {D : Decls} {W : World} {op : Op} {st : Stage} (hr : RegInv W) (ht : ∀ d, TypesInv D W d)
    (hc : b = true → ∀ d, CacheOk D W d) (hs : StageOk b D W op st)
    (hf : ∀ key t, st = .built key t → ∀ d, ∀ r ∈ (W.doms d).types, r.tid ≠ t.tid) :
    PartOk b D W op st (nextPart D W op st).1 (nextPart D W op st).2 := by
  by_cases hnd : st.begun
  · cases hop : op.asked with
    | some p =>
      obtain ⟨d, q⟩ := p
      have he : nextPart D W op st = getPart D W d q st := by
        cases op <;> simp [Op.asked] at hop
        all_goals (obtain ⟨h1, h2⟩ := hop; subst h1; subst h2; cases st <;> first | exact absurd hnd id | rfl)
      rw [he]
      exact getPart_ok hr ht hc hop hs hf hnd
    | none =>
      cases st with
      | todo => exact absurd hnd id
      | done r => exact absurd hnd id
      | mutating => obtain ⟨d, q, h⟩ := hs; rw [h] at hop; simp [Op.asked] at hop
      | found key t => obtain ⟨d, h, -⟩ := hs; rw [h] at hop; simp at hop
      | missing key ms => obtain ⟨d, h, -⟩ := hs; rw [h] at hop; simp at hop
      | built key t => obtain ⟨d, h, -⟩ := hs; rw [h] at hop; simp at hop
      | purged =>
        obtain ⟨d, m, h1, h2⟩ := hs
        subst h1
        exact removePart_ok hr ht hc h2
  · cases st with
    | done r =>
      show PartOk b D W op _ (.done r) W
      exact .same hr ht hc trivial (by simp)
    | todo =>
      show PartOk b D W op _ (beginPart D W op).1 (beginPart D W op).2
      cases hop : op.asked with
      | some p =>
        obtain ⟨d, q⟩ := p
        cases op <;> simp [Op.asked] at hop
        case getTypeMut d' md q' =>
          obtain ⟨h1, h2⟩ := hop; subst h1; subst h2
          by_cases hmd : md = d'
          · rw [show beginPart D W (.getTypeMut d' md q') = (lookupPart D W d' q', W) by simp [beginPart, hmd]]
            exact lookupPart_ok hr ht hc rfl
          · rw [show beginPart D W (.getTypeMut d' md q') = (.done (.error .foreignMutation), W) by simp [beginPart, hmd]]
            exact .same hr ht hc trivial (by simp)
        case getType d' q' =>
          obtain ⟨h1, h2⟩ := hop; subst h1; subst h2
          cases hq : findQuery q' (W.doms d').queries with
          | some t =>
            rw [show beginPart D W (.getType d' q') = (.done (.ok (some t)), W) by simp [beginPart, hq]]
            exact .same hr ht hc trivial (by simp)
          | none =>
            rw [show beginPart D W (.getType d' q') = (.mutating, W) by simp [beginPart, hq]]
            exact .same hr ht hc ⟨d', q', rfl⟩ (by simp)
      | none =>
        by_cases hun : ∃ d m, op = .unregMixin d m
        · obtain ⟨d, m, h⟩ := hun
          subst h
          exact purgePart_ok hr ht hc
        · have hun' : ∀ d m, op ≠ .unregMixin d m := fun d m h => hun ⟨d, m, h⟩
          rw [beginPart_other hop hun']
          have hso := fun d => step_other (b := b) (D := D) hr op hop hun' d
          exact ⟨step_reg D W op hr, fun d => step_types D W hr op d (ht d), fun hb d => (step_typeStep D W hr op d (ht d)).cache (ht d) (hc hb d),
            trivial, fun d => (hso d).1, fun d _ => (hso d).2.1, fun d t h => .inl ((hso d).2.1 t h), by simp, (hso 0).2.2⟩
    | _ => exact absurd trivial hnd

/-- invariant of disciplined executions -/
structure ConcInv (b : Bool) (D : Decls) (C : Threads) : Prop where
  reg : RegInv C.W
  types : ∀ d, TypesInv D C.W d
  cache : b = true → ∀ d, CacheOk D C.W d
  stage : ∀ (i : Nat) th, C.threads[i]? = some th → StageOk b D C.W th.op th.stage
  fresh : ∀ (i : Nat) th key t, C.threads[i]? = some th → th.stage = .built key t → ∀ d, ∀ r ∈ (C.W.doms d).types, r.tid ≠ t.tid
  apart : ∀ (i j : Nat) th th' key t key' t', C.threads[i]? = some th → C.threads[j]? = some th' → i ≠ j → th.stage = .built key t →
    th'.stage = .built key' t' → t.tid ≠ t'.tid

theorem Threads.step_some {D : Decls} {C : Threads} {i : Nat} {th : Thread} (h : C.threads[i]? = some th) :
    C.step D i = { W := (nextPart D C.W th.op th.stage).2, threads := C.threads.set i { th with stage := (nextPart D C.W th.op th.stage).1 } } := by
  unfold Threads.step; rw [h]

theorem Threads.step_none {D : Decls} {C : Threads} {i : Nat} (h : C.threads[i]? = none) : C.step D i = C := by
  unfold Threads.step; rw [h]

theorem get_set {α : Type} {l : List α} {i j : Nat} {a b x : α} (hi : l[i]? = some x) (h : (l.set i a)[j]? = some b) :
    (j = i ∧ b = a) ∨ (j ≠ i ∧ l[j]? = some b) := by
  rw [List.getElem?_set] at h
  by_cases hij : i = j
  · subst hij
    simp only [if_true] at h
    split at h
    · simp at h; exact .inl ⟨rfl, h.symm⟩
    · simp at h
  · rw [if_neg hij] at h; exact .inr ⟨fun e => hij e.symm, h⟩

theorem ConcInv.part {b : Bool} {D : Decls} {C : Threads} (h : ConcInv b D C) {i : Nat} {th : Thread} (hi : C.threads[i]? = some th) :
    PartOk b D C.W th.op th.stage (nextPart D C.W th.op th.stage).1 (nextPart D C.W th.op th.stage).2 :=
  nextPart_ok h.reg h.types h.cache (h.stage i th hi) (fun key t he => h.fresh i th key t hi he)

theorem ConcInv.step {b : Bool} {D : Decls} {C : Threads} (h : ConcInv b D C) (i : Nat) (hm : mayRun b C i) : ConcInv b D (C.step D i) := by
  cases hi : C.threads[i]? with
  | none => rw [Threads.step_none hi]; exact h
  | some th =>
    have p := h.part hi
    rw [Threads.step_some hi]
    refine ⟨p.reg, p.types, p.cache, ?_, ?_, ?_⟩
    · intro j th' hj
      rcases get_set hi hj with ⟨-, h2⟩ | ⟨h1, h2⟩
      · subst h2; exact p.stage
      · refine (h.stage j th' h2).mild ?_ ?_
        · intro hb d hd
          exact p.mild d fun he => hm th hi j th' h1 h2 hb ⟨d, .inl ⟨he, .inr hd⟩⟩
        · intro hb d hd
          exact p.shrink d fun he => hm th hi j th' h1 h2 hb ⟨d, .inr ⟨he, hd⟩⟩
    · intro j th' key t hj hst d r hr
      rcases get_set hi hj with ⟨-, h2⟩ | ⟨h1, h2⟩
      · subst h2
        have := p.fresh key t hst
        rcases p.new d r hr with h3 | ⟨key', h3⟩
        · have := ((h.types d).tidPos r h3).2; omega
        · have := h.stage i th hi
          rw [h3] at this
          obtain ⟨d', -, -, -, h4, -⟩ := this
          omega
      · rcases p.new d r hr with h3 | ⟨key', h3⟩
        · exact h.fresh j th' key t h2 hst d r h3
        · exact h.apart i j th th' key' r key t hi h2 (fun e => h1 e.symm) h3 hst
    · intro j k th1 th2 key1 t1 key2 t2 hj hk hjk h1 h2
      have lt : ∀ (j : Nat) th' key t, C.threads[j]? = some th' → th'.stage = .built key t → t.tid < C.W.nextType := by
        intro j th' key t hj hst
        have := h.stage j th' hj
        rw [hst] at this
        obtain ⟨d', -, -, -, h4, -⟩ := this
        exact h4
      rcases get_set hi hj with ⟨a1, a2⟩ | ⟨a1, a2⟩
      · rcases get_set hi hk with ⟨b1, b2⟩ | ⟨b1, b2⟩
        · omega
        · subst a2
          have := p.fresh key1 t1 h1
          have := lt k th2 key2 t2 b2 h2
          omega
      · rcases get_set hi hk with ⟨b1, b2⟩ | ⟨b1, b2⟩
        · subst b2
          have := p.fresh key2 t2 h2
          have := lt j th1 key1 t1 a2 h1
          omega
        · exact h.apart j k th1 th2 key1 t1 key2 t2 a2 b2 hjk h1 h2

theorem concInv_spawn {b : Bool} {D : Decls} {W : World} (hr : RegInv W) (ht : ∀ d, TypesInv D W d) (hc : b = true → ∀ d, CacheOk D W d) (ops : List Op) :
    ConcInv b D (spawn W ops) := by
  have hst : ∀ (i : Nat) th, (spawn W ops).threads[i]? = some th → th.stage = .todo := by
    intro i th h
    simp only [spawn, List.getElem?_map, Option.map_eq_some_iff] at h
    obtain ⟨op, -, h⟩ := h
    rw [← h]
  refine ⟨hr, ht, hc, ?_, ?_, ?_⟩
  · intro i th h; rw [hst i th h]; trivial
  · intro i th key t h he; rw [hst i th h] at he; simp at he
  · intro i j th th' key t key' t' h _ _ he; rw [hst i th h] at he; simp at he

theorem ConcInv.run {b : Bool} {D : Decls} (is : List Nat) : ∀ {C : Threads}, ConcInv b D C → Disciplined b D C is → ConcInv b D (C.run D is) := by
  induction is with
  | nil => intro C h _; exact h
  | cons i is ih => intro C h hd; exact ih (h.step i hd.1) hd.2

theorem Threads.run_append (D : Decls) (is js : List Nat) : ∀ C : Threads, C.run D (is ++ js) = (C.run D is).run D js := by
  induction is with
  | nil => intro C; rfl
  | cons i is ih => intro C; exact ih (C.step D i)

theorem Disciplined.append {b : Bool} {D : Decls} (is js : List Nat) : ∀ {C : Threads}, Disciplined b D C (is ++ js) →
    Disciplined b D C is ∧ Disciplined b D (C.run D is) js := by
  induction is with
  | nil => intro C h; exact ⟨trivial, h⟩
  | cons i is ih => intro C h; obtain ⟨h1, h2⟩ := ih h.2; exact ⟨⟨h.1, h1⟩, h2⟩

/-- the calls of the threads do not change -/
theorem Threads.step_ops (D : Decls) (C : Threads) (i : Nat) : (C.step D i).threads.map (·.op) = C.threads.map (·.op) := by
  cases hi : C.threads[i]? with
  | none => rw [Threads.step_none hi]
  | some th =>
    rw [Threads.step_some hi]
    simp only [List.map_set]
    apply List.ext_getElem?
    intro j
    rw [List.getElem?_set]
    split
    · rename_i h; subst h
      simp only [List.length_map, List.getElem?_map, hi]
      split
      · rfl
      · rename_i h; have := (List.getElem?_eq_some_iff.1 hi).1; omega
    · rfl

theorem Threads.run_ops (D : Decls) (is : List Nat) : ∀ C : Threads, (C.run D is).threads.map (·.op) = C.threads.map (·.op) := by
  induction is with
  | nil => intro C; rfl
  | cons i is ih => intro C; exact (ih _).trans (C.step_ops D i)

theorem spawn_op {D : Decls} {W : World} {ops : List Op} {is : List Nat} {i : Nat} {th : Thread}
    (h : ((spawn W ops).run D is).threads[i]? = some th) : ops[i]? = some th.op := by
  have := Threads.run_ops D is (spawn W ops)
  simp only [spawn, List.map_map] at this
  have h2 := congrArg (fun l => l[i]?) this
  simp only [List.getElem?_map] at h2
  have h3 : (List.map (fun op => ({ op := op } : Thread)) ops) = (spawn W ops).threads := rfl
  rw [show ({ W := W, threads := List.map (fun op => ({ op := op } : Thread)) ops } : Threads) = spawn W ops from rfl] at h2
  rw [h] at h2
  cases ho : ops[i]? with
  | none => rw [ho] at h2; simp at h2
  | some op => rw [ho] at h2; simp at h2; rw [h2]

/-- the world after the last part of a successful get_type -/
theorem getDone {b : Bool} {D : Decls} {W : World} {op : Op} {st : Stage} {d : DomId} {q : List Mix} {o : Option TypeId}
    (ht : ∀ d, TypesInv D W d) (hc : b = true → ∀ d, CacheOk D W d) (hs : StageOk b D W op st)
    (hf : ∀ key t, st = .built key t → ∀ d, ∀ r ∈ (W.doms d).types, r.tid ≠ t.tid)
    (hop : op.asked = some (d, q)) (hnd : ∀ r, st ≠ .done r) (h : (nextPart D W op st).1 = .done (.ok o)) :
    ∃ t r, o = some t ∧ ((nextPart D W op st).2.doms d).typeAt d t = some r ∧
      (PureRules b D (nextPart D W op st).2 d → resolvesTo D (nextPart D W op st).2 d q r.mixins) := by
  have hlook : ∀ (W' : World), W' = W → lookupPart D W d q = .done (.ok o) → ∃ t r, o = some t ∧ (W'.doms d).typeAt d t = some r ∧
      (PureRules b D W' d → resolvesTo D W' d q r.mixins) := by
    intro W' hW hl
    subst hW
    unfold lookupPart at hl
    unfold lookupSection at hl
    cases hq : findQuery q (W'.doms d).queries with
    | some t =>
      rw [hq] at hl; simp at hl
      obtain ⟨r, hr⟩ := (ht d).queries _ (findQuery_some hq)
      refine ⟨t, r, hl.symm, hr, fun hp => ?_⟩
      obtain ⟨r', h1, h2⟩ := hc hp.1 d hp.2 _ (findQuery_some hq)
      rw [hr] at h1; simp at h1; subst h1; exact h2
    | none =>
      rw [hq] at hl; simp only at hl
      cases ha : (applyMutationRules D (rulesOf D (W'.view D d) (W'.doms d)) q).result with
      | error e => rw [ha] at hl; simp at hl
      | ok p =>
        obtain ⟨key, ms⟩ := p
        rw [ha] at hl; simp only at hl
        cases hx : (if ms.isEmpty then some emptyTid else (findType ms (W'.doms d).types).map (·.tid)) <;> rw [hx] at hl <;> simp at hl
  by_cases hb : st.begun
  · have he : nextPart D W op st = getPart D W d q st := by
      cases op <;> simp [Op.asked] at hop
      all_goals (obtain ⟨h1, h2⟩ := hop; subst h1; subst h2; cases st <;> first | exact absurd hb id | rfl)
    rw [he] at h ⊢
    cases st with
    | todo => exact absurd hb id
    | done r => exact absurd hb id
    | purged => simp [getPart] at h
    | mutating => exact hlook W rfl h
    | found key t =>
      obtain ⟨d', h1, r, h2, h3⟩ := hs
      rw [hop] at h1; simp at h1; obtain ⟨h1, h1'⟩ := h1; subst h1; subst h1'
      simp only [getPart, Stage.done.injEq, Except.ok.injEq] at h
      have hm : Mild b W d (getPart D W d q (.found q t)).2 := by
        refine ⟨⟨[], ?_⟩, fun _ => ?_, fun _ _ _ => ⟨rfl, rfl⟩, Nat.le_refl _⟩ <;> simp [getPart]
      exact ⟨t, r, h.symm, hm.typeAt h2, fun hp => hm.resolves hp (h3 (hm.pure hp))⟩
    | missing key ms =>
      cases hbt : buildType D W d W.nextType ms with
      | error e => simp [getPart, hbt] at h
      | ok t => simp [getPart, hbt] at h
    | built key t =>
      obtain ⟨d', h1, h2, h3, h4, h5⟩ := hs
      rw [hop] at h1; simp at h1; obtain ⟨h1, h1'⟩ := h1; subst h1; subst h1'
      cases hft : findType t.mixins (W.doms d).types with
      | some old =>
        rw [show getPart D W d q (.built q t) = (.done (.ok (some old.tid)), W.setDom d { W.doms d with
          queries := storeQuery q old.tid (W.doms d).queries }) by simp only [getPart, emplaceSection, hft]] at h ⊢
        have hm : Mild b W d (W.setDom d { W.doms d with queries := storeQuery q old.tid (W.doms d).queries }) := by
          refine ⟨⟨[], ?_⟩, fun _ => ?_, fun _ _ _ => ⟨rfl, rfl⟩, Nat.le_refl _⟩ <;> simp
        obtain ⟨h6, h7⟩ := findType_some hft
        simp at h
        exact ⟨old.tid, old, h.symm, hm.typeAt ((ht d).typeAt_mem old h6), fun hp => by rw [h7]; exact hm.resolves hp (h5 (hm.pure hp))⟩
      | none =>
        rw [show getPart D W d q (.built q t) = (.done (.ok (some t.tid)), W.setDom d { W.doms d with
          types := (W.doms d).types ++ [t], queries := storeQuery q t.tid (W.doms d).queries }) by simp only [getPart, emplaceSection, hft]] at h ⊢
        have hm : Mild b W d (W.setDom d { W.doms d with types := (W.doms d).types ++ [t], queries := storeQuery q t.tid (W.doms d).queries }) := by
          refine ⟨⟨[t], ?_⟩, fun _ => ?_, fun _ _ _ => ⟨rfl, rfl⟩, Nat.le_refl _⟩ <;> simp
        have hty := types_emplace (ht d) q t h2 h3 h4 (hf q t rfl d) (findType_none.1 hft)
        simp at h
        exact ⟨t.tid, t, h.symm, hty.typeAt_mem t (by simp), fun hp => hm.resolves hp (h5 (hm.pure hp))⟩
  · cases st with
    | done r => exact absurd rfl (hnd r)
    | todo =>
      cases op <;> simp [Op.asked] at hop
      case getTypeMut d' md q' =>
        obtain ⟨h1, h2⟩ := hop; subst h1; subst h2
        by_cases hmd : md = d'
        · rw [show nextPart D W (.getTypeMut d' md q') .todo = (lookupPart D W d' q', W) by simp [nextPart, beginPart, hmd]] at h ⊢
          exact hlook W rfl h
        · rw [show nextPart D W (.getTypeMut d' md q') .todo = (.done (.error .foreignMutation), W) by simp [nextPart, beginPart, hmd]] at h
          simp at h
      case getType d' q' =>
        obtain ⟨h1, h2⟩ := hop; subst h1; subst h2
        cases hq : findQuery q' (W.doms d').queries with
        | some t =>
          rw [show nextPart D W (.getType d' q') .todo = (.done (.ok (some t)), W) by simp [nextPart, beginPart, hq]] at h ⊢
          simp at h
          obtain ⟨r, hr⟩ := (ht d').queries _ (findQuery_some hq)
          refine ⟨t, r, h.symm, hr, fun hp => ?_⟩
          obtain ⟨r', h1, h2⟩ := hc hp.1 d' hp.2 _ (findQuery_some hq)
          rw [hr] at h1; simp at h1; subst h1; exact h2
        | none =>
          rw [show nextPart D W (.getType d' q') .todo = (.mutating, W) by simp [nextPart, beginPart, hq]] at h
          simp at h
    | _ => exact absurd trivial hb

/-! ## a call without interruption -/

/-- a thread that is not interrupted -/
def runAlone (D : Decls) (op : Op) : Nat → Stage × World → Stage × World
  | 0, p => p
  | n + 1, p => runAlone D op n (nextPart D p.2 op p.1)

theorem runAlone_done (D : Decls) (op : Op) (r : Except Err (Option TypeId)) (W : World) (n : Nat) :
    runAlone D op n (.done r, W) = (.done r, W) := by
  induction n with
  | zero => rfl
  | succ n ih => exact ih

theorem runAlone_lookup (D : Decls) (W : World) (d : DomId) (q : List Mix) (op : Op)
    (hop : op = .getType d q ∨ ∃ md, op = .getTypeMut d md q) (n : Nat) :
    runAlone D op (n + 2) (lookupPart D W d q, W) = (.done (withType (getTypeMut D W d d q).1), (getTypeMut D W d d q).2) := by
  have he : ∀ W st, st.begun → nextPart D W op st = getPart D W d q st := by
    intro W st hb
    rcases hop with h | ⟨md, h⟩ <;> subst h <;> cases st <;> first | exact absurd hb id | rfl
  unfold getTypeMut
  rw [if_neg (by simp)]
  simp only
  unfold lookupPart
  cases hl : lookupSection D (W.view D d) (W.doms d) q with
  | hit t => exact runAlone_done D op _ _ _
  | failed e => exact runAlone_done D op _ _ _
  | resolved key ms o =>
    cases o with
    | some t =>
      show runAlone D op (n + 1) (nextPart D W op (.found key t)) = _
      rw [he W (.found key t) trivial]
      exact runAlone_done D op _ _ _
    | none =>
      show runAlone D op (n + 1) (nextPart D W op (.missing key ms)) = _
      rw [he W (.missing key ms) trivial]
      cases hb : buildType D W d W.nextType ms with
      | error e =>
        rw [show getPart D W d q (.missing key ms) = (.done (.error e), W) by simp only [getPart, hb]]
        simp only [hb]
        exact runAlone_done D op _ _ _
      | ok t =>
        rw [show getPart D W d q (.missing key ms) = (.built key t, { W with nextType := W.nextType + 1 }) by simp only [getPart, hb]]
        show runAlone D op n (nextPart D _ op (.built key t)) = _
        rw [he _ (.built key t) trivial]
        simp only [hb]
        exact runAlone_done D op _ _ _

/-! ## every call comes to its end -/

/-- parts that are left at most -/
def Stage.left : Stage → Nat
  | .todo => 4
  | .mutating => 3
  | .missing _ _ => 2
  | .found _ _ => 1
  | .built _ _ => 1
  | .purged => 1
  | .done _ => 0

/-- the stage is one of the call -/
def Stage.fits (op : Op) : Stage → Prop
  | .todo => True
  | .done _ => True
  | .purged => ∃ d m, op = .unregMixin d m
  | _ => op.asked ≠ none

theorem lookupPart_left (D : Decls) (W : World) (d : DomId) (q : List Mix) (op : Op) (ha : op.asked ≠ none) :
    (lookupPart D W d q).left ≤ 2 ∧ (lookupPart D W d q).fits op := by
  unfold lookupPart
  cases lookupSection D (W.view D d) (W.doms d) q with
  | hit t => simp [Stage.left, Stage.fits]
  | failed e => simp [Stage.left, Stage.fits]
  | resolved key ms o => cases o <;> simp [Stage.left, Stage.fits, ha]

theorem nextPart_left (D : Decls) (W : World) (op : Op) (st : Stage) (h : st.fits op) :
    (nextPart D W op st).1.left ≤ st.left - 1 ∧ (nextPart D W op st).1.fits op := by
  by_cases hb : st.begun
  · cases hop : op.asked with
    | some p =>
      obtain ⟨d, q⟩ := p
      have ha : op.asked ≠ none := by rw [hop]; simp
      have he : nextPart D W op st = getPart D W d q st := by
        cases op <;> simp [Op.asked] at hop
        all_goals (obtain ⟨h1, h2⟩ := hop; subst h1; subst h2; cases st <;> first | exact absurd hb id | rfl)
      rw [he]
      cases st with
      | todo => exact absurd hb id
      | done r => exact absurd hb id
      | mutating => exact lookupPart_left D W d q op ha
      | found key t => simp [getPart, Stage.left, Stage.fits]
      | missing key ms =>
        unfold getPart
        cases hbt : buildType D W d W.nextType ms <;> simp [hbt, Stage.left, Stage.fits, ha]
      | built key t => simp [getPart, Stage.left, Stage.fits]
      | purged => obtain ⟨d', m, h'⟩ := h; rw [h'] at hop; simp [Op.asked] at hop
    | none =>
      cases st with
      | todo => exact absurd hb id
      | done r => exact absurd hb id
      | purged =>
        obtain ⟨d', m, h'⟩ := h
        subst h'
        show (removePart W d' m).1.left ≤ _ ∧ _
        rw [show nextPart D W (.unregMixin d' m) .purged = removePart W d' m from rfl]
        unfold removePart
        simp only
        cases ownSlot (W.doms d').mixins (W.mixId m) m <;> simp [Stage.left, Stage.fits]
      | _ => exact absurd hop h
  · cases st with
    | done r => simp [nextPart, Stage.left, Stage.fits]
    | todo =>
      rw [show nextPart D W op .todo = beginPart D W op from rfl]
      cases hop : op.asked with
      | some p =>
        have ha : op.asked ≠ none := by rw [hop]; simp
        cases op <;> simp [Op.asked] at hop
        case getTypeMut d' md q' =>
          unfold beginPart
          by_cases hmd : md = d'
          · simp only [hmd, ne_eq, not_true_eq_false, if_false]
            have := lookupPart_left D W d' q' _ ha
            rw [hmd] at this
            exact ⟨Nat.le_trans this.1 (by decide), this.2⟩
          · simp [hmd, Stage.left, Stage.fits]
        case getType d' q' =>
          unfold beginPart
          cases hq : findQuery q' (W.doms d').queries <;> simp [hq, Stage.left, Stage.fits, Op.asked]
      | none =>
        by_cases hun : ∃ d m, op = .unregMixin d m
        · obtain ⟨d, m, h'⟩ := hun
          subst h'
          rw [show beginPart D W (.unregMixin d m) = purgePart W d m from rfl]
          unfold purgePart
          simp only
          cases purgeQueries (W.doms d) d (W.mixId m) m (W.doms d).queries <;> simp [Stage.left, Stage.fits]
        · rw [beginPart_other hop (fun d m h => hun ⟨d, m, h⟩)]
          simp [Stage.left, Stage.fits]
    | _ => exact absurd trivial hb

theorem run_left (D : Decls) (is : List Nat) : ∀ (C : Threads) (i : Nat) th, C.threads[i]? = some th →
    (∀ (j : Nat) th', C.threads[j]? = some th' → th'.stage.fits th'.op) →
    ∃ th', (C.run D is).threads[i]? = some th' ∧ th'.stage.left ≤ th.stage.left - is.count i := by
  induction is with
  | nil => intro C i th hi _; exact ⟨th, hi, by simp⟩
  | cons j is ih =>
    intro C i th hi hfit
    have hfit' : ∀ (k : Nat) th', (C.step D j).threads[k]? = some th' → th'.stage.fits th'.op := by
      cases hj : C.threads[j]? with
      | none => rw [Threads.step_none hj]; exact hfit
      | some tj =>
        rw [Threads.step_some hj]
        intro k th' hk
        rcases get_set hj hk with ⟨-, h2⟩ | ⟨-, h2⟩
        · subst h2; exact (nextPart_left D C.W tj.op tj.stage (hfit j tj hj)).2
        · exact hfit k th' h2
    by_cases hij : j = i
    · subst hij
      have hlen := (List.getElem?_eq_some_iff.1 hi).1
      have hget : (C.step D j).threads[j]? = some { th with stage := (nextPart D C.W th.op th.stage).1 } := by
        rw [Threads.step_some hi]; simp [List.getElem?_set, hlen]
      obtain ⟨th', h1, h2⟩ := ih (C.step D j) j _ hget hfit'
      refine ⟨th', h1, ?_⟩
      have := (nextPart_left D C.W th.op th.stage (hfit j th hi)).1
      simp only [List.count_cons_self]
      simp only at h2
      omega
    · have hget : (C.step D j).threads[i]? = some th := by
        cases hj : C.threads[j]? with
        | none => rw [Threads.step_none hj]; exact hi
        | some tj => rw [Threads.step_some hj]; simp [List.getElem?_set, hij, hi]
      obtain ⟨th', h1, h2⟩ := ih (C.step D j) i th hget hfit'
      refine ⟨th', h1, ?_⟩
      rw [List.count_cons_of_ne (by simpa using hij)]
      exact h2

end Dnmx
