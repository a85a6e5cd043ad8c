import Verif.Proofs.TypeApiLemmas
import Verif.Props.Rules
import Verif.Props.RuleSet
import Verif.Props.Registry

/-!
# C15 to C21, C26, C53: types and stored queries

As for the element registry, all statements are about the world after an arbitrary history `ops` (`run D (initWorld s) ops`)
of calls, some of which may have failed.
-/

namespace Dnmx.Props
open Spec

/-! ## Example -/

/-- Rules for examples (see `tyDecls`). -/
def tyRule (r : Rule) (v : ElemView) (ms : List Mix) : Except Err (List Mix) :=
  if r = 1 then (if ms.contains 9 then .ok ms else .ok (ms ++ [9]))
  else match v.byName [4] with
    | some m => if ms.contains m then .ok ms else .ok (ms ++ [m])
    | none => .ok ms

/-- Mixins for examples: the name of mixin `m` is the character `m`; mixin 9 is a dependency. Rule 1 adds mixin 9 to
every type; rule 2 adds the mixin with the name 4 if there is one. -/
def tyDecls : Decls where
  mem := fun a => UInt8.ofNat a
  mix := fun m => { name := ⟨m, m + 1⟩, dependency := m = 9, orderPriority := if m = 7 then -1 else 0 }
  feat := fun f => { name := ⟨f, f + 1⟩ }
  userRule := fun r => { name := ⟨r, r + 1⟩, apply := some (tyRule r) }
  cls := fun c => { name := ⟨c, c + 1⟩, matchesT := fun _ => true }

/-- Registers mixins 3, 5, 7, 9, then asks for types before and after rule 1 is added, and collects garbage (type 2 has
objects). -/
def tyOps : List Op :=
  [.regMixin 0 3, .regMixin 0 5, .regMixin 0 7, .regMixin 0 9, .getType 0 [3, 5], .getType 0 [5, 3], .getType 0 [3, 6],
   .gc 0 (fun t => if t = 2 then 1 else 0), .getType 0 [3], .addRule 0 1, .getType 0 [3], .getType 0 [3, 9]]

/-- World after the example history. -/
def tyWorld : World := run tyDecls (initWorld fun _ => {}) tyOps

example : (typesOf tyWorld 0).map (fun t => (t.tid, t.mixins)) = [(2, [5, 3]), (3, [3]), (4, [3, 9])] ∧
    queriesOf tyWorld 0 = [([3], 4), ([3, 9], 4)] := by decide +kernel

/-! ## C15 -/

/-- C15: at any time the types of a domain (with the empty type) have different compositions. -/
theorem C15_compositions_differ (D : Decls) (s : DomId → Settings) (ops : List Op) (d : DomId) (t1 t2 : TypeId) (ms : List Mix)
    (h1 : compositionOf (run D (initWorld s) ops) d t1 = some ms) (h2 : compositionOf (run D (initWorld s) ops) d t2 = some ms) :
    t1 = t2 := by
  have h := reachable_types D s ops d
  unfold compositionOf at h1 h2
  rw [Option.map_eq_some_iff] at h1 h2
  obtain ⟨r1, a1, b1⟩ := h1
  obtain ⟨r2, a2, b2⟩ := h2
  exact h.typeAt_inj a1 a2 (by rw [b1, b2])

/-- C15: the list of types contains no type twice and no empty composition. -/
theorem C15_types_listed_once (D : Decls) (s : DomId → Settings) (ops : List Op) (d : DomId) :
    ((typesOf (run D (initWorld s) ops) d).map (·.mixins)).Nodup ∧ ((typesOf (run D (initWorld s) ops) d).map (·.tid)).Nodup ∧
    ∀ t ∈ typesOf (run D (initWorld s) ops) d, t.mixins ≠ [] ∧ compositionOf (run D (initWorld s) ops) d t.tid = some t.mixins := by
  have h := reachable_types D s ops d
  refine ⟨?_, ?_, ?_⟩
  · unfold List.Nodup typesOf; rw [List.pairwise_map]; exact h.comps
  · unfold List.Nodup typesOf; rw [List.pairwise_map]; exact h.tids
  · intro t ht
    exact ⟨(h.ok t ht).nonempty, by unfold compositionOf; rw [h.typeAt_mem t ht]; rfl⟩

/-- C15: if two successful `get_type` calls, with any calls in between, give types with equal compositions, then they give
the same type, provided the first type was not removed in between. -/
theorem C15_same_composition_same_type (D : Decls) (s : DomId → Settings) (ops more : List Op) (d : DomId) (q1 q2 : List Mix)
    (t1 t2 : TypeId) (W1 W2 : World) (ms : List Mix)
    (h1 : getType D (run D (initWorld s) ops) d q1 = (.ok t1, W1)) (h2 : getType D (run D W1 more) d q2 = (.ok t2, W2))
    (c1 : compositionOf W1 d t1 = some ms) (c2 : compositionOf W2 d t2 = some ms)
    (halive : compositionOf (run D W1 more) d t1 ≠ none) : t1 = t2 := by
  have r0 := reachable_reg D s ops
  have i0 := reachable_types D s ops d
  have r1 : RegInv W1 := by have := getType_reg r0 d q1 (D := D); rw [h1] at this; exact this
  have i1 : TypesInv D W1 d := by
    have := (getCase_types (getType_cases D (run D (initWorld s) ops) d q1) i0).1
    rw [h1] at this; exact this
  have r2 := run_reg D more W1 r1
  have i2 := run_types D d more W1 r1 i1
  have hc2 := getType_cases D (run D W1 more) d q2
  have i3 : TypesInv D W2 d := by have := (getCase_types hc2 i2).1; rw [h2] at this; exact this
  unfold compositionOf at c1 c2 halive
  rw [Option.map_eq_some_iff] at c1 c2
  obtain ⟨a1, b1, e1⟩ := c1
  obtain ⟨a2, b2, e2⟩ := c2
  cases hr : ((run D W1 more).doms d).typeAt d t1 with
  | none => rw [hr] at halive; simp at halive
  | some a =>
    have := run_stable D d more W1 r1 i1 t1 a1 a b1 hr
    subst this
    have hk := getCase_keeps hc2 t1 a hr
    rw [h2] at hk
    exact i3.typeAt_inj hk b2 (by rw [e1, e2])

/-- C15: a type never changes: at any later time its address leads to the same type (all of it: composition, layout and
tables) or the type was removed. -/
theorem C15_types_immutable (D : Decls) (s : DomId → Settings) (ops more : List Op) (d : DomId) (t : TypeId) (r r' : TypeRec)
    (h : ((run D (initWorld s) ops).doms d).typeAt d t = some r)
    (h' : ((run D (run D (initWorld s) ops) more).doms d).typeAt d t = some r') : r' = r :=
  run_stable D d more _ (reachable_reg D s ops) (reachable_types D s ops d) t r r' h h'

-- two different queries that resolve to the same composition
example : (getType tyDecls tyWorld 0 [5]).1 = .ok 5 ∧
    (getType tyDecls (run tyDecls (getType tyDecls tyWorld 0 [5]).2 [.regMixin 0 4, .getType 0 [4]]) 0 [9, 5]).1 = .ok 5 ∧
    compositionOf (getType tyDecls tyWorld 0 [5]).2 0 5 = some [5, 9] := by decide +kernel

/-! ## C16 -/

/-- C16 (partial: the rules in force do not look at the registry): a successful `get_type` gives a type whose composition
is the result of applying the rules in force to the query.
Missing: rules that look mixins up by name (`C16_cache_refuted`). -/
theorem C16_composition_by_rules_partial (D : Decls) (s : DomId → Settings) (ops : List Op) (d : DomId) (q : List Mix) (t : TypeId)
    (hp : ∀ r ∈ inForce (run D (initWorld s) ops) d, RulePure D r)
    (h : (getType D (run D (initWorld s) ops) d q).1 = .ok t) :
    ∃ ms, compositionOf (getType D (run D (initWorld s) ops) d q).2 d t = some ms ∧
      resolve D (rulesOf D ((run D (initWorld s) ops).view D d) ((run D (initWorld s) ops).doms d)) q = .ok ms := by
  have hc := getType_cases D (run D (initWorld s) ops) d q
  obtain ⟨r, h1, h2⟩ := getCase_composition hc (reachable_types D s ops d) t h
  refine ⟨r.mixins, by simp [compositionOf, h1], ?_⟩
  rcases h2 with ⟨h2, h3⟩ | h2
  · obtain ⟨r', h4, h5⟩ := reachable_cache D s ops d hp _ h2
    rw [h3] at h4; simp at h4; subst h4
    simp only at h5
    simp [resolve, h5]
  · simp [resolve, h2]

/-- C16 (partial, as above): the outcome of `get_type` is the one that the domain would give if it had no stored
queries. -/
theorem C16_cache_transparent_partial (D : Decls) (s : DomId → Settings) (ops : List Op) (d : DomId) (q : List Mix)
    (hp : ∀ r ∈ inForce (run D (initWorld s) ops) d, RulePure D r) :
    (getType D (run D (initWorld s) ops) d q).1 = (getType D (forgetQueries (run D (initWorld s) ops) d) d q).1 := by
  have h := reachable_types D s ops d
  rw [getCase_cached (getType_cases D (run D (initWorld s) ops) d q) h (reachable_cache D s ops d) hp]
  rw [getCase_fresh (getType_cases D (forgetQueries (run D (initWorld s) ops) d) d q) (forget_types h)
    (by intro t ht; simp [forgetQueries] at ht)]
  rw [forget_fresh]

/-- C16: an error of `get_type` is an error of the rules, or one of creating a type from the composition that the rules
give. (For all rules.) -/
theorem C16_errors (D : Decls) (s : DomId → Settings) (ops : List Op) (d : DomId) (q : List Mix) (e : Err)
    (h : (getType D (run D (initWorld s) ops) d q).1 = .error e) :
    resolve D (rulesOf D ((run D (initWorld s) ops).view D d) ((run D (initWorld s) ops).doms d)) q = .error e ∨
    ∃ ms, resolve D (rulesOf D ((run D (initWorld s) ops).view D d) ((run D (initWorld s) ops).doms d)) q = .ok ms ∧
      buildType D (run D (initWorld s) ops) d (run D (initWorld s) ops).nextType ms = .error e := by
  have hc := getType_cases D (run D (initWorld s) ops) d q
  generalize getType D (run D (initWorld s) ops) d q = res at h hc
  cases hc with
  | hit => simp at h
  | empty => simp at h
  | found => simp at h
  | built => simp at h
  | ruleError e' he => simp at h; subst h; left; simp [resolve, he]
  | buildError ms e' hne he hn hb => simp at h; subst h; right; exact ⟨ms, by simp [resolve, he], hb⟩

/-- C16 is false in general: rule 2 adds mixin 4 to every type as soon as it is registered. A query that was made before
this keeps giving the old type, although the rules give another composition. -/
theorem C16_cache_refuted :
    ∃ ops, (getType tyDecls (run tyDecls (initWorld fun _ => {}) ops) 0 [3]).1 = .ok 1 ∧
      compositionOf (run tyDecls (initWorld fun _ => {}) ops) 0 1 = some [3] ∧
      resolve tyDecls (rulesOf tyDecls ((run tyDecls (initWorld fun _ => {}) ops).view tyDecls 0)
        ((run tyDecls (initWorld fun _ => {}) ops).doms 0)) [3] = .ok [3, 4] ∧
      (getType tyDecls (forgetQueries (run tyDecls (initWorld fun _ => {}) ops) 0) 0 [3]).1 ≠ .ok 1 := by
  refine ⟨[.regMixin 0 3, .addRule 0 2, .getType 0 [3], .regMixin 0 4], ?_⟩
  decide +kernel

-- the example's rule 1 is pure and in force; a stored query and a new one; a query that was stored before the rule came
-- gives another type
example : RulePure tyDecls 1 ∧ inForce tyWorld 0 = [1] ∧ (getType tyDecls tyWorld 0 [3, 9]).1 = .ok 4 ∧
    (getType tyDecls tyWorld 0 [5, 3]).1 = .ok 5 ∧ compositionOf (getType tyDecls tyWorld 0 [5, 3]).2 0 5 = some [5, 3, 9] := by
  refine ⟨fun v v' => rfl, ?_⟩
  decide +kernel

/-! ## C17 -/

/-- C17: a type returned by `get_type` exists, is of this domain, and its mixins are different and registered in this
domain. -/
theorem C17_returned_type_well_formed (D : Decls) (s : DomId → Settings) (ops : List Op) (d : DomId) (q : List Mix) (t : TypeId)
    (h : (getType D (run D (initWorld s) ops) d q).1 = .ok t) :
    ∃ r, ((getType D (run D (initWorld s) ops) d q).2.doms d).typeAt d t = some r ∧ r.dom = d ∧ r.mixins.Nodup ∧
      ∀ m ∈ r.mixins, mixinRegistered d m (trace D (initWorld s) ops) = true := by
  have hc := getType_cases D (run D (initWorld s) ops) d q
  have hi := reachable_types D s ops d
  obtain ⟨r, h1, -⟩ := getCase_composition hc hi t h
  obtain ⟨-, h2, h3, h4⟩ := (getCase_types hc hi).1.typeAt_ok h1
  refine ⟨r, h1, h2, h3, fun m hm => ?_⟩
  rw [mixinRegistered_iff, (reachable_reg D s ops).mem_mixinsOf_iff]
  obtain ⟨e1, e2, -⟩ := getCase_elems hc
  have := h4 m hm
  rw [e1, e2] at this; exact this

/-- C17: at any later time, too, an existing type has different mixins, all registered in its domain: a type does not
outlive its mixins. -/
theorem C17_types_well_formed (D : Decls) (s : DomId → Settings) (ops : List Op) (d : DomId) (t : TypeId) (r : TypeRec)
    (h : ((run D (initWorld s) ops).doms d).typeAt d t = some r) :
    r.tid = t ∧ r.dom = d ∧ r.mixins.Nodup ∧ ∀ m ∈ r.mixins, mixinRegistered d m (trace D (initWorld s) ops) = true := by
  obtain ⟨h1, h2, h3, h4⟩ := (reachable_types D s ops d).typeAt_ok h
  refine ⟨h1, h2, h3, fun m hm => ?_⟩
  rw [mixinRegistered_iff, (reachable_reg D s ops).mem_mixinsOf_iff]
  exact h4 m hm

/-- C17: creating a type from a composition fails for an unregistered mixin, one of another domain, or a mixin that
occurs twice - and for nothing else but its features. -/
theorem C17_composition_errors (D : Decls) (s : DomId → Settings) (ops : List Op) (d : DomId) (tid : TypeId) (ms : List Mix) :
    (∃ e, buildType D (run D (initWorld s) ops) d tid ms = .error e ∧
      (e = .unregistered ∨ e = .foreignMixin ∨ e = .duplicateMixin)) ↔
    ¬ (ms.Nodup ∧ ∀ m ∈ ms, mixinRegistered d m (trace D (initWorld s) ops) = true) := by
  generalize hW : run D (initWorld s) ops = W
  have hreg : ∀ m, mixinRegistered d m (trace D (initWorld s) ops) = true ↔ (∃ i, W.mixId m = some i) ∧ W.mixDom m = some d := by
    intro m
    rw [mixinRegistered_iff, (reachable_reg D s ops).mem_mixinsOf_iff, hW]
  have key : ∀ e, checkMixins W.mixId W.mixDom d ms = .error e → e = .unregistered ∨ e = .foreignMixin ∨ e = .duplicateMixin := by
    clear hreg
    induction ms with
    | nil => intro e h; simp [checkMixins] at h
    | cons m ms ih =>
      intro e h
      unfold checkMixins at h
      split at h
      · simp at h; exact .inl h.symm
      · split at h
        · simp at h; exact .inr (.inl h.symm)
        · split at h
          · simp at h; exact .inr (.inr h.symm)
          · exact ih e h
  have hft : ∀ e, buildFtable D W.featId ms = .error e → e = .ub ∨ e = .featureClash := by
    intro e h
    unfold buildFtable at h
    simp only at h
    split at h
    · simp at h; exact .inl h.symm
    · split at h
      · simp at h; exact .inl h.symm
      · right
        exact finishAll_error D _ _ _ h
  have hcond : (ms.Nodup ∧ ∀ m ∈ ms, mixinRegistered d m (trace D (initWorld s) ops) = true) ↔
      checkMixins W.mixId W.mixDom d ms = .ok () := by
    rw [checkMixins_ok]
    constructor
    · rintro ⟨h1, h2⟩; exact ⟨h1, fun m hm => (hreg m).1 (h2 m hm)⟩
    · rintro ⟨h1, h2⟩; exact ⟨h1, fun m hm => (hreg m).2 (h2 m hm)⟩
  rw [hcond]
  unfold buildType
  cases hc : checkMixins W.mixId W.mixDom d ms with
  | error e => simp; exact key e hc
  | ok u =>
    cases u
    simp only
    constructor
    · rintro ⟨e, h1, h2⟩
      cases hf : buildFtable D W.featId ms with
      | error e' =>
        rw [hf] at h1; simp at h1; subst h1
        rcases hft _ hf with h3 | h3 <;> subst h3 <;> simp at h2
      | ok ft => rw [hf] at h1; simp at h1
    · intro h; simp at h

-- the errors occur: mixin 6 is not registered, mixin 3 occurs twice, mixin 1 belongs to domain 1
example : (getType tyDecls tyWorld 0 [3, 6]).1 = .error .unregistered ∧ (getType tyDecls tyWorld 0 [3, 3]).1 = .error .duplicateMixin ∧
    (getType tyDecls (run tyDecls tyWorld [.regMixin 1 1]) 0 [1]).1 = .error .foreignMixin := by decide +kernel

/-! ## C18 -/

/-- C18: garbage collection removes exactly the types without objects, and of the stored queries exactly those that lead
to removed types; other domains, and all registries of elements, are unchanged. -/
theorem C18_collects_exactly (D : Decls) (s : DomId → Settings) (ops : List Op) (d : DomId) (num : TypeId → Nat) :
    (∀ t, t ∈ typesOf (step D (run D (initWorld s) ops) (.gc d num)).2 d ↔
      t ∈ typesOf (run D (initWorld s) ops) d ∧ num t.tid > 0) ∧
    (∀ e, e ∈ queriesOf (step D (run D (initWorld s) ops) (.gc d num)).2 d ↔
      e ∈ queriesOf (run D (initWorld s) ops) d ∧
      compositionOf (step D (run D (initWorld s) ops) (.gc d num)).2 d e.2 ≠ none) ∧
    (step D (run D (initWorld s) ops) (.gc d num)).1 = .ok () ∧
    (∀ d', d' ≠ d → (step D (run D (initWorld s) ops) (.gc d num)).2.doms d' = (run D (initWorld s) ops).doms d') ∧
    mixinsOf (step D (run D (initWorld s) ops) (.gc d num)).2 d = mixinsOf (run D (initWorld s) ops) d ∧
    featuresOf (step D (run D (initWorld s) ops) (.gc d num)).2 d = featuresOf (run D (initWorld s) ops) d ∧
    (step D (run D (initWorld s) ops) (.gc d num)).2.mixId = (run D (initWorld s) ops).mixId := by
  have hi := reachable_types D s ops d
  have hi' := step_types D _ (reachable_reg D s ops) (.gc d num) d hi
  generalize run D (initWorld s) ops = W at hi hi' ⊢
  have ht : (((step D W (.gc d num)).2).doms d).types = (W.doms d).types.filter (fun t => decide (num t.tid > 0)) := by
    simp [step, garbageCollect, collectTypes_eq]
  have hq : (((step D W (.gc d num)).2).doms d).queries = (W.doms d).queries.filter
      (fun e => (W.doms d).types.all (fun t => decide (num t.tid > 0) || e.2 != t.tid)) := by
    simp [step, garbageCollect, collectTypes_eq]
  refine ⟨?_, ?_, rfl, ?_, ?_, ?_, rfl⟩
  · intro t; unfold typesOf; rw [ht, List.mem_filter]; simp
  · intro e
    unfold queriesOf
    constructor
    · intro he
      obtain ⟨r, hr⟩ := hi'.queries e he
      rw [hq, List.mem_filter] at he
      exact ⟨he.1, by unfold compositionOf; rw [hr]; simp⟩
    · rintro ⟨h1, h2⟩
      rw [hq, List.mem_filter]
      refine ⟨h1, ?_⟩
      rw [List.all_eq_true]
      intro t htm
      by_cases hn : num t.tid > 0
      · simp [hn]
      · by_cases he : e.2 = t.tid
        · exfalso
          apply h2
          unfold compositionOf
          have h3 := hi.tidPos t htm
          have : (((step D W (.gc d num)).2).doms d).typeAt d e.2 = none := by
            unfold Dom.typeAt
            rw [if_neg (by unfold emptyTid; omega), ht, List.find?_eq_none]
            intro x hx
            rw [List.mem_filter] at hx
            intro hxe
            have : x.tid = e.2 := by simpa using hxe
            rw [this, he] at hx
            simp at hx; omega
          rw [this]; rfl
        · simp [he]
  · intro d' hd'; simp [step, garbageCollect, World.setDom, upd, hd']
  · simp [step, garbageCollect, World.setDom, upd, mixinsOf]
  · simp [step, garbageCollect, World.setDom, upd, featuresOf]

/-- C18: at any time every stored query leads to an existing type. -/
theorem C18_queries_lead_to_types (D : Decls) (s : DomId → Settings) (ops : List Op) (d : DomId) (e : List Mix × TypeId)
    (he : e ∈ queriesOf (run D (initWorld s) ops) d) : compositionOf (run D (initWorld s) ops) d e.2 ≠ none := by
  obtain ⟨r, hr⟩ := (reachable_types D s ops d).queries e he
  unfold compositionOf; rw [hr]; simp

/-- C18: after a collection during which no type had objects, only the empty type is left. -/
theorem C18_collect_all (D : Decls) (s : DomId → Settings) (ops : List Op) (d : DomId) :
    typesOf (step D (run D (initWorld s) ops) (.gc d fun _ => 0)).2 d = [] := by
  apply List.eq_nil_iff_forall_not_mem.2
  intro t ht
  have := ((C18_collects_exactly D s ops d fun _ => 0).1 t).1 ht
  omega

example : (typesOf (step tyDecls tyWorld (.gc 0 fun t => if t = 3 then 2 else 0)).2 0).map (·.tid) = [3] ∧
    queriesOf (step tyDecls tyWorld (.gc 0 fun t => if t = 4 then 2 else 0)).2 0 = [([3], 4), ([3, 9], 4)] ∧
    queriesOf (step tyDecls tyWorld (.gc 0 fun t => if t = 3 then 2 else 0)).2 0 = [] := by decide +kernel

/-! ## C19 -/

/-- C19: unregistering a registered mixin succeeds; afterwards no type has the mixin, and the types and queries that had
nothing to do with it are all still there. -/
theorem C19_unregistered_mixin_gone (D : Decls) (s : DomId → Settings) (ops : List Op) (d : DomId) (m : Mix)
    (h : mixinRegistered d m (trace D (initWorld s) ops) = true) :
    (step D (run D (initWorld s) ops) (.unregMixin d m)).1 = .ok () ∧
    (∀ t, t ∈ typesOf (step D (run D (initWorld s) ops) (.unregMixin d m)).2 d ↔
      t ∈ typesOf (run D (initWorld s) ops) d ∧ m ∉ t.mixins) ∧
    (∀ e, e ∈ queriesOf (step D (run D (initWorld s) ops) (.unregMixin d m)).2 d ↔
      e ∈ queriesOf (run D (initWorld s) ops) d ∧ m ∉ e.1 ∧
      ∃ ms, compositionOf (run D (initWorld s) ops) d e.2 = some ms ∧ m ∉ ms) ∧
    (∀ e ∈ queriesOf (step D (run D (initWorld s) ops) (.unregMixin d m)).2 d,
      compositionOf (step D (run D (initWorld s) ops) (.unregMixin d m)).2 d e.2 =
        compositionOf (run D (initWorld s) ops) d e.2) := by
  have hr := reachable_reg D s ops
  have hi := reachable_types D s ops d
  rw [mixinRegistered_iff, mem_mixinsOf] at h
  obtain ⟨i, hslot⟩ := h
  generalize run D (initWorld s) ops = W at hr hi hslot ⊢
  have hi' := step_types D W hr (.unregMixin d m) d hi
  obtain ⟨e1, e2, -, -, -, -⟩ := unregisterMixin_effect hi m
  have hhas : ∀ t ∈ (W.doms d).types, (t.hasId (W.mixId m) = true ↔ m ∈ t.mixins) := fun t ht => (hi.ok t ht).hasId_own hr m i hslot
  have hty : ∀ t, t ∈ typesOf (step D W (.unregMixin d m)).2 d ↔ t ∈ typesOf W d ∧ m ∉ t.mixins := by
    intro t
    show t ∈ ((unregisterMixin W d m).2.doms d).types ↔ _
    rw [e1, List.mem_filter]
    unfold typesOf
    constructor
    · rintro ⟨h1, h2⟩
      refine ⟨h1, fun hm => ?_⟩
      rw [(hhas t h1).2 hm] at h2; simp at h2
    · rintro ⟨h1, h2⟩
      refine ⟨h1, ?_⟩
      cases hb : t.hasId (W.mixId m)
      · rfl
      · exact absurd ((hhas t h1).1 hb) h2
  have hq : ∀ e, e ∈ queriesOf (step D W (.unregMixin d m)).2 d ↔ e ∈ queriesOf W d ∧ m ∉ e.1 ∧
      ∃ ms, compositionOf W d e.2 = some ms ∧ m ∉ ms := by
    intro e
    show e ∈ ((unregisterMixin W d m).2.doms d).queries ↔ _
    rw [e2, List.mem_filter]
    unfold queriesOf compositionOf
    constructor
    · rintro ⟨h1, h2⟩
      obtain ⟨r, hre⟩ := hi.queries e h1
      simp only [hre] at h2
      simp at h2
      refine ⟨h1, h2.2, r.mixins, by simp [hre], fun hm => ?_⟩
      rcases typeAt_some hre with ⟨a, b⟩ | ⟨a, b, c⟩
      · subst b; simp [emptyType] at hm
      · rw [(hhas r b).2 hm] at h2; simp at h2
    · rintro ⟨h1, h2, ms, h3, h4⟩
      refine ⟨h1, ?_⟩
      obtain ⟨r, hre, hrm⟩ := Option.map_eq_some_iff.1 h3
      subst hrm
      simp only [hre]
      have : r.hasId (W.mixId m) = false := by
        rcases typeAt_some hre with ⟨a, b⟩ | ⟨a, b, c⟩
        · subst b; cases W.mixId m <;> simp [TypeRec.hasId, TypeRec.indexOf, emptyType]
        · cases hb : r.hasId (W.mixId m)
          · rfl
          · exact absurd ((hhas r b).1 hb) h4
      simp [this, h2]
  refine ⟨?_, hty, hq, ?_⟩
  · show (unregisterMixin W d m).1 = .ok ()
    obtain ⟨qs, hp, -⟩ := purgeQueries_some (W.doms d) d (W.mixId m) m (W.doms d).queries hi.queries
    have ho : ownSlot (W.doms d).mixins (W.mixId m) m = some i := by
      simp [ownSlot, (hr.mixSlot d i m hslot).1, hslot]
    unfold unregisterMixin
    simp only [hp, ho]
  · intro e he
    obtain ⟨r', hr'⟩ := hi'.queries e he
    obtain ⟨-, -, ms, h1, -⟩ := (hq e).1 he
    have hlt : e.2 < W.nextType := by
      obtain ⟨r, hre, -⟩ := Option.map_eq_some_iff.1 h1
      exact hi.typeAt_lt hre
    have hst := ((step_typeStep D W hr (.unregMixin d m) d hi).stable hi e.2 hlt r' hr').1
    unfold compositionOf
    rw [hr', hst]

/-- C06 (partial), completed: unregistering a mixin that is not registered in the domain always throws the same exception;
in particular it never accesses a removed type. -/
theorem C06_unregister_foreign_mixin_outcome_partial (D : Decls) (s : DomId → Settings) (ops : List Op) (d : DomId) (m : Mix)
    (h : mixinRegistered d m (trace D (initWorld s) ops) = false) :
    (step D (run D (initWorld s) ops) (.unregMixin d m)).1 = .error .unregForeign := by
  have hr := reachable_reg D s ops
  have hi := reachable_types D s ops d
  have hno : m ∉ mixinsOf (run D (initWorld s) ops) d := by
    intro hm; rw [(mixinRegistered_iff D s ops d m).2 hm] at h; simp at h
  generalize run D (initWorld s) ops = W at hr hi hno ⊢
  show (unregisterMixin W d m).1 = _
  obtain ⟨qs, hp, -⟩ := purgeQueries_some (W.doms d) d (W.mixId m) m (W.doms d).queries hi.queries
  unfold unregisterMixin
  simp only [hp]
  cases ho : ownSlot (W.doms d).mixins (W.mixId m) m with
  | none => rfl
  | some i =>
    exfalso
    unfold ownSlot at ho
    split at ho
    · simp at ho
    · rename_i j hj
      split at ho
      · rename_i hs
        exact hno ((mem_mixinsOf _ _ _).2 ⟨j, hs⟩)
      · simp at ho

-- mixin 9 is in one type and two queries lead to it; types 2 and 3 stay
example : mixinRegistered 0 9 (trace tyDecls (initWorld fun _ => {}) tyOps) = true ∧
    (typesOf (step tyDecls tyWorld (.unregMixin 0 9)).2 0).map (·.tid) = [2, 3] ∧
    queriesOf (step tyDecls tyWorld (.unregMixin 0 9)).2 0 = [] ∧
    queriesOf (step tyDecls tyWorld (.unregMixin 0 5)).2 0 = [([3], 4), ([3, 9], 4)] := by decide +kernel

/-! ## C20 -/

/-- C20: if `get_type` throws, for whatever reason, nothing at all has changed. -/
theorem C20_failure_changes_nothing (D : Decls) (s : DomId → Settings) (ops : List Op) (d : DomId) (q : List Mix) (e : Err)
    (h : (getType D (run D (initWorld s) ops) d q).1 = .error e) :
    (getType D (run D (initWorld s) ops) d q).2 = run D (initWorld s) ops :=
  getCase_error_same (getType_cases D _ d q) e h

/-- C20: likewise for `get_type` with a type mutation, also one of another domain. -/
theorem C20_mutation_failure_changes_nothing (D : Decls) (s : DomId → Settings) (ops : List Op) (d md : DomId) (q : List Mix) (e : Err)
    (h : (getTypeMut D (run D (initWorld s) ops) d md q).1 = .error e) :
    (getTypeMut D (run D (initWorld s) ops) d md q).2 = run D (initWorld s) ops := by
  by_cases hd : md = d
  · subst hd; exact getCase_error_same (getTypeMut_cases D _ md q) e h
  · simp [getTypeMut, hd]

/-- C20: a successful `get_type` removes nothing and changes no existing type; elements, rules and other domains are as
before, and at most one type is new. -/
theorem C20_success_only_adds (D : Decls) (s : DomId → Settings) (ops : List Op) (d : DomId) (q : List Mix) :
    (∃ new, typesOf (getType D (run D (initWorld s) ops) d q).2 d = typesOf (run D (initWorld s) ops) d ++ new ∧ new.length ≤ 1) ∧
    (∀ e ∈ queriesOf (run D (initWorld s) ops) d, e ∈ queriesOf (getType D (run D (initWorld s) ops) d q).2 d) ∧
    (∀ d', d' ≠ d → (getType D (run D (initWorld s) ops) d q).2.doms d' = (run D (initWorld s) ops).doms d') ∧
    (getType D (run D (initWorld s) ops) d q).2.mixId = (run D (initWorld s) ops).mixId ∧
    (getType D (run D (initWorld s) ops) d q).2.featId = (run D (initWorld s) ops).featId ∧
    ((getType D (run D (initWorld s) ops) d q).2.doms d).rules = ((run D (initWorld s) ops).doms d).rules := by
  have hi := reachable_types D s ops d
  generalize run D (initWorld s) ops = W at hi ⊢
  have hc := getType_cases D W d q
  have hsame : ∀ t, (∃ t0, (q, t0) ∈ (W.doms d).queries) → (getType D W d q).1 = .ok t → (getType D W d q).2 = W := by
    rintro t ⟨t0, h0⟩ -
    unfold getType
    have : findQuery q (W.doms d).queries ≠ none := by
      unfold findQuery
      simp only [ne_eq, Option.map_eq_none_iff, List.find?_eq_none]
      intro hh; exact hh _ h0 (by simp)
    cases hq : findQuery q (W.doms d).queries with
    | none => exact absurd hq this
    | some x => rfl
  refine ⟨?_, ?_, fun d' hd' => (getCase_other hc hd').1, (getCase_elems hc).1, (getCase_elems hc).2.2, getCase_rules hc⟩
  · generalize getType D W d q = res at hc
    unfold typesOf
    cases hc with
    | hit => exact ⟨[], by simp, by simp⟩
    | ruleError => exact ⟨[], by simp, by simp⟩
    | buildError => exact ⟨[], by simp, by simp⟩
    | empty => exact ⟨[], by simp, by simp⟩
    | found => exact ⟨[], by simp, by simp⟩
    | built r => exact ⟨[r], by simp, by simp⟩
  · intro e he
    unfold queriesOf at he ⊢
    by_cases hk : e.1 = q
    · cases ho : (getType D W d q).1 with
      | error err => rw [getCase_error_same hc err ho]; exact he
      | ok t => rw [hsame t ⟨e.2, by rw [← hk]; exact he⟩ ho]; exact he
    · generalize getType D W d q = res at hc
      cases hc with
      | hit => exact he
      | ruleError => exact he
      | buildError => exact he
      | empty => simp only [setDom_same]; exact storeQuery_keep _ _ _ e he hk
      | found => simp only [setDom_same]; exact storeQuery_keep _ _ _ e he hk
      | built r => simp only [setDom_same]; exact storeQuery_keep _ _ _ e he hk

example : (getType tyDecls tyWorld 0 [3, 6]).1 = .error .unregistered := by decide +kernel

/-! ## C21 -/

/-- Documented canonical order: smaller order priority first, then the lexicographically smaller name. -/
def CanonBeforeOrSame (D : Decls) (a b : Mix) : Prop :=
  (D.mix a).orderPriority < (D.mix b).orderPriority ∨
  ((D.mix a).orderPriority = (D.mix b).orderPriority ∧ (LexBefore (D.mixName a) (D.mixName b) ∨ D.mixName a = D.mixName b))

theorem canonical_resolve (D : Decls) (W : World) (d : DomId) (hk : (W.doms d).rules.map (·.1) = [0]) (q : List Mix)
    (hv : ∀ m ∈ q, (D.mix m).name.Valid) (hal : ∀ a ∈ q, ∀ b ∈ q, NoAlias (D.mix a).name (D.mix b).name) :
    resolve D (rulesOf D (W.view D d) (W.doms d)) q = .ok (sortBy (canonicalOrder D W.mixId) (stripDeps D q)) ∧
    (sortBy (canonicalOrder D W.mixId) (stripDeps D q)).Pairwise (CanonBeforeOrSame D) ∧
    (∀ q', q.Perm q' → sortBy (canonicalOrder D W.mixId) (stripDeps D q') = sortBy (canonicalOrder D W.mixId) (stripDeps D q)) := by
  have ho := canonicalOrder_strictTotal D W.mixId (fun m => m ∈ q) hv (fun a b ha hb => hal a ha b hb)
  have hasym : ∀ a b, a ∈ q → b ∈ q → canonicalOrder D W.mixId a b = true → canonicalOrder D W.mixId b a = false := by
    intro a b ha hb h
    cases hba : canonicalOrder D W.mixId b a
    · rfl
    · have := ho.trans a b a ha hb ha h hba
      rw [ho.irrefl a ha] at this; simp at this
  have htrans : ∀ a b c, a ∈ q → b ∈ q → c ∈ q → canonicalOrder D W.mixId b a = false → canonicalOrder D W.mixId c b = false →
      canonicalOrder D W.mixId c a = false := by
    intro a b c ha hb hc h1 h2
    cases hca : canonicalOrder D W.mixId c a
    · rfl
    · by_cases hab : a = b
      · subst hab; rw [hca] at h2; simp at h2
      · rcases ho.total a b ha hb hab with h3 | h3
        · rw [ho.trans c a b hc ha hb hca h3] at h2; simp at h2
        · rw [h3] at h1; simp at h1
  have hmem : ∀ q', q.Perm q' → ∀ m ∈ stripDeps D q', m ∈ q := by
    intro q' hp m hm
    exact hp.mem_iff.2 (List.mem_filter.1 hm).1
  have hsorted : ∀ q', q.Perm q' → (sortBy (canonicalOrder D W.mixId) (stripDeps D q')).Pairwise
      (fun a b => canonicalOrder D W.mixId b a = false) := fun q' hp =>
    sortBy_sorted _ (fun m => m ∈ q) htrans hasym _ (hmem q' hp)
  refine ⟨?_, ?_, ?_⟩
  · rw [rulesOf_canon D _ _ hk]
    unfold resolve
    have hids : (W.view D d).ids = W.mixId := rfl
    rw [hids, applyMutationRules_sort_ok D _ q (sortBy_of_sorted _ _ (hsorted q (List.Perm.refl _)))]
  · refine (hsorted q (List.Perm.refl _)).imp_of_mem ?_
    intro a b ha hb hab
    have ha' := hmem q (List.Perm.refl _) a ((sortBy_perm _ _).mem_iff.1 ha)
    have hb' := hmem q (List.Perm.refl _) b ((sortBy_perm _ _).mem_iff.1 hb)
    have hc := svCmp_lex D.mem _ _ (hv b hb') (hv a ha') (hal b hb' a ha')
    unfold canonicalOrder at hab
    unfold CanonBeforeOrSame
    split at hab
    · left; simp at hab; omega
    · rename_i hp
      have hp : (D.mix b).orderPriority = (D.mix a).orderPriority := by simpa using hp
      simp only at hab
      split at hab
      · rename_i hn
        right
        refine ⟨hp.symm, .inl (hc.pos.1 ?_)⟩
        simp at hab; omega
      · rename_i hn
        right
        exact ⟨hp.symm, .inr ((hc.zero.1 (by simpa using hn)).symm)⟩
  · intro q' hp
    refine sorted_perm_unique _ (fun m => m ∈ q) ho.total _ _ (fun m hm => hmem q' hp m ((sortBy_perm _ _).mem_iff.1 hm)) ?_
      (hsorted q' hp) (hsorted q (List.Perm.refl _))
    exact (sortBy_perm _ _).trans (((hp.filter _).symm).trans (sortBy_perm _ _).symm)

theorem canonical_fresh (D : Decls) (W : World) (d : DomId) (hk : (W.doms d).rules.map (·.1) = [0]) (q : List Mix)
    (hv : ∀ m ∈ q, (D.mix m).name.Valid) (hal : ∀ a ∈ q, ∀ b ∈ q, NoAlias (D.mix a).name (D.mix b).name) :
    freshOutcome D W d q = typeFor D W d (sortBy (canonicalOrder D W.mixId) (stripDeps D q)) := by
  have h := (canonical_resolve D W d hk q hv hal).1
  unfold resolve at h
  unfold freshOutcome
  cases hr : (applyMutationRules D (rulesOf D (W.view D d) (W.doms d)) q).result with
  | error e => rw [hr] at h; simp at h
  | ok p => rw [hr] at h; simp at h; simp [h]

/-- The outcome of `get_type` in a domain with the canonicalization rule only. -/
theorem canonical_getType (D : Decls) (W : World) (d : DomId) (hi : TypesInv D W d) (hcan : CanonOk D W d)
    (hk : (W.doms d).rules.map (·.1) = [0]) (q : List Mix)
    (hv : ∀ m ∈ q, (D.mix m).name.Valid) (hal : ∀ a ∈ q, ∀ b ∈ q, NoAlias (D.mix a).name (D.mix b).name) :
    (getType D W d q).1 = typeFor D W d (sortBy (canonicalOrder D W.mixId) (stripDeps D q)) := by
  rw [← canonical_fresh D W d hk q hv hal]
  refine getCase_fresh (getType_cases D W d q) hi fun t ht => ?_
  obtain ⟨r, h1, h2⟩ := hcan hk _ ht
  exact ⟨r, h1, by rw [canonical_fresh D W d hk q hv hal, h2]⟩

theorem canonical_rules (D : Decls) (s : DomId → Settings) (ops : List Op) (d : DomId) (hs : (s d).canonicalize = true)
    (hno : ∀ r, .addRule d r ∉ ops ∧ .removeRule d r ∉ ops) : ((run D (initWorld s) ops).doms d).rules.map (·.1) = [0] := by
  rw [run_rules_same D d ops _ (initWorld_reg s) hno]
  simp [initWorld, newDom, hs]

/-- C21 (partial: names are valid and do not alias with different lengths): in a domain with canonical types and no other
rules, two queries that are permutations of each other have the same outcome: the same type or the same exception. The
second query may come before or after any further calls as long as these calls leave the type in place; here it comes
immediately.
Missing: aliasing names (see C22). -/
theorem C21_order_of_query_irrelevant_partial (D : Decls) (s : DomId → Settings) (ops : List Op) (d : DomId)
    (hs : (s d).canonicalize = true) (hno : ∀ r, .addRule d r ∉ ops ∧ .removeRule d r ∉ ops) (q1 q2 : List Mix) (hp : q1.Perm q2)
    (hv : ∀ m ∈ q1, (D.mix m).name.Valid) (hal : ∀ a ∈ q1, ∀ b ∈ q1, NoAlias (D.mix a).name (D.mix b).name) :
    (getType D (getType D (run D (initWorld s) ops) d q1).2 d q2).1 = (getType D (run D (initWorld s) ops) d q1).1 ∧
    (getType D (run D (initWorld s) ops) d q2).1 = (getType D (run D (initWorld s) ops) d q1).1 := by
  have hk := canonical_rules D s ops d hs hno
  have hi := reachable_types D s ops d
  have hcan := reachable_canon D s ops d
  have hr := reachable_reg D s ops
  generalize run D (initWorld s) ops = W at hk hi hcan hr ⊢
  have hv2 : ∀ m ∈ q2, (D.mix m).name.Valid := fun m hm => hv m (hp.mem_iff.2 hm)
  have hal2 : ∀ a ∈ q2, ∀ b ∈ q2, NoAlias (D.mix a).name (D.mix b).name := fun a ha b hb => hal a (hp.mem_iff.2 ha) b (hp.mem_iff.2 hb)
  have hperm := (canonical_resolve D W d hk q1 hv hal).2.2 q2 hp
  have h1 := canonical_getType D W d hi hcan hk q1 hv hal
  have h2 := canonical_getType D W d hi hcan hk q2 hv2 hal2
  rw [hperm] at h2
  refine ⟨?_, by rw [h1, h2]⟩
  have hc := getType_cases D W d q1
  cases ho : (getType D W d q1).1 with
  | error e => rw [getCase_error_same hc e ho, h2, ← h1, ho]
  | ok t =>
    have hi' := (getCase_types hc hi).1
    have hts : TypeStep D W d (getType D W d q1).2 := .get q1 _ hc
    have hk' : (((getType D W d q1).2).doms d).rules.map (·.1) = [0] := by rw [getCase_rules hc]; exact hk
    have h3 := canonical_getType D _ d hi' (hts.canon hi hcan) hk' q2 hv2 hal2
    rw [h3, (getCase_elems hc).1, hperm]
    obtain ⟨r, h4, h5⟩ := getCase_composition hc hi t ho
    have hrm : r.mixins = sortBy (canonicalOrder D W.mixId) (stripDeps D q1) := by
      rcases h5 with ⟨h5, h6⟩ | h5
      · obtain ⟨r', h7, h8⟩ := hcan hk _ h5
        rw [h6] at h7; simp at h7; subst h7; exact h8
      · have := (canonical_resolve D W d hk q1 hv hal).1
        simp [resolve, h5] at this; exact this
    rw [← hrm, typeFor_at hi' h4]

/-- C21 (partial, as above): the type has exactly the query's mixins, except dependencies, in canonical order. -/
theorem C21_canonical_composition_partial (D : Decls) (s : DomId → Settings) (ops : List Op) (d : DomId)
    (hs : (s d).canonicalize = true) (hno : ∀ r, .addRule d r ∉ ops ∧ .removeRule d r ∉ ops) (q : List Mix)
    (hv : ∀ m ∈ q, (D.mix m).name.Valid) (hal : ∀ a ∈ q, ∀ b ∈ q, NoAlias (D.mix a).name (D.mix b).name) (t : TypeId)
    (h : (getType D (run D (initWorld s) ops) d q).1 = .ok t) :
    ∃ ms, compositionOf (getType D (run D (initWorld s) ops) d q).2 d t = some ms ∧
      ms.Perm (q.filter (fun m => !(D.mix m).dependency)) ∧ ms.Pairwise (CanonBeforeOrSame D) := by
  have hk := canonical_rules D s ops d hs hno
  have hi := reachable_types D s ops d
  have hcan := reachable_canon D s ops d
  generalize run D (initWorld s) ops = W at hk hi hcan h ⊢
  have hc := getType_cases D W d q
  obtain ⟨h1, h2, -⟩ := canonical_resolve D W d hk q hv hal
  obtain ⟨r, h4, h5⟩ := getCase_composition hc hi t h
  have hrm : r.mixins = sortBy (canonicalOrder D W.mixId) (stripDeps D q) := by
    rcases h5 with ⟨h5, h6⟩ | h5
    · obtain ⟨r', h7, h8⟩ := hcan hk _ h5
      rw [h6] at h7; simp at h7; subst h7; exact h8
    · simp [resolve, h5] at h1; exact h1
  exact ⟨r.mixins, by simp [compositionOf, h4], by rw [hrm]; exact sortBy_perm _ _, by rw [hrm]; exact h2⟩

-- mixin 7 has the smallest order priority, 9 is a dependency
example : (∀ m ∈ [3, 9, 5, 7], (tyDecls.mix m).name.Valid) ∧
    (∀ a ∈ [3, 9, 5, 7], ∀ b ∈ [3, 9, 5, 7], NoAlias (tyDecls.mix a).name (tyDecls.mix b).name) ∧
    (getType tyDecls (run tyDecls (initWorld fun _ => { canonicalize := true }) (tyOps.take 9)) 0 [5, 9, 3, 7]).1 = .ok 3 ∧
    compositionOf (getType tyDecls (run tyDecls (initWorld fun _ => { canonicalize := true }) (tyOps.take 9)) 0 [5, 9, 3, 7]).2 0 3 =
      some [7, 3, 5] := by
  refine ⟨?_, ?_, ?_⟩
  · intro m hm; simp [tyDecls, Sv.Valid] at hm ⊢; omega
  · intro a ha b hb h; simp [tyDecls, Sv.len] at h ⊢
  · decide +kernel

/-! ## C26, C53 -/

/-- C26: at any time and for every type of a domain, `index_of(id)` is `i` exactly if `id` is the id under which the
domain knows the type's mixin at position `i`; for all other ids it reports absence. -/
theorem C26_index_of_in_domain (D : Decls) (s : DomId → Settings) (ops : List Op) (d : DomId) (t : TypeId) (r : TypeRec)
    (h : ((run D (initWorld s) ops).doms d).typeAt d t = some r) (id : Option Nat) (i : Nat) :
    r.indexOf id = some i ↔ ∃ m, r.mixins[i]? = some m ∧ getMixinById (run D (initWorld s) ops) d id = some m := by
  have hr := reachable_reg D s ops
  have hi := reachable_types D s ops d
  generalize run D (initWorld s) ops = W at hr hi h ⊢
  rcases typeAt_some h with ⟨a, b⟩ | ⟨a, b, c⟩
  · subst b; cases id <;> simp [TypeRec.indexOf, emptyType]
  · have hok := hi.ok r b
    rw [hok.indexOf hr]
    constructor
    · rintro ⟨x, m, rfl, h2, h3⟩
      refine ⟨m, h2, ?_⟩
      obtain ⟨d', h4, h5⟩ := hr.mixReg m x h3
      rw [(hok.reg m (List.mem_of_getElem? h2)).2] at h4
      simp at h4; subst h4
      rw [getMixinById, getById_eq]; exact ⟨x, rfl, h5⟩
    · rintro ⟨m, h2, h3⟩
      rw [getMixinById, getById_eq] at h3
      obtain ⟨x, rfl, h4⟩ := h3
      exact ⟨x, m, rfl, h2, (hr.mixSlot d x m h4).1⟩

/-- C26: `has` with a mixin's own id is membership. -/
theorem C26_has_in_domain (D : Decls) (s : DomId → Settings) (ops : List Op) (d : DomId) (t : TypeId) (r : TypeRec)
    (h : ((run D (initWorld s) ops).doms d).typeAt d t = some r) (m : Mix)
    (hm : mixinRegistered d m (trace D (initWorld s) ops) = true) :
    r.hasId ((run D (initWorld s) ops).mixId m) = true ↔ m ∈ r.mixins := by
  have hid := (C01_mixin_by_id D s ops d _ m).2 ⟨hm, rfl⟩
  unfold TypeRec.hasId
  rw [Option.isSome_iff_exists]
  constructor
  · rintro ⟨i, hi⟩
    obtain ⟨m', h1, h2⟩ := (C26_index_of_in_domain D s ops d t r h _ i).1 hi
    rw [hid] at h2; simp at h2; subst h2
    exact List.mem_of_getElem? h1
  · intro hmem
    obtain ⟨i, hi, he⟩ := List.getElem_of_mem hmem
    exact ⟨i, (C26_index_of_in_domain D s ops d t r h _ i).2 ⟨m, by rw [List.getElem?_eq_getElem hi, he], hid⟩⟩

-- after an unregistration and reuse of ids, in a type with ids out of order
example : ((tyWorld.doms 0).typeAt 0 2).map (fun r => (r.indexOf (some 1), r.indexOf (some 0), r.indexOf (some 2), r.indexOf (some 99))) =
    some (some 0, some 1, none, none) ∧ getMixinById tyWorld 0 (some 1) = some 5 := by decide +kernel

/-- C53: `index_of(name)` gives the position of the first mixin with this name in the type. -/
theorem C53_first_with_name (D : Decls) (t : TypeRec) (name : List UInt8) (i : Nat) :
    t.indexOfName D name = some i ↔ ∃ m, t.mixins[i]? = some m ∧ D.mixName m = name ∧
      ∀ (j : Nat) (m' : Mix), j < i → t.mixins[j]? = some m' → D.mixName m' ≠ name := by
  unfold TypeRec.indexOfName
  rw [indexOfNameFrom_spec]
  constructor
  · rintro ⟨j, m, h1, h2, h3, h4⟩
    have : i = j := by omega
    subst this; exact ⟨m, h2, h3, h4⟩
  · rintro ⟨m, h2, h3, h4⟩; exact ⟨i, m, by omega, h2, h3, h4⟩

/-- C53: in a domain with unique names, lookup by name in a type agrees with looking the name up in the domain and the
mixin's id in the type. -/
theorem C53_name_lookup_agrees (D : Decls) (s : DomId → Settings) (ops : List Op) (d : DomId) (hs : (s d).allowDupMix = false)
    (t : TypeId) (r : TypeRec) (h : ((run D (initWorld s) ops).doms d).typeAt d t = some r) (name : List UInt8) :
    r.indexOfName D name =
      match getMixinByName D (run D (initWorld s) ops) d name with
      | none => none
      | some m => r.indexOf ((run D (initWorld s) ops).mixId m) := by
  obtain ⟨-, -, hnd, hreg⟩ := C17_types_well_formed D s ops d t r h
  have hidx := C26_index_of_in_domain D s ops d t r h
  cases hn : getMixinByName D (run D (initWorld s) ops) d name with
  | none =>
    have hnone := ((C04_mixin_by_name D s ops d name).2).1 hn
    simp only
    rw [Option.eq_none_iff_forall_ne_some]
    intro i hi
    obtain ⟨m, h1, h2, -⟩ := (C53_first_with_name D r name i).1 hi
    exact hnone m (hreg m (List.mem_of_getElem? h1)) h2
  | some m =>
    obtain ⟨hm1, hm2⟩ := (C04_mixin_by_name D s ops d name).1 m hn
    simp only
    apply Option.ext
    intro i
    rw [C53_first_with_name, hidx]
    have huniq : ∀ m', m' ∈ r.mixins → D.mixName m' = name → m' = m := fun m' h1 h2 =>
      (C04_mixin_names_unique D s ops d hs m' m (hreg m' h1) hm1).1 (by rw [h2, hm2])
    have hid := (C01_mixin_by_id D s ops d _ m).2 ⟨hm1, rfl⟩
    constructor
    · rintro ⟨m', h1, h2, -⟩
      have := huniq m' (List.mem_of_getElem? h1) h2
      subst this
      exact ⟨m', h1, hid⟩
    · rintro ⟨m', h1, h2⟩
      rw [hid] at h2; simp at h2; subst h2
      refine ⟨m, h1, hm2, ?_⟩
      intro j m' hj h3 h4
      have := huniq m' (List.mem_of_getElem? h3) h4
      subst this
      obtain ⟨hi', e1⟩ := List.getElem?_eq_some_iff.1 h1
      obtain ⟨hj', e2⟩ := List.getElem?_eq_some_iff.1 h3
      have := List.pairwise_iff_getElem.1 hnd j i hj' hi' hj
      rw [e1, e2] at this; exact this rfl

example : ((tyWorld.doms 0).typeAt 0 2).map (fun r => (r.indexOfName tyDecls [3], r.indexOfName tyDecls [7], r.indexOfName tyDecls [200])) =
    some (some 1, none, none) ∧ getMixinByName tyDecls tyWorld 0 [7] = some 7 := by decide +kernel

end Dnmx.Props
