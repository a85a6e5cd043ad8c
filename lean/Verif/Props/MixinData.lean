import Verif.Proofs.MixinDataLemmas
import Verif.Props.RuleSet
import Verif.Props.Types

/-!
# C55: registering mixin definitions with their rules

`rules` are the rules of the definition of mixin `m`.

Finding. `register_in` adds the rules before it registers the mixin, and does not remove them if this throws
(`C55_failure_refuted`). `unregister_from` is `noexcept`, so that the exception of `unregister_mixin` for a mixin that is not registered
in the domain ends the program.
-/

namespace Dnmx.Props
open Spec

/-- C55: `register_in` succeeds exactly if all rules have functions and the mixin could be registered without them. -/
theorem C55_register_outcome (D : Decls) (W : World) (d : DomId) (m : Mix) (rules : List Rule) :
    (registerIn D W d m rules).1 = .ok () ↔ (∀ r ∈ rules, (ruleOf D r).apply ≠ none) ∧ (step D W (.regMixin d m)).1 = .ok () :=
  registerIn_outcome D W d m rules

/-- C55: after success, the mixin is registered and every rule counts as added once more (per occurrence). -/
theorem C55_registered (D : Decls) (s : DomId → Settings) (ops : List Op) (d : DomId) (m : Mix) (rules : List Rule)
    (h : (registerIn D (run D (initWorld s) ops) d m rules).1 = .ok ()) :
    ∃ more, (registerIn D (run D (initWorld s) ops) d m rules).2 = run D (initWorld s) (ops ++ more) ∧
      mixinRegistered d m (trace D (initWorld s) (ops ++ more)) = true ∧
      ∀ r, ruleCount d r (initialCount (s d) r) (trace D (initWorld s) (ops ++ more)) =
        ruleCount d r (initialCount (s d) r) (trace D (initWorld s) ops) + rules.count r := by
  have hrun := registerIn_run D _ d m rules h
  obtain ⟨hfun, hmix⟩ := (registerIn_outcome D _ d m rules).1 h
  refine ⟨rules.map (.addRule d ·) ++ [.regMixin d m], ?_, ?_, ?_⟩
  · rw [hrun, ← run_append D ops]
  · rw [mixinRegistered_iff, run_append, ← hrun]
    obtain ⟨⟨x, y, i1⟩, i2, i3⟩ := addRules_spec D d rules (run D (initWorld s) ops)
    have hok := i2.2 hfun
    have e : registerIn D (run D (initWorld s) ops) d m rules = registerMixin D (addRules D (run D (initWorld s) ops) d rules).2 d m := by
      unfold registerIn
      cases hr : addRules D (run D (initWorld s) ops) d rules with
      | mk o W1 => rw [hr] at hok; simp only at hok; subst hok; rfl
    rw [e] at h ⊢
    have hreg : RegInv (addRules D (run D (initWorld s) ops) d rules).2 := by
      rw [i3 hok, ← run_append]; exact reachable_reg D s _
    obtain ⟨id, hi⟩ := registerMixin_ok D _ d m hreg h
    exact (mem_mixinsOf _ _ _).2 ⟨id, hi.ins.slot⟩
  · intro r
    have tr : ∀ (a b : List Op) (W : World) (n : Nat), ruleCount d r n (trace D W (a ++ b)) = ruleCount d r (ruleCount d r n (trace D W a)) (trace D (run D W a) b) := by
      intro a
      induction a with
      | nil => intro b W n; rfl
      | cons op a ih => intro b W n; exact ih b _ _
    rw [tr, ruleCount_adds, addsOf_append, addsOf_map D d r rules hfun]
    · simp [addsOf]
    · intro op hop q
      rcases List.mem_append.1 hop with h1 | h1
      · obtain ⟨x, -, rfl⟩ := List.mem_map.1 h1; simp
      · simp at h1; subst h1; simp

/-- C55: `unregister_from` ends the program exactly if the mixin is not registered in the domain. -/
theorem C55_unregister_terminates (D : Decls) (s : DomId → Settings) (ops : List Op) (d : DomId) (m : Mix) (rules : List Rule) :
    unregisterFrom D (run D (initWorld s) ops) d m rules = none ↔ mixinRegistered d m (trace D (initWorld s) ops) = false := by
  unfold unregisterFrom
  constructor
  · intro h
    cases hm : mixinRegistered d m (trace D (initWorld s) ops) with
    | false => rfl
    | true =>
      exfalso
      have hr := reachable_reg D s ops
      have hi := reachable_types D s ops d
      rw [mixinRegistered_iff, mem_mixinsOf] at hm
      obtain ⟨i, hs⟩ := hm
      have hid := (hr.mixSlot d i m hs).1
      obtain ⟨qs, hp, -⟩ := purgeQueries_some ((run D (initWorld s) ops).doms d) d ((run D (initWorld s) ops).mixId m) m _ hi.queries
      unfold unregisterMixin at h
      rw [hid] at hp
      simp only [hid, hp, ownSlot, hs, if_true] at h
      simp at h
  · intro h
    have := C06_unregister_foreign_mixin_outcome_partial D s ops d m h
    have e : step D (run D (initWorld s) ops) (.unregMixin d m) = unregisterMixin (run D (initWorld s) ops) d m := rfl
    rw [e] at this
    cases hr : unregisterMixin (run D (initWorld s) ops) d m with
    | mk o W1 => rw [hr] at this; simp only at this; subst this; rfl

/-- C55 (partial: rules with names as in C14): `register_in` followed by `unregister_from` gives back the rules in force with their
order and counts, all ids of mixins, all answers of `get_mixin_info`, all type classes and types; other domains are unchanged. (Features of the
mixin stay registered. Stored queries may be lost, which C16 shows to be harmless.)
Missing: rules whose names alias, for which there may be no order. -/
theorem C55_round_trip_partial (D : Decls) (S : Rule → Prop) (hS : RuleNamesOk D S) (s : DomId → Settings) (ops : List Op)
    (hops : ∀ op ∈ ops, op.rulesIn S) (d : DomId) (h0 : (s d).canonicalize = true → S 0) (m : Mix) (rules : List Rule) (hrs : ∀ r ∈ rules, S r)
    (h : (registerIn D (run D (initWorld s) ops) d m rules).1 = .ok ()) :
    ∃ W, unregisterFrom D (registerIn D (run D (initWorld s) ops) d m rules).2 d m rules = some W ∧
      (W.doms d).rules = ((run D (initWorld s) ops).doms d).rules ∧
      W.mixId = (run D (initWorld s) ops).mixId ∧ W.mixDom = (run D (initWorld s) ops).mixDom ∧
      (∀ id, getMixinById W d id = getMixinById (run D (initWorld s) ops) d id) ∧
      (∀ name, getMixinByName D W d name = getMixinByName D (run D (initWorld s) ops) d name) ∧
      (W.doms d).classes = ((run D (initWorld s) ops).doms d).classes ∧
      (W.doms d).types = ((run D (initWorld s) ops).doms d).types ∧
      ∀ d', d' ≠ d → W.doms d' = (run D (initWorld s) ops).doms d' := by
  have hrun := registerIn_run D _ d m rules h
  obtain ⟨hfun, hmix⟩ := (registerIn_outcome D _ d m rules).1 h
  have hr := reachable_reg D s ops
  have ht := reachable_types D s ops d
  -- the world after registration
  obtain ⟨⟨x, y, i1⟩, i2, i3⟩ := addRules_spec D d rules (run D (initWorld s) ops)
  have hok := i2.2 hfun
  have e : registerIn D (run D (initWorld s) ops) d m rules = registerMixin D (reRule (run D (initWorld s) ops) d x y) d m := by
    unfold registerIn
    cases hq : addRules D (run D (initWorld s) ops) d rules with
    | mk o W1 => rw [hq] at hok i1; simp only at hok i1; subst hok; rw [i1]
  rw [registerMixin_reRule] at e
  obtain ⟨i, hi⟩ := registerMixin_ok D _ d m hr hmix
  have e2 : (registerIn D (run D (initWorld s) ops) d m rules).2 = reRule (registerMixin D (run D (initWorld s) ops) d m).2 d x y := by rw [e]
  generalize hW1 : (registerIn D (run D (initWorld s) ops) d m rules).2 = W1 at *
  have hnow : mixinRegistered d m (trace D (initWorld s) (ops ++ (rules.map (.addRule d ·) ++ [.regMixin d m]))) = true := by
    rw [mixinRegistered_iff, mem_mixinsOf, run_append, ← hrun, e2]
    exact ⟨i, by simp [reRule]; exact hi.ins.slot⟩
  have hrun' : W1 = run D (initWorld s) (ops ++ (rules.map (.addRule d ·) ++ [.regMixin d m])) := by rw [hrun, ← run_append D ops]
  have hsome : unregisterFrom D W1 d m rules ≠ none := by
    rw [hrun']
    intro hn
    rw [(C55_unregister_terminates D s _ d m rules).1 hn] at hnow; simp at hnow
  cases hu : unregisterFrom D W1 d m rules with
  | none => exact absurd hu hsome
  | some W =>
  refine ⟨W, rfl, ?_⟩
  -- the parts of `unregister_from`
  have hum : (unregisterMixin W1 d m).1 = .ok () ∧ W = removeRules D (unregisterMixin W1 d m).2 d rules := by
    unfold unregisterFrom at hu
    cases hq : unregisterMixin W1 d m with
    | mk o W2 =>
      rw [hq] at hu
      cases o with
      | error e => simp at hu
      | ok u => simp at hu; exact ⟨rfl, hu.symm⟩
  obtain ⟨j, hj⟩ := unregisterMixin_ok W1 d m hum.1
  obtain ⟨a, b, hab⟩ := removeRules_reRule D d rules (unregisterMixin W1 d m).2
  have hW : W = reRule (unregisterMixin W1 d m).2 d a b := by rw [hum.2, hab]
  have hj' : j = i := by
    have := hj.hadId
    rw [e2] at this
    have h1 : (reRule (registerMixin D (run D (initWorld s) ops) d m).2 d x y).mixId m = some i := by
      show (registerMixin D (run D (initWorld s) ops) d m).2.mixId m = some i
      rw [hi.mixId]; simp
    rw [h1] at this; simpa using this.symm
  subst hj'
  have mixins : ∀ (k : Nat) (mm : Mix), (W.doms d).mixins[k]? = some (some mm) ↔ ((run D (initWorld s) ops).doms d).mixins[k]? = some (some mm) := by
    intro k mm
    have e3 : (W.doms d).mixins = (W1.doms d).mixins.set j none := by rw [hW]; simp [reRule]; exact hj.mixins
    have e4 : (W1.doms d).mixins = ((registerMixin D (run D (initWorld s) ops) d m).2.doms d).mixins := by rw [e2]; simp [reRule]
    rw [e3, e4, List.getElem?_set]
    by_cases hk : j = k
    · subst hk
      simp only [if_true]
      constructor
      · intro hh; split at hh <;> simp at hh
      · intro hh; exact absurd hh (hi.ins.wasFree mm)
    · rw [if_neg hk, hi.ins.other k (fun e => hk e.symm)]
  have mixId : W.mixId = (run D (initWorld s) ops).mixId := by
    rw [hW]
    show (unregisterMixin W1 d m).2.mixId = _
    rw [hj.mixId, e2]
    show upd (registerMixin D (run D (initWorld s) ops) d m).2.mixId m none = _
    rw [hi.mixId]
    funext q
    simp only [upd]
    by_cases hq : q = m
    · subst hq; simp [hi.wasInvalid]
    · simp [hq]
  refine ⟨?_, mixId, ?_, ?_, ?_, ?_, ?_, ?_⟩
  · -- rules
    have ho := ruleOrder_total D S hS
    obtain ⟨k1, k2⟩ := initWorld_ruleMap D S s d h0
    obtain ⟨l1, l2⟩ := run_ruleMap ho d ops _ (initWorld_reg s) hops k1
    have hopsW : ∀ op ∈ rules.map (Op.addRule d ·) ++ [.regMixin d m], op.rulesIn S := by
      intro op hop
      rcases List.mem_append.1 hop with h1 | h1
      · obtain ⟨q, hq, rfl⟩ := List.mem_map.1 h1; exact hrs q hq
      · simp at h1; subst h1; trivial
    obtain ⟨m1, m2⟩ := run_ruleMap ho d _ _ hr hopsW l1
    rw [← hrun] at m1 m2
    have hreg1 : RegInv (unregisterMixin W1 d m).2 := by
      have : RegInv W1 := by rw [hrun']; exact reachable_reg D s _
      exact unregisterMixin_reg W1 d m this
    have hops2 : ∀ op ∈ rules.map (Op.removeRule d ·), op.rulesIn S := by
      intro op hop
      obtain ⟨q, hq, rfl⟩ := List.mem_map.1 hop; exact hrs q hq
    have m3 : RuleMap D S ((unregisterMixin W1 d m).2.doms d).rules := by rw [hj.rules]; exact m1
    obtain ⟨n1, n2⟩ := run_ruleMap ho d _ _ hreg1 hops2 m3
    rw [← removeRules_run, ← hum.2] at n1 n2
    refine RuleMap.determined ho _ _ n1 l1 fun r => ?_
    rw [n2, ruleCount_removes, hj.rules, m2, ruleCount_adds, addsOf_append, addsOf_map D d r rules hfun]
    · simp [addsOf]
    · intro op hop q
      rcases List.mem_append.1 hop with h1 | h1
      · obtain ⟨x, -, rfl⟩ := List.mem_map.1 h1; simp
      · simp at h1; subst h1; simp
  · rw [hW]
    show (unregisterMixin W1 d m).2.mixDom = _
    rw [hj.mixDom, e2]
    show upd (registerMixin D (run D (initWorld s) ops) d m).2.mixDom m none = _
    rw [hi.mixDom]
    funext q
    simp only [upd]
    by_cases hq : q = m
    · subst hq; simp [hr.mixFree q hi.wasInvalid]
    · simp [hq]
  · intro id
    have key : ∀ mm, getMixinById W d id = some mm ↔ getMixinById (run D (initWorld s) ops) d id = some mm := by
      intro mm
      rw [getMixinById, getMixinById, getById_eq, getById_eq]
      constructor
      · rintro ⟨k, h1, h2⟩; exact ⟨k, h1, (mixins k mm).1 h2⟩
      · rintro ⟨k, h1, h2⟩; exact ⟨k, h1, (mixins k mm).2 h2⟩
    exact Option.ext key
  · intro name
    show getByName D.mixName name (W.doms d).mixins = getByName D.mixName name ((run D (initWorld s) ops).doms d).mixins
    have gen : ∀ (a b : List (Option Nat)), (∀ (k : Nat) mm, a[k]? = some (some mm) ↔ b[k]? = some (some mm)) → getByName D.mixName name a = getByName D.mixName name b := by
      have nil : ∀ (b : List (Option Nat)), (∀ (k : Nat) mm, b[k]? ≠ some (some mm)) → getByName D.mixName name b = none := by
        intro b
        induction b with
        | nil => intro _; rfl
        | cons q b ih =>
          intro hb
          cases q with
          | none => exact ih (fun k mm => hb (k + 1) mm)
          | some v => exact absurd rfl (hb 0 v)
      intro a
      induction a with
      | nil =>
        intro b hb
        rw [nil b (fun k mm hh => by have := (hb k mm).2 hh; simp at this)]; rfl
      | cons q a ih =>
        intro b hb
        cases b with
        | nil => rw [nil (q :: a) (fun k mm hh => by have := (hb k mm).1 hh; simp at this)]; rfl
        | cons p b =>
          have hpq : q = p := by
            cases q with
            | none =>
              cases p with
              | none => rfl
              | some v => have := (hb 0 v).2 rfl; simp at this
            | some v => have := (hb 0 v).1 rfl; simpa using this.symm
          subst hpq
          have := ih b (fun k mm => hb (k + 1) mm)
          cases q with
          | none => exact this
          | some v => simp only [getByName, this]
    exact gen _ _ mixins
  · rw [hW]
    simp only [reRule, setDom_same]
    rw [hj.classes, e2]
    simp only [reRule, setDom_same]
    rw [hi.dom]
  · rw [hW]
    simp only [reRule, setDom_same]
    rw [hj.types]
    have e3 : (W1.doms d).types = ((run D (initWorld s) ops).doms d).types := by
      rw [e2]; simp only [reRule, setDom_same]; rw [hi.dom]
    rw [e3, hj.hadId, List.filter_eq_self]
    intro t htt
    have tok := ht.ok t htt
    cases hh : t.hasId (some j) with
    | false => rfl
    | true =>
      exfalso
      have := (tok.hasId hr (some j)).1 hh
      obtain ⟨j', mm, hjj, h1, h2⟩ := this
      have : j = j' := by simpa using hjj
      subst this
      obtain ⟨⟨k, hk⟩, hd⟩ := tok.reg mm h1
      obtain ⟨d', h3, h4⟩ := hr.mixReg mm j h2
      rw [hd] at h3
      have : d = d' := by simpa using h3
      subst this
      exact hi.ins.wasFree mm h4
  · intro d' hd'
    rw [hW]
    unfold reRule
    rw [setDom_ne _ _ hd', hj.other d' hd', e2]
    unfold reRule
    rw [setDom_ne _ _ hd', hi.other d' hd']

/-- C55 (partial): if `register_in` throws, nothing has changed apart from the domain's features, rules and stored queries; and the rules are
unchanged, too, if there are none in the definition.
Missing: that the rules are unchanged (`C55_failure_refuted`). -/
theorem C55_failure_partial (D : Decls) (s : DomId → Settings) (ops : List Op) (d : DomId) (m : Mix) (rules : List Rule) (e : Err)
    (h : (registerIn D (run D (initWorld s) ops) d m rules).1 = .error e) :
    (∀ d', d' ≠ d → (registerIn D (run D (initWorld s) ops) d m rules).2.doms d' = (run D (initWorld s) ops).doms d') ∧
    (registerIn D (run D (initWorld s) ops) d m rules).2.mixId = (run D (initWorld s) ops).mixId ∧
    (registerIn D (run D (initWorld s) ops) d m rules).2.mixDom = (run D (initWorld s) ops).mixDom ∧
    ((registerIn D (run D (initWorld s) ops) d m rules).2.doms d).mixins = ((run D (initWorld s) ops).doms d).mixins ∧
    ((registerIn D (run D (initWorld s) ops) d m rules).2.doms d).classes = ((run D (initWorld s) ops).doms d).classes ∧
    ((registerIn D (run D (initWorld s) ops) d m rules).2.doms d).types = ((run D (initWorld s) ops).doms d).types ∧
    (rules = [] → ((registerIn D (run D (initWorld s) ops) d m rules).2.doms d).rules = ((run D (initWorld s) ops).doms d).rules ∧
      ((registerIn D (run D (initWorld s) ops) d m rules).2.doms d).queries = ((run D (initWorld s) ops).doms d).queries) := by
  have hr := reachable_reg D s ops
  generalize run D (initWorld s) ops = W at *
  obtain ⟨⟨x, y, i1⟩, i2, i3⟩ := addRules_spec D d rules W
  unfold registerIn at h ⊢
  cases hq : addRules D W d rules with
  | mk o W1 =>
    rw [hq] at h i1
    simp only at i1
    cases o with
    | error e' =>
      simp only
      rw [i1]
      refine ⟨fun d' hd' => by unfold reRule; rw [setDom_ne _ _ hd'], rfl, rfl, by simp [reRule], by simp [reRule], by simp [reRule], ?_⟩
      rintro rfl
      simp [addRules] at hq
    | ok u =>
      simp only at h ⊢
      rw [i1, registerMixin_reRule] at h ⊢
      obtain ⟨g, -⟩ := registerMixin_error D W d m hr e h
      refine ⟨fun d' hd' => by unfold reRule; rw [setDom_ne _ _ hd', g.other d' hd'], g.mixId, g.mixDom, by simp [reRule]; rw [g.dom], by simp [reRule]; rw [g.dom],
        by simp [reRule]; rw [g.dom], ?_⟩
      rintro rfl
      simp only [addRules, Prod.mk.injEq, true_and] at hq
      have e2 : (W.doms d) = ((reRule W d x y).doms d) := by rw [← i1, hq]
      simp only [reRule, setDom_same] at e2 ⊢
      exact ⟨by rw [e2], by rw [e2]⟩

/-- Example declarations: mixins 1 and 2 have the same name; the rules add mixin 1 to mixin 3. -/
def mdDecls : Decls where
  mem := fun a => UInt8.ofNat a
  canonName := ⟨98, 99⟩
  mix := fun m => { name := if m = 3 then ⟨3, 4⟩ else ⟨1, 2⟩, feats := if m = 1 then [⟨1, 10, 0, 0⟩] else [] }
  feat := fun f => { name := ⟨f, f + 1⟩ }
  userRule := fun r => { name := ⟨r + 20, r + 21⟩, apply := some fun _ => basicDepRule 3 1 }
  cls := fun _ => { name := ⟨0, 0⟩, matchesT := fun _ => true }

/-- C55 is false for failures: mixin 2 has the name of the registered mixin 1; `register_in` with a rule throws, but the rule is in force
afterwards, and the type of a query changes. (Full statement: as `C55_failure_partial` with unchanged rules.) -/
theorem C55_failure_refuted :
    let W := run mdDecls (initWorld fun _ => {}) [.regMixin 0 1, .regMixin 0 3]
    let W' := (registerIn mdDecls W 0 2 [1]).2
    (registerIn mdDecls W 0 2 [1]).1 = .error .duplicateName ∧ inForce W 0 = [] ∧ inForce W' 0 = [1] ∧
    resolve mdDecls (rulesOf mdDecls (W.view mdDecls 0) (W.doms 0)) [3] = .ok [3] ∧
    resolve mdDecls (rulesOf mdDecls (W'.view mdDecls 0) (W'.doms 0)) [3] = .ok [3, 1] := by
  decide +kernel

example : RuleNamesOk mdDecls (fun r => r = 1 ∨ r = 2) := by
  refine ⟨?_, ?_⟩
  · rintro r (rfl | rfl) <;> decide
  · rintro a b (rfl | rfl) (rfl | rfl) h <;> first | rfl | exact absurd h (by decide)
-- a rule that is in force already (rule 1) and one that is not, added twice
example : (registerIn mdDecls (run mdDecls (initWorld fun _ => {}) [.addRule 0 1, .regMixin 0 3]) 0 1 [1, 2, 2]).1 = .ok () ∧
    ((registerIn mdDecls (run mdDecls (initWorld fun _ => {}) [.addRule 0 1, .regMixin 0 3]) 0 1 [1, 2, 2]).2.doms 0).rules = [(1, 2), (2, 2)] ∧
    ((unregisterFrom mdDecls (registerIn mdDecls (run mdDecls (initWorld fun _ => {}) [.addRule 0 1, .regMixin 0 3]) 0 1 [1, 2, 2]).2 0 1 [1, 2, 2]).map
      fun W => ((W.doms 0).rules, (W.doms 0).mixins, (W.doms 0).feats)) = some ([(1, 1)], [some 3, none], [some 1]) := by decide +kernel

end Dnmx.Props
