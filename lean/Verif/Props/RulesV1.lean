import Verif.Proofs.RulesV1Lemmas
import Verif.Proofs.RegistryV1Lemmas
import Verif.Props.Rules
import Verif.Props.RuleSet

/-!
# C54, C61: rules of version 1

What the rules of v1compat do to a list of mixins, what holds for the result of a resolution if several of them are in force,
and the registry through which they are added and removed.

Findings.
* `substitute_mixin` adds its target even if it is there already; then the query resolves to a list with a duplicate and
  `get_type` throws (`C54_substitute_refuted`).
* All these rules have the empty name and order priority 0, so rules are applied in the order of their addresses; with
  conflicting rules the result depends on it (`C54_order_matters`).
-/

namespace Dnmx.Props
open Spec

/-! ## C54: one rule -/

/-- C54: `mutually_exclusive_mixins` never fails; all mixins that are not listed stay, in the same order; of the listed ones
exactly the last one stays, and nothing is moved. -/
theorem C54_exclusive (D : Decls) (infos ms : List Mix) :
    ∃ r, (V1Rule.exclusive infos).applyTo D ms = .ok r ∧ r.Sublist ms ∧
      r.filter (fun m => decide (m ∉ infos)) = ms.filter (fun m => decide (m ∉ infos)) ∧
      r.filter (fun m => decide (m ∈ infos)) = (ms.filter (fun m => decide (m ∈ infos))).getLast?.toList :=
  ⟨_, rfl, exclusive_spec infos ms⟩

/-- C54: `deprecated_mixin` removes exactly its mixin. -/
theorem C54_deprecated (D : Decls) (m : Mix) (ms : List Mix) (hn : ms.Nodup) :
    (V1Rule.deprecated m).applyTo D ms = .ok (ms.filter (fun x => decide (x ≠ m))) := by
  show Except.ok _ = _
  rw [tmRemove_nodup m hn]

/-- C54: `mandatory_mixin` appends its mixin if it is not there and otherwise changes nothing. -/
theorem C54_mandatory (D : Decls) (m : Mix) (ms : List Mix) :
    (m ∈ ms → (V1Rule.mandatory m).applyTo D ms = .ok ms) ∧ (m ∉ ms → (V1Rule.mandatory m).applyTo D ms = .ok (ms ++ [m])) := by
  have e : (V1Rule.mandatory m).applyTo D ms = .ok (tmAddIfLacking ms m).1 := rfl
  rw [e, addIfLacking_eq]
  exact ⟨fun h => by rw [if_pos h], fun h => by rw [if_neg h]⟩

/-- C54: `dependent_mixins`: without the master nothing changes, with it the listed mixins that are not there are appended, each
once. The variant for dependencies does the same if all listed mixins are dependencies and throws otherwise. -/
theorem C54_dependent (D : Decls) (master : Mix) (infos ms : List Mix) :
    (master ∉ ms → (V1Rule.dependent master infos).applyTo D ms = .ok ms ∧ (V1Rule.dependentDep master infos).applyTo D ms = .ok ms) ∧
    (master ∈ ms → ∃ new, (V1Rule.dependent master infos).applyTo D ms = .ok (ms ++ new) ∧ new.Nodup ∧
      (∀ x, x ∈ new ↔ x ∈ infos ∧ x ∉ ms) ∧
      ((∀ i ∈ infos, (D.mix i).dependency = true) → (V1Rule.dependentDep master infos).applyTo D ms = .ok (ms ++ new)) ∧
      ((∃ i ∈ infos, (D.mix i).dependency = false) → ∃ e, (V1Rule.dependentDep master infos).applyTo D ms = .error e)) := by
  refine ⟨?_, ?_⟩
  · intro h
    have : tmHas ms master = false := by
      cases hx : tmHas ms master with
      | false => rfl
      | true => exact absurd ((tmHas_iff _ _).1 hx) h
    simp [V1Rule.applyTo, this]
  · intro h
    have : tmHas ms master = true := (tmHas_iff _ _).2 h
    refine ⟨newOnes ms infos, ?_, (newOnes_nodup infos ms).1, (newOnes_nodup infos ms).2, ?_, ?_⟩
    · simp [V1Rule.applyTo, this, addAll_eq]
    · intro hd
      simp only [V1Rule.applyTo, this, Bool.not_true, Bool.false_eq_true, if_false]
      rw [addAllDeps_eq, if_pos hd, addAll_eq]
    · rintro ⟨i, hi, hd⟩
      refine ⟨.missingMixin, ?_⟩
      simp only [V1Rule.applyTo, this, Bool.not_true, Bool.false_eq_true, if_false]
      rw [addAllDeps_eq, if_neg]
      intro hh
      rw [hh i hi] at hd; simp at hd

/-- C54 (partial: the target is not there): `substitute_mixin` removes the source and appends the target, if the source is there.
Missing: lists with both mixins, where the target is duplicated (`C54_substitute_refuted`). -/
theorem C54_substitute_partial (D : Decls) (source target : Mix) (ms : List Mix) (hn : ms.Nodup) (ht : target ∉ ms) :
    (source ∉ ms → (V1Rule.substitute source target).applyTo D ms = .ok ms) ∧
    (source ∈ ms → (V1Rule.substitute source target).applyTo D ms = .ok (ms.filter (fun x => decide (x ≠ source)) ++ [target]) ∧
      (ms.filter (fun x => decide (x ≠ source)) ++ [target]).Nodup) := by
  refine ⟨?_, ?_⟩
  · intro h
    have : tmHas ms source = false := by
      cases hx : tmHas ms source with
      | false => rfl
      | true => exact absurd ((tmHas_iff _ _).1 hx) h
    simp [V1Rule.applyTo, this]
  · intro h
    have : tmHas ms source = true := (tmHas_iff _ _).2 h
    refine ⟨?_, ?_⟩
    · simp [V1Rule.applyTo, this, tmAdd, tmRemove_nodup source hn]
    · rw [List.nodup_append]
      refine ⟨hn.filter _, by simp, ?_⟩
      intro a ha b hb
      simp at hb; subst hb
      rintro rfl
      exact ht (List.mem_filter.1 ha).1

/-- Example declarations: mixin `m` is called by the character `m`, mixins above 10 are dependencies; rule 1 substitutes mixin 1 by
mixin 2, rule 2 makes mixin 3 mandatory, rule 3 removes mixin 3, rule 4 adds mixin 3, too. All rules have the empty name. -/
def v1Decls : Decls where
  mem := fun a => UInt8.ofNat a
  canonName := ⟨98, 99⟩
  mix := fun m => { name := ⟨m, m + 1⟩, dependency := decide (10 < m) }
  feat := fun _ => { name := ⟨0, 0⟩ }
  userRule := fun r =>
    let rule : V1Rule :=
      if r = 1 then .substitute 1 2 else if r = 3 then .deprecated 3 else .mandatory 3
    { name := ⟨0, 0⟩, apply := some fun _ => rule.applyTo
        { mem := fun _ => 0, mix := fun m => { name := ⟨0, 0⟩, dependency := decide (10 < m) }, feat := fun _ => { name := ⟨0, 0⟩ },
          userRule := fun _ => { name := ⟨0, 0⟩, apply := none }, cls := fun _ => { name := ⟨0, 0⟩, matchesT := fun _ => true } } }
  cls := fun _ => { name := ⟨0, 0⟩, matchesT := fun _ => true }

/-- C54 is false for `substitute_mixin`: with both mixins in a duplicate-free list the target is there twice, and `get_type` for
such a query throws, although both mixins are registered. -/
theorem C54_substitute_refuted :
    (V1Rule.substitute 1 2).applyTo v1Decls [1, 2] = .ok [2, 2] ∧
    (getType v1Decls (run v1Decls (initWorld fun _ => { canonicalize := true }) [.regMixin 0 1, .regMixin 0 2, .addRule 0 1]) 0 [1, 2]).1 =
      .error .duplicateMixin ∧
    (getType v1Decls (run v1Decls (initWorld fun _ => { canonicalize := true }) [.regMixin 0 1, .regMixin 0 2, .addRule 0 1]) 0 [1]).1 =
      .ok 1 := by
  refine ⟨by decide +kernel, by decide +kernel, by decide +kernel⟩

/-- C54: a rule that succeeds establishes what it promises. -/
theorem C54_promise (D : Decls) (r : V1Rule) (ms ms' : List Mix) (hn : ms.Nodup) (h : r.applyTo D ms = .ok ms') : Promise r ms' :=
  applyTo_promise hn h

/-- C54: rules are idempotent on duplicate-free lists. -/
theorem C54_idempotent (D : Decls) (r : V1Rule) (ms ms' : List Mix) (hn : ms.Nodup) (h : r.applyTo D ms = .ok ms') :
    r.applyTo D ms' = .ok ms' := by
  have hp := applyTo_promise hn h
  by_cases hs : ∀ s t, r = .substitute s t → s ≠ t
  · cases hr : r.applyTo D ms' with
    | ok x => rw [applyTo_kept hs hp hr]
    | error e =>
      -- only the variant for dependencies can fail, and it would have failed before
      cases r with
      | dependentDep master infos =>
        unfold V1Rule.applyTo at h hr
        by_cases hm : tmHas ms master = true
        · simp only [hm, Bool.not_true, Bool.false_eq_true, if_false] at h
          rw [addAllDeps_eq] at h
          by_cases hd : ∀ i ∈ infos, (D.mix i).dependency = true
          · simp only at hr
            rw [addAllDeps_eq, if_pos hd] at hr
            by_cases hm' : tmHas ms' master = true
            · simp [hm'] at hr
            · simp [hm'] at hr
          · rw [if_neg hd] at h; simp at h
        · simp [hm] at h; subst h
          simp [hm] at hr
      | dependent master infos =>
        unfold V1Rule.applyTo at hr
        by_cases hm' : tmHas ms' master = true
        · simp [hm'] at hr
        · simp [hm'] at hr
      | exclusive _ => simp [V1Rule.applyTo] at hr
      | deprecated _ => simp [V1Rule.applyTo] at hr
      | mandatory _ => simp [V1Rule.applyTo] at hr
      | substitute s t =>
        unfold V1Rule.applyTo at hr
        by_cases hm' : tmHas ms' s = true
        · simp [hm'] at hr
        · simp [hm'] at hr
  · -- a mixin is substituted by itself: it is moved to the end
    have : ∃ s, r = .substitute s s := by
      cases r with
      | substitute s t =>
        by_cases e : s = t
        · exact ⟨s, by rw [e]⟩
        · exact absurd (fun a b hab => by injection hab with h1 h2; rw [← h1, ← h2]; exact e) hs
      | _ => exact absurd (fun a b hab => by simp at hab) hs
    obtain ⟨s, rfl⟩ := this
    unfold V1Rule.applyTo at h ⊢
    by_cases hm : tmHas ms s = true
    · simp only [hm, if_true] at h
      have h : ms' = tmAdd (tmRemove ms s).1 s := by simpa using h.symm
      have e : ms' = ms.filter (fun x => decide (x ≠ s)) ++ [s] := by rw [h, tmAdd, tmRemove_nodup s hn]
      have hn' : ms'.Nodup := by
        rw [e, List.nodup_append]
        refine ⟨hn.filter _, by simp, ?_⟩
        intro a ha b hb
        simp at hb; subst hb
        have := (List.mem_filter.1 ha).2
        simpa using this
      have hm' : tmHas ms' s = true := by rw [tmHas_iff, e]; simp
      simp only [hm', if_true, tmAdd]
      rw [tmRemove_nodup s hn', e, List.filter_append]
      simp
    · simp only [hm] at h
      have h : ms' = ms := by simpa using h.symm
      rw [h]
      simp [hm]

/-! ## C54: rules in force together -/

/-- C54: if all rules in force are of this kind and only add mixins (or all only remove mixins), with or without canonicalization
(`sort` stands for any rule that only rearranges), then what *every* rule promises holds for the mixins of every type that a query
without dependency mixins resolves to. -/
theorem C54_promises_together (D : Decls) (rules : List V1Rule) (sort : List RuleFn)
    (hk : (∀ r ∈ rules, V1Adds r = true) ∨ ∀ r ∈ rules, V1Removes r = true)
    (hs : ∀ f ∈ sort, ∀ ms ms', f ms = .ok ms' → ms.Perm ms')
    (fs : List RuleFn) (hf : ∀ f, f ∈ fs ↔ f ∈ sort ∨ ∃ r ∈ rules, f = r.applyTo D)
    (q ms : List Mix) (hd : ∀ m ∈ q, (D.mix m).dependency = false) (hn : ms.Nodup)
    (h : resolve D fs q = .ok ms) : ∀ r ∈ rules, Promise r ms := by
  have hfix := C10_fixpoint_no_deps_partial D fs q ms hd h
  intro r hr
  have hg : (∀ f ∈ fs, Grows f) ∨ ∀ f ∈ fs, Shrinks f := by
    rcases hk with hk | hk
    · left
      intro f hff
      rcases (hf f).1 hff with h1 | ⟨r', h1, rfl⟩
      · intro a b hab
        have := hs f h1 a b hab
        exact ⟨Nat.le_of_eq this.length_eq, fun _ => this⟩
      · exact adds_grows (hk r' h1)
    · right
      intro f hff
      rcases (hf f).1 hff with h1 | ⟨r', h1, rfl⟩
      · intro a b hab
        have := hs f h1 a b hab
        exact ⟨Nat.le_of_eq this.length_eq.symm, fun _ => this⟩
      · exact removes_shrinks (hk r' h1)
  obtain ⟨x, y, h1, h2, h3⟩ := pass_perm fs ms ms hg hfix rfl (r.applyTo D) ((hf _).2 (.inr ⟨r, hr, rfl⟩))
  exact promise_perm h3 (applyTo_promise (h2.nodup_iff.2 hn) h1)

/-- Example of the hypotheses: mixin 1 brings 2 and 3, mixin 4 is mandatory, mixin 3 brings 5; the query {1} needs two passes. -/
example : resolve v1Decls [(V1Rule.dependent 3 [5]).applyTo v1Decls, (V1Rule.dependent 1 [2, 3]).applyTo v1Decls, (V1Rule.mandatory 4).applyTo v1Decls] [1] =
    .ok [1, 2, 3, 4, 5] := by decide +kernel

/-- C54: with conflicting rules the resolution succeeds and what one of the rules promises does not hold: which one, depends on
the order of the rules, that is on their addresses (rules 2 and 4 make mixin 3 mandatory, rule 3 forbids it). -/
theorem C54_order_matters :
    (∀ r, r = 2 ∨ r = 3 ∨ r = 4 → (ruleOf v1Decls r).name = ⟨0, 0⟩ ∧ (ruleOf v1Decls r).orderPriority = 0) ∧
    resolve v1Decls (rulesOf v1Decls ((initWorld fun _ => {}).view v1Decls 0) ((run v1Decls (initWorld fun _ => {}) [.addRule 0 3, .addRule 0 2]).doms 0)) [1] =
      .ok [1] ∧
    resolve v1Decls (rulesOf v1Decls ((initWorld fun _ => {}).view v1Decls 0) ((run v1Decls (initWorld fun _ => {}) [.addRule 0 3, .addRule 0 4]).doms 0)) [1] =
      .ok [1, 3] := by
  refine ⟨?_, by decide +kernel, by decide +kernel⟩
  rintro r (rfl | rfl | rfl) <;> exact ⟨rfl, rfl⟩

example : (V1Rule.exclusive [1, 2, 3]).applyTo v1Decls [5, 3, 1, 6, 2, 7] = .ok [5, 6, 2, 7] := by decide +kernel
example : (V1Rule.dependentDep 1 [12, 11]).applyTo v1Decls [1, 11] = .ok [1, 11, 12] := by decide +kernel

/-! ## C61: the registry -/

/-- An empty registry and new domains. -/
def v1Init (s : DomId → Settings) : V1State := ⟨[], initWorld s⟩

/-- C61: removing by id gives the rule that was added under the id and not removed since, or nothing. -/
theorem C61_remove_returns (D : Decls) (s : DomId → Settings) (d : DomId) (ops : List V1Op) (id : Nat) :
    (v1Step D d (v1Run D d (v1Init s) ops) (.remove id)).1 = .rule (holder id (v1Trace D d (v1Init s) ops)) := by
  show (v1Remove D d _ id).1 = _
  rw [(v1Remove_spec D d _ id).1, v1Run_holder]
  simp [holder, v1Init, slotRule]

/-- C61: removing by an id that has no rule changes nothing. -/
theorem C61_remove_unknown (D : Decls) (s : DomId → Settings) (d : DomId) (ops : List V1Op) (id : Nat)
    (h : holder id (v1Trace D d (v1Init s) ops) = none) :
    (v1Step D d (v1Run D d (v1Init s) ops) (.remove id)).2 = v1Run D d (v1Init s) ops := by
  show (v1Remove D d _ id).2 = _
  refine (v1Remove_spec D d _ id).2.2.1 ?_
  rw [v1Run_holder]
  simpa [holder, v1Init, slotRule] using h

/-- C61: adding a rule (they all have a function) succeeds; its id is the least one that has no rule. -/
theorem C61_least_id (D : Decls) (s : DomId → Settings) (d : DomId) (ops : List V1Op) (r : Rule) (hr : (ruleOf D r).apply ≠ none) :
    ∃ (i : Nat), (v1Step D d (v1Run D d (v1Init s) ops) (.add r)).1 = .id i ∧
      holder i (v1Trace D d (v1Init s) ops) = none ∧ ∀ j, j < i → holder j (v1Trace D d (v1Init s) ops) ≠ none := by
  have hr' : (ruleOf D r).apply.isNone = false := by
    cases h : (ruleOf D r).apply with
    | none => exact absurd h hr
    | some f => rfl
  obtain ⟨i, h1, h2, h3, -⟩ := v1Add_ok (d := d) (st := v1Run D d (v1Init s) ops) hr'
  refine ⟨i, h1, ?_, fun j hj => ?_⟩
  · rw [v1Run_holder] at h2; simpa [holder, v1Init, slotRule] using h2
  · have := h3 j hj
    rw [v1Run_holder] at this; simpa [holder, v1Init, slotRule] using this

/-- The rules are as constructed by `mutation_rule::mutation_rule` (33-38), and the name of the canonicalization rule is a proper
name. -/
structure V1Names (D : Decls) (S : Rule → Prop) : Prop where
  rules : ∀ r, S r → r = 0 ∨ (ruleOf D r).name = ⟨0, 0⟩
  canon : D.canonName.Valid ∧ D.canonName.first ≠ 0

theorem V1Names.ok {D : Decls} {S : Rule → Prop} (h : V1Names D S) : RuleNamesOk D S := by
  have h0 : (ruleOf D 0).name = D.canonName := rfl
  have cases : ∀ r, S r → (ruleOf D r).name = D.canonName ∨ (ruleOf D r).name = ⟨0, 0⟩ := by
    intro r hr
    rcases h.rules r hr with rfl | h1
    · exact .inl rfl
    · exact .inr h1
  refine ⟨fun r hr => ?_, fun a b ha hb => ?_⟩
  · rcases cases r hr with h1 | h1 <;> rw [h1]
    · exact h.canon.1
    · decide
  · rcases cases a ha with h1 | h1 <;> rcases cases b hb with h2 | h2 <;> rw [h1, h2]
    · intro _; rfl
    · intro e; exact absurd e h.canon.2
    · intro e; exact absurd e.symm h.canon.2
    · intro _; rfl

/-- C61: if the domain's rules are only changed through the registry, a rule is in force exactly while it is registered under some
id (several times, if added several times). -/
theorem C61_in_force (D : Decls) (S : Rule → Prop) (hS : V1Names D S) (s : DomId → Settings) (d : DomId) (ops : List V1Op)
    (h0 : (s d).canonicalize = true → S 0)
    (ha : ∀ r, V1Op.add r ∈ ops → S r ∧ (ruleOf D r).apply ≠ none)
    (hd : ∀ op, V1Op.other op ∈ ops → (∀ r, op ≠ .addRule d r) ∧ (∀ r, op ≠ .removeRule d r) ∧ op.rulesIn S) (r : Rule) (hr : r ≠ 0) :
    r ∈ inForce (v1Run D d (v1Init s) ops).world d ↔ ∃ (i : Nat), holder i (v1Trace D d (v1Init s) ops) = some r := by
  have ho := ruleOrder_total D S hS.ok
  obtain ⟨i1, i2⟩ := initWorld_ruleMap D S s d h0
  have inv := v1Run_inv (D := D) (S := S) (d := d) (n := fun r => initialCount (s d) r) ho ops (v1Init s)
    ⟨initWorld_reg s, i1, fun r => by simp [v1Init]; exact i2 r⟩ (by
      intro op hop
      cases op with
      | add r =>
        obtain ⟨h1, h2⟩ := ha r hop
        refine ⟨⟨h1, ?_⟩, trivial⟩
        cases h : (ruleOf D r).apply with
        | none => exact absurd h h2
        | some f => rfl
      | remove _ => exact ⟨trivial, trivial⟩
      | other op =>
        obtain ⟨h1, h2, h3⟩ := hd op hop
        refine ⟨h3, ?_⟩
        cases op with
        | addRule d' r => show d' ≠ d; rintro rfl; exact h1 r rfl
        | removeRule d' r => show d' ≠ d; rintro rfl; exact h2 r rfl
        | _ => trivial) (by simp [v1Init])
  have hc := inv.count r
  have h0' : initialCount (s d) r = 0 := by simp [initialCount, hr]
  simp only [h0', Nat.zero_add] at hc
  have e1 : r ∈ inForce (v1Run D d (v1Init s) ops).world d ↔ countOf r ((v1Run D d (v1Init s) ops).world.doms d).rules > 0 := by
    unfold inForce
    rw [List.mem_map]
    constructor
    · rintro ⟨⟨k, n⟩, h3, rfl⟩
      have := (mem_iff_countOf ho _ inv.map k n).1 h3
      simp only; omega
    · intro h3
      exact ⟨(r, _), (mem_iff_countOf ho _ inv.map r _).2 ⟨rfl, h3⟩, rfl⟩
  rw [e1, hc, gt_iff_lt, List.count_pos_iff, List.mem_iff_getElem?]
  have e2 : ∀ (i : Nat), holder i (v1Trace D d (v1Init s) ops) = slotRule (v1Run D d (v1Init s) ops).slots i := by
    intro i; rw [v1Run_holder]; simp [holder, v1Init, slotRule]
  constructor
  · rintro ⟨i, hi⟩
    exact ⟨i, by rw [e2]; simp [slotRule, hi]⟩
  · rintro ⟨i, hi⟩
    rw [e2] at hi
    refine ⟨i, ?_⟩
    unfold slotRule at hi
    cases hq : (v1Run D d (v1Init s) ops).slots[i]? with
    | none => rw [hq] at hi; simp at hi
    | some o => rw [hq] at hi; simp at hi; rw [hi]

/-- Example: two rules are added, the first is removed and its id is reused; rule 3 is added a second time and removed once. -/
def v1Ops : List V1Op := [.add 2, .add 3, .remove 0, .other (.regMixin 0 1), .add 4, .remove 7, .add 3, .remove 1]

example : V1Names v1Decls (fun r => r < 5) := ⟨fun r hr => by by_cases h : r = 0 <;> simp [h, ruleOf, v1Decls], by decide⟩
example : (v1Trace v1Decls 0 (v1Init fun _ => { canonicalize := true }) v1Ops).map (·.2) =
    [.id 0, .id 1, .rule (some 2), .call (.ok ()), .id 0, .rule none, .id 2, .rule (some 3)] ∧
    inForce (v1Run v1Decls 0 (v1Init fun _ => { canonicalize := true }) v1Ops).world 0 = [3, 4, 0] := by decide +kernel

end Dnmx.Props
