import Verif.Proofs.RulesLemmas

/-!
# C10 - C13: resolving a query with mutation rules

A query is resolved by `applyMutationRules`; on success its `result` holds the query to remember and the
mixins of the resulting type. One more application of all rules is `applyPass rules`.

Findings. The loop compares the result of its first pass with the query *including* dependency mixins
(code/dynamix/domain.cpp 456, 474), but runs it on the query without them. Hence
* with no rules, a query with a dependency mixin is an error (C13 refuted);
* if the first pass happens to reproduce the query, the loop stops although a further pass may change the
  mixins (C10 and C11 refuted).
-/

namespace Dnmx.Props
open Spec

/-- The mixins of the type that a query resolves to. -/
def resolve (D : Decls) (rules : List RuleFn) (q : List Mix) : Except Err (List Mix) :=
  match (applyMutationRules D rules q).result with
  | .ok (_, r) => .ok r
  | .error e => .error e

/-- C10: every rule is applied at least once and at most `min(5, n) + 1` times. -/
theorem C10_number_of_passes (D : Decls) (rules : List RuleFn) (q : List Mix) :
    1 ≤ (applyMutationRules D rules q).passes ∧ (applyMutationRules D rules q).passes ≤ min 5 rules.length + 1 :=
  ⟨rulesLoop_passes_pos .., rulesLoop_passes _ _ _ _ _ (by simp [maxDependencyDepth]) (by simp [maxDependencyDepth])⟩

/-- C10: a resolved query is remembered under the query itself. -/
theorem C10_remembered_query (D : Decls) (rules : List RuleFn) (q k r : List Mix)
    (h : (applyMutationRules D rules q).result = .ok (k, r)) : k = q := applyMutationRules_key D rules q k r h

/-- C10 (partial): a successful result is left unchanged by one more pass, except possibly when the query
contains dependency mixins and the first pass over the query without them gives back the query.
Missing: that exception, which really fails (`C10_fixpoint_refuted`). -/
theorem C10_fixpoint_partial (D : Decls) (rules : List RuleFn) (q r : List Mix) (h : resolve D rules q = .ok r) :
    applyPass rules r = .ok r ∨
    (r = q ∧ (∃ m ∈ q, (D.mix m).dependency = true) ∧ applyPass rules (q.filter (fun m => !(D.mix m).dependency)) = .ok q) := by
  unfold resolve at h
  rcases applyMutationRules_cases D rules q with ⟨e, _, h'⟩ | ⟨hp, h'⟩ | ⟨x, _, _, _, h'⟩ | ⟨x, _, _, _, h'⟩
  · simp [h'] at h
  · simp [h'] at h
    subst h
    by_cases hd : ∃ m ∈ q, (D.mix m).dependency = true
    · exact .inr ⟨rfl, hd, hp⟩
    · left
      have : stripDeps D q = q := stripDeps_eq_self (fun m hm => by
        cases hb : (D.mix m).dependency
        · rfl
        · exact absurd ⟨m, hm, hb⟩ hd)
      rw [this] at hp; exact hp
  · simp [h'] at h
  · rw [h'] at h
    cases hl : (rulesLoop rules 4 q x x).result with
    | error e => simp [hl] at h
    | ok kr =>
      obtain ⟨k, r'⟩ := kr
      simp [hl] at h
      subst h
      exact .inl (rulesLoop_fix rules 4 q x k r' (by omega) hl).2

/-- C10 (partial): for queries without dependency mixins the result is stable under the rules. -/
theorem C10_fixpoint_no_deps_partial (D : Decls) (rules : List RuleFn) (q r : List Mix)
    (hd : ∀ m ∈ q, (D.mix m).dependency = false) (h : resolve D rules q = .ok r) : applyPass rules r = .ok r := by
  rcases C10_fixpoint_partial D rules q r h with h | ⟨_, ⟨m, hm, hb⟩, _⟩
  · exact h
  · rw [hd m hm] at hb; exact absurd hb (by decide)

/-- Example declarations: mixin 1 is a dependency. -/
def depDecls : Decls where
  mem := fun _ => 0
  mix := fun m => { name := ⟨0, 0⟩, dependency := m = 1 }
  feat := fun _ => { name := ⟨0, 0⟩ }
  userRule := fun _ => { name := ⟨0, 0⟩, apply := none }
  cls := fun _ => { name := ⟨0, 0⟩, matchesT := fun _ => true }

/-- C10 is false in general, and so is C11: with the rules "1 also adds 2" and "1 attaches to 0" (in this
order) the query {0} resolves to {0,1,2} but the query {0,1} to {0,1}, which the rules would extend. -/
theorem C10_fixpoint_refuted :
    resolve depDecls [basicDepRule 1 2, basicDepRule 0 1] [0, 1] = .ok [0, 1] ∧
    applyPass [basicDepRule 1 2, basicDepRule 0 1] [0, 1] = .ok [0, 1, 2] ∧
    resolve depDecls [basicDepRule 1 2, basicDepRule 0 1] [0] = .ok [0, 1, 2] := by decide +kernel

/-- C11 (partial): two queries equal up to dependency mixins resolve to the same mixins or to the same error,
provided there is a rule and whenever the first pass gives back one of the two queries this is already stable.
Missing: the unstable case (`C11_dependencies_refuted`). -/
theorem C11_dependencies_only_by_rules_partial (D : Decls) (rules : List RuleFn) (q1 q2 : List Mix)
    (hs : q1.filter (fun m => !(D.mix m).dependency) = q2.filter (fun m => !(D.mix m).dependency))
    (hr : rules ≠ [])
    (hstable : ∀ q, (q = q1 ∨ q = q2) → applyPass rules (q.filter (fun m => !(D.mix m).dependency)) = .ok q →
      applyPass rules q = .ok q) :
    resolve D rules q1 = resolve D rules q2 := by
  change stripDeps D q1 = stripDeps D q2 at hs
  unfold resolve
  rcases applyMutationRules_cases D rules q1 with ⟨e, hp1, h1⟩ | ⟨hp1, h1⟩ | ⟨x, hp1, _, hn, h1⟩ | ⟨x, hp1, hx1, _, h1⟩
  · rcases applyMutationRules_cases D rules q2 with ⟨e', hp2, h2⟩ | ⟨hp2, h2⟩ | ⟨y, hp2, _, hn, h2⟩ | ⟨y, hp2, hx2, _, h2⟩ <;>
      rw [← hs, hp1] at hp2 <;> simp at hp2
    subst hp2; rw [h1, h2]
  · rcases applyMutationRules_cases D rules q2 with ⟨e', hp2, h2⟩ | ⟨hp2, h2⟩ | ⟨y, hp2, _, hn, h2⟩ | ⟨y, hp2, hx2, _, h2⟩ <;>
      rw [← hs, hp1] at hp2 <;> simp at hp2
    · subst hp2; rw [h1]
    · exact absurd hn hr
    · subst hp2
      rw [h1, h2, rulesLoop_of_fix rules 4 q2 q1 (by omega) (hstable q1 (.inl rfl) hp1)]
  · exact absurd hn hr
  · rcases applyMutationRules_cases D rules q2 with ⟨e', hp2, h2⟩ | ⟨hp2, h2⟩ | ⟨y, hp2, _, hn, h2⟩ | ⟨y, hp2, hx2, _, h2⟩ <;>
      rw [← hs, hp1] at hp2 <;> simp at hp2
    · subst hp2
      have hst := hstable x (.inr rfl) (by rw [← stripDeps, ← hs]; exact hp1)
      rw [h1, h2, rulesLoop_of_fix rules 4 q1 x (by omega) hst]
    · exact absurd hn hr
    · subst hp2
      rw [h1, h2]
      have key : ∀ (left : Nat) (o1 o2 nt : List Mix), left < 5 →
          (match (rulesLoop rules left o1 nt nt).result with | .ok (_, r) => Except.ok r | .error e => .error e) =
          (match (rulesLoop rules left o2 nt nt).result with | .ok (_, r) => Except.ok r | .error e => (.error e : Except Err (List Mix))) := by
        intro left
        induction left with
        | zero =>
          intro o1 o2 nt hl
          rw [rulesLoop_step, rulesLoop_step]
          cases applyPass rules nt with
          | error e => rfl
          | ok z => by_cases hz : nt = z <;> simp [hz]
        | succ left ih =>
          intro o1 o2 nt hl
          rw [rulesLoop_step, rulesLoop_step]
          have hi : ¬ (5 - (left + 1) = 0) := by omega
          cases applyPass rules nt with
          | error e => rfl
          | ok z =>
            by_cases hz : nt = z
            · simp [hz]
            · by_cases hn : 5 - (left + 1) = rules.length
              · simp [hz, hn]
              · simp only [hz, hi, hn, if_false, or_false, Nat.add_one_ne_zero, Nat.add_one_sub_one]
                exact ih o1 o2 z (by omega)
      exact key 4 q1 q2 x (by omega)

/-- C11 is false in general: the two queries of `C10_fixpoint_refuted` differ only in a dependency mixin. -/
theorem C11_dependencies_refuted : ¬ ∀ (D : Decls) (rules : List RuleFn) (q1 q2 : List Mix), rules ≠ [] →
    q1.filter (fun m => !(D.mix m).dependency) = q2.filter (fun m => !(D.mix m).dependency) →
    resolve D rules q1 = resolve D rules q2 := by
  intro h
  have h1 := h depDecls [basicDepRule 1 2, basicDepRule 0 1] [0] [0, 1] (by simp) (by rfl)
  rw [C10_fixpoint_refuted.1, C10_fixpoint_refuted.2.2] at h1
  simp at h1

/-- The hypotheses of the partial theorems are met where something happens: with the rules in the other order
the queries {0}, {0,1}, {1,0} all resolve to {0,1,2}. -/
example : (∀ q, (q = [0, 1] ∨ q = [0]) →
      applyPass [basicDepRule 0 1, basicDepRule 1 2] (q.filter (fun m => !(depDecls.mix m).dependency)) = .ok q →
      applyPass [basicDepRule 0 1, basicDepRule 1 2] q = .ok q) ∧
    resolve depDecls [basicDepRule 0 1, basicDepRule 1 2] [0, 1] = .ok [0, 1, 2] := by
  refine ⟨?_, rfl⟩
  rintro q (rfl | rfl) h
  · have : Except.ok [0, 1, 2] = (Except.ok [0, 1] : Except Err (List Mix)) := h
    simp at this
  · have : Except.ok [0, 1, 2] = (Except.ok [0] : Except Err (List Mix)) := h
    simp at this

/-- C12 (partial: queries without dependency mixins; at least one and at most 5 different dependents): rules
of the form "A pulls in B" resolve every query to the query followed by everything it transitively pulls in,
each once - for every dependency graph and every order of the rules.
Missing: queries which contain dependency mixins (false by `C10_fixpoint_refuted`); more than 5 dependents (false
by `C12_six_dependents_refuted`). -/
theorem C12_dependency_closure_partial (D : Decls) (deps : List (Mix × Mix)) (q : List Mix)
    (hne : deps ≠ []) (h5 : (tmDedup (deps.map Prod.snd)).length ≤ 5)
    (hd : ∀ m ∈ q, (D.mix m).dependency = false) :
    ∃ added, resolve D (deps.map (fun d => basicDepRule d.1 d.2)) q = .ok (q ++ added) ∧
      added.Nodup ∧ (∀ x ∈ added, x ∉ q) ∧ (∀ x, x ∈ q ++ added ↔ Reach deps q x) := by
  change ∃ added, resolve D (depRules deps) q = .ok (q ++ added) ∧ _
  have hstrip : stripDeps D q = q := stripDeps_eq_self hd
  have hok : ∃ r, (applyMutationRules D (depRules deps) q).result = .ok (q, r) := by
    rcases applyMutationRules_cases D (depRules deps) q with ⟨e, hp, h'⟩ | ⟨hp, h'⟩ | ⟨x, hp, _, hn, h'⟩ | ⟨x, hp, hx, _, h'⟩
    · rw [applyPass_depRules] at hp; simp at hp
    · exact ⟨q, h'⟩
    · simp [depRules] at hn; exact absurd hn hne
    · rw [applyPass_depRules, hstrip] at hp
      simp at hp
      subst hp
      rw [h']
      have hlt := missing_lt deps q (fun h => hx h.symm)
      have hle := missing_le deps q
      have hdl := dedup_length_le (deps.map Prod.snd)
      simp at hdl
      exact rulesLoop_dep_ok deps 4 q _ (by omega) (by omega) (by omega)
  obtain ⟨r, hr⟩ := hok
  have hres : resolve D (depRules deps) q = .ok r := by simp [resolve, hr]
  have hfix := C10_fixpoint_no_deps_partial D (depRules deps) q r hd hres
  rw [applyPass_depRules] at hfix
  simp at hfix
  have hclosed := depPass_closed deps r hfix
  have hshape := rulesLoop_dep_shape deps q 5 [] q q q r
    ⟨[], by simp, by simp, by simp, fun x hx => .base hx⟩ (by
      have : applyMutationRules D (depRules deps) q = rulesLoop (depRules deps) 5 [] q q := by
        unfold applyMutationRules
        rw [← stripDeps, hstrip]; rfl
      rw [← this]; exact hr)
  obtain ⟨added, ha, hn, hdis, hreach⟩ := hshape
  refine ⟨added, by rw [hres, ha], hn, hdis, fun x => ?_⟩
  rw [← ha]
  refine ⟨hreach x, fun hx => ?_⟩
  induction hx with
  | base h => rw [ha]; simp [h]
  | step h e ih => exact hclosed _ e ih

/-- The number of different dependents is at most the number of rules: 1 to 5 rules always work. -/
theorem C12_up_to_five_rules_partial (D : Decls) (deps : List (Mix × Mix)) (q : List Mix)
    (hne : deps ≠ []) (h5 : deps.length ≤ 5) (hd : ∀ m ∈ q, (D.mix m).dependency = false) :
    ∃ added, resolve D (deps.map (fun d => basicDepRule d.1 d.2)) q = .ok (q ++ added) ∧
      added.Nodup ∧ (∀ x ∈ added, x ∉ q) ∧ (∀ x, x ∈ q ++ added ↔ Reach deps q x) := by
  apply C12_dependency_closure_partial D deps q hne _ hd
  have := dedup_length_le (deps.map Prod.snd)
  simp at this; omega

/-- C12: six chained rules in adverse order are reported as cyclic although the closure exists (and is found
with a favourable order of the same rules). -/
theorem C12_six_dependents_refuted :
    resolve depDecls [basicDepRule 7 8, basicDepRule 6 7, basicDepRule 5 6, basicDepRule 4 5, basicDepRule 3 4,
      basicDepRule 2 3] [2] = .error .cyclicRuleDeps ∧
    resolve depDecls [basicDepRule 2 3, basicDepRule 3 4, basicDepRule 4 5, basicDepRule 5 6, basicDepRule 6 7,
      basicDepRule 7 8] [2] = .ok [2, 3, 4, 5, 6, 7, 8] := by decide +kernel

/-- A cyclic dependency graph with five rules in adverse order meets the hypotheses. -/
example : resolve depDecls [basicDepRule 5 2, basicDepRule 4 5, basicDepRule 3 4, basicDepRule 2 3, basicDepRule 2 6] [2, 9]
    = .ok [2, 9, 3, 6, 4, 5] := by decide +kernel

/-- C13 (partial): without rules a query without dependency mixins resolves to itself.
Missing: queries with dependency mixins (`C13_no_rules_refuted`). -/
theorem C13_no_rules_partial (D : Decls) (q : List Mix) (hd : ∀ m ∈ q, (D.mix m).dependency = false) :
    resolve D [] q = .ok q := by
  rcases applyMutationRules_cases D [] q with ⟨e, hp, h'⟩ | ⟨hp, h'⟩ | ⟨x, hp, hx, hn, h'⟩ | ⟨x, hp, hx, hn, h'⟩
  · simp [applyPass] at hp
  · simp [resolve, h']
  · rw [stripDeps_eq_self hd] at hp; simp [applyPass] at hp; exact absurd hp hx
  · exact absurd rfl hn

/-- C13: without rules *every* query with a dependency mixin is an error about cyclic rules. -/
theorem C13_no_rules_refuted (D : Decls) (q : List Mix) (hd : ∃ m ∈ q, (D.mix m).dependency = true) :
    resolve D [] q = .error .cyclicRuleDeps := by
  have hne : stripDeps D q ≠ q := by
    obtain ⟨m, hm, hb⟩ := hd
    intro h
    rw [stripDeps, List.filter_eq_self] at h
    have := h m hm
    simp [hb] at this
  rcases applyMutationRules_cases D [] q with ⟨e, hp, h'⟩ | ⟨hp, h'⟩ | ⟨x, hp, hx, hn, h'⟩ | ⟨x, hp, hx, hn, h'⟩
  · simp [applyPass] at hp
  · simp [applyPass] at hp; exact absurd hp hne
  · simp [resolve, h']
  · exact absurd rfl hn

/-- Both cases occur. -/
example : resolve depDecls [] [3, 0] = .ok [3, 0] ∧ resolve depDecls [] [0, 1] = .error .cyclicRuleDeps := ⟨rfl, rfl⟩

end Dnmx.Props
