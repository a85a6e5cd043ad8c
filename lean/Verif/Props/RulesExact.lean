import Verif.Proofs.RulesExact
import Verif.Props.Closure

/-!
# C10 - C13: exactly what a query resolves to

The partial theorems of Props/Rules.lean and Props/Closure.lean say when resolving goes well. Here are equalities and equivalences: there is
nothing between the partial theorem and the counterexample.
-/

namespace Dnmx.Props
open Spec

/-- C10: what every query resolves to, with every list of rules: itself, if the first pass over its non-dependency mixins gives it back;
otherwise what is there after `min 5 n` passes over the `n` rules, if it is stable then; otherwise it is an error about cyclic rules, and an error
of a rule is passed on. -/
theorem C10_result_exactly (D : Decls) (rules : List RuleFn) (q : List Mix) (hr : rules ≠ []) :
    resolve D rules q =
      if applyPass rules (q.filter (fun m => !(D.mix m).dependency)) = .ok q then .ok q
      else settled rules (min 5 rules.length) (q.filter (fun m => !(D.mix m).dependency)) :=
  applyMutationRules_settled D rules q hr

/-- C10: a result is stable exactly if it is not one of those which `C10_fixpoint_refuted` is an example of. -/
theorem C10_stable_exactly (D : Decls) (rules : List RuleFn) (q r : List Mix) (hr : rules ≠ []) (h : resolve D rules q = .ok r) :
    applyPass rules r = .ok r ↔ (applyPass rules (q.filter (fun m => !(D.mix m).dependency)) = .ok q → applyPass rules q = .ok q) := by
  constructor
  · intro hs hq
    rw [C10_result_exactly D rules q hr, if_pos hq] at h
    simp at h
    subst h; exact hs
  · intro himp
    rcases C10_fixpoint_partial D rules q r h with h' | ⟨rfl, _, h'⟩
    · exact h'
    · exact himp h'

/-- C11: two queries equal up to dependency mixins have the same outcome *exactly* if they are equal or whenever the first pass gives back one of
the two, that one is stable. -/
theorem C11_dependencies_exactly (D : Decls) (rules : List RuleFn) (q1 q2 : List Mix) (hr : rules ≠ [])
    (hs : q1.filter (fun m => !(D.mix m).dependency) = q2.filter (fun m => !(D.mix m).dependency)) :
    resolve D rules q1 = resolve D rules q2 ↔
      (q1 = q2 ∨ ∀ q, (q = q1 ∨ q = q2) → applyPass rules (q.filter (fun m => !(D.mix m).dependency)) = .ok q → applyPass rules q = .ok q) := by
  constructor
  · intro h
    by_cases h12 : q1 = q2
    · exact .inl h12
    right
    have hlen : 0 < rules.length := List.length_pos_iff.2 hr
    have key : ∀ a b : List Mix, a ≠ b → a.filter (fun m => !(D.mix m).dependency) = b.filter (fun m => !(D.mix m).dependency) →
        resolve D rules a = resolve D rules b → applyPass rules (a.filter (fun m => !(D.mix m).dependency)) = .ok a → applyPass rules a = .ok a := by
      intro a b hab hstr heq ha
      rw [C10_result_exactly D rules a hr, C10_result_exactly D rules b hr, if_pos ha, ← hstr,
        if_neg (by rw [ha]; simpa using hab)] at heq
      rw [show min 5 rules.length = (min 5 rules.length - 1) + 1 by omega] at heq
      exact (settled_one rules ha _).1 heq.symm
    rintro q (rfl | rfl) hq
    · exact key q q2 h12 hs h hq
    · exact key q q1 (fun h' => h12 h'.symm) hs.symm h.symm hq
  · rintro (rfl | h)
    · rfl
    · exact C11_dependencies_only_by_rules_partial D rules q1 q2 hs hr h

/-- C12: rules "A pulls in B" resolve a query to its non-dependency mixins followed by everything which these transitively pull in *exactly* if
there is a way to everything pulled in which goes back in the list of rules less than `min 5 n` times, and if the first pass gives back
the query only if that is the end of it. -/
theorem C12_closure_exactly (D : Decls) (deps : List (Mix × Mix)) (q : List Mix) (hne : deps ≠ []) :
    (∃ added, resolve D (deps.map (fun d => basicDepRule d.1 d.2)) q = .ok (q.filter (fun m => !(D.mix m).dependency) ++ added) ∧
      added.Nodup ∧ (∀ x ∈ added, x ∉ q.filter (fun m => !(D.mix m).dependency)) ∧
      (∀ x, x ∈ q.filter (fun m => !(D.mix m).dependency) ++ added ↔ Reach deps (q.filter (fun m => !(D.mix m).dependency)) x)) ↔
    ((∀ x, Reach deps (q.filter (fun m => !(D.mix m).dependency)) x →
        ∃ p i, p < 5 ∧ p < deps.length ∧ Within deps (q.filter (fun m => !(D.mix m).dependency)) p i x) ∧
      (applyPass (deps.map (fun d => basicDepRule d.1 d.2)) (q.filter (fun m => !(D.mix m).dependency)) = .ok q →
        ∀ d ∈ deps, d.1 ∈ q → d.2 ∈ q)) := by
  have hlen : 0 < deps.length := List.length_pos_iff.2 hne
  have hr : depRules deps ≠ [] := by simpa [depRules] using hne
  change (∃ added, resolve D (depRules deps) q = .ok (stripDeps D q ++ added) ∧ added.Nodup ∧ (∀ x ∈ added, x ∉ stripDeps D q) ∧
      (∀ x, x ∈ stripDeps D q ++ added ↔ Reach deps (stripDeps D q) x)) ↔
    ((∀ x, Reach deps (stripDeps D q) x → ∃ p i, p < 5 ∧ p < deps.length ∧ Within deps (stripDeps D q) p i x) ∧
      (applyPass (depRules deps) (stripDeps D q) = .ok q → ∀ d ∈ deps, d.1 ∈ q → d.2 ∈ q))
  have hform : resolve D (depRules deps) q = if applyPass (depRules deps) (stripDeps D q) = .ok q then .ok q
      else settled (depRules deps) (min 5 (depRules deps).length) (stripDeps D q) := C10_result_exactly D (depRules deps) q hr
  rw [show (depRules deps).length = deps.length by simp [depRules], settled_depRules, applyPass_depRules,
    show min 5 deps.length = (min 5 deps.length - 1) + 1 by omega] at hform
  generalize hk : min 5 deps.length - 1 = k at hform
  rw [applyPass_depRules]
  generalize hS : stripDeps D q = s at *
  have hwithin : (∀ x, Reach deps s x → ∃ p i, p < 5 ∧ p < deps.length ∧ Within deps s p i x) ↔
      depPass deps (depPasses deps (k + 1) s) = depPasses deps (k + 1) s := by
    rw [depPasses_stationary]
    constructor
    · intro h x hx
      obtain ⟨p, i, h1, h2, h3⟩ := h x hx
      exact ⟨p, i, by omega, h3⟩
    · intro h x hx
      obtain ⟨p, i, h1, h3⟩ := h x hx
      exact ⟨p, i, by omega, by omega, h3⟩
  rw [hwithin]
  by_cases hq : depPass deps s = q
  · rw [hq, if_pos rfl] at hform
    rw [hq]
    have hfixq : (∀ d ∈ deps, d.1 ∈ q → d.2 ∈ q) ↔ depPass deps q = q := ⟨depPass_fix deps q, depPass_closed deps q⟩
    rw [hfixq]
    constructor
    · rintro ⟨added, h1, h2, h3, h4⟩
      rw [hform] at h1
      simp at h1
      have hcl : depPass deps q = q := by
        apply depPass_fix
        intro d hd hd1
        rw [h1] at hd1 ⊢
        exact (h4 _).2 (.step ((h4 _).1 hd1) hd)
      refine ⟨?_, fun _ => hcl⟩
      have : depPasses deps (k + 1) s = q := by
        rw [← depPasses_shift, hq]
        clear hk hform hwithin
        induction k with
        | zero => rfl
        | succ k ih => rw [depPasses, ih, hcl]
      rw [this, hcl]
    · rintro ⟨-, h2⟩
      have hcl := h2 rfl
      obtain ⟨added, g1, g2, g3⟩ := depPasses_shape deps s 1
      have g1' : q = s ++ added := by rw [← g1, ← hq]; rfl
      refine ⟨added, by rw [hform, ← g1'], g2, g3, fun x => ?_⟩
      rw [← g1]
      exact ⟨depPasses_reach deps s 1 x, depPasses_closed deps s 1 (by show depPass deps (depPass deps s) = depPass deps s; rw [hq, hcl]) x⟩
  · have hq' : ¬ (Except.ok (depPass deps s) = (Except.ok q : Except Err (List Mix))) := by simpa using hq
    rw [if_neg hq'] at hform
    constructor
    · rintro ⟨added, h1, h2, h3, h4⟩
      refine ⟨?_, fun h => absurd h hq'⟩
      rw [hform] at h1
      by_cases hst : depPass deps (depPasses deps (k + 1) s) = depPasses deps (k + 1) s
      · exact hst
      · rw [if_neg hst] at h1; simp at h1
    · rintro ⟨hst, -⟩
      rw [if_pos hst] at hform
      obtain ⟨added, g1, g2, g3⟩ := depPasses_shape deps s (k + 1)
      refine ⟨added, by rw [hform, g1], g2, g3, fun x => ?_⟩
      rw [← g1]
      exact ⟨depPasses_reach deps s (k + 1) x, depPasses_closed deps s (k + 1) hst x⟩

/-- C12: and otherwise: the query itself if the first pass gives it back, and an error about cyclic rules if not. -/
theorem C12_otherwise_exactly (D : Decls) (deps : List (Mix × Mix)) (q : List Mix) (hne : deps ≠ []) :
    resolve D (deps.map (fun d => basicDepRule d.1 d.2)) q = .error .cyclicRuleDeps ↔
      (applyPass (deps.map (fun d => basicDepRule d.1 d.2)) (q.filter (fun m => !(D.mix m).dependency)) ≠ .ok q ∧
        ∃ x, Reach deps (q.filter (fun m => !(D.mix m).dependency)) x ∧
          ∀ p i, p < 5 → p < deps.length → ¬ Within deps (q.filter (fun m => !(D.mix m).dependency)) p i x) := by
  have hlen : 0 < deps.length := List.length_pos_iff.2 hne
  have hr : depRules deps ≠ [] := by simpa [depRules] using hne
  change resolve D (depRules deps) q = .error .cyclicRuleDeps ↔
      (applyPass (depRules deps) (stripDeps D q) ≠ .ok q ∧ ∃ x, Reach deps (stripDeps D q) x ∧
          ∀ p i, p < 5 → p < deps.length → ¬ Within deps (stripDeps D q) p i x)
  have hform : resolve D (depRules deps) q = if applyPass (depRules deps) (stripDeps D q) = .ok q then .ok q
      else settled (depRules deps) (min 5 (depRules deps).length) (stripDeps D q) := C10_result_exactly D (depRules deps) q hr
  by_cases hq : applyPass (depRules deps) (stripDeps D q) = .ok q
  · rw [hform, if_pos hq]; simp [hq]
  · rw [if_neg hq, show (depRules deps).length = deps.length by simp [depRules], settled_depRules,
      show min 5 deps.length = (min 5 deps.length - 1) + 1 by omega] at hform
    have hst := depPasses_stationary deps (stripDeps D q) (min 5 deps.length - 1)
    rw [hform]
    constructor
    · intro h
      refine ⟨hq, ?_⟩
      by_cases hs : depPass deps (depPasses deps (min 5 deps.length - 1 + 1) (stripDeps D q)) = depPasses deps (min 5 deps.length - 1 + 1) (stripDeps D q)
      · rw [if_pos hs] at h; simp at h
      · rw [hst] at hs
        obtain ⟨x, hx⟩ := Classical.not_forall.1 hs
        obtain ⟨hx1, hx2⟩ := Classical.not_imp.1 hx
        exact ⟨x, hx1, fun p i h1 h2 hw => hx2 ⟨p, i, by omega, hw⟩⟩
    · rintro ⟨-, x, hx1, hx2⟩
      rw [if_neg]
      rw [hst]
      intro h
      obtain ⟨p, i, hp, hw⟩ := h x hx1
      exact hx2 p i (by omega) (by omega) hw

/-- C13: without rules a query resolves to itself *exactly* if it has no dependency mixins. -/
theorem C13_no_rules_exactly (D : Decls) (q : List Mix) :
    resolve D [] q = if ∀ m ∈ q, (D.mix m).dependency = false then .ok q else .error .cyclicRuleDeps := by
  by_cases h : ∀ m ∈ q, (D.mix m).dependency = false
  · rw [if_pos h]; exact C13_no_rules_partial D q h
  · rw [if_neg h]
    apply C13_no_rules_refuted D q
    obtain ⟨m, hm⟩ := Classical.not_forall.1 h
    obtain ⟨h1, h2⟩ := Classical.not_imp.1 hm
    exact ⟨m, h1, by simpa using h2⟩

/-- Every case occurs: given back and stable, given back and not stable, settled, cyclic. -/
example :
    applyPass [basicDepRule 0 1] [0] = .ok [0, 1] ∧ resolve depDecls [basicDepRule 0 1] [0, 1] = .ok [0, 1] ∧ applyPass [basicDepRule 0 1] [0, 1] = .ok [0, 1] ∧
    resolve depDecls [basicDepRule 1 2, basicDepRule 0 1] [0, 1] = .ok [0, 1] ∧ settled [basicDepRule 1 2, basicDepRule 0 1] 2 [0] = .ok [0, 1, 2] ∧
    resolve depDecls [basicDepRule 1 2, basicDepRule 0 1] [1, 0] = .ok [0, 1, 2] ∧
    settled [basicDepRule 7 8, basicDepRule 6 7, basicDepRule 5 6, basicDepRule 4 5, basicDepRule 3 4, basicDepRule 2 3] 5 [2] = .error .cyclicRuleDeps := by
  decide +kernel

end Dnmx.Props
