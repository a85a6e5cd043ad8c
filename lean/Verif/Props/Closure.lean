import Verif.Proofs.ClosureLemmas
import Verif.Props.Rules

/-!
# C12: rules of the form "A pulls in B", any number of them

`C12_dependency_closure_partial` is about at most five dependents. More rules work as well, depending on their order: what counts is how
often one must go back in the list of rules to get from the query to a mixin.
-/

namespace Dnmx.Props
open Spec

set_option linter.unusedVariables false

/-- C12: rules none of which adds what an earlier rule looks for resolve every query (also with dependency mixins) to its
non-dependency mixins followed by everything that they transitively pull in - for any number of rules. -/
theorem C12_rules_in_order (D : Decls) (deps : List (Mix × Mix)) (q : List Mix) (hne : deps ≠ []) (hord : InOrder deps) :
    ∃ added, resolve D (deps.map (fun d => basicDepRule d.1 d.2)) q = .ok (q.filter (fun m => !(D.mix m).dependency) ++ added) ∧
      added.Nodup ∧ (∀ x ∈ added, x ∉ q.filter (fun m => !(D.mix m).dependency)) ∧
      (∀ x, x ∈ q.filter (fun m => !(D.mix m).dependency) ++ added ↔ Reach deps (q.filter (fun m => !(D.mix m).dependency)) x) := by
  change ∃ added, resolve D (depRules deps) q = .ok (stripDeps D q ++ added) ∧ added.Nodup ∧ (∀ x ∈ added, x ∉ stripDeps D q) ∧
    (∀ x, x ∈ stripDeps D q ++ added ↔ Reach deps (stripDeps D q) x)
  have hfix := depPasses_fix deps (stripDeps D q) 1 (fun x hr => by
    rcases within_inOrder hord (stripDeps D q) x hr with h | ⟨j, y, -, h⟩
    · exact ⟨0, 0, by omega, .base h⟩
    · exact ⟨0, _, by omega, h⟩)
  obtain ⟨added, h1, h2, h3, h4, h5⟩ := depPass_append deps deps (fun _ h => h) (stripDeps D q) (stripDeps D q) (fun _ h => .base h)
  have hfix : depPass deps (depPass deps (stripDeps D q)) = depPass deps (stripDeps D q) := hfix
  refine ⟨added, ?_, h2, h3, fun x => ⟨h5 x, fun hx => ?_⟩⟩
  · rcases applyMutationRules_cases D (depRules deps) q with ⟨e, hp, h'⟩ | ⟨hp, h'⟩ | ⟨x, hp, _, hn, h'⟩ | ⟨x, hp, hx, hn, h'⟩
    · rw [applyPass_depRules] at hp; simp at hp
    · rw [applyPass_depRules] at hp
      simp at hp
      simp only [resolve, h']
      rw [← h1, hp]
    · simp [depRules] at hn; exact absurd hn hne
    · rw [applyPass_depRules] at hp
      simp at hp
      subst hp
      simp only [resolve, h']
      rw [rulesLoop_of_fix _ 4 q _ (by omega) (by rw [applyPass_depRules, hfix])]
      rw [← h1]
  · rw [← h1]
    induction hx with
    | base h => rw [h1]; simp [h]
    | step h e ih => exact depPass_closed deps _ hfix _ e ih

/-- C12 (partial: queries without dependency mixins): it is enough that everything reachable is reached within `min 5 n` passes over the `n`
rules. Missing: queries which contain dependency mixins (false by `C10_fixpoint_refuted`), more passes (false by
`C12_six_dependents_refuted`). -/
theorem C12_within_five_passes_partial (D : Decls) (deps : List (Mix × Mix)) (q : List Mix) (hne : deps ≠ [])
    (h5 : ∀ x, Reach deps q x → ∃ p i, p < 5 ∧ p < deps.length ∧ Within deps q p i x) (hd : ∀ m ∈ q, (D.mix m).dependency = false) :
    ∃ added, resolve D (deps.map (fun d => basicDepRule d.1 d.2)) q = .ok (q ++ added) ∧
      added.Nodup ∧ (∀ x ∈ added, x ∉ q) ∧ (∀ x, x ∈ q ++ added ↔ Reach deps q x) := by
  change ∃ added, resolve D (depRules deps) q = .ok (q ++ added) ∧ _
  have hstrip : stripDeps D q = q := stripDeps_eq_self hd
  have hlen : 0 < deps.length := List.length_pos_iff.2 hne
  have hfix : depPass deps (depPasses deps (min 5 deps.length) q) = depPasses deps (min 5 deps.length) q :=
    depPasses_fix deps q _ (fun x hx => by
      obtain ⟨p, i, h1, h2, h3⟩ := h5 x hx
      exact ⟨p, i, by omega, h3⟩)
  have hok : ∃ r, (applyMutationRules D (depRules deps) q).result = .ok (q, r) ∧ depPass deps r = r := by
    rcases applyMutationRules_cases D (depRules deps) q with ⟨e, hp, h'⟩ | ⟨hp, h'⟩ | ⟨x, hp, _, hn, h'⟩ | ⟨x, hp, hx, _, h'⟩
    · rw [applyPass_depRules] at hp; simp at hp
    · refine ⟨q, h', ?_⟩
      rw [applyPass_depRules, hstrip] at hp
      simpa using hp
    · simp [depRules] at hn; exact absurd hn hne
    · rw [applyPass_depRules, hstrip] at hp
      simp at hp
      subst hp
      rw [h']
      refine rulesLoop_dep_passes deps (min 5 deps.length - 1) 4 q _ (by omega) (by omega) (by omega) ?_
      rw [depPasses_shift, show min 5 deps.length - 1 + 1 = min 5 deps.length by omega]
      exact hfix
  obtain ⟨r, hr, hclo⟩ := hok
  have hres : resolve D (depRules deps) q = .ok r := by simp [resolve, hr]
  have hclosed := depPass_closed deps r hclo
  have hshape := rulesLoop_dep_shape deps q 5 [] q q q r
    ⟨[], by simp, by simp, by simp, fun x hx => .base hx⟩ (by
      have : applyMutationRules D (depRules deps) q = rulesLoop (depRules deps) 5 [] q q := by
        unfold applyMutationRules
        rw [← stripDeps, hstrip]; rfl
      rw [← this]; exact hr)
  obtain ⟨added, ha, hn, hdis, hreach⟩ := hshape
  refine ⟨added, by rw [hres, ha], hn, hdis, fun x => ?_⟩
  rw [← ha]
  refine ⟨hreach x, fun hx => ?_⟩
  induction hx with
  | base h => rw [ha]; simp [h]
  | step h e ih => exact hclosed _ e ih

/-- Eight rules in order; a dependency mixin in the query. -/
example : InOrder [(2, 3), (3, 4), (4, 5), (5, 6), (6, 7), (7, 8), (2, 9), (9, 0)] ∧
    resolve depDecls [basicDepRule 2 3, basicDepRule 3 4, basicDepRule 4 5, basicDepRule 5 6, basicDepRule 6 7, basicDepRule 7 8, basicDepRule 2 9,
      basicDepRule 9 0] [2, 1] = .ok [2, 3, 4, 5, 6, 7, 8, 9, 0] := by
  refine ⟨?_, by decide +kernel⟩
  unfold InOrder
  decide

/-- Six rules which go back once. -/
example : ∃ p i, p < 5 ∧ p < 6 ∧ Within [(6, 7), (7, 8), (2, 3), (3, 4), (4, 5), (5, 6)] [2] p i 8 :=
  ⟨1, 2, by omega, by omega, .down (.up (.down (.down (.down (.down (.base (by simp)) (j := 2) (by omega) rfl) (j := 3) (by omega) rfl) (j := 4) (by omega) rfl) (j := 5)
    (by omega) rfl) (j := 0) rfl) (j := 1) (by omega) rfl⟩

end Dnmx.Props
