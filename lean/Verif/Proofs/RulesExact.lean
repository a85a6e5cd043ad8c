import Verif.Spec.RulesExact
import Verif.Proofs.ClosureLemmas

namespace Dnmx
open Spec

set_option linter.unusedSimpArgs false
set_option linter.unusedVariables false

theorem passes_front (rules : List RuleFn) : ∀ (k : Nat) (ms : List Mix),
    passes rules (k + 1) ms = (match applyPass rules ms with | .error e => .error e | .ok x => passes rules k x)
  | 0, ms => by
    show applyPass rules ms = _
    cases applyPass rules ms <;> rfl
  | k + 1, ms => by
    rw [passes, passes_front rules k ms]
    cases applyPass rules ms with
    | error e => rfl
    | ok x => rfl

theorem passes_stable (rules : List RuleFn) {ms : List Mix} (h : applyPass rules ms = .ok ms) : ∀ k, passes rules k ms = .ok ms
  | 0 => rfl
  | k + 1 => by rw [passes, passes_stable rules h k]; exact h

theorem settled_stable (rules : List RuleFn) {ms : List Mix} (h : applyPass rules ms = .ok ms) (k : Nat) : settled rules k ms = .ok ms := by
  simp [settled, passes_stable rules h k, h]

theorem settled_front (rules : List RuleFn) (k : Nat) (ms : List Mix) :
    settled rules (k + 1) ms = (match applyPass rules ms with | .error e => .error e | .ok x => settled rules k x) := by
  unfold settled
  rw [passes_front]
  cases applyPass rules ms <;> rfl

/-- The loop after its first round. -/
theorem rulesLoop_settled (rules : List RuleFn) : ∀ (left : Nat) (o nt : List Mix), left < 5 → 5 - left ≤ rules.length →
    (match (rulesLoop rules left o nt nt).result with | .ok (_, r) => Except.ok r | .error e => .error e) =
      settled rules (min left (rules.length - (5 - left))) nt
  | 0, o, nt, hl, hn => by
    rw [rulesLoop_step]
    simp only [Nat.zero_min, settled, passes]
    cases applyPass rules nt with
    | error e => rfl
    | ok z =>
      by_cases hz : nt = z
      · subst hz; simp
      · have hz' : ¬ z = nt := fun h => hz h.symm
        simp [hz, hz']
  | left + 1, o, nt, hl, hn => by
    rw [rulesLoop_step]
    have hi : ¬ (5 - (left + 1) = 0) := by omega
    cases hp : applyPass rules nt with
    | error e =>
      by_cases h0 : 5 - (left + 1) = rules.length
      · rw [show min (left + 1) (rules.length - (5 - (left + 1))) = 0 by omega]
        simp [settled, passes, hp]
      · rw [show min (left + 1) (rules.length - (5 - (left + 1))) = min left (rules.length - (5 - left)) + 1 by omega, settled_front, hp]
    | ok z =>
      by_cases hz : nt = z
      · subst hz
        rw [settled_stable rules hp]
        simp [hi]
      · have hz' : ¬ z = nt := fun h => hz h.symm
        by_cases h0 : 5 - (left + 1) = rules.length
        · rw [show min (left + 1) (rules.length - (5 - (left + 1))) = 0 by omega]
          simp [settled, passes, hp, hz, hz', h0]
        · rw [show min (left + 1) (rules.length - (5 - (left + 1))) = min left (rules.length - (5 - left)) + 1 by omega, settled_front, hp]
          simp only [hz, hi, h0, if_false, or_false, Nat.add_one_ne_zero, Nat.add_one_sub_one]
          exact rulesLoop_settled rules left o z (by omega) (by omega)

/-- The outcome of the whole loop. -/
theorem applyMutationRules_settled (D : Decls) (rules : List RuleFn) (q : List Mix) (hr : rules ≠ []) :
    (match (applyMutationRules D rules q).result with | .ok (_, r) => Except.ok r | .error e => .error e) =
      if applyPass rules (stripDeps D q) = .ok q then .ok q else settled rules (min 5 rules.length) (stripDeps D q) := by
  have hlen : 0 < rules.length := List.length_pos_iff.2 hr
  rw [show min 5 rules.length = min 4 (rules.length - (5 - 4)) + 1 by omega, settled_front]
  rcases applyMutationRules_cases D rules q with ⟨e, hp, h'⟩ | ⟨hp, h'⟩ | ⟨x, hp, _, hn, h'⟩ | ⟨x, hp, hx, _, h'⟩
  · rw [h', hp, if_neg (by simp)]
  · rw [h', hp, if_pos rfl]
  · exact absurd hn hr
  · rw [h', hp, if_neg (by simpa using fun h => hx h.symm)]
    exact rulesLoop_settled rules 4 q x (by omega) (by omega)

/-- What is there after a pass that gives something stable settles there, and nowhere else. -/
theorem settled_one (rules : List RuleFn) {s q : List Mix} (h : applyPass rules s = .ok q) (k : Nat) :
    settled rules (k + 1) s = .ok q ↔ applyPass rules q = .ok q := by
  rw [settled_front, h]
  refine ⟨fun hs => ?_, fun hs => settled_stable rules hs k⟩
  simp only [settled] at hs
  cases hp : passes rules k q with
  | error e => simp [hp] at hs
  | ok y =>
    simp only [hp] at hs
    cases hq : applyPass rules y with
    | error e => simp [hq] at hs
    | ok z =>
      simp only [hq] at hs
      by_cases hz : z = y
      · rw [if_pos hz] at hs
        simp at hs
        subst hs; subst hz
        exact hq
      · rw [if_neg hz] at hs; simp at hs

/-! ## Rules of the form "A pulls in B" -/

theorem passes_depRules (deps : List (Mix × Mix)) : ∀ (k : Nat) (ms : List Mix), passes (depRules deps) k ms = .ok (depPasses deps k ms)
  | 0, ms => rfl
  | k + 1, ms => by rw [passes, passes_depRules deps k ms]; exact applyPass_depRules deps _

theorem settled_depRules (deps : List (Mix × Mix)) (k : Nat) (ms : List Mix) :
    settled (depRules deps) k ms =
      if depPass deps (depPasses deps k ms) = depPasses deps k ms then .ok (depPasses deps k ms) else .error .cyclicRuleDeps := by
  simp only [settled, passes_depRules, applyPass_depRules]

/-- What is there was put there by somebody. -/
theorem mem_within {deps : List (Mix × Mix)} {start : List Mix} : ∀ (p i x : Nat), x ∈ depPass (deps.take i) (depPasses deps p start) →
    ∃ p' i', (p' < p ∨ (p' = p ∧ i' ≤ i)) ∧ Within deps start p' i' x
  | 0, 0, x, h => ⟨0, 0, .inr ⟨rfl, Nat.le_refl _⟩, .base (by simpa [depPass, depPasses] using h)⟩
  | p + 1, 0, x, h => by
    have h' : x ∈ depPass (deps.take deps.length) (depPasses deps p start) := by
      rw [List.take_length]; simpa [depPass, depPasses] using h
    obtain ⟨p', i', hp, hw⟩ := mem_within p deps.length x h'
    exact ⟨p', i', .inl (by omega), hw⟩
  | p, i + 1, x, h => by
    cases e : deps[i]? with
    | none =>
      have : deps.take (i + 1) = deps.take i := by rw [List.take_add_one, e]; simp
      rw [this] at h
      obtain ⟨p', i', hp, hw⟩ := mem_within p i x h
      exact ⟨p', i', by omega, hw⟩
    | some ab =>
      obtain ⟨a, b⟩ := ab
      rw [take_pass e] at h
      by_cases hx : x ∈ depPass (deps.take i) (depPasses deps p start)
      · obtain ⟨p', i', hp, hw⟩ := mem_within p i x hx
        exact ⟨p', i', by omega, hw⟩
      · generalize hM : depPass (deps.take i) (depPasses deps p start) = M at h hx
        simp only [depPass] at h
        by_cases hc : a ∈ M ∧ b ∉ M
        · rw [if_pos hc] at h
          simp [hx] at h
          subst h
          obtain ⟨p', i', hp, hw⟩ := mem_within p i a (by rw [hM]; exact hc.1)
          rcases hp with hp | ⟨rfl, hi⟩
          · exact ⟨p' + 1, i + 1, by omega, .up hw e⟩
          · exact ⟨p', i + 1, .inr ⟨rfl, Nat.le_refl _⟩, .down hw hi e⟩
        · rw [if_neg hc] at h
          exact absurd h hx
termination_by p i => (p, i)

/-- The passes reach exactly what has a way which goes back less often than there are passes. -/
theorem mem_depPasses (deps : List (Mix × Mix)) (start : List Mix) (k : Nat) (x : Mix) :
    x ∈ depPasses deps (k + 1) start ↔ ∃ p i, p < k + 1 ∧ Within deps start p i x := by
  constructor
  · intro h
    have h' : x ∈ depPass (deps.take deps.length) (depPasses deps k start) := by rw [List.take_length]; exact h
    obtain ⟨p, i, hp, hw⟩ := mem_within k deps.length x h'
    exact ⟨p, i, by omega, hw⟩
  · rintro ⟨p, i, hp, hw⟩
    have := take_mono deps (within_index hw) _ _ (within_mem hw)
    rw [List.take_length] at this
    exact depPasses_le deps (k := p + 1) (by omega) _ _ this

theorem depPasses_closed (deps : List (Mix × Mix)) (start : List Mix) (k : Nat)
    (h : depPass deps (depPasses deps k start) = depPasses deps k start) (x : Mix) (hx : Reach deps start x) : x ∈ depPasses deps k start := by
  induction hx with
  | base h => exact depPasses_mono _ _ _ _ h
  | step _ e ih => exact depPass_closed deps _ h _ e ih

/-- The passes are stationary exactly if everything reachable is there. -/
theorem depPasses_stationary (deps : List (Mix × Mix)) (start : List Mix) (k : Nat) :
    depPass deps (depPasses deps (k + 1) start) = depPasses deps (k + 1) start ↔
      ∀ x, Reach deps start x → ∃ p i, p < k + 1 ∧ Within deps start p i x := by
  refine ⟨fun h x hx => (mem_depPasses deps start k x).1 (depPasses_closed deps start _ h x hx), fun h => depPasses_fix deps start _ h⟩

theorem depPasses_shape (deps : List (Mix × Mix)) (start : List Mix) : ∀ k,
    ∃ added, depPasses deps k start = start ++ added ∧ added.Nodup ∧ (∀ x ∈ added, x ∉ start)
  | 0 => ⟨[], by simp [depPasses]⟩
  | k + 1 => by
    obtain ⟨a, h1, h2, h3⟩ := depPasses_shape deps start k
    obtain ⟨b, g1, g2, g3, -, -⟩ := depPass_append deps deps (fun _ h => h) start (depPasses deps k start) (depPasses_reach deps start k)
    refine ⟨a ++ b, by rw [depPasses, g1, h1, List.append_assoc], ?_, ?_⟩
    · rw [List.nodup_append]
      refine ⟨h2, g2, fun x hx y hy hxy => ?_⟩
      subst hxy
      exact g3 x hy (by rw [h1]; simp [hx])
    · intro x hx
      rcases List.mem_append.1 hx with hx | hx
      · exact h3 x hx
      · intro hs
        exact g3 x hx (by rw [h1]; simp [hs])

end Dnmx
