import Verif.Spec.Closure
import Verif.Proofs.RulesLemmas

namespace Dnmx
open Spec

set_option linter.unusedSimpArgs false
set_option linter.unusedVariables false

theorem depPass_app (a b : List (Mix × Mix)) : ∀ ms, depPass (a ++ b) ms = depPass b (depPass a ms) := by
  induction a with
  | nil => intro ms; rfl
  | cons e a ih => intro ms; simp only [List.cons_append, depPass]; exact ih _

theorem depPass_cons_mem (e : Mix × Mix) (es : List (Mix × Mix)) (ms : List Mix) (h : e.1 ∈ ms) : e.2 ∈ depPass [e] ms := by
  simp only [depPass]
  by_cases h2 : e.2 ∈ ms
  · simp [h2]
  · simp [h, h2]

/-- The passes. -/
def depPasses (deps : List (Mix × Mix)) : Nat → List Mix → List Mix
  | 0, ms => ms
  | k + 1, ms => depPass deps (depPasses deps k ms)

theorem within_index {deps : List (Mix × Mix)} {start : List Mix} {p i x : Nat} (h : Within deps start p i x) : i ≤ deps.length := by
  cases h with
  | base => omega
  | down _ _ e => have := (List.getElem?_eq_some_iff.1 e).1; omega
  | up _ e => have := (List.getElem?_eq_some_iff.1 e).1; omega

theorem take_pass {deps : List (Mix × Mix)} {j : Nat} {x y : Nat} (e : deps[j]? = some (x, y)) (ms : List Mix) :
    depPass (deps.take (j + 1)) ms = depPass [(x, y)] (depPass (deps.take j) ms) := by
  have : deps.take (j + 1) = deps.take j ++ [(x, y)] := by
    rw [List.take_add_one, e]; rfl
  rw [this, depPass_app]

theorem take_mono (deps : List (Mix × Mix)) {i j : Nat} (h : i ≤ j) (ms : List Mix) (x : Mix) (hx : x ∈ depPass (deps.take i) ms) :
    x ∈ depPass (deps.take j) ms := by
  have : deps.take j = deps.take i ++ (deps.drop i).take (j - i) := by
    have := List.take_add (l := deps) (i := i) (j := j - i)
    rw [show i + (j - i) = j by omega] at this
    exact this
  rw [this, depPass_app]
  exact depPass_mono _ _ _ hx

theorem within_mem {deps : List (Mix × Mix)} {start : List Mix} {p i x : Nat} (h : Within deps start p i x) :
    x ∈ depPass (deps.take i) (depPasses deps p start) := by
  induction h with
  | base h => simpa [depPass, depPasses] using h
  | @down p i j x y h hj e ih =>
    rw [take_pass e]
    exact depPass_cons_mem (x, y) [] _ (take_mono deps hj _ _ ih)
  | @up p i j x y h e ih =>
    rw [take_pass e]
    apply depPass_cons_mem (x, y) []
    apply depPass_mono
    have := take_mono deps (within_index h) _ _ ih
    rw [List.take_length] at this
    exact this

theorem depPasses_mono (deps : List (Mix × Mix)) (k : Nat) (ms : List Mix) (x : Mix) (h : x ∈ ms) : x ∈ depPasses deps k ms := by
  induction k with
  | zero => exact h
  | succ k ih => exact depPass_mono _ _ _ ih

theorem depPasses_le (deps : List (Mix × Mix)) {k k' : Nat} (hk : k ≤ k') (ms : List Mix) (x : Mix) (h : x ∈ depPasses deps k ms) : x ∈ depPasses deps k' ms := by
  induction hk with
  | refl => exact h
  | step _ ih => exact depPass_mono _ _ _ ih

theorem depPasses_reach (deps : List (Mix × Mix)) (start : List Mix) : ∀ k, ∀ x ∈ depPasses deps k start, Reach deps start x
  | 0, x, hx => .base hx
  | k + 1, x, hx => by
    obtain ⟨added, h1, h2, h3, h4, h5⟩ := depPass_append deps deps (fun _ h => h) start (depPasses deps k start) (depPasses_reach deps start k)
    exact h5 x (by rw [← h1]; exact hx)

/-- Lists that everything reachable is in are not changed by a pass. -/
theorem depPass_fix (deps : List (Mix × Mix)) : ∀ (ms : List Mix), (∀ e ∈ deps, e.1 ∈ ms → e.2 ∈ ms) → depPass deps ms = ms := by
  induction deps with
  | nil => intro ms _; rfl
  | cons e es ih =>
    intro ms h
    simp only [depPass]
    have h1 := h e (List.mem_cons_self ..)
    rw [if_neg (fun ⟨a, b⟩ => b (h1 a))]
    exact ih ms (fun e' he' => h e' (List.mem_cons_of_mem _ he'))

theorem depPasses_fix (deps : List (Mix × Mix)) (start : List Mix) (k : Nat)
    (h : ∀ x, Reach deps start x → ∃ p i, p < k ∧ Within deps start p i x) : depPass deps (depPasses deps k start) = depPasses deps k start := by
  apply depPass_fix
  intro e he h1
  have hr : Reach deps start e.2 := .step (depPasses_reach deps start k _ h1) he
  obtain ⟨p, i, hp, hw⟩ := h _ hr
  have := within_mem hw
  have := take_mono deps (within_index hw) _ _ this
  rw [List.take_length] at this
  exact depPasses_le deps (k := p + 1) (by omega) _ _ this

theorem depPasses_shift (deps : List (Mix × Mix)) (ms : List Mix) : ∀ k, depPasses deps k (depPass deps ms) = depPasses deps (k + 1) ms
  | 0 => rfl
  | k + 1 => by simp only [depPasses]; rw [depPasses_shift deps ms k]; rfl

/-- The loop ends well if the passes become stationary in time. -/
theorem rulesLoop_dep_passes (deps : List (Mix × Mix)) : ∀ (k left : Nat) (o nt : List Mix), left < 5 → k ≤ left → k + (5 - left) ≤ deps.length →
    depPass deps (depPasses deps k nt) = depPasses deps k nt →
    ∃ r, (rulesLoop (depRules deps) left o nt nt).result = .ok (o, r) ∧ depPass deps r = r
  | 0, left, o, nt, hl, hk, hlen, hfix => ⟨nt, rulesLoop_of_fix _ _ _ _ hl (by rw [applyPass_depRules]; exact congrArg _ hfix), hfix⟩
  | k + 1, left, o, nt, hl, hk, hlen, hfix => by
    by_cases h : depPass deps nt = nt
    · exact ⟨nt, rulesLoop_of_fix _ _ _ _ hl (by rw [applyPass_depRules, h]), h⟩
    · obtain ⟨left, rfl⟩ : ∃ l, left = l + 1 := ⟨left - 1, by omega⟩
      rw [rulesLoop_step]
      simp only [applyPass_depRules]
      have hne : ¬ nt = depPass deps nt := fun h' => h h'.symm
      have hi : ¬ (5 - (left + 1) = 0) := by omega
      have hi2 : ¬ (5 - (left + 1) = (depRules deps).length) := by simp [depRules]; omega
      simp only [hne, hi, hi2, if_false, or_false, Nat.add_one_ne_zero, Nat.add_one_sub_one]
      exact rulesLoop_dep_passes deps k left o _ (by omega) (by omega) (by omega) (by rw [depPasses_shift]; exact hfix)

/-- If the edges are in order, one pass is enough. -/
theorem within_inOrder {deps : List (Mix × Mix)} (h : InOrder deps) (start : List Mix) (x : Mix) (hr : Reach deps start x) :
    x ∈ start ∨ ∃ j y, deps[j]? = some (y, x) ∧ Within deps start 0 (j + 1) x := by
  induction hr with
  | base h => exact .inl h
  | @step x y hx e ih =>
    obtain ⟨j, hj⟩ := List.getElem?_of_mem e
    rcases ih with ih | ⟨i, z, hi, hw⟩
    · exact .inr ⟨j, x, hj, .down (.base ih) (by omega) hj⟩
    · by_cases hlt : i + 1 ≤ j
      · exact .inr ⟨j, x, hj, .down hw hlt hj⟩
      · by_cases heq : i = j
        · subst heq
          rw [hi] at hj
          simp at hj
          obtain ⟨rfl, rfl⟩ := hj
          exact .inr ⟨i, z, hi, hw⟩
        · exfalso
          have hij : j < i := by omega
          obtain ⟨hi1, hi2⟩ := List.getElem?_eq_some_iff.1 hi
          obtain ⟨hj1, hj2⟩ := List.getElem?_eq_some_iff.1 hj
          have := List.pairwise_iff_getElem.1 h j i hj1 hi1 hij
          rw [hi2, hj2] at this
          exact this rfl

end Dnmx
