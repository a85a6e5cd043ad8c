import Verif.Proofs.TypeMutationLemmas

namespace Dnmx
open Spec

/-- the query without dependency mixins -/
def stripDeps (D : Decls) (q : List Mix) : List Mix := q.filter (fun m => !(D.mix m).dependency)

theorem stripDeps_eq_self {D : Decls} {q : List Mix} (h : ∀ m ∈ q, (D.mix m).dependency = false) : stripDeps D q = q := by
  rw [stripDeps, List.filter_eq_self]
  intro m hm; simp [h m hm]

theorem rulesLoop_step (rules : List RuleFn) (left : Nat) (o l nt : List Mix) :
    rulesLoop rules left o l nt =
      match applyPass rules nt with
      | .error e => ⟨5 - left + 1, .error e⟩
      | .ok nt' =>
        if l = nt' then ⟨5 - left + 1, .ok (if 5 - left = 0 then l else o, nt')⟩
        else if left = 0 ∨ 5 - left = rules.length then ⟨5 - left + 1, .error .cyclicRuleDeps⟩
        else rulesLoop rules (left - 1) (if 5 - left = 0 then l else o) nt' nt' := by
  cases left with
  | zero =>
    conv => lhs; unfold rulesLoop
    cases applyPass rules nt with
    | error e => rfl
    | ok x => by_cases h : l = x <;> simp [h, maxDependencyDepth]
  | succ left =>
    conv => lhs; unfold rulesLoop
    cases applyPass rules nt with
    | error e => rfl
    | ok x =>
      by_cases h : l = x
      · simp only [h, maxDependencyDepth, if_true]
        by_cases h2 : 5 - (left + 1) = 0
        · simp only [h2, if_true]
        · simp only [h2, if_false]
      · simp only [h, maxDependencyDepth, if_false]
        by_cases h3 : 5 - (left + 1) = rules.length
        · simp [h3]
        · simp

theorem rulesLoop_passes (rules : List RuleFn) : ∀ (left : Nat) (o l nt : List Mix), left ≤ 5 →
    5 - left ≤ rules.length →
    (rulesLoop rules left o l nt).passes ≤ min 5 rules.length + 1 := by
  intro left
  induction left with
  | zero =>
    intro o l nt _ hi
    rw [rulesLoop_step]
    cases applyPass rules nt with
    | error e => simp; omega
    | ok x => by_cases h : l = x <;> simp [h] <;> omega
  | succ left ih =>
    intro o l nt hl hi
    rw [rulesLoop_step]
    cases applyPass rules nt with
    | error e => simp; omega
    | ok x =>
      by_cases h : l = x
      · simp [h]; omega
      · by_cases h3 : 5 - (left + 1) = rules.length
        · simp [h, h3]; omega
        · simp only [h, h3, if_false, or_false, Nat.add_one_ne_zero, Nat.add_one_sub_one]
          exact ih _ _ _ (by omega) (by omega)

theorem rulesLoop_passes_pos (rules : List RuleFn) : ∀ (left : Nat) (o l nt : List Mix),
    1 ≤ (rulesLoop rules left o l nt).passes := by
  intro left
  induction left with
  | zero =>
    intro o l nt
    rw [rulesLoop_step]
    cases applyPass rules nt with
    | error e => simp
    | ok x => by_cases h : l = x <;> simp [h]
  | succ left ih =>
    intro o l nt
    rw [rulesLoop_step]
    cases applyPass rules nt with
    | error e => simp
    | ok x =>
      by_cases h : l = x
      · simp [h]
      · by_cases h3 : 5 - (left + 1) = rules.length
        · simp [h, h3]
        · simp only [h, h3, if_false, or_false, Nat.add_one_ne_zero, Nat.add_one_sub_one]
          exact ih _ _ _

/-- from the second iteration on, success means that the last pass changed nothing -/
theorem rulesLoop_fix (rules : List RuleFn) : ∀ (left : Nat) (o nt k r : List Mix), left < 5 →
    (rulesLoop rules left o nt nt).result = .ok (k, r) → k = o ∧ applyPass rules r = .ok r := by
  intro left
  induction left with
  | zero =>
    intro o nt k r hl h
    rw [rulesLoop_step] at h
    cases hp : applyPass rules nt with
    | error e => simp [hp] at h
    | ok x =>
      rw [hp] at h
      by_cases hx : nt = x
      · subst hx
        simp at h
        obtain ⟨h1, h2⟩ := h
        subst h1 h2
        exact ⟨rfl, hp⟩
      · simp [hx] at h
  | succ left ih =>
    intro o nt k r hl h
    have hi : ¬ (5 - (left + 1) = 0) := by omega
    rw [rulesLoop_step] at h
    cases hp : applyPass rules nt with
    | error e => simp [hp] at h
    | ok x =>
      rw [hp] at h
      by_cases hx : nt = x
      · subst hx
        simp only [hi, if_true, if_false, Except.ok.injEq, Prod.mk.injEq] at h
        obtain ⟨h1, h2⟩ := h
        subst h1 h2
        exact ⟨rfl, hp⟩
      · by_cases h3 : 5 - (left + 1) = rules.length
        · simp [hx, h3] at h
        · simp only [hx, hi, h3, if_false, or_false, Nat.add_one_ne_zero, Nat.add_one_sub_one] at h
          exact ih _ _ _ _ (by omega) h

/-- what the loop does in its first iteration -/
theorem applyMutationRules_cases (D : Decls) (rules : List RuleFn) (q : List Mix) :
    (∃ e, applyPass rules (stripDeps D q) = .error e ∧ (applyMutationRules D rules q).result = .error e) ∨
    (applyPass rules (stripDeps D q) = .ok q ∧ (applyMutationRules D rules q).result = .ok (q, q)) ∨
    (∃ x, applyPass rules (stripDeps D q) = .ok x ∧ q ≠ x ∧ rules = [] ∧
      (applyMutationRules D rules q).result = .error .cyclicRuleDeps) ∨
    (∃ x, applyPass rules (stripDeps D q) = .ok x ∧ q ≠ x ∧ rules ≠ [] ∧
      (applyMutationRules D rules q).result = (rulesLoop rules 4 q x x).result) := by
  unfold applyMutationRules
  rw [rulesLoop_step, ← stripDeps]
  simp only [maxDependencyDepth, Nat.sub_self, if_true]
  cases hp : applyPass rules (stripDeps D q) with
  | error e => left; exact ⟨e, rfl, rfl⟩
  | ok x =>
    right
    by_cases hq : q = x
    · subst hq; left; simp
    · right
      by_cases hr : rules = []
      · subst hr; left; exact ⟨x, rfl, hq, rfl, by simp [hq]⟩
      · right
        refine ⟨x, rfl, hq, hr, ?_⟩
        have : ¬ (0 = rules.length) := by
          intro h; exact hr (List.length_eq_zero_iff.1 h.symm)
        simp only [hq, this, if_false]
        rfl

/-- the remembered query is the query -/
theorem applyMutationRules_key (D : Decls) (rules : List RuleFn) (q k r : List Mix)
    (h : (applyMutationRules D rules q).result = .ok (k, r)) : k = q := by
  rcases applyMutationRules_cases D rules q with ⟨e, _, h'⟩ | ⟨_, h'⟩ | ⟨x, _, _, _, h'⟩ | ⟨x, _, _, _, h'⟩ <;> rw [h'] at h
  · simp at h
  · simp at h; exact h.1.symm
  · simp at h
  · exact (rulesLoop_fix rules 4 q x k r (by omega) h).1

/-- if a pass changes nothing the loop stops with success -/
theorem rulesLoop_of_fix (rules : List RuleFn) (left : Nat) (o nt : List Mix) (hl : left < 5)
    (h : applyPass rules nt = .ok nt) : (rulesLoop rules left o nt nt).result = .ok (o, nt) := by
  rw [rulesLoop_step]
  have : ¬ (5 - left = 0) := by omega
  simp [h, this]

/-! ## dependency rules -/

/-- the rules of a list of (primary, dependent) pairs -/
def depRules (deps : List (Mix × Mix)) : List RuleFn := deps.map (fun d => basicDepRule d.1 d.2)

/-- one pass of dependency rules -/
def depPass : List (Mix × Mix) → List Mix → List Mix
  | [], ms => ms
  | d :: ds, ms => depPass ds (if d.1 ∈ ms ∧ d.2 ∉ ms then ms ++ [d.2] else ms)

theorem basicDepRule_eq (p d : Mix) (ms : List Mix) :
    basicDepRule p d ms = .ok (if p ∈ ms ∧ d ∉ ms then ms ++ [d] else ms) := by
  unfold basicDepRule tmAddIfLacking tmAdd
  by_cases h1 : p ∈ ms <;> by_cases h2 : d ∈ ms <;> simp [tmHas, h1, h2]

theorem applyPass_depRules (deps : List (Mix × Mix)) (ms : List Mix) :
    applyPass (depRules deps) ms = .ok (depPass deps ms) := by
  induction deps generalizing ms with
  | nil => rfl
  | cons d ds ih =>
    simp only [depRules, List.map_cons, applyPass, basicDepRule_eq, depPass]
    exact ih _

/-- a pass appends pairwise different new dependents, all reachable -/
theorem depPass_append (all deps : List (Mix × Mix)) (hsub : ∀ d ∈ deps, d ∈ all) (start ms : List Mix)
    (hr : ∀ m ∈ ms, Reach all start m) :
    ∃ added, depPass deps ms = ms ++ added ∧ added.Nodup ∧ (∀ x ∈ added, x ∉ ms) ∧
      (∀ x ∈ added, ∃ p, (p, x) ∈ all) ∧ (∀ x ∈ ms ++ added, Reach all start x) := by
  induction deps generalizing ms with
  | nil => exact ⟨[], by simp [depPass], by simp, by simp, by simp, by simpa using hr⟩
  | cons d ds ih =>
    simp only [depPass]
    have hd := hsub d (by simp)
    have hds : ∀ e ∈ ds, e ∈ all := fun e he => hsub e (by simp [he])
    by_cases hc : d.1 ∈ ms ∧ d.2 ∉ ms
    · simp only [hc, not_false_eq_true, and_self, if_true]
      have hr' : ∀ m ∈ ms ++ [d.2], Reach all start m := by
        intro m hm
        rcases List.mem_append.1 hm with hm | hm
        · exact hr m hm
        · simp at hm; subst hm; exact .step (hr _ hc.1) hd
      obtain ⟨added, h1, h2, h3, h4, h5⟩ := ih hds (ms ++ [d.2]) hr'
      refine ⟨d.2 :: added, by rw [h1]; simp, ?_, ?_, ?_, ?_⟩
      · rw [List.nodup_cons]
        refine ⟨fun hm => h3 _ hm (by simp), h2⟩
      · intro x hx
        rcases List.mem_cons.1 hx with hx | hx
        · exact hx ▸ hc.2
        · intro hm; exact h3 x hx (by simp [hm])
      · intro x hx
        rcases List.mem_cons.1 hx with hx | hx
        · exact ⟨d.1, hx ▸ hd⟩
        · exact h4 x hx
      · intro x hx
        exact h5 x (by simpa using hx)
    · simp only [hc, if_false]
      exact ih hds ms hr

theorem depPass_mono (deps : List (Mix × Mix)) : ∀ (ms : List Mix) (x : Mix), x ∈ ms → x ∈ depPass deps ms := by
  induction deps with
  | nil => intro ms x h; exact h
  | cons d ds ih =>
    intro ms x h
    simp only [depPass]
    apply ih
    split
    · simp [h]
    · exact h

theorem depPass_closed (deps : List (Mix × Mix)) : ∀ (ms : List Mix), depPass deps ms = ms →
    ∀ d ∈ deps, d.1 ∈ ms → d.2 ∈ ms := by
  induction deps with
  | nil => intro ms _ d hd; simp at hd
  | cons e es ih =>
    intro ms h d hd hp
    simp only [depPass] at h
    by_cases hc : e.1 ∈ ms ∧ e.2 ∉ ms
    · simp only [hc, not_false_eq_true, and_self, if_true] at h
      exfalso
      apply hc.2
      have := depPass_mono es (ms ++ [e.2]) e.2 (by simp)
      rw [h] at this; exact this
    · simp only [hc, if_false] at h
      rcases List.mem_cons.1 hd with hd | hd
      · subst hd
        by_cases h2 : d.2 ∈ ms
        · exact h2
        · exact absurd ⟨hp, h2⟩ hc
      · exact ih ms h d hd hp

/-- dependents not yet present -/
def missing (deps : List (Mix × Mix)) (ms : List Mix) : List Mix :=
  (tmDedup (deps.map Prod.snd)).filter (fun x => decide (x ∉ ms))

theorem filter_length_lt {α : Type} (p q : α → Bool) (l : List α) (himp : ∀ x ∈ l, p x = true → q x = true)
    (x : α) (hx : x ∈ l) (hq : q x = true) (hp : p x = false) : (l.filter p).length < (l.filter q).length := by
  have hle : ∀ (l : List α), (∀ x ∈ l, p x = true → q x = true) → (l.filter p).length ≤ (l.filter q).length := by
    intro l
    induction l with
    | nil => intro _; simp
    | cons a l ih =>
      intro h
      have h' := ih (fun x hx => h x (by simp [hx]))
      have ha := h a (by simp)
      cases hpa : p a <;> cases hqa : q a <;> simp [hpa, hqa] <;> first | omega | (exfalso; simp_all)
  induction l with
  | nil => simp at hx
  | cons a l ih =>
    have h' : ∀ x ∈ l, p x = true → q x = true := fun x hx => himp x (by simp [hx])
    have hl := hle l h'
    rcases List.mem_cons.1 hx with hxa | hxl
    · subst hxa; simp [hq, hp]; omega
    · have := ih h' hxl
      have ha := himp a (by simp)
      cases hpa : p a <;> cases hqa : q a <;> simp [hpa, hqa] <;> first | omega | (exfalso; simp_all)

theorem missing_lt (deps : List (Mix × Mix)) (ms : List Mix) (h : depPass deps ms ≠ ms) :
    (missing deps (depPass deps ms)).length < (missing deps ms).length := by
  obtain ⟨added, h1, h2, h3, h4, h5⟩ := depPass_append deps deps (fun _ h => h) ms ms (fun m hm => .base hm)
  cases added with
  | nil => simp at h1; exact absurd h1 h
  | cons x xs =>
    have hx := h3 x (by simp)
    obtain ⟨p, hp⟩ := h4 x (by simp)
    apply filter_length_lt _ _ _ _ x
    · rw [mem_tmDedup]
      exact List.mem_map.2 ⟨(p, x), hp, rfl⟩
    · simp [hx]
    · rw [h1]; simp
    · intro y _ hy
      simp only [decide_eq_true_eq] at hy ⊢
      exact fun hm => hy (depPass_mono deps ms y hm)

theorem missing_le (deps : List (Mix × Mix)) (ms : List Mix) :
    (missing deps ms).length ≤ (tmDedup (deps.map Prod.snd)).length := List.length_filter_le ..

theorem dedup_length_le (l : List Mix) : (tmDedup l).length ≤ l.length := (tmDedup_sublist l).length_le

/-- the loop succeeds if enough iterations are left for the missing dependents -/
theorem rulesLoop_dep_ok (deps : List (Mix × Mix)) : ∀ (left : Nat) (o nt : List Mix), left < 5 →
    (missing deps nt).length ≤ left → (missing deps nt).length + (5 - left) ≤ deps.length →
    ∃ r, (rulesLoop (depRules deps) left o nt nt).result = .ok (o, r) := by
  intro left
  induction left with
  | zero =>
    intro o nt hl h1 h2
    have hfix : depPass deps nt = nt := by
      by_cases h : depPass deps nt = nt
      · exact h
      · have := missing_lt deps nt h; omega
    exact ⟨nt, rulesLoop_of_fix _ _ _ _ hl (by rw [applyPass_depRules, hfix])⟩
  | succ left ih =>
    intro o nt hl h1 h2
    by_cases hfix : depPass deps nt = nt
    · exact ⟨nt, rulesLoop_of_fix _ _ _ _ hl (by rw [applyPass_depRules, hfix])⟩
    · have hlt := missing_lt deps nt hfix
      rw [rulesLoop_step]
      simp only [applyPass_depRules]
      have hne : ¬ nt = depPass deps nt := fun h => hfix h.symm
      have hi : ¬ (5 - (left + 1) = 0) := by omega
      have hi2 : ¬ (5 - (left + 1) = (depRules deps).length) := by simp [depRules]; omega
      simp only [hne, hi, hi2, if_false, or_false, Nat.add_one_ne_zero, Nat.add_one_sub_one]
      exact ih o (depPass deps nt) (by omega) (by omega) (by omega)

/-- a result reached by passes is the start plus reachable, pairwise different new dependents -/
theorem rulesLoop_dep_shape (deps : List (Mix × Mix)) (start : List Mix) : ∀ (left : Nat) (o l nt k r : List Mix),
    (∃ added, nt = start ++ added ∧ added.Nodup ∧ (∀ x ∈ added, x ∉ start) ∧ (∀ x ∈ nt, Reach deps start x)) →
    (rulesLoop (depRules deps) left o l nt).result = .ok (k, r) →
    (∃ added, r = start ++ added ∧ added.Nodup ∧ (∀ x ∈ added, x ∉ start) ∧ (∀ x ∈ r, Reach deps start x)) := by
  have step : ∀ nt : List Mix,
    (∃ added, nt = start ++ added ∧ added.Nodup ∧ (∀ x ∈ added, x ∉ start) ∧ (∀ x ∈ nt, Reach deps start x)) →
    (∃ added, depPass deps nt = start ++ added ∧ added.Nodup ∧ (∀ x ∈ added, x ∉ start) ∧ (∀ x ∈ depPass deps nt, Reach deps start x)) := by
    rintro nt ⟨added, ha, hn, hd, hr⟩
    obtain ⟨add2, h1, h2, h3, h4, h5⟩ := depPass_append deps deps (fun _ h => h) start nt hr
    refine ⟨added ++ add2, by rw [h1, ha]; simp, ?_, ?_, by rw [h1]; exact h5⟩
    · rw [List.nodup_append]
      refine ⟨hn, h2, ?_⟩
      intro a ha' b hb hab
      subst hab
      exact h3 a hb (by rw [ha]; simp [ha'])
    · intro x hx
      rcases List.mem_append.1 hx with hx | hx
      · exact hd x hx
      · intro hs; exact h3 x hx (by rw [ha]; simp [hs])
  intro left
  induction left with
  | zero =>
    intro o l nt k r hnt h
    rw [rulesLoop_step] at h
    simp only [applyPass_depRules] at h
    by_cases hx : l = depPass deps nt
    · simp only [hx, if_true, Except.ok.injEq, Prod.mk.injEq] at h
      rw [← h.2]; exact step nt hnt
    · simp [hx] at h
  | succ left ih =>
    intro o l nt k r hnt h
    rw [rulesLoop_step] at h
    simp only [applyPass_depRules] at h
    by_cases hx : l = depPass deps nt
    · simp only [hx, if_true, Except.ok.injEq, Prod.mk.injEq] at h
      rw [← h.2]; exact step nt hnt
    · by_cases h3 : 5 - (left + 1) = (depRules deps).length
      · simp [hx, h3] at h
      · simp only [hx, h3, if_false, or_false, Nat.add_one_ne_zero, Nat.add_one_sub_one] at h
        exact ih _ _ _ _ _ (step nt hnt) h

end Dnmx
