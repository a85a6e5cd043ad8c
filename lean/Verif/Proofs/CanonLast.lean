import Verif.Proofs.RuleMapLemmas
import Verif.Proofs.TypeApiLemmas
import Verif.Proofs.QueryLemmas
import Verif.Proofs.BuilderLemmas

/-! The canonical order stays the last of a domain's rules while only rules of smaller order priority come and go. -/

set_option linter.unusedSimpArgs false
set_option linter.unusedVariables false

namespace Dnmx
open Spec

def EndsCanon (l : List (Rule × Nat)) : Prop := ∃ l' n, l = l' ++ [(0, n)]

theorem ruleLt_canon (D : Decls) (r : Rule) (h0 : r ≠ 0) (h : (D.userRule r).orderPriority < 2147483647) :
    ruleLt D r 0 = true ∧ ruleLt D 0 r = false := by
  have h1 : (ruleOf D r).orderPriority = (D.userRule r).orderPriority := by unfold ruleOf; rw [if_neg h0]
  have h2 : (ruleOf D 0).orderPriority = 2147483647 := by unfold ruleOf; rw [if_pos rfl]
  unfold ruleLt ruleCompare
  rw [h1, h2, if_pos (by omega), if_pos (by omega)]
  refine ⟨by simp [h], ?_⟩
  simp; omega

theorem ruleIncr_ends (D : Decls) (r : Rule) (h0 : r ≠ 0) (h : (D.userRule r).orderPriority < 2147483647)
    (l : List (Rule × Nat)) : EndsCanon l → EndsCanon (ruleIncr D r l).1 := by
  rintro ⟨l', n, rfl⟩
  obtain ⟨h1, h2⟩ := ruleLt_canon D r h0 h
  induction l' with
  | nil => exact ⟨[(r, 1)], n, by simp [ruleIncr, h1, h2]⟩
  | cons e l' ih =>
    obtain ⟨x, k⟩ := e
    obtain ⟨a, b, hab⟩ := ih
    rw [List.cons_append]
    unfold ruleIncr
    by_cases hx : ruleLt D x r = true
    · rw [if_pos hx]; exact ⟨(x, k) :: a, b, by simp [hab]⟩
    · rw [if_neg hx]
      by_cases hy : ruleLt D r x = true
      · rw [if_pos hy]; exact ⟨(r, 1) :: (x, k) :: l', n, by simp⟩
      · rw [if_neg hy]; exact ⟨(x, k + 1) :: l', n, by simp⟩

theorem ruleDecr_ends (D : Decls) (r : Rule) (h0 : r ≠ 0) (h : (D.userRule r).orderPriority < 2147483647)
    (l : List (Rule × Nat)) (he : EndsCanon l) : ∀ p, ruleDecr D r l = some p → EndsCanon p.1 := by
  obtain ⟨l', n, rfl⟩ := he
  obtain ⟨h1, h2⟩ := ruleLt_canon D r h0 h
  induction l' with
  | nil => intro p hp; simp [ruleDecr, h1, h2] at hp
  | cons e l' ih =>
    obtain ⟨x, k⟩ := e
    intro p hp
    rw [List.cons_append] at hp
    unfold ruleDecr at hp
    by_cases hx : ruleLt D x r = true
    · rw [if_pos hx] at hp
      cases hd : ruleDecr D r (l' ++ [(0, n)]) with
      | none => rw [hd] at hp; simp at hp
      | some c =>
        rw [hd] at hp
        obtain ⟨a, b, hab⟩ := ih c hd
        simp only [Option.some.injEq] at hp
        subst hp
        exact ⟨(x, k) :: a, b, by simp [hab]⟩
    · rw [if_neg hx] at hp
      by_cases hy : ruleLt D r x = true
      · rw [if_pos hy] at hp; simp at hp
      · rw [if_neg hy] at hp
        by_cases hk : k - 1 > 0
        · rw [if_pos hk] at hp
          simp only [Option.some.injEq] at hp
          subst hp
          exact ⟨(x, k - 1) :: l', n, by simp⟩
        · rw [if_neg hk] at hp
          simp only [Option.some.injEq] at hp
          subst hp
          exact ⟨l', n, rfl⟩

/-- an operation adds or removes in domain `d` only other rules, of smaller order priority than the canonical order -/
def LowRule (D : Decls) (d : DomId) (op : Op) : Prop :=
  ∀ r, op = .addRule d r ∨ op = .removeRule d r → r ≠ 0 ∧ (D.userRule r).orderPriority < 2147483647

theorem step_ends (D : Decls) (W : World) (hreg : RegInv W) (op : Op) (d : DomId) (hop : LowRule D d op)
    (h : EndsCanon (W.doms d).rules) : EndsCanon ((step D W op).2.doms d).rules := by
  by_cases h1 : ∃ r, op = .addRule d r
  · obtain ⟨r, rfl⟩ := h1
    obtain ⟨a, b⟩ := hop r (.inl rfl)
    show EndsCanon ((addRule D W d r).2.doms d).rules
    rcases addRule_rules D W d r with ⟨-, h2⟩ | ⟨-, h2, h3⟩
    · rw [h2]; exact h
    · rw [h3]; exact ruleIncr_ends D r a b _ h
  by_cases h2 : ∃ r, op = .removeRule d r
  · obtain ⟨r, rfl⟩ := h2
    obtain ⟨a, b⟩ := hop r (.inr rfl)
    show EndsCanon ((removeRule D W d r).2.doms d).rules
    unfold removeRule
    simp only
    cases hd : ruleDecr D r (W.doms d).rules with
    | none => exact h
    | some p =>
      have := ruleDecr_ends D r a b _ h p hd
      obtain ⟨l', c⟩ := p
      simp only
      split <;> (simp only [setDom_same]; exact this)
  rw [step_rules_same D W hreg op d (fun r e => h1 ⟨r, e⟩) (fun r e => h2 ⟨r, e⟩)]
  exact h

theorem applyPass_append (a b : List RuleFn) (ms : List Mix) :
    applyPass (a ++ b) ms = match applyPass a ms with | .error e => .error e | .ok x => applyPass b x := by
  induction a generalizing ms with
  | nil => rfl
  | cons r a ih =>
    rw [List.cons_append]
    simp only [applyPass]
    cases h : r ms with
    | error e => rfl
    | ok x => simp only; exact ih x

/-- whatever comes out of a pass that ends in the canonical order was sorted by it -/
theorem applyPass_ends (D : Decls) (v : ElemView) (x : Dom) (h : EndsCanon x.rules) (ms r : List Mix)
    (hp : applyPass (rulesOf D v x) ms = .ok r) : ∃ y, r = sortBy (canonicalOrder D v.ids) y := by
  obtain ⟨l, n, hl⟩ := h
  unfold rulesOf at hp
  rw [hl, List.map_append, applyPass_append] at hp
  cases ha : applyPass (l.map fun e => ruleFn D v e.1) ms with
  | error e => rw [ha] at hp; simp at hp
  | ok y =>
    rw [ha] at hp
    refine ⟨y, ?_⟩
    have hc : ∀ z, ruleFn D v 0 z = .ok (sortBy (canonicalOrder D v.ids) z) := fun z => rfl
    simp [applyPass, hc] at hp
    exact hp.symm

theorem resolve_ends (D : Decls) (v : ElemView) (x : Dom) (h : EndsCanon x.rules) (q k r : List Mix)
    (hp : (applyMutationRules D (rulesOf D v x) q).result = .ok (k, r)) : ∃ y, r = sortBy (canonicalOrder D v.ids) y := by
  rcases applyMutationRules_cases D (rulesOf D v x) q with ⟨e, _, h'⟩ | ⟨ha, h'⟩ | ⟨z, _, _, _, h'⟩ | ⟨z, _, _, _, h'⟩ <;>
    rw [h'] at hp
  · simp at hp
  · simp at hp
    obtain ⟨_, rfl⟩ := hp
    exact applyPass_ends D v x h _ _ ha
  · simp at hp
  · exact applyPass_ends D v x h _ _ (rulesLoop_fix _ 4 q z k r (by omega) hp).2

/-- the mixins of every type were sorted by the canonical order (of the ids when the type was made) -/
def AllSorted (D : Decls) (l : List TypeRec) : Prop :=
  ∀ r ∈ l, ∃ ids y, r.mixins = sortBy (canonicalOrder D ids) y

theorem step_allSorted (D : Decls) (W : World) (hreg : RegInv W) (op : Op) (d : DomId) (hi : TypesInv D W d)
    (h : EndsCanon (W.doms d).rules) (hs : AllSorted D (W.doms d).types) : AllSorted D ((step D W op).2.doms d).types := by
  generalize hW' : (step D W op).2 = W'
  have ht := step_typeStep D W hreg op d hi
  rw [hW'] at ht
  cases ht with
  | keep h1 => rw [h1]; exact hs
  | clear h1 => rw [h1]; exact hs
  | filter p pq h1 => rw [h1]; intro r hr; exact hs r (List.mem_filter.1 hr).1
  | get q r hc =>
    generalize hres : (r, W') = res at hc
    have he : W' = res.2 := by rw [← hres]
    rw [he]
    cases hc with
    | hit t ht => exact hs
    | ruleError e h1 => exact hs
    | empty h1 => simp only [setDom_same]; exact hs
    | found r h1 h2 h3 h4 => simp only [setDom_same]; exact hs
    | buildError => exact hs
    | built r h1 h2 h3 h4 h5 =>
      simp only [setDom_same]
      intro x hx
      rcases List.mem_append.1 hx with hx | hx
      · exact hs x hx
      · rw [List.mem_singleton] at hx
        subst hx
        obtain ⟨y, hy⟩ := resolve_ends D _ _ h q q _ h2
        exact ⟨_, y, hy⟩

theorem run_allSorted (D : Decls) (s : DomId → Settings) (d : DomId) (hs : (s d).canonicalize = true) (ops : List Op) :
    (∀ op ∈ ops, LowRule D d op) →
    EndsCanon ((run D (initWorld s) ops).doms d).rules ∧ AllSorted D ((run D (initWorld s) ops).doms d).types := by
  induction ops using snoc_induction with
  | h0 =>
    intro _
    refine ⟨⟨[], 1, ?_⟩, ?_⟩
    · show (newDom (s d)).rules = _
      simp [newDom, hs]
    · intro r hr
      have : r ∈ (newDom (s d)).types := hr
      simp [newDom] at this
  | h1 ops op ih =>
    intro hl
    obtain ⟨h1, h2⟩ := ih fun o ho => hl o (List.mem_append_left _ ho)
    rw [run_snoc]
    have hr := reachable_reg D s ops
    have hi := reachable_types D s ops d
    exact ⟨step_ends D _ hr op d (hl op (by simp)) h1, step_allSorted D _ hr op d hi h1 h2⟩

end Dnmx
