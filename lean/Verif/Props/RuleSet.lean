import Verif.Proofs.RuleMapLemmas
import Verif.Props.Order

/-!
# C14: the rules in force

`S` is a set of rules that contains all rules of the history. Rule 0 stands for the domain's own canonicalization rule.
-/

namespace Dnmx.Props
open Spec

/-- The rules in force in a domain, in the order in which they are applied. -/
def inForce (W : World) (d : DomId) : List Rule := (W.doms d).rules.map (·.1)

/-- Names of rules in `S` are valid and do not alias with different lengths (see C23). -/
def RuleNamesOk (D : Decls) (S : Rule → Prop) : Prop :=
  (∀ r, S r → (ruleOf D r).name.Valid) ∧ ∀ a b, S a → S b → NoAlias (ruleOf D a).name (ruleOf D b).name

/-- The documented order: order priority, then name, then address. -/
def RuleBefore (D : Decls) (a b : Rule) : Prop :=
  (ruleOf D a).orderPriority < (ruleOf D b).orderPriority ∨
  ((ruleOf D a).orderPriority = (ruleOf D b).orderPriority ∧
    (LexBefore ((ruleOf D a).name.chars D.mem) ((ruleOf D b).name.chars D.mem) ∨
      ((ruleOf D a).name.chars D.mem = (ruleOf D b).name.chars D.mem ∧ a < b)))

theorem ruleOrder_total (D : Decls) (S : Rule → Prop) (h : RuleNamesOk D S) : StrictTotalOn S (ruleLt D) :=
  ruleCompare_strictTotal D.mem (ruleOf D) S h.1 h.2

theorem ruleLt_before (D : Decls) (S : Rule → Prop) (h : RuleNamesOk D S) (a b : Rule) (ha : S a) (hb : S b) :
    ruleLt D a b = true ↔ RuleBefore D a b := by
  have hc := svCmp_lex D.mem _ _ (h.1 a ha) (h.1 b hb) (h.2 a b ha hb)
  unfold ruleLt ruleCompare RuleBefore
  by_cases hp : (ruleOf D a).orderPriority = (ruleOf D b).orderPriority
  · simp only [hp, ne_eq, not_true, if_false, Int.lt_irrefl, false_or, true_and]
    by_cases hn : svCmp D.mem (ruleOf D a).name (ruleOf D b).name = 0
    · simp only [hn, not_true, if_false, decide_eq_true_eq]
      have h1 := hc.zero.1 hn
      constructor
      · intro h2; exact .inr ⟨h1, h2⟩
      · rintro (h2 | h2)
        · have := hc.neg.2 h2; omega
        · exact h2.2
    · simp only [hn, not_false_eq_true, if_true, decide_eq_true_eq]
      rw [hc.neg]
      constructor
      · exact .inl
      · rintro (h2 | h2)
        · exact h2
        · exact absurd (hc.zero.2 h2.1) hn
  · simp only [ne_eq, hp, not_false_eq_true, if_true, decide_eq_true_eq, false_and, or_false]

/-- C14 (partial: rules with valid names that do not alias with different lengths): a rule is in force exactly if it
was added more often than removed; every rule in force is applied once per pass, in the documented order.
Missing: rules whose names alias, for which there may be no such order (`C14_rule_order_refuted`). -/
theorem C14_rules_in_force_partial (D : Decls) (S : Rule → Prop) (hS : RuleNamesOk D S) (s : DomId → Settings) (ops : List Op)
    (hops : ∀ op ∈ ops, op.rulesIn S) (d : DomId) (h0 : (s d).canonicalize = true → S 0) :
    (∀ r, r ∈ inForce (run D (initWorld s) ops) d ↔
      ruleCount d r (initialCount (s d) r) (trace D (initWorld s) ops) > 0) ∧
    (inForce (run D (initWorld s) ops) d).Nodup ∧
    (inForce (run D (initWorld s) ops) d).Pairwise (RuleBefore D) := by
  have ho := ruleOrder_total D S hS
  obtain ⟨i1, i2⟩ := initWorld_ruleMap D S s d h0
  obtain ⟨h1, h2⟩ := run_ruleMap ho d ops _ (initWorld_reg s) hops i1
  refine ⟨fun r => ?_, ?_, ?_⟩
  · rw [← i2 r, ← h2 r]
    unfold inForce
    rw [List.mem_map]
    constructor
    · rintro ⟨⟨k, n⟩, h3, rfl⟩
      have := (mem_iff_countOf ho _ h1 k n).1 h3
      simp only; omega
    · intro h3
      exact ⟨(r, _), (mem_iff_countOf ho _ h1 r _).2 ⟨rfl, h3⟩, rfl⟩
  · unfold inForce List.Nodup
    rw [List.pairwise_map]
    apply h1.sorted.imp_of_mem
    intro a b ha _ hab
    exact lt_ne ho (h1.keys a ha) hab
  · unfold inForce
    rw [List.pairwise_map]
    apply h1.sorted.imp_of_mem
    intro a b ha hb hab
    exact (ruleLt_before D S hS _ _ (h1.keys a ha) (h1.keys b hb)).1 hab

/-- C14 (partial, as above): the rules in force and their order depend only on how often each rule counts as added, not
on the order of the calls. -/
theorem C14_order_of_calls_irrelevant_partial (D : Decls) (S : Rule → Prop) (hS : RuleNamesOk D S) (s : DomId → Settings)
    (ops ops' : List Op) (hops : ∀ op ∈ ops, op.rulesIn S) (hops' : ∀ op ∈ ops', op.rulesIn S) (d : DomId)
    (h0 : (s d).canonicalize = true → S 0)
    (hc : ∀ r, ruleCount d r (initialCount (s d) r) (trace D (initWorld s) ops) =
      ruleCount d r (initialCount (s d) r) (trace D (initWorld s) ops')) :
    inForce (run D (initWorld s) ops) d = inForce (run D (initWorld s) ops') d := by
  have ho := ruleOrder_total D S hS
  obtain ⟨i1, i2⟩ := initWorld_ruleMap D S s d h0
  obtain ⟨h1, h2⟩ := run_ruleMap ho d ops _ (initWorld_reg s) hops i1
  obtain ⟨h1', h2'⟩ := run_ruleMap ho d ops' _ (initWorld_reg s) hops' i1
  unfold inForce
  rw [RuleMap.determined ho _ _ h1 h1' fun r => by rw [h2 r, h2' r, i2 r, hc r]]

/-- C14: adding a rule without a function throws and changes nothing; adding any other rule succeeds, as does every
removal. -/
theorem C14_outcomes (D : Decls) (s : DomId → Settings) (ops : List Op) (d : DomId) (r : Rule) :
    ((ruleOf D r).apply = none → step D (run D (initWorld s) ops) (.addRule d r) = (.error .noFunc, run D (initWorld s) ops)) ∧
    ((ruleOf D r).apply ≠ none → (step D (run D (initWorld s) ops) (.addRule d r)).1 = .ok ()) ∧
    (step D (run D (initWorld s) ops) (.removeRule d r)).1 = .ok () := by
  generalize run D (initWorld s) ops = W
  refine ⟨?_, ?_, ?_⟩
  · intro h
    rcases addRule_rules D W d r with ⟨-, h2⟩ | ⟨h2, -⟩
    · exact h2
    · rw [h] at h2; simp at h2
  · intro h
    rcases addRule_rules D W d r with ⟨h2, -⟩ | ⟨-, h2, -⟩
    · exact absurd (by simpa using h2) h
    · exact h2
  · show (removeRule D W d r).1 = .ok ()
    unfold removeRule
    simp only
    split
    · rfl
    · split <;> rfl

/-- Rules for examples; rule 4 has a smaller order priority than the others, rules 1, 2, 3 form a cycle: they have the
names "ac", "a" (at the same place) and "ab". Rule 5 is called "b". -/
def ruleDecls : Decls where
  mem := fun a => if a = 8 ∨ a = 16 then 97 else if a = 9 then 99 else if a = 17 then 98 else if a = 24 then 98 else 0
  canonName := ⟨24, 25⟩
  mix := fun _ => { name := ⟨0, 0⟩ }
  feat := fun _ => { name := ⟨0, 0⟩ }
  userRule := fun r => { name := if r = 1 then ⟨8, 10⟩ else if r = 2 then ⟨8, 9⟩ else if r = 3 then ⟨16, 18⟩ else ⟨24, 25⟩,
                         apply := some fun _ ms => .ok ms, orderPriority := if r = 4 then -1 else 0 }
  cls := fun _ => { name := ⟨0, 0⟩, matchesT := fun _ => true }

/-- C14 is false in general: three rules with valid, pairwise different names of which no arrangement is in order, so
that the rules in force cannot be ordered. -/
theorem C14_rule_order_refuted :
    (∀ r, r < 4 → 0 < r → (ruleOf ruleDecls r).name.Valid) ∧
    (∀ a b, a < 4 → 0 < a → b < 4 → 0 < b → a ≠ b →
      (ruleOf ruleDecls a).name.chars ruleDecls.mem ≠ (ruleOf ruleDecls b).name.chars ruleDecls.mem) ∧
    (ruleLt ruleDecls 1 2 = true ∧ ruleLt ruleDecls 2 3 = true ∧ ruleLt ruleDecls 3 1 = true) := by
  refine ⟨by decide, ?_, by decide⟩
  intro a b h1 h2 h3 h4
  have : a = 1 ∨ a = 2 ∨ a = 3 := by omega
  have : b = 1 ∨ b = 2 ∨ b = 3 := by omega
  rcases ‹a = 1 ∨ _› with rfl | rfl | rfl <;> rcases ‹b = 1 ∨ _› with rfl | rfl | rfl <;> decide

/-- The hypotheses are met by rules 0, 1, 3, 4, 5 (rule 5 is called like rule 0, rule 0 has the greatest priority
value). -/
example : RuleNamesOk ruleDecls (fun r => r = 0 ∨ r = 1 ∨ r = 3 ∨ r = 4 ∨ r = 5) := by
  refine ⟨?_, ?_⟩
  · rintro r (rfl | rfl | rfl | rfl | rfl) <;> decide
  · rintro a b (rfl | rfl | rfl | rfl | rfl) (rfl | rfl | rfl | rfl | rfl) h <;> first | rfl | exact absurd h (by decide)
example : inForce (run ruleDecls (initWorld fun _ => { canonicalize := true }) [.addRule 0 5, .addRule 0 1, .addRule 0 3,
    .removeRule 0 4, .addRule 0 4, .addRule 0 3, .removeRule 0 3, .removeRule 0 5, .addRule 1 5]) 0 = [4, 3, 1, 0] := by
  decide +kernel

end Dnmx.Props
