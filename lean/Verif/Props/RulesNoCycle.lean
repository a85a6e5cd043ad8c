import Verif.Props.OrderExact
import Verif.Props.Traverse
import Verif.Props.Dump

/-! C65 and C85 about rules, for all rules of which no three are in a cycle, whatever their names (by `C14_exactly` the weakest condition). -/

namespace Dnmx.Props
open Spec

/-- C65, whatever the names of the rules: the traversal visits exactly the rules in force, once each, in the order of the comparison, with the number of additions less that of removals. -/
theorem C65_rules_nocycle (D : Decls) (S : Rule → Prop) (hS : NoCycleOf S (ruleLt D)) (s : DomId → Settings) (ops : List Op)
    (hops : ∀ op ∈ ops, op.rulesIn S) (d : DomId) (h0 : (s d).canonicalize = true → S 0) :
    (∀ r n, (r, n) ∈ traverseRules (run D (initWorld s) ops) d ↔ n = ruleCount d r (initialCount (s d) r) (trace D (initWorld s) ops) ∧ 0 < n) ∧
    ((traverseRules (run D (initWorld s) ops) d).map (·.1)).Pairwise (fun a b => ruleLt D a b = true) ∧
    ((traverseRules (run D (initWorld s) ops) d).map (·.1)).Nodup ∧
    (traverseRules (run D (initWorld s) ops) d).length = numMutationRules (run D (initWorld s) ops) d := by
  have ho := (strictTotal_iff_noCycle (ruleLt_decides D S)).2 hS
  obtain ⟨i1, i2⟩ := initWorld_ruleMap D S s d h0
  obtain ⟨h1, h2⟩ := run_ruleMap ho d ops _ (initWorld_reg s) hops i1
  refine ⟨fun r n => ?_, ?_, ?_, rfl⟩
  · rw [← i2 r, ← h2 r]
    unfold traverseRules
    rw [mem_iff_countOf ho _ h1 r n]
  · unfold traverseRules
    rw [List.pairwise_map]
    exact h1.sorted
  · unfold traverseRules List.Nodup
    rw [List.pairwise_map]
    apply h1.sorted.imp_of_mem
    intro a b ha _ hab
    exact lt_ne ho (h1.keys a ha) hab

/-- C85, whatever the names of the rules: the section about rules lists exactly the rules in force, in the order in which they are applied, with the number of additions less that of
removals. -/
theorem C85_rules_nocycle (D : Decls) (N : DomId → Option (List UInt8)) (num : TypeId → Nat) (s : DomId → Settings) (ops : List Op) (S : Rule → Prop) (hS : NoCycleOf S (ruleLt D))
    (hops : ∀ op ∈ ops, op.rulesIn S) (d : DomId) (h0 : (s d).canonicalize = true → S 0)
    (fl : DmpFlags) (doc : List Line) (hf : fl.rules = true) (h : dmpDomain D N num fl (run D (initWorld s) ops) d = some doc) :
    ∃ n body, readSection " Mutation Rules" doc = some (n, body) ∧ n = body.length ∧
      ∃ L : List (Rule × Nat), (∀ r k, (r, k) ∈ L ↔ k = ruleCount d r (initialCount (s d) r) (trace D (initWorld s) ops) ∧ 0 < k) ∧
        (L.map (·.1)).Pairwise (fun a b => ruleLt D a b = true) ∧
        body.map ruleLine = L.map (fun x => some ((ruleOf D x.1).name.chars D.mem, (x.2 : Int))) := by
  obtain ⟨h1, h2, -, -⟩ := C65_rules_nocycle D S hS s ops hops d h0
  refine ⟨_, _, (dmpDomain_sections D N num h).2.2.1 hf, by simp [numMutationRules, traverseRules], traverseRules (run D (initWorld s) ops) d, h1, h2, ?_⟩
  rw [List.map_map]
  apply List.map_congr_left
  intro x hx
  simp [dmpRule, ruleLine]

-- rules 1 to 5 of `ruleDecls` without rule 1: no cycle, though names alias
example : NoCycleOf (fun r => r = 2 ∨ r = 3 ∨ r = 4 ∨ r = 5) (ruleLt ruleDecls) ∧
    traverseRules (run ruleDecls (initWorld fun _ => {}) [.addRule 0 5, .addRule 0 2, .addRule 0 3, .addRule 0 5, .removeRule 0 3]) 0 = [(2, 1), (5, 2)] := by
  constructor
  · rintro ⟨a, b, c, ha, hb, hc, h1, h2, h3⟩
    rcases ha with rfl | rfl | rfl | rfl <;> rcases hb with rfl | rfl | rfl | rfl <;> first | (revert h1; decide) | (rcases hc with rfl | rfl | rfl | rfl <;> first | (revert h2; decide) | (revert h3; decide))
  · decide +kernel

end Dnmx.Props
