import Verif.Proofs.NoCycleLemmas
import Verif.Props.RuleSet
import Verif.Props.Compare
import Verif.Model.Standard

/-!
# C14, C43: the orders of rules and types exactly

No condition on names: the comparisons of rules and of mixins always put any two different ones in one order. What can go wrong is a cycle of three (names that begin at the same address with different
lengths), and the claims are true exactly if there is none.
-/

namespace Dnmx.Props
open Spec

/-- What C14 says of all histories with rules of `S`: each rule that counts as added is in force, once, in order. -/
def RulesAsCounted (D : Decls) (S : Rule → Prop) : Prop :=
  ∀ (s : DomId → Settings) (ops : List Op) (d : DomId), (∀ op ∈ ops, op.rulesIn S) → ((s d).canonicalize = true → S 0) →
    (∀ r, r ∈ inForce (run D (initWorld s) ops) d ↔ ruleCount d r (initialCount (s d) r) (trace D (initWorld s) ops) > 0) ∧
    (inForce (run D (initWorld s) ops) d).Nodup ∧
    (inForce (run D (initWorld s) ops) d).Pairwise (fun a b => ruleLt D a b = true)

/-- Each rule is in force at most once, after all histories with rules of `S`. -/
def RulesOnce (D : Decls) (S : Rule → Prop) : Prop :=
  ∀ (s : DomId → Settings) (ops : List Op) (d : DomId), (∀ op ∈ ops, op.rulesIn S) → ((s d).canonicalize = true → S 0) → (inForce (run D (initWorld s) ops) d).Nodup

/-- The rules in force depend only on how often each rule counts as added. -/
def CallsInAnyOrder (D : Decls) (S : Rule → Prop) : Prop :=
  ∀ (s : DomId → Settings) (ops ops' : List Op) (d : DomId), (∀ op ∈ ops, op.rulesIn S) → (∀ op ∈ ops', op.rulesIn S) → ((s d).canonicalize = true → S 0) →
    (∀ r, ruleCount d r (initialCount (s d) r) (trace D (initWorld s) ops) = ruleCount d r (initialCount (s d) r) (trace D (initWorld s) ops')) →
    inForce (run D (initWorld s) ops) d = inForce (run D (initWorld s) ops') d

theorem adds_in {S : Rule → Prop} {rs : List Rule} (h : ∀ r ∈ rs, S r) : ∀ op ∈ rs.map (Op.addRule 0), op.rulesIn S := by
  intro op hop
  obtain ⟨r, hr, rfl⟩ := List.mem_map.1 hop
  exact h r hr

/-- C14, exactly: for any set of rules with functions, whatever their names, these are equivalent: no three of them are in a cycle; in all histories the rules in force are those that count as added, each
once and in order; in all histories each rule is in force at most once; the order of the calls does not matter. -/
theorem C14_exactly (D : Decls) (S : Rule → Prop) (hf : ∀ r, S r → (ruleOf D r).apply ≠ none) :
    (RulesAsCounted D S ↔ NoCycleOf S (ruleLt D)) ∧ (RulesOnce D S ↔ NoCycleOf S (ruleLt D)) ∧ (CallsInAnyOrder D S ↔ NoCycleOf S (ruleLt D)) := by
  have hd := ruleLt_decides D S
  have fwd : NoCycleOf S (ruleLt D) → RulesAsCounted D S := by
    intro hn s ops d hops h0
    have ho := (strictTotal_iff_noCycle hd).2 hn
    obtain ⟨i1, i2⟩ := initWorld_ruleMap D S s d h0
    obtain ⟨h1, h2⟩ := run_ruleMap ho d ops _ (initWorld_reg s) hops i1
    refine ⟨fun r => ?_, ?_, ?_⟩
    · rw [← i2 r, ← h2 r]
      unfold inForce
      rw [List.mem_map]
      constructor
      · rintro ⟨⟨k, n⟩, h3, rfl⟩
        have := (mem_iff_countOf ho _ h1 k n).1 h3
        simp only; omega
      · intro h3
        exact ⟨(r, _), (mem_iff_countOf ho _ h1 r _).2 ⟨rfl, h3⟩, rfl⟩
    · unfold inForce List.Nodup
      rw [List.pairwise_map]
      apply h1.sorted.imp_of_mem
      intro a b ha _ hab
      exact lt_ne ho (h1.keys a ha) hab
    · unfold inForce
      rw [List.pairwise_map]
      exact h1.sorted
  have back : RulesOnce D S → NoCycleOf S (ruleLt D) := by
    rintro h ⟨a, b, c, ha, hb, hc, h1, h2, h3⟩
    have hS : ∀ r ∈ [a, b, c, b], S r := by simp [ha, hb, hc]
    have := h (fun _ => {}) ([a, b, c, b].map (Op.addRule 0)) 0 (adds_in hS) (fun e => Bool.noConfusion e)
    unfold inForce at this
    rw [(run_adds D 0 [a, b, c, b] _ (fun r hr => hf r (hS r hr))).1] at this
    have e := (mapOf_three hd ha hb hc h1 h2 h3).2
    unfold mapOf at e
    rw [show ((initWorld fun _ => {}).doms 0).rules = [] from rfl, e] at this
    simp at this
  refine ⟨⟨fun h => back fun s ops d h1 h2 => (h s ops d h1 h2).2.1, fwd⟩, ⟨back, fun hn s ops d h1 h2 => (fwd hn s ops d h1 h2).2.1⟩, ?_, ?_⟩
  · rintro h ⟨a, b, c, ha, hb, hc, h1, h2, h3⟩
    have hS : ∀ r ∈ [a, b, c], S r := by simp [ha, hb, hc]
    have hS' : ∀ r ∈ [b, c, a], S r := by simp [ha, hb, hc]
    have r1 := run_adds D 0 [a, b, c] (initWorld fun _ => {}) (fun r hr => hf r (hS r hr))
    have r2 := run_adds D 0 [b, c, a] (initWorld fun _ => {}) (fun r hr => hf r (hS' r hr))
    have := h (fun _ => {}) ([a, b, c].map (Op.addRule 0)) ([b, c, a].map (Op.addRule 0)) 0 (adds_in hS) (adds_in hS') (fun e => Bool.noConfusion e)
      (fun r => by
        rw [r1.2, r2.2]
        have hp : [a, b, c].Perm [b, c, a] := by
          have := List.perm_append_comm (l₁ := [a]) (l₂ := [b, c])
          simpa using this
        rw [hp.count_eq])
    unfold inForce at this
    rw [r1.1, r2.1] at this
    have e := (mapOf_three hd ha hb hc h1 h2 h3).1
    have e' := (mapOf_three hd hb hc ha h2 h3 h1).1
    unfold mapOf at e e'
    rw [show ((initWorld fun _ => {}).doms 0).rules = [] from rfl, e, e'] at this
    simp at this
    exact (cycle_distinct hd ha hb hc h1 h2 h3).2.2 this.1
  · intro hn s ops ops' d hops hops' h0 hcnt
    have ho := (strictTotal_iff_noCycle hd).2 hn
    obtain ⟨i1, i2⟩ := initWorld_ruleMap D S s d h0
    obtain ⟨h1, h2⟩ := run_ruleMap ho d ops _ (initWorld_reg s) hops i1
    obtain ⟨h1', h2'⟩ := run_ruleMap ho d ops' _ (initWorld_reg s) hops' i1
    unfold inForce
    rw [RuleMap.determined ho _ _ h1 h1' fun r => by rw [h2 r, h2' r, i2 r, hcnt r]]

/-- Both sides occur: rules 2, 3, 4 and 5 of `ruleDecls` are in no cycle, rules 1, 2 and 3 are in one. -/
example : NoCycleOf (fun r => r = 2 ∨ r = 3 ∨ r = 4 ∨ r = 5) (ruleLt ruleDecls) ∧ ¬ NoCycleOf (fun r => r < 4) (ruleLt ruleDecls) := by
  constructor
  · rintro ⟨a, b, c, ha, hb, hc, h1, h2, h3⟩
    rcases ha with rfl | rfl | rfl | rfl <;> rcases hb with rfl | rfl | rfl | rfl <;> first | (revert h1; decide) | (rcases hc with rfl | rfl | rfl | rfl <;> first | (revert h2; decide) | (revert h3; decide))
  · intro h
    exact h ⟨1, 2, 3, by decide, by decide, by decide, by decide, by decide, by decide⟩

/-- C14: also with the binary search that the library does, the order of the calls matters if there is a cycle. -/
theorem C14_cycle_matters (D : Decls) (d : DomId) (W : World) (he : (W.doms d).rules = []) (a b c : Rule) (hf : ∀ r ∈ [a, b, c], (ruleOf D r).apply ≠ none)
    (h1 : ruleLt D a b = true) (h2 : ruleLt D b c = true) (h3 : ruleLt D c a = true) :
    inForce (addRuleB D (addRuleB D (addRuleB D W d a).2 d b).2 d c).2 d = [a, b, c] ∧
    inForce (addRuleB D (addRuleB D (addRuleB D W d b).2 d c).2 d a).2 d = [b, c, a] ∧ [a, b, c] ≠ [b, c, a] := by
  have hd := ruleLt_decides D (fun _ => True)
  have key : ∀ (W : World) r, (ruleOf D r).apply ≠ none → ((addRuleB D W d r).2.doms d).rules = (ruleIncrB D r (W.doms d).rules).1 := by
    intro W r hr
    unfold addRuleB
    rw [if_neg (by simpa using hr)]
    simp only
    split <;> simp
  have two : ∀ x y z : Rule, (∀ r ∈ [x, y, z], (ruleOf D r).apply ≠ none) → ruleLt D x y = true → ruleLt D y z = true →
      inForce (addRuleB D (addRuleB D (addRuleB D W d x).2 d y).2 d z).2 d = [x, y, z] := by
    intro x y z hr hxy hyz
    unfold inForce
    rw [key _ z (hr z (by simp)), key _ y (hr y (by simp)), key _ x (hr x (by simp)), he]
    simp [ruleIncrB, lowerBound, lowerBoundFrom, hxy, hyz]
  refine ⟨two a b c hf h1 h2, two b c a (fun r hr => hf r (by simp at hr ⊢; rcases hr with h | h | h <;> simp [h])) h2 h3, ?_⟩
  intro h
  simp at h
  exact (cycle_distinct hd trivial trivial trivial h1 h2 h3).1 h.1

example : ruleLt ruleDecls 1 2 = true ∧ ruleLt ruleDecls 2 3 = true ∧ ruleLt ruleDecls 3 1 = true := by decide

/-- C43, exactly: whatever the names of mixins, `type::compare` gives -1, 0 or 1, with 0 only for the same type and the opposite sign the other way round; and three types of a domain go round in a circle
exactly if, at the first place where their compositions differ, they have three mixins whose order does. -/
theorem C43_types_exactly (D : Decls) (s : DomId → Settings) (ops : List Op) (addr : DomId → Nat) (d : DomId) (t t' t'' : TypeId) (r r' r'' : TypeRec)
    (hr : ((run D (initWorld s) ops).doms d).typeAt d t = some r) (hr' : ((run D (initWorld s) ops).doms d).typeAt d t' = some r')
    (hr'' : ((run D (initWorld s) ops).doms d).typeAt d t'' = some r'') :
    (∃ c, typeCompare D (run D (initWorld s) ops) addr d t d t' = some c ∧ typeCompare D (run D (initWorld s) ops) addr d t' d t = some (-c) ∧ (c = -1 ∨ c = 0 ∨ c = 1) ∧ (c = 0 ↔ t = t')) ∧
    ((typeCompare D (run D (initWorld s) ops) addr d t d t' = some (-1) ∧ typeCompare D (run D (initWorld s) ops) addr d t' d t'' = some (-1) ∧ typeCompare D (run D (initWorld s) ops) addr d t'' d t = some (-1)) ↔
      ∃ p a b c as bs cs, r.mixins = p ++ a :: as ∧ r'.mixins = p ++ b :: bs ∧ r''.mixins = p ++ c :: cs ∧
        canonicalOrder D (run D (initWorld s) ops).mixId a b = true ∧ canonicalOrder D (run D (initWorld s) ops).mixId b c = true ∧ canonicalOrder D (run D (initWorld s) ops).mixId c a = true) := by
  have hi := reachable_types D s ops d
  generalize run D (initWorld s) ops = W at *
  have hd := canonicalOrder_decides D W.mixId (fun _ => True)
  have anti : ∀ as bs : List Mix, as ≠ bs → cmpMixins (canonicalOrder D W.mixId) bs as = - cmpMixins (canonicalOrder D W.mixId) as bs := by
    intro as
    induction as with
    | nil => intro bs h; cases bs with
      | nil => exact absurd rfl h
      | cons b bs => rfl
    | cons a as ih =>
      intro bs h
      cases bs with
      | nil => rfl
      | cons b bs =>
        unfold cmpMixins
        by_cases hab : a = b
        · subst hab
          rw [if_neg (by simp), if_neg (by simp)]
          exact ih bs (fun e => h (by rw [e]))
        · rw [if_pos hab, if_pos (fun e => hab e.symm)]
          rcases hd.total a b trivial trivial hab with h1 | h1
          · rw [h1, hd.asymm a b trivial trivial h1]; simp
          · rw [h1, hd.asymm b a trivial trivial h1]; simp
  constructor
  · by_cases htt : t = t'
    · subst htt
      exact ⟨0, typeCompare_self addr t, typeCompare_self addr t, .inr (.inl rfl), by simp⟩
    · refine ⟨_, typeCompare_ne hr hr' htt, ?_, ?_, ?_⟩
      · rw [typeCompare_ne hr' hr (fun e => htt e.symm), anti _ _ (typeAt_mixins_inj hi hr hr' htt)]
      · rcases cmpMixins_cases (canonicalOrder D W.mixId) r.mixins r'.mixins with h | h <;> simp [h]
      · rcases cmpMixins_cases (canonicalOrder D W.mixId) r.mixins r'.mixins with h | h <;> simp [h, htt]
  · by_cases h1 : t = t'
    · subst h1
      rw [hr] at hr'; cases hr'
      constructor
      · rintro ⟨h, -⟩; rw [typeCompare_self] at h; simp at h
      · rintro ⟨p, a, b, c, as, bs, cs, e1, e2, -, h, -⟩
        rw [e1] at e2
        simp at e2
        rw [e2.1, hd.irrefl b trivial] at h; exact Bool.noConfusion h
    · by_cases h2 : t' = t''
      · subst h2
        rw [hr'] at hr''; cases hr''
        constructor
        · rintro ⟨-, h, -⟩; rw [typeCompare_self] at h; simp at h
        · rintro ⟨p, a, b, c, as, bs, cs, -, e2, e3, -, h, -⟩
          rw [e2] at e3
          simp at e3
          rw [e3.1, hd.irrefl c trivial] at h; exact Bool.noConfusion h
      · by_cases h3 : t'' = t
        · subst h3
          rw [hr] at hr''; cases hr''
          constructor
          · rintro ⟨-, -, h⟩; rw [typeCompare_self] at h; simp at h
          · rintro ⟨p, a, b, c, as, bs, cs, e1, -, e3, -, -, h⟩
            rw [e1] at e3
            simp at e3
            rw [e3.1, hd.irrefl c trivial] at h; exact Bool.noConfusion h
        · rw [typeCompare_ne hr hr' h1, typeCompare_ne hr' hr'' h2, typeCompare_ne hr'' hr h3]
          simp only [Option.some.injEq]
          exact cmpMixins_cycle hd _ _ _ (typeAt_mixins_inj hi hr hr' h1) (typeAt_mixins_inj hi hr' hr'' h2) (typeAt_mixins_inj hi hr'' hr h3)

/-- A cycle: the types of `C43_order_of_types_refuted`, which differ in their first mixins. -/
example : canonicalOrder exDecls (run exDecls (initWorld fun _ => {}) [.regMixin 0 1, .regMixin 0 0, .regMixin 0 2]).mixId 1 0 = true ∧
    canonicalOrder exDecls (run exDecls (initWorld fun _ => {}) [.regMixin 0 1, .regMixin 0 0, .regMixin 0 2]).mixId 0 2 = true ∧
    canonicalOrder exDecls (run exDecls (initWorld fun _ => {}) [.regMixin 0 1, .regMixin 0 0, .regMixin 0 2]).mixId 2 1 = true := by decide +kernel

end Dnmx.Props
