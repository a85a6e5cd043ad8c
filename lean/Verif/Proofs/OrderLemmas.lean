import Verif.Model.Decl
import Verif.Proofs.SvLemmas

namespace Dnmx
open Spec

theorem canonicalOrder_strictTotal (D : Decls) (ids : Mix → Option Nat) (S : Mix → Prop)
    (hv : ∀ m, S m → (D.mix m).name.Valid)
    (hal : ∀ a b, S a → S b → (D.mix a).name.first = (D.mix b).name.first → (D.mix a).name.len = (D.mix b).name.len) :
    StrictTotalOn S (canonicalOrder D ids) := by
  have hcmp : ∀ a b, S a → S b → ComparesLex (svCmp D.mem (D.mix a).name (D.mix b).name) (D.mixName a) (D.mixName b) :=
    fun a b ha hb => svCmp_lex D.mem _ _ (hv a ha) (hv b hb) (hal a b ha hb)
  refine ⟨?_, ?_, ?_⟩
  · intro a ha
    have h0 := (hcmp a a ha ha).zero.2 rfl
    simp [canonicalOrder, h0]
  · intro a b c ha hb hc hab hbc
    have cab := hcmp a b ha hb
    have cbc := hcmp b c hb hc
    have cac := hcmp a c ha hc
    unfold canonicalOrder at *
    generalize hx : svCmp D.mem (D.mix a).name (D.mix b).name = x at *
    generalize hy : svCmp D.mem (D.mix b).name (D.mix c).name = y at *
    generalize hz : svCmp D.mem (D.mix a).name (D.mix c).name = z at *
    by_cases hp1 : (D.mix a).orderPriority = (D.mix b).orderPriority
    · by_cases hp2 : (D.mix b).orderPriority = (D.mix c).orderPriority
      · have hp3 := hp1.trans hp2
        simp only [hp1, hp2, ne_eq, not_true_eq_false, if_false] at hab hbc ⊢
        by_cases hx0 : x = 0
        · have e1 := cab.zero.1 hx0
          by_cases hy0 : y = 0
          · have e2 := cbc.zero.1 hy0
            have hz0 : z = 0 := cac.zero.2 (e1.trans e2)
            simp only [hx0, hy0, hz0, not_true_eq_false, if_false] at hab hbc ⊢
            cases hia : ids a with
            | none =>
              cases hib : ids b with
              | none =>
                cases hic : ids c with
                | none => simp [hia, hib, hic] at hab hbc ⊢; omega
                | some k => simp [hib, hic] at hbc
              | some j => simp [hia, hib] at hab
            | some i =>
              cases hib : ids b with
              | none =>
                cases hic : ids c with
                | none => simp
                | some k => simp [hib, hic] at hbc
              | some j =>
                cases hic : ids c with
                | none => simp
                | some k =>
                  simp [hia, hib, hic] at hab hbc ⊢
                  grind
          · simp only [hy0, not_false_eq_true, if_true, decide_eq_true_eq] at hbc
            have : z < 0 := cac.neg.2 (e1 ▸ cbc.neg.1 hbc)
            have hz0 : z ≠ 0 := by omega
            simp [hz0, this]
        · simp only [hx0, not_false_eq_true, if_true, decide_eq_true_eq] at hab
          have l1 := cab.neg.1 hab
          have l2 : LexBefore (D.mixName a) (D.mixName c) := by
            by_cases hy0 : y = 0
            · rw [← cbc.zero.1 hy0]; exact l1
            · simp only [hy0, not_false_eq_true, if_true, decide_eq_true_eq] at hbc
              exact lexBefore_trans l1 (cbc.neg.1 hbc)
          have hz := cac.neg.2 l2
          have hz0 : z ≠ 0 := by omega
          simp [hz0, hz]
      · have hp3 : (D.mix a).orderPriority ≠ (D.mix c).orderPriority := by rw [hp1]; exact hp2
        simp only [hp2, hp3, ne_eq, not_false_eq_true, if_true, decide_eq_true_eq] at hbc ⊢
        omega
    · simp only [hp1, ne_eq, not_false_eq_true, if_true, decide_eq_true_eq] at hab
      have hbc' : (D.mix b).orderPriority ≤ (D.mix c).orderPriority := by
        by_cases hp2 : (D.mix b).orderPriority = (D.mix c).orderPriority
        · omega
        · simp only [hp2, ne_eq, not_false_eq_true, if_true, decide_eq_true_eq] at hbc
          omega
      have hp3 : (D.mix a).orderPriority ≠ (D.mix c).orderPriority := by omega
      simp only [hp3, ne_eq, not_false_eq_true, if_true, decide_eq_true_eq]
      omega
  · intro a b ha hb hne
    have cab := hcmp a b ha hb
    have cba := hcmp b a hb ha
    unfold canonicalOrder
    generalize svCmp D.mem (D.mix a).name (D.mix b).name = x at *
    generalize svCmp D.mem (D.mix b).name (D.mix a).name = y at *
    by_cases hp : (D.mix a).orderPriority = (D.mix b).orderPriority
    · have hp' := hp.symm
      simp only [hp, ne_eq, not_true_eq_false, if_false]
      by_cases hx0 : x = 0
      · have hy0 : y = 0 := cba.zero.2 (cab.zero.1 hx0).symm
        simp only [hx0, hy0, not_true_eq_false, if_false]
        cases hia : ids a <;> cases hib : ids b <;> simp
        · omega
        · rename_i i j
          by_cases hij : i = j
          · subst hij; simp; omega
          · have : ¬ j = i := fun h => hij h.symm
            simp [hij, this]; omega
      · have hy0 : y ≠ 0 := fun h => hx0 (cab.zero.2 (cba.zero.1 h).symm)
        simp only [hx0, hy0, not_false_eq_true, if_true, decide_eq_true_eq]
        rcases lexBefore_total (D.mixName a) (D.mixName b) with h | h | h
        · exact absurd (cab.zero.2 h) hx0
        · exact .inl (cab.neg.2 h)
        · exact .inr (cba.neg.2 h)
    · have hp' : ¬ (D.mix b).orderPriority = (D.mix a).orderPriority := fun h => hp h.symm
      simp only [hp, hp', ne_eq, not_false_eq_true, if_true, decide_eq_true_eq]
      omega

theorem ruleCompare_strictTotal (mem : Mem) (R : Rule → RuleDecl) (S : Rule → Prop)
    (hv : ∀ m, S m → (R m).name.Valid)
    (hal : ∀ a b, S a → S b → (R a).name.first = (R b).name.first → (R a).name.len = (R b).name.len) :
    StrictTotalOn S (ruleCompare mem R) := by
  -- a rule is ordered like a mixin without ids
  have h := canonicalOrder_strictTotal
    { mem := mem, mix := fun a => { name := (R a).name, orderPriority := (R a).orderPriority },
      feat := fun _ => { name := ⟨0, 0⟩ }, userRule := R, cls := fun _ => { name := ⟨0, 0⟩, matchesT := fun _ => true } }
    (fun _ => none) S hv hal
  have e : canonicalOrder
    { mem := mem, mix := fun a => { name := (R a).name, orderPriority := (R a).orderPriority },
      feat := fun _ => { name := ⟨0, 0⟩ }, userRule := R, cls := fun _ => { name := ⟨0, 0⟩, matchesT := fun _ => true } }
    (fun _ => none) = ruleCompare mem R := by
    funext a b
    simp [canonicalOrder, ruleCompare]
  rw [← e]; exact h

end Dnmx
