import Verif.Model.MixinData
import Verif.Proofs.RuleMapLemmas
import Verif.Proofs.TypeLemmas
import Verif.Proofs.HistoryLemmas
import Verif.Proofs.SystemLemmas

/-!
# Lemmas: mixin definitions with rules
-/

set_option linter.unusedSimpArgs false
set_option linter.unusedVariables false

namespace Dnmx
open Spec

/-- the world with other rules and stored queries in one domain -/
def reRule (W : World) (d : DomId) (rs : List (Rule × Nat)) (qs : List (List Mix × TypeId)) : World :=
  W.setDom d { W.doms d with rules := rs, queries := qs }

theorem setDom_setDom (W : World) (d : DomId) (x y : Dom) : (W.setDom d x).setDom d y = W.setDom d y := by
  unfold World.setDom
  congr 1
  funext d'
  simp only [upd]
  by_cases h : d' = d <;> simp [h]

theorem addRule_reRule (D : Decls) (W : World) (d : DomId) (r : Rule) : ∃ rs qs, (addRule D W d r).2 = reRule W d rs qs := by
  have same : W = reRule W d (W.doms d).rules (W.doms d).queries := by
    unfold reRule World.setDom
    have : upd W.doms d { W.doms d with rules := (W.doms d).rules, queries := (W.doms d).queries } = W.doms := by
      funext d'; simp only [upd]; by_cases h : d' = d <;> simp [h]
    rw [this]
  unfold addRule
  split
  · exact ⟨_, _, same⟩
  · simp only
    split
    · exact ⟨_, _, rfl⟩
    · exact ⟨_, _, rfl⟩

theorem removeRule_reRule (D : Decls) (W : World) (d : DomId) (r : Rule) : ∃ rs qs, (removeRule D W d r).2 = reRule W d rs qs := by
  have same : W = reRule W d (W.doms d).rules (W.doms d).queries := by
    unfold reRule World.setDom
    have : upd W.doms d { W.doms d with rules := (W.doms d).rules, queries := (W.doms d).queries } = W.doms := by
      funext d'; simp only [upd]; by_cases h : d' = d <;> simp [h]
    rw [this]
  unfold removeRule
  simp only
  split
  · exact ⟨_, _, same⟩
  · split
    · exact ⟨_, _, rfl⟩
    · exact ⟨_, _, rfl⟩

theorem reRule_reRule (W : World) (d : DomId) (rs rs' : List (Rule × Nat)) (qs qs' : List (List Mix × TypeId)) :
    reRule (reRule W d rs qs) d rs' qs' = reRule W d rs' qs' := by
  unfold reRule
  rw [setDom_same, setDom_setDom]

theorem reRule_same (W : World) (d : DomId) : reRule W d (W.doms d).rules (W.doms d).queries = W := by
  unfold reRule World.setDom
  have : upd W.doms d { W.doms d with rules := (W.doms d).rules, queries := (W.doms d).queries } = W.doms := by
    funext d'; simp only [upd]; by_cases h : d' = d <;> simp [h]
  rw [this]

theorem addRules_spec (D : Decls) (d : DomId) : ∀ (rules : List Rule) (W : World),
    (∃ rs qs, (addRules D W d rules).2 = reRule W d rs qs) ∧
    ((addRules D W d rules).1 = .ok () ↔ ∀ r ∈ rules, (ruleOf D r).apply ≠ none) ∧
    ((addRules D W d rules).1 = .ok () → (addRules D W d rules).2 = run D W (rules.map (.addRule d ·)))
  | [], W => ⟨⟨_, _, (reRule_same W d).symm⟩, by simp [addRules], fun _ => rfl⟩
  | r :: rs, W => by
    unfold addRules
    rcases addRule_rules D W d r with ⟨h1, h2⟩ | ⟨h1, h2, -⟩
    · rw [h2]
      refine ⟨⟨_, _, (reRule_same W d).symm⟩, ?_, by simp⟩
      simp only [reduceCtorEq, false_iff]
      intro hh
      exact hh r (by simp) (by simpa using h1)
    · obtain ⟨a, b, hab⟩ := addRule_reRule D W d r
      have e : addRule D W d r = (.ok (), (addRule D W d r).2) := by rw [← h2]
      rw [e]
      simp only
      obtain ⟨⟨x, y, i1⟩, i2, i3⟩ := addRules_spec D d rs (addRule D W d r).2
      refine ⟨⟨x, y, by rw [i1, hab, reRule_reRule]⟩, ?_, ?_⟩
      · rw [i2]
        constructor
        · intro hh q hq
          rcases List.mem_cons.1 hq with rfl | hq
          · intro hn; rw [hn] at h1; simp at h1
          · exact hh q hq
        · intro hh q hq; exact hh q (by simp [hq])
      · intro hh; rw [i3 hh]; rfl

theorem registerFeature_reRule (D : Decls) (W : World) (d : DomId) (rs : List (Rule × Nat)) (qs : List (List Mix × TypeId)) (f : Feat) :
    registerFeature D (reRule W d rs qs) d f = ((registerFeature D W d f).1, reRule (registerFeature D W d f).2 d rs qs) := by
  unfold registerFeature
  have e1 : ((reRule W d rs qs).doms d).settings = (W.doms d).settings := by simp [reRule]
  have e2 : ((reRule W d rs qs).doms d).feats = (W.doms d).feats := by simp [reRule]
  have e3 : (reRule W d rs qs).featId = W.featId := rfl
  rw [e1, e2, e3]
  cases basicRegister D.featName (!(W.doms d).settings.allowDupFeat) (W.featId f) f (W.doms d).feats with
  | error e => rfl
  | ok p =>
    obtain ⟨id, sparse⟩ := p
    simp only [reRule, setDom_same, Prod.mk.injEq, true_and]
    unfold World.setDom
    simp only [World.mk.injEq, and_true, true_and]
    funext d'
    simp only [upd]
    by_cases h : d' = d <;> simp [h]

theorem registerFeatures_reRule (D : Decls) (d : DomId) (rs : List (Rule × Nat)) (qs : List (List Mix × TypeId)) : ∀ (fs : List Feat) (W : World),
    registerFeatures D (reRule W d rs qs) d fs = ((registerFeatures D W d fs).1, reRule (registerFeatures D W d fs).2 d rs qs)
  | [], W => rfl
  | f :: fs, W => by
    unfold registerFeatures
    have e3 : (reRule W d rs qs).featId = W.featId := rfl
    rw [e3]
    by_cases h : W.featId f ≠ none
    · rw [if_pos h, if_pos h]; exact registerFeatures_reRule D d rs qs fs W
    · rw [if_neg h, if_neg h, registerFeature_reRule]
      cases hr : registerFeature D W d f with
      | mk o W1 =>
        cases o with
        | error e => rfl
        | ok u => exact registerFeatures_reRule D d rs qs fs W1

theorem registerMixin_reRule (D : Decls) (W : World) (d : DomId) (rs : List (Rule × Nat)) (qs : List (List Mix × TypeId)) (m : Mix) :
    registerMixin D (reRule W d rs qs) d m = ((registerMixin D W d m).1, reRule (registerMixin D W d m).2 d rs qs) := by
  unfold registerMixin
  have e3 : (reRule W d rs qs).mixDom = W.mixDom := rfl
  rw [e3, registerFeatures_reRule]
  by_cases h : W.mixDom m ≠ none ∧ W.mixDom m ≠ some d
  · rw [if_pos h, if_pos h]
  · rw [if_neg h, if_neg h]
    cases hr : registerFeatures D W d ((D.mix m).feats.map (·.feat)) with
    | mk o W1 =>
      cases o with
      | error e => rfl
      | ok u =>
        simp only
        have e1 : ((reRule W1 d rs qs).doms d).settings = (W1.doms d).settings := by simp [reRule]
        have e2 : ((reRule W1 d rs qs).doms d).mixins = (W1.doms d).mixins := by simp [reRule]
        have e4 : (reRule W1 d rs qs).mixId = W1.mixId := rfl
        rw [e1, e2, e4]
        cases basicRegister D.mixName (!(W1.doms d).settings.allowDupMix) (W1.mixId m) m (W1.doms d).mixins with
        | error e => rfl
        | ok p =>
          obtain ⟨id, sparse⟩ := p
          simp only [reRule, setDom_same, Prod.mk.injEq, true_and]
          unfold World.setDom
          simp only [World.mk.injEq, and_true, true_and]
          funext d'
          simp only [upd]
          by_cases h : d' = d <;> simp [h]

theorem registerIn_outcome (D : Decls) (W : World) (d : DomId) (m : Mix) (rules : List Rule) :
    (registerIn D W d m rules).1 = .ok () ↔ (∀ r ∈ rules, (ruleOf D r).apply ≠ none) ∧ (registerMixin D W d m).1 = .ok () := by
  obtain ⟨⟨x, y, i1⟩, i2, i3⟩ := addRules_spec D d rules W
  unfold registerIn
  rw [← i2]
  cases hr : addRules D W d rules with
  | mk o W1 =>
    rw [hr] at i1 i3
    cases o with
    | error e => simp
    | ok u =>
      simp only at i1
      simp only [true_and]
      rw [i1, registerMixin_reRule]

theorem registerIn_run (D : Decls) (W : World) (d : DomId) (m : Mix) (rules : List Rule) (h : (registerIn D W d m rules).1 = .ok ()) :
    (registerIn D W d m rules).2 = run D W (rules.map (.addRule d ·) ++ [.regMixin d m]) := by
  have h0 := (registerIn_outcome D W d m rules).1 h
  obtain ⟨-, i2, i3⟩ := addRules_spec D d rules W
  have hok := i2.2 h0.1
  have := i3 hok
  rw [run_append, ← this]
  unfold registerIn
  cases hr : addRules D W d rules with
  | mk o W1 =>
    rw [hr] at hok
    simp only at hok; subst hok
    rfl

theorem removeRules_run (D : Decls) (d : DomId) : ∀ (rules : List Rule) (W : World), removeRules D W d rules = run D W (rules.map (.removeRule d ·))
  | [], W => rfl
  | r :: rs, W => removeRules_run D d rs _

theorem removeRules_reRule (D : Decls) (d : DomId) : ∀ (rules : List Rule) (W : World), ∃ rs qs, removeRules D W d rules = reRule W d rs qs
  | [], W => ⟨_, _, (reRule_same W d).symm⟩
  | r :: rs, W => by
    obtain ⟨a, b, h1⟩ := removeRule_reRule D W d r
    obtain ⟨x, y, h2⟩ := removeRules_reRule D d rs (removeRule D W d r).2
    exact ⟨x, y, by show removeRules D (removeRule D W d r).2 d rs = _; rw [h2, h1, reRule_reRule]⟩

/-- how often a rule with a function is added by some calls -/
def addsOf (D : Decls) (d : DomId) (r : Rule) : List Op → Nat
  | [] => 0
  | op :: ops => (match op with
      | .addRule d' r' => if d' = d ∧ r' = r ∧ (ruleOf D r).apply.isNone = false then 1 else 0
      | _ => 0) + addsOf D d r ops

theorem ruleCount_adds (D : Decls) (d : DomId) (r : Rule) : ∀ (ops : List Op) (W : World) (n : Nat), (∀ op ∈ ops, ∀ r, op ≠ .removeRule d r) →
    ruleCount d r n (trace D W ops) = n + addsOf D d r ops
  | [], W, n, _ => rfl
  | op :: ops, W, n, h => by
    show ruleCount d r (ruleCountStep d r n (op, (step D W op).1)) (trace D (step D W op).2 ops) = _
    rw [ruleCount_adds D d r ops _ _ (fun o ho => h o (by simp [ho]))]
    show _ = n + (_ + addsOf D d r ops)
    rw [← Nat.add_assoc]
    congr 1
    cases op with
    | addRule d' r' =>
      show ruleCountStep d r n (.addRule d' r', (addRule D W d' r').1) = _
      rcases addRule_rules D W d' r' with ⟨h1, h2⟩ | ⟨h1, h2, -⟩
      · rw [h2]
        simp only [ruleCountStep]
        by_cases hr : r' = r
        · subst hr; simp [h1]
        · simp [hr]
      · rw [h2]
        simp only [ruleCountStep]
        by_cases hr : r' = r
        · subst hr
          by_cases hd : d' = d <;> simp [hd, h1]
        · simp [hr]
    | removeRule d' r' =>
      have : d' ≠ d := by rintro rfl; exact h _ (by simp) r' rfl
      simp [ruleCountStep, this]
    | _ => simp [ruleCountStep]

theorem ruleCount_removes (D : Decls) (d : DomId) (r : Rule) : ∀ (rules : List Rule) (W : World) (n : Nat),
    ruleCount d r n (trace D W (rules.map (.removeRule d ·))) = n - rules.count r
  | [], W, n => rfl
  | q :: rules, W, n => by
    show ruleCount d r (ruleCountStep d r n (.removeRule d q, (step D W (.removeRule d q)).1)) (trace D (step D W (.removeRule d q)).2 (rules.map (.removeRule d ·))) = _
    rw [ruleCount_removes D d r rules]
    simp only [ruleCountStep, true_and]
    by_cases h : q = r
    · subst h; simp; omega
    · simp [h]

theorem addsOf_append (D : Decls) (d : DomId) (r : Rule) : ∀ (a b : List Op), addsOf D d r (a ++ b) = addsOf D d r a + addsOf D d r b
  | [], b => by simp [addsOf]
  | op :: a, b => by
    show _ + addsOf D d r (a ++ b) = (_ + addsOf D d r a) + addsOf D d r b
    rw [addsOf_append D d r a b, Nat.add_assoc]

theorem addsOf_map (D : Decls) (d : DomId) (r : Rule) : ∀ (rules : List Rule), (∀ q ∈ rules, (ruleOf D q).apply ≠ none) → addsOf D d r (rules.map (.addRule d ·)) = rules.count r
  | [], _ => rfl
  | q :: rules, h => by
    show (if d = d ∧ q = r ∧ (ruleOf D r).apply.isNone = false then 1 else 0) + addsOf D d r (rules.map (.addRule d ·)) = _
    rw [addsOf_map D d r rules (fun x hx => h x (by simp [hx]))]
    by_cases hq : q = r
    · subst hq
      have : (ruleOf D q).apply.isNone = false := by
        cases hx : (ruleOf D q).apply with
        | none => exact absurd hx (h q (by simp))
        | some f => rfl
      simp [this]; omega
    · simp [hq]

end Dnmx
