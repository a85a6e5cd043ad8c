import Verif.Proofs.ClassLemmas
import Verif.Proofs.OrderLemmas
import Verif.Spec.Rules

namespace Dnmx
open Spec

/-- count of a rule in a rule map -/
def countOf (r : Rule) : List (Rule × Nat) → Nat
  | [] => 0
  | (x, n) :: rest => if x = r then n else countOf r rest

/-- a proper rule map -/
structure RuleMap (D : Decls) (S : Rule → Prop) (l : List (Rule × Nat)) : Prop where
  sorted : l.Pairwise (fun a b => ruleLt D a.1 b.1 = true)
  keys : ∀ e ∈ l, S e.1
  pos : ∀ e ∈ l, e.2 > 0

theorem RuleMap.tail {D : Decls} {S : Rule → Prop} {e : Rule × Nat} {l : List (Rule × Nat)} (h : RuleMap D S (e :: l)) :
    RuleMap D S l :=
  ⟨(List.pairwise_cons.1 h.sorted).2, fun x hx => h.keys x (List.mem_cons_of_mem _ hx), fun x hx => h.pos x (List.mem_cons_of_mem _ hx)⟩

theorem countOf_not_mem (r : Rule) (l : List (Rule × Nat)) (h : ∀ e ∈ l, e.1 ≠ r) : countOf r l = 0 := by
  induction l with
  | nil => rfl
  | cons e es ih =>
    obtain ⟨x, n⟩ := e
    have hx : x ≠ r := h (x, n) List.mem_cons_self
    simp only [countOf, hx, if_false]
    exact ih fun e he => h e (List.mem_cons_of_mem _ he)

theorem RuleMap.head_lt {D : Decls} {S : Rule → Prop} {x : Rule} {n : Nat} {l : List (Rule × Nat)}
    (h : RuleMap D S ((x, n) :: l)) (e : Rule × Nat) (he : e ∈ l) : ruleLt D x e.1 = true :=
  (List.pairwise_cons.1 h.sorted).1 e he

theorem lt_ne {D : Decls} {S : Rule → Prop} (ho : StrictTotalOn S (ruleLt D)) {a b : Rule} (ha : S a) (h : ruleLt D a b = true) : a ≠ b := by
  rintro rfl; rw [ho.irrefl a ha] at h; simp at h

theorem lt_asymm {D : Decls} {S : Rule → Prop} (ho : StrictTotalOn S (ruleLt D)) {a b : Rule} (ha : S a) (hb : S b)
    (h : ruleLt D a b = true) : ruleLt D b a = false := by
  cases h' : ruleLt D b a with
  | false => rfl
  | true => have := ho.trans a b a ha hb ha h h'; rw [ho.irrefl a ha] at this; simp at this

theorem mem_iff_countOf {D : Decls} {S : Rule → Prop} (ho : StrictTotalOn S (ruleLt D)) (l : List (Rule × Nat)) (h : RuleMap D S l)
    (r : Rule) (n : Nat) : (r, n) ∈ l ↔ n = countOf r l ∧ n > 0 := by
  induction l with
  | nil => simp [countOf]
  | cons e es ih =>
    obtain ⟨x, k⟩ := e
    have hx : S x := h.keys (x, k) List.mem_cons_self
    by_cases hxr : x = r
    · subst hxr
      have hne : ∀ e ∈ es, e.1 ≠ x := fun e he => (lt_ne ho hx (h.head_lt e he)).symm
      simp only [countOf, if_true, List.mem_cons, Prod.mk.injEq, true_and]
      constructor
      · rintro (h1 | h1)
        · subst h1; exact ⟨rfl, h.pos (x, n) List.mem_cons_self⟩
        · exact absurd rfl (hne _ h1)
      · rintro ⟨h1, -⟩; exact .inl h1
    · have hrx : ¬ (r = x) := fun e => hxr e.symm
      simp only [countOf, hxr, if_false, List.mem_cons, Prod.mk.injEq, hrx, false_and, false_or]
      exact ih h.tail

theorem ruleIncr_spec {D : Decls} {S : Rule → Prop} (ho : StrictTotalOn S (ruleLt D)) (r : Rule) (hr : S r) (l : List (Rule × Nat))
    (h : RuleMap D S l) :
    RuleMap D S (ruleIncr D r l).1 ∧ (∀ k, countOf k (ruleIncr D r l).1 = if k = r then countOf r l + 1 else countOf k l) ∧
    (ruleIncr D r l).2 = countOf r l + 1 ∧ (∀ e ∈ (ruleIncr D r l).1, e.1 = r ∨ ∃ e' ∈ l, e'.1 = e.1) := by
  induction l with
  | nil =>
    refine ⟨⟨by simp [ruleIncr], by simp [ruleIncr, hr], by simp [ruleIncr]⟩, ?_, rfl, by simp [ruleIncr]⟩
    intro k
    by_cases hk : r = k
    · subst hk; simp [ruleIncr, countOf]
    · have : ¬ (k = r) := fun e => hk e.symm
      simp [ruleIncr, countOf, hk, this]
  | cons e es ih =>
    obtain ⟨x, n⟩ := e
    have hx : S x := h.keys (x, n) List.mem_cons_self
    obtain ⟨i1, i2, i3, i4⟩ := ih h.tail
    unfold ruleIncr
    by_cases h1 : ruleLt D x r = true
    · rw [if_pos h1]
      have hxr : x ≠ r := lt_ne ho hx h1
      simp only
      refine ⟨⟨?_, ?_, ?_⟩, ?_, ?_, ?_⟩
      · rw [List.pairwise_cons]
        refine ⟨fun e he => ?_, i1.sorted⟩
        rcases i4 e he with h2 | ⟨e', h2, h3⟩
        · rw [h2]; exact h1
        · rw [← h3]; exact h.head_lt e' h2
      · intro e he
        rcases List.mem_cons.1 he with rfl | he
        · exact hx
        · exact i1.keys e he
      · intro e he
        rcases List.mem_cons.1 he with rfl | he
        · exact h.pos _ List.mem_cons_self
        · exact i1.pos e he
      · intro k
        simp only [countOf, hxr, if_false]
        rw [i2 k]
        by_cases hk : x = k
        · subst hk; simp [hxr]
        · simp [hk]
      · simp only [countOf, hxr, if_false]; exact i3
      · intro e he
        rcases List.mem_cons.1 he with rfl | he
        · exact .inr ⟨_, List.mem_cons_self, rfl⟩
        · rcases i4 e he with h2 | ⟨e', h2, h3⟩
          · exact .inl h2
          · exact .inr ⟨e', List.mem_cons_of_mem _ h2, h3⟩
    · rw [if_neg h1]
      by_cases h2 : ruleLt D r x = true
      · rw [if_pos h2]
        have hxr : x ≠ r := (lt_ne ho hr h2).symm
        have hlt : ∀ e ∈ es, ruleLt D r e.1 = true := fun e he =>
          ho.trans r x e.1 hr hx (h.keys e (List.mem_cons_of_mem _ he)) h2 (h.head_lt e he)
        have hz : countOf r es = 0 := countOf_not_mem r es fun e he => (lt_ne ho hr (hlt e he)).symm
        refine ⟨⟨?_, ?_, ?_⟩, ?_, ?_, ?_⟩
        · rw [List.pairwise_cons]
          refine ⟨fun e he => ?_, h.sorted⟩
          rcases List.mem_cons.1 he with rfl | he
          · exact h2
          · exact hlt e he
        · intro e he
          rcases List.mem_cons.1 he with rfl | he
          · exact hr
          · exact h.keys e he
        · intro e he
          rcases List.mem_cons.1 he with rfl | he
          · simp
          · exact h.pos e he
        · intro k
          simp only [countOf, hxr, if_false, hz]
          by_cases hk : r = k
          · subst hk; simp
          · have : ¬ (k = r) := fun e => hk e.symm
            simp [hk, this]
        · simp only [countOf, hxr, if_false, hz]
        · intro e he
          rcases List.mem_cons.1 he with rfl | he
          · exact .inl rfl
          · exact .inr ⟨e, he, rfl⟩
      · rw [if_neg h2]
        have hxr : x = r := by
          apply Classical.byContradiction
          intro hne
          rcases ho.total x r hx hr hne with h3 | h3
          · exact h1 h3
          · exact h2 h3
        subst hxr
        refine ⟨⟨?_, ?_, ?_⟩, ?_, ?_, ?_⟩
        · have := h.sorted
          rw [List.pairwise_cons] at this ⊢
          exact this
        · intro e he
          rcases List.mem_cons.1 he with rfl | he
          · exact hx
          · exact h.keys e (List.mem_cons_of_mem _ he)
        · intro e he
          rcases List.mem_cons.1 he with rfl | he
          · simp
          · exact h.pos e (List.mem_cons_of_mem _ he)
        · intro k
          simp only [countOf]
          by_cases hk : x = k
          · subst hk; simp
          · have : ¬ (k = x) := fun e => hk e.symm
            simp [hk, this]
        · simp [countOf]
        · intro e he
          rcases List.mem_cons.1 he with rfl | he
          · exact .inl rfl
          · exact .inr ⟨e, List.mem_cons_of_mem _ he, rfl⟩

theorem ruleDecr_spec {D : Decls} {S : Rule → Prop} (ho : StrictTotalOn S (ruleLt D)) (r : Rule) (hr : S r) (l : List (Rule × Nat))
    (h : RuleMap D S l) :
    match ruleDecr D r l with
    | none => countOf r l = 0
    | some (l', c) => RuleMap D S l' ∧ (∀ k, countOf k l' = if k = r then countOf r l - 1 else countOf k l) ∧
        c = countOf r l - 1 ∧ (∀ e ∈ l', ∃ e' ∈ l, e'.1 = e.1) := by
  induction l with
  | nil => simp [ruleDecr, countOf]
  | cons e es ih =>
    obtain ⟨x, n⟩ := e
    have hx : S x := h.keys (x, n) List.mem_cons_self
    have ih' := ih h.tail
    unfold ruleDecr
    by_cases h1 : ruleLt D x r = true
    · rw [if_pos h1]
      have hxr : x ≠ r := lt_ne ho hx h1
      cases hd : ruleDecr D r es with
      | none => rw [hd] at ih'; simp only [countOf, hxr, if_false]; exact ih'
      | some p =>
        obtain ⟨l', c⟩ := p
        rw [hd] at ih'
        obtain ⟨i1, i2, i3, i4⟩ := ih'
        simp only
        refine ⟨⟨?_, ?_, ?_⟩, ?_, ?_, ?_⟩
        · rw [List.pairwise_cons]
          refine ⟨fun e he => ?_, i1.sorted⟩
          obtain ⟨e', h2, h3⟩ := i4 e he
          rw [← h3]; exact h.head_lt e' h2
        · intro e he
          rcases List.mem_cons.1 he with rfl | he
          · exact hx
          · exact i1.keys e he
        · intro e he
          rcases List.mem_cons.1 he with rfl | he
          · exact h.pos _ List.mem_cons_self
          · exact i1.pos e he
        · intro k
          simp only [countOf, hxr, if_false]
          rw [i2 k]
          by_cases hk : x = k
          · subst hk; simp [hxr]
          · simp [hk]
        · simp only [countOf, hxr, if_false]; exact i3
        · intro e he
          rcases List.mem_cons.1 he with rfl | he
          · exact ⟨_, List.mem_cons_self, rfl⟩
          · obtain ⟨e', h2, h3⟩ := i4 e he
            exact ⟨e', List.mem_cons_of_mem _ h2, h3⟩
    · rw [if_neg h1]
      by_cases h2 : ruleLt D r x = true
      · rw [if_pos h2]
        have hxr : x ≠ r := (lt_ne ho hr h2).symm
        simp only [countOf, hxr, if_false]
        exact countOf_not_mem r es fun e he => (lt_ne ho hr
          (ho.trans r x e.1 hr hx (h.keys e (List.mem_cons_of_mem _ he)) h2 (h.head_lt e he))).symm
      · rw [if_neg h2]
        have hxr : x = r := by
          apply Classical.byContradiction
          intro hne
          rcases ho.total x r hx hr hne with h3 | h3
          · exact h1 h3
          · exact h2 h3
        subst hxr
        have hn := h.pos _ List.mem_cons_self
        simp only at hn
        by_cases h3 : n - 1 > 0
        · rw [if_pos h3]
          simp only
          refine ⟨⟨?_, ?_, ?_⟩, ?_, ?_, ?_⟩
          · have := h.sorted
            rw [List.pairwise_cons] at this ⊢
            exact this
          · intro e he
            rcases List.mem_cons.1 he with rfl | he
            · exact hx
            · exact h.keys e (List.mem_cons_of_mem _ he)
          · intro e he
            rcases List.mem_cons.1 he with rfl | he
            · exact h3
            · exact h.pos e (List.mem_cons_of_mem _ he)
          · intro k
            simp only [countOf]
            by_cases hk : x = k
            · subst hk; simp
            · have : ¬ (k = x) := fun e => hk e.symm
              simp [hk, this]
          · simp [countOf]
          · intro e he
            rcases List.mem_cons.1 he with rfl | he
            · exact ⟨_, List.mem_cons_self, rfl⟩
            · exact ⟨e, List.mem_cons_of_mem _ he, rfl⟩
        · rw [if_neg h3]
          simp only
          have hz : countOf x es = 0 := countOf_not_mem x es fun e he => (lt_ne ho hx (h.head_lt e he)).symm
          refine ⟨h.tail, ?_, ?_, fun e he => ⟨e, List.mem_cons_of_mem _ he, rfl⟩⟩
          · intro k
            simp only [countOf]
            by_cases hk : x = k
            · subst hk; simp [hz]; omega
            · have : ¬ (k = x) := fun e => hk e.symm
              simp [hk, this]
          · simp only [countOf, if_true]; omega

/-- proper rule maps with the same counts are equal -/
theorem RuleMap.determined {D : Decls} {S : Rule → Prop} (ho : StrictTotalOn S (ruleLt D)) (l l' : List (Rule × Nat)) (h : RuleMap D S l)
    (h' : RuleMap D S l') (hc : ∀ r, countOf r l = countOf r l') : l = l' := by
  have hmem : ∀ e, e ∈ l ↔ e ∈ l' := by
    rintro ⟨r, n⟩
    rw [mem_iff_countOf ho l h, mem_iff_countOf ho l' h', hc r]
  have nodup : ∀ l, RuleMap D S l → l.Nodup := by
    intro l h
    apply h.sorted.imp_of_mem
    rintro a b ha - hab rfl
    exact lt_ne ho (h.keys a ha) hab rfl
  have hp : l.Perm l' := (List.perm_ext_iff_of_nodup (nodup l h) (nodup l' h')).2 hmem
  refine List.Perm.eq_of_pairwise ?_ h.sorted h'.sorted hp
  intro a b ha hb h1 h2
  rw [lt_asymm ho (h.keys a ha) (h'.keys b hb) h1] at h2; simp at h2

/-- calls other than those on rules do not change them -/
theorem step_rules_same (D : Decls) (W : World) (h : RegInv W) (op : Op) (d : DomId)
    (h1 : ∀ r, op ≠ .addRule d r) (h2 : ∀ r, op ≠ .removeRule d r) : ((step D W op).2.doms d).rules = (W.doms d).rules := by
  have grown : ∀ fs d' W', FeatsGrown D W d' fs W' → (W'.doms d).rules = (W.doms d).rules := by
    intro fs d' W' g
    by_cases hd : d = d'
    · subst hd; rw [g.dom]
    · rw [g.other d hd]
  cases op with
  | regFeature d' g =>
    show ((registerFeature D W d' g).2.doms d).rules = _
    cases hr : (registerFeature D W d' g).1 with
    | error e => rw [registerFeature_error D W d' g e hr]
    | ok u =>
      cases u
      obtain ⟨id, hi⟩ := registerFeature_ok D W d' g hr
      exact grown [g] d' _ ((FeatsGrown.refl D _ d' []).step hi)
  | unregFeature d' g =>
    show ((unregisterFeature W d' g).2.doms d).rules = _
    rcases unregisterFeature_cases W d' g with ⟨h1, -⟩ | ⟨j, h1, h2, h3⟩
    · rw [h1]
    · rw [h3]
      simp only [setDom_doms]
      split
      · rename_i hd; subst hd; rfl
      · rfl
  | regMixin d' m' =>
    show ((registerMixin D W d' m').2.doms d).rules = _
    cases hr : (registerMixin D W d' m').1 with
    | error e => exact grown _ d' _ (registerMixin_error D W d' m' h e hr).1
    | ok u =>
      cases u
      obtain ⟨id, hi⟩ := registerMixin_ok D W d' m' h hr
      by_cases hd : d = d'
      · subst hd; rw [hi.dom]
      · rw [hi.other d hd]
  | unregMixin d' m' =>
    show ((unregisterMixin W d' m').2.doms d).rules = _
    unfold unregisterMixin
    simp only
    split
    · rfl
    · split
      · simp only [setDom_doms]; split
        · rename_i hd; subst hd; rfl
        · rfl
      · simp only [setDom_doms]; split
        · rename_i hd; subst hd; rfl
        · rfl
  | regClass d' c =>
    show ((registerTypeClass D W d' c).2.doms d).rules = _
    unfold registerTypeClass
    simp only
    split; · rfl
    split; · rfl
    split; · rfl
    split; · rfl
    simp only [setDom_doms]; split
    · rename_i hd; subst hd; rfl
    · rfl
  | unregClass d' c =>
    show ((unregisterTypeClass W d' c).2.doms d).rules = _
    unfold unregisterTypeClass
    simp only [setDom_doms]; split
    · rename_i hd; subst hd; rfl
    · rfl
  | addRule d' r =>
    show ((addRule D W d' r).2.doms d).rules = _
    have hd : d ≠ d' := fun e => h1 r (by rw [e])
    unfold addRule
    split
    · rfl
    · simp only
      split <;> rw [setDom_ne _ _ hd]
  | removeRule d' r =>
    show ((removeRule D W d' r).2.doms d).rules = _
    have hd : d ≠ d' := fun e => h2 r (by rw [e])
    unfold removeRule
    simp only
    split
    · rfl
    · split <;> rw [setDom_ne _ _ hd]
  | getTypeMut d' md q =>
    show ((getTypeMut D W d' md q).2.doms d).rules = _
    exact getTypeMut_rules D W d' md q d
  | getType d' q =>
    show ((getType D W d' q).2.doms d).rules = _
    unfold getType
    split
    · rfl
    · exact getTypeMut_rules D W d' d' q d
  | gc d' num =>
    show ((garbageCollect W d' num).2.doms d).rules = _
    unfold garbageCollect
    simp only [setDom_doms]
    split
    · rename_i hd; subst hd; rfl
    · rfl
where
  getTypeMut_rules (D : Decls) (W : World) (d' md : DomId) (q : List Mix) (d : DomId) :
      ((getTypeMut D W d' md q).2.doms d).rules = (W.doms d).rules := by
    unfold getTypeMut
    split
    · rfl
    · simp only
      split
      · rfl
      · rfl
      · simp only [setDom_doms]; split
        · rename_i hd; subst hd; rfl
        · rfl
      · split
        · rfl
        · simp only [setDom_doms]; split
          · rename_i hd; subst hd; exact (emplaceSection_fields _ _ _).2.2.2.2
          · rfl

/-- rules that a call refers to -/
def Op.rulesIn (S : Rule → Prop) : Op → Prop
  | .addRule _ r => S r
  | .removeRule _ r => S r
  | _ => True

theorem addRule_rules (D : Decls) (W : World) (d : DomId) (r : Rule) :
    ((ruleOf D r).apply.isNone = true ∧ addRule D W d r = (.error .noFunc, W)) ∨
    ((ruleOf D r).apply.isNone = false ∧ (addRule D W d r).1 = .ok () ∧
      ((addRule D W d r).2.doms d).rules = (ruleIncr D r (W.doms d).rules).1) := by
  unfold addRule
  by_cases h : (ruleOf D r).apply.isNone = true
  · rw [if_pos h]; exact .inl ⟨h, rfl⟩
  · rw [if_neg h]
    refine .inr ⟨by simpa only [Bool.not_eq_true] using h, ?_⟩
    simp only
    split <;> simp

theorem step_ruleMap {D : Decls} {S : Rule → Prop} (ho : StrictTotalOn S (ruleLt D)) (W : World) (hreg : RegInv W) (op : Op)
    (hop : op.rulesIn S) (d : DomId) (h : RuleMap D S (W.doms d).rules) :
    RuleMap D S ((step D W op).2.doms d).rules ∧
    ∀ r, countOf r ((step D W op).2.doms d).rules = ruleCountStep d r (countOf r (W.doms d).rules) (op, (step D W op).1) := by
  by_cases h1 : ∃ r, op = .addRule d r
  · obtain ⟨r, rfl⟩ := h1
    show RuleMap D S ((addRule D W d r).2.doms d).rules ∧ ∀ k, countOf k ((addRule D W d r).2.doms d).rules =
      ruleCountStep d k (countOf k (W.doms d).rules) (.addRule d r, (addRule D W d r).1)
    rcases addRule_rules D W d r with ⟨-, h2⟩ | ⟨-, h2, h3⟩
    · rw [h2]; exact ⟨h, fun k => rfl⟩
    · rw [h2, h3]
      obtain ⟨i1, i2, -, -⟩ := ruleIncr_spec ho r hop _ h
      refine ⟨i1, fun k => ?_⟩
      rw [i2 k]
      by_cases hk : k = r
      · subst hk; simp [ruleCountStep]
      · have : ¬ (r = k) := fun e => hk e.symm
        simp [ruleCountStep, hk, this]
  by_cases h2 : ∃ r, op = .removeRule d r
  · obtain ⟨r, rfl⟩ := h2
    show RuleMap D S ((removeRule D W d r).2.doms d).rules ∧ ∀ k, countOf k ((removeRule D W d r).2.doms d).rules =
      ruleCountStep d k (countOf k (W.doms d).rules) (.removeRule d r, (removeRule D W d r).1)
    have hs := ruleDecr_spec ho r hop _ h
    have hcs : ∀ (k : Nat) (u : Except Err Unit), ruleCountStep d k (countOf k (W.doms d).rules) (.removeRule d r, u) =
        if k = r then countOf r (W.doms d).rules - 1 else countOf k (W.doms d).rules := by
      intro k u
      by_cases hk : k = r
      · subst hk; simp [ruleCountStep]
      · have : ¬ (r = k) := fun e => hk e.symm
        simp [ruleCountStep, hk, this]
    unfold removeRule
    simp only
    cases hd : ruleDecr D r (W.doms d).rules with
    | none =>
      rw [hd] at hs
      simp only at hs ⊢
      refine ⟨h, fun k => ?_⟩
      rw [hcs]
      by_cases hk : k = r
      · subst hk; simp [hs]
      · simp [hk]
    | some p =>
      obtain ⟨l', c⟩ := p
      rw [hd] at hs
      obtain ⟨i1, i2, -, -⟩ := hs
      simp only
      split <;> (simp only [setDom_same, hcs]; exact ⟨i1, i2⟩)
  have hs := step_rules_same D W hreg op d (fun r e => h1 ⟨r, e⟩) (fun r e => h2 ⟨r, e⟩)
  rw [hs]
  refine ⟨h, fun r => ?_⟩
  unfold ruleCountStep
  split
  · rename_i d' c' u heq
    simp only [Prod.mk.injEq] at heq
    rw [if_neg]
    rintro ⟨rfl, rfl⟩; exact h1 ⟨c', heq.1⟩
  · rename_i d' c' u heq
    simp only [Prod.mk.injEq] at heq
    rw [if_neg]
    rintro ⟨rfl, rfl⟩; exact h2 ⟨c', heq.1⟩
  · rfl

theorem run_ruleMap {D : Decls} {S : Rule → Prop} (ho : StrictTotalOn S (ruleLt D)) (d : DomId) (ops : List Op) :
    ∀ W, RegInv W → (∀ op ∈ ops, op.rulesIn S) → RuleMap D S (W.doms d).rules →
    RuleMap D S ((run D W ops).doms d).rules ∧
    ∀ r, countOf r ((run D W ops).doms d).rules = ruleCount d r (countOf r (W.doms d).rules) (trace D W ops) := by
  induction ops with
  | nil => intro W _ _ h; exact ⟨h, fun r => rfl⟩
  | cons op ops ih =>
    intro W hreg hop h
    obtain ⟨h1, h2⟩ := step_ruleMap ho W hreg op (hop op List.mem_cons_self) d h
    obtain ⟨h3, h4⟩ := ih _ (step_reg D W op hreg) (fun o ho' => hop o (List.mem_cons_of_mem _ ho')) h1
    refine ⟨h3, fun r => ?_⟩
    simp only [run, trace, ruleCount, List.foldl_cons]
    rw [h4 r, h2 r]; rfl

theorem initWorld_ruleMap (D : Decls) (S : Rule → Prop) (s : DomId → Settings) (d : DomId) (h0 : (s d).canonicalize = true → S 0) :
    RuleMap D S ((initWorld s).doms d).rules ∧ ∀ r, countOf r ((initWorld s).doms d).rules = initialCount (s d) r := by
  have e : ((initWorld s).doms d).rules = if (s d).canonicalize then [(0, 1)] else [] := rfl
  rw [e]
  cases hc : (s d).canonicalize with
  | false => exact ⟨⟨by simp, by simp, by simp⟩, fun r => by simp [countOf, initialCount, hc]⟩
  | true =>
    refine ⟨⟨by simp, by simp; exact h0 hc, by simp⟩, fun r => ?_⟩
    by_cases hr : r = 0
    · subst hr; simp [countOf, initialCount, hc]
    · have : ¬ (0 = r) := fun e => hr e.symm
      simp [countOf, initialCount, hc, hr, this]

end Dnmx
