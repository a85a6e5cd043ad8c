import Verif.Spec.RulesV1
import Verif.Proofs.RuleMapLemmas

/-!
# Lemmas: registry of version-1 rules
-/

set_option linter.unusedSimpArgs false
set_option linter.unusedVariables false

namespace Dnmx
open Spec

/-- the rule in a slot -/
def slotRule (slots : List (Option Rule)) (i : Nat) : Option Rule := (slots[i]?).join

theorem v1Add_ok {D : Decls} {d : DomId} {st : V1State} {r : Rule} (h : (ruleOf D r).apply.isNone = false) :
    ∃ (i : Nat), (v1Add D d st r).1 = .id i ∧ slotRule st.slots i = none ∧ (∀ j, j < i → slotRule st.slots j ≠ none) ∧
      (∀ j, slotRule (v1Add D d st r).2.slots j = if j = i then some r else slotRule st.slots j) ∧
      (v1Add D d st r).2.world = (addRule D st.world d r).2 ∧
      (∀ x, (v1Add D d st r).2.slots.count (some x) = st.slots.count (some x) + if x = r then 1 else 0) := by
  obtain ⟨sc1, sc2⟩ := scanFwd_spec st.slots 0
  unfold v1Add
  rcases addRule_rules D st.world d r with ⟨h2, -⟩ | ⟨-, h2, -⟩
  · rw [h] at h2; simp at h2
  · cases hs : scanFwd 0 st.slots with
    | none =>
      have := sc1 hs
      refine ⟨st.slots.length, ?_⟩
      generalize addRule D st.world d r = p at h2 ⊢
      obtain ⟨p1, p2⟩ := p
      simp only at h2; subst h2
      simp only [List.set_append_right _ _ (Nat.le_refl _), Nat.sub_self, List.set_cons_zero]
      refine ⟨trivial, by simp [slotRule], ?_, ?_, trivial, ?_⟩
      · intro j hj
        obtain ⟨q, hq⟩ := this j hj
        simp [slotRule, hq]
      · intro j
        by_cases hj : j = st.slots.length
        · subst hj; simp [slotRule]
        · rw [if_neg hj]
          unfold slotRule
          rcases Nat.lt_or_gt_of_ne hj with hlt | hgt
          · rw [List.getElem?_append_left hlt]
          · rw [List.getElem?_eq_none (by simp; omega), List.getElem?_eq_none (by omega)]
      · intro x
        rw [List.count_append]
        by_cases hx : x = r
        · subst hx; simp
        · have : ¬ r = x := fun e => hx e.symm
          simp [hx, this]
    | some k =>
      obtain ⟨l, h3, h4, h5⟩ := sc2 k hs
      have : k = l := by omega
      subst this
      refine ⟨k, ?_⟩
      generalize addRule D st.world d r = p at h2 ⊢
      obtain ⟨p1, p2⟩ := p
      simp only at h2; subst h2
      have hk : k < st.slots.length := (List.getElem?_eq_some_iff.1 h4).1
      have hk' : st.slots[k] = none := (List.getElem?_eq_some_iff.1 h4).2
      refine ⟨rfl, by simp [slotRule, h4], ?_, ?_, rfl, ?_⟩
      · intro j hj
        obtain ⟨q, hq⟩ := h5 j hj
        simp [slotRule, hq]
      · intro j
        simp only [slotRule, List.getElem?_set]
        by_cases hj : j = k
        · subst hj; simp [hk]
        · have : ¬ k = j := fun e => hj e.symm
          simp [hj, this]
      · intro x
        simp only
        rw [List.count_set hk, hk']
        by_cases hx : x = r
        · subst hx; simp
        · have : ¬ r = x := fun e => hx e.symm
          simp [hx, this]

theorem v1Remove_spec (D : Decls) (d : DomId) (st : V1State) (id : Nat) :
    (v1Remove D d st id).1 = .rule (slotRule st.slots id) ∧
    (∀ j, slotRule (v1Remove D d st id).2.slots j = if j = id then none else slotRule st.slots j) ∧
    (slotRule st.slots id = none → (v1Remove D d st id).2 = st) ∧
    (∀ r, slotRule st.slots id = some r → (v1Remove D d st id).2.world = (removeRule D st.world d r).2 ∧
      ∀ x, (v1Remove D d st id).2.slots.count (some x) = st.slots.count (some x) - if x = r then 1 else 0) := by
  unfold v1Remove
  cases h : st.slots[id]? with
  | none =>
    refine ⟨by simp [slotRule, h], ?_, by simp, by simp [slotRule, h]⟩
    intro j
    by_cases hj : j = id
    · subst hj; simp [slotRule, h]
    · simp [hj]
  | some o =>
    cases o with
    | none =>
      refine ⟨by simp [slotRule, h], ?_, by simp, by simp [slotRule, h]⟩
      intro j
      by_cases hj : j = id
      · subst hj; simp [slotRule, h]
      · simp [hj]
    | some r =>
      have hk : id < st.slots.length := (List.getElem?_eq_some_iff.1 h).1
      have hk' : st.slots[id] = some r := (List.getElem?_eq_some_iff.1 h).2
      refine ⟨by simp [slotRule, h], ?_, by simp [slotRule, h], ?_⟩
      · intro j
        simp only [slotRule, List.getElem?_set]
        by_cases hj : j = id
        · subst hj; simp [hk]
        · have : ¬ id = j := fun e => hj e.symm
          simp [hj, this]
      · intro r' hr'
        have : r = r' := by simpa [slotRule, h] using hr'
        subst this
        refine ⟨rfl, fun x => ?_⟩
        simp only
        rw [List.count_set hk, hk']
        by_cases hx : x = r
        · subst hx; simp
        · have : ¬ r = x := fun e => hx e.symm
          simp [hx, this]

/-- the slots are as the history says -/
theorem v1Run_holder (D : Decls) (d : DomId) (ops : List V1Op) : ∀ (st : V1State) (id : Nat),
    slotRule (v1Run D d st ops).slots id = (v1Trace D d st ops).foldl (holderStep id) (slotRule st.slots id) := by
  induction ops with
  | nil => intro st id; rfl
  | cons op ops ih =>
    intro st id
    show slotRule (v1Run D d (v1Step D d st op).2 ops).slots id = _
    rw [ih]
    show _ = List.foldl (holderStep id) (slotRule st.slots id) ((op, (v1Step D d st op).1) :: v1Trace D d (v1Step D d st op).2 ops)
    rw [List.foldl_cons]
    congr 1
    cases op with
    | add r =>
      show slotRule (v1Add D d st r).2.slots id = holderStep id (slotRule st.slots id) (.add r, (v1Add D d st r).1)
      by_cases hn : (ruleOf D r).apply.isNone = true
      · rcases addRule_rules D st.world d r with ⟨-, h2⟩ | ⟨h2, -⟩
        · unfold v1Add
          rw [h2]
          cases hs : scanFwd 0 st.slots with
          | some i => simp [holderStep]
          | none =>
            simp only [holderStep, slotRule]
            by_cases hl : id < st.slots.length
            · rw [List.getElem?_append_left hl]
            · rw [List.getElem?_append_right (by omega), List.getElem?_eq_none (l := st.slots) (by omega)]
              cases id - st.slots.length <;> simp
        · rw [hn] at h2; simp at h2
      · obtain ⟨i, h1, -, -, h4, -⟩ := v1Add_ok (D := D) (d := d) (st := st) (r := r) (by simpa only [Bool.not_eq_true] using hn)
        rw [h1, h4]
        simp only [holderStep]
        by_cases hi : i = id
        · subst hi; simp
        · have : ¬ id = i := fun e => hi e.symm
          simp [hi, this]
    | remove i =>
      show slotRule (v1Remove D d st i).2.slots id = holderStep id (slotRule st.slots id) (.remove i, (v1Remove D d st i).1)
      rw [(v1Remove_spec D d st i).2.1]
      simp only [holderStep]
      by_cases hi : i = id
      · subst hi; simp
      · have : ¬ id = i := fun e => hi e.symm
        simp [hi, this]
    | other op => rfl

/-- registry, domain and slots agree -/
structure V1Inv (D : Decls) (S : Rule → Prop) (d : DomId) (n : Rule → Nat) (st : V1State) : Prop where
  reg : RegInv st.world
  map : RuleMap D S (st.world.doms d).rules
  count : ∀ r, countOf r (st.world.doms d).rules = n r + st.slots.count (some r)

/-- rules of a call -/
def V1Op.rulesIn (S : Rule → Prop) (D : Decls) : V1Op → Prop
  | .add r => S r ∧ (ruleOf D r).apply.isNone = false
  | .remove _ => True
  | .other op => op.rulesIn S

theorem v1Step_inv {D : Decls} {S : Rule → Prop} {d : DomId} {n : Rule → Nat} (ho : StrictTotalOn S (ruleLt D)) {st : V1State}
    (h : V1Inv D S d n st) (op : V1Op) (hs : op.rulesIn S D) (hp : V1Proper d op) (hslots : ∀ r, some r ∈ st.slots → S r) :
    V1Inv D S d n (v1Step D d st op).2 ∧ ∀ r, some r ∈ (v1Step D d st op).2.slots → S r := by
  cases op with
  | add r =>
    obtain ⟨i, h1, h2, h3, h4, h5, h6⟩ := v1Add_ok (d := d) (st := st) hs.2
    obtain ⟨m1, m2⟩ := step_ruleMap ho st.world h.reg (.addRule d r) hs.1 d h.map
    have e : step D st.world (.addRule d r) = addRule D st.world d r := rfl
    rw [e] at m1 m2
    refine ⟨⟨?_, ?_, ?_⟩, ?_⟩
    · show RegInv (v1Add D d st r).2.world
      rw [h5]; exact step_reg D st.world (.addRule d r) h.reg
    · show RuleMap D S ((v1Add D d st r).2.world.doms d).rules
      rw [h5]; exact m1
    · intro x
      show countOf x ((v1Add D d st r).2.world.doms d).rules = n x + (v1Add D d st r).2.slots.count (some x)
      rw [h5, m2, h6, h.count x]
      rcases addRule_rules D st.world d r with ⟨hx, -⟩ | ⟨-, hx, -⟩
      · rw [hs.2] at hx; simp at hx
      · rw [hx]
        simp only [ruleCountStep]
        by_cases hr : r = x
        · subst hr; simp; omega
        · have : ¬ x = r := fun e => hr e.symm
          simp [hr, this]
    · intro x hx
      have hx : some x ∈ (v1Add D d st r).2.slots := hx
      have := h6 x
      have hpos : 0 < (v1Add D d st r).2.slots.count (some x) := List.count_pos_iff.2 hx
      by_cases hr : x = r
      · subst hr; exact hs.1
      · rw [if_neg hr] at this
        exact hslots x (List.count_pos_iff.1 (by omega))
  | remove id =>
    obtain ⟨h1, h2, h3, h4⟩ := v1Remove_spec D d st id
    cases hr : slotRule st.slots id with
    | none =>
      show V1Inv D S d n (v1Remove D d st id).2 ∧ ∀ r, some r ∈ (v1Remove D d st id).2.slots → S r
      rw [h3 hr]; exact ⟨h, hslots⟩
    | some r =>
      obtain ⟨h5, h6⟩ := h4 r hr
      have hmem : some r ∈ st.slots := by
        unfold slotRule at hr
        cases hq : st.slots[id]? with
        | none => rw [hq] at hr; simp at hr
        | some o => rw [hq] at hr; simp at hr; subst hr; exact List.mem_of_getElem? hq
      have hSr := hslots r hmem
      obtain ⟨m1, m2⟩ := step_ruleMap ho st.world h.reg (.removeRule d r) hSr d h.map
      have e : step D st.world (.removeRule d r) = removeRule D st.world d r := rfl
      rw [e] at m1 m2
      refine ⟨⟨?_, ?_, ?_⟩, ?_⟩
      · show RegInv (v1Remove D d st id).2.world
        rw [h5]; exact step_reg D st.world (.removeRule d r) h.reg
      · show RuleMap D S ((v1Remove D d st id).2.world.doms d).rules
        rw [h5]; exact m1
      · intro x
        show countOf x ((v1Remove D d st id).2.world.doms d).rules = n x + (v1Remove D d st id).2.slots.count (some x)
        rw [h5, m2, h6, h.count x]
        have hpos : 0 < st.slots.count (some r) := List.count_pos_iff.2 hmem
        simp only [ruleCountStep]
        by_cases hrx : r = x
        · subst hrx; simp; omega
        · have : ¬ x = r := fun e => hrx e.symm
          simp [hrx, this]
      · intro x hx
        have hx : some x ∈ (v1Remove D d st id).2.slots := hx
        have := h6 x
        have hpos : 0 < (v1Remove D d st id).2.slots.count (some x) := List.count_pos_iff.2 hx
        exact hslots x (List.count_pos_iff.1 (by omega))
  | other op =>
    have key : ((step D st.world op).2.doms d).rules = (st.world.doms d).rules := by
      apply step_rules_same D st.world h.reg op d
      · rintro r rfl; exact hp rfl
      · rintro r rfl; exact hp rfl
    refine ⟨⟨step_reg D st.world op h.reg, ?_, ?_⟩, hslots⟩
    · show RuleMap D S ((step D st.world op).2.doms d).rules
      rw [key]; exact h.map
    · intro r
      show countOf r ((step D st.world op).2.doms d).rules = _
      rw [key]; exact h.count r

theorem v1Run_inv {D : Decls} {S : Rule → Prop} {d : DomId} {n : Rule → Nat} (ho : StrictTotalOn S (ruleLt D)) (ops : List V1Op) :
    ∀ (st : V1State), V1Inv D S d n st → (∀ op ∈ ops, op.rulesIn S D ∧ V1Proper d op) → (∀ r, some r ∈ st.slots → S r) →
    V1Inv D S d n (v1Run D d st ops) := by
  induction ops with
  | nil => intro st h _ _; exact h
  | cons op ops ih =>
    intro st h ha hs
    obtain ⟨h1, h2⟩ := v1Step_inv ho h op (ha op (by simp)).1 (ha op (by simp)).2 hs
    exact ih _ h1 (fun o ho' => ha o (by simp [ho'])) h2

end Dnmx
