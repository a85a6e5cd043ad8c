import Verif.Proofs.RuleMapLemmas
import Verif.Proofs.CompareLemmas
import Verif.Spec.NoCycle

/-! # The comparisons of rules and mixins without conditions on names: any two are in one order, but there may be cycles -/

namespace Dnmx
open Spec

theorem memcmp_anti (mem : Mem) : ∀ (n a b : Nat), memcmp mem b a n = - memcmp mem a b n
  | 0, _, _ => rfl
  | n + 1, a, b => by
    unfold memcmp
    by_cases h1 : mem a < mem b
    · have h2 : ¬ mem b < mem a := by
        intro h; exact absurd (UInt8.lt_trans h1 h) (UInt8.lt_irrefl _)
      rw [if_pos h1, if_neg h2, if_pos h1]; rfl
    · by_cases h2 : mem b < mem a
      · rw [if_neg h1, if_pos h2, if_pos h2, if_neg h1]
      · rw [if_neg h1, if_neg h2, if_neg h2, if_neg h1]
        exact memcmp_anti mem n _ _

theorem svCmp_anti (mem : Mem) (a b : Sv) : svCmp mem b a = - svCmp mem a b := by
  unfold svCmp
  by_cases h : a.first = b.first
  · rw [if_pos h, if_pos h.symm]; rfl
  · rw [if_neg h, if_neg (fun e => h e.symm)]
    simp only
    by_cases ha : a.first = 0
    · have hb : ¬ b.first = 0 := fun e => h (by rw [ha, e])
      rw [if_pos ha, if_neg hb, if_pos ha]
      by_cases hl : b.len = 0
      · rw [if_pos hl, if_pos hl]; rfl
      · rw [if_neg hl, if_neg hl]; rfl
    · rw [if_neg ha]
      by_cases hb : b.first = 0
      · rw [if_pos hb, if_pos hb]
        by_cases hl : a.len = 0
        · rw [if_pos hl, if_pos hl]; rfl
        · rw [if_neg hl, if_neg hl]
      · rw [if_neg hb, if_neg hb, if_neg ha]
        by_cases hl : a.len = b.len
        · rw [if_pos hl, if_pos hl.symm, hl]; exact memcmp_anti mem _ _ _
        · rw [if_neg hl, if_neg (fun e => hl e.symm)]
          have hm := fun n => memcmp_anti mem n a.first b.first
          by_cases hlt : a.len < b.len
          · rw [if_pos hlt, if_neg (by omega), hm]
            by_cases h0 : memcmp mem a.first b.first a.len = 0
            · rw [if_pos h0, if_pos (by omega)]; rfl
            · rw [if_neg h0, if_neg (by omega)]
          · rw [if_neg hlt, if_pos (by omega), hm]
            by_cases h0 : memcmp mem a.first b.first b.len = 0
            · rw [if_pos h0, if_pos (by omega)]
            · rw [if_neg h0, if_neg (by omega)]

/-- Of two different elements exactly one comes before the other; none comes before itself. -/
structure Decides {α : Type} (S : α → Prop) (lt : α → α → Bool) : Prop where
  irrefl : ∀ a, S a → lt a a = false
  asymm : ∀ a b, S a → S b → lt a b = true → lt b a = false
  total : ∀ a b, S a → S b → a ≠ b → lt a b = true ∨ lt b a = true

theorem ruleLt_decides (D : Decls) (S : Rule → Prop) : Decides S (ruleLt D) := by
  refine ⟨fun a _ => ?_, fun a b _ _ h => ?_, fun a b _ _ hne => ?_⟩
  · unfold ruleLt ruleCompare
    have := svCmp_anti D.mem (ruleOf D a).name (ruleOf D a).name
    rw [if_neg (by simp)]
    simp only
    rw [if_neg (by omega)]
    simp
  · unfold ruleLt ruleCompare at h ⊢
    have hs := svCmp_anti D.mem (ruleOf D a).name (ruleOf D b).name
    by_cases hp : (ruleOf D a).orderPriority = (ruleOf D b).orderPriority
    · rw [if_neg (by simpa using hp)] at h
      rw [if_neg (by simpa using hp.symm)]
      simp only at h ⊢
      by_cases h0 : svCmp D.mem (ruleOf D a).name (ruleOf D b).name = 0
      · rw [if_neg (by simpa using h0)] at h
        rw [if_neg (by omega)]
        have h := of_decide_eq_true h
        exact decide_eq_false (by omega)
      · rw [if_pos h0] at h
        rw [if_pos (by omega)]
        have h := of_decide_eq_true h
        exact decide_eq_false (by omega)
    · rw [if_pos hp] at h
      rw [if_pos (fun e => hp e.symm)]
      have h := of_decide_eq_true h
      exact decide_eq_false (by omega)
  · unfold ruleLt ruleCompare
    have hs := svCmp_anti D.mem (ruleOf D a).name (ruleOf D b).name
    by_cases hp : (ruleOf D a).orderPriority = (ruleOf D b).orderPriority
    · rw [if_neg (show ¬ ((ruleOf D a).orderPriority ≠ (ruleOf D b).orderPriority) from fun h => h hp), if_neg (show ¬ ((ruleOf D b).orderPriority ≠ (ruleOf D a).orderPriority) from fun h => h hp.symm)]
      simp only
      by_cases h0 : svCmp D.mem (ruleOf D a).name (ruleOf D b).name = 0
      · rw [if_neg (show ¬ (svCmp D.mem (ruleOf D a).name (ruleOf D b).name ≠ 0) from fun h => h h0), if_neg (show ¬ (svCmp D.mem (ruleOf D b).name (ruleOf D a).name ≠ 0) from by omega)]
        rcases Nat.lt_or_gt_of_ne hne with h | h
        · exact .inl (decide_eq_true h)
        · exact .inr (decide_eq_true h)
      · rw [if_pos h0, if_pos (show svCmp D.mem (ruleOf D b).name (ruleOf D a).name ≠ 0 from by omega)]
        by_cases h1 : svCmp D.mem (ruleOf D a).name (ruleOf D b).name < 0
        · exact .inl (decide_eq_true h1)
        · exact .inr (decide_eq_true (by omega))
    · rw [if_pos hp, if_pos (fun e => hp e.symm)]
      by_cases h1 : (ruleOf D a).orderPriority < (ruleOf D b).orderPriority
      · exact .inl (decide_eq_true h1)
      · exact .inr (decide_eq_true (by omega))

theorem canonicalOrder_decides (D : Decls) (ids : Mix → Option Nat) (S : Mix → Prop) : Decides S (canonicalOrder D ids) := by
  refine ⟨fun a _ => ?_, fun a b _ _ h => ?_, fun a b _ _ hne => ?_⟩
  · unfold canonicalOrder
    have := svCmp_anti D.mem (D.mix a).name (D.mix a).name
    rw [if_neg (by simp)]
    simp only
    rw [if_neg (by omega)]
    simp
  · unfold canonicalOrder at h ⊢
    have hs := svCmp_anti D.mem (D.mix a).name (D.mix b).name
    by_cases hp : (D.mix a).orderPriority = (D.mix b).orderPriority
    · rw [if_neg (by simpa using hp)] at h
      rw [if_neg (by simpa using hp.symm)]
      simp only at h ⊢
      by_cases h0 : svCmp D.mem (D.mix a).name (D.mix b).name = 0
      · rw [if_neg (by simpa using h0)] at h
        rw [if_neg (by omega)]
        by_cases hi : ids a = ids b
        · rw [if_neg (by simpa using hi)] at h
          rw [if_neg (by simpa using hi.symm)]
          have h := of_decide_eq_true h
          exact decide_eq_false (by omega)
        · rw [if_pos hi] at h
          rw [if_pos (fun e => hi e.symm)]
          cases ha : ids a with
          | none => rw [ha] at h; simp at h
          | some i =>
            cases hb : ids b with
            | none => rfl
            | some j =>
              rw [ha, hb] at h
              simp only [decide_eq_true_eq] at h
              exact decide_eq_false (by omega)
      · rw [if_pos h0] at h
        rw [if_pos (by omega)]
        have h := of_decide_eq_true h
        exact decide_eq_false (by omega)
    · rw [if_pos hp] at h
      rw [if_pos (fun e => hp e.symm)]
      have h := of_decide_eq_true h
      exact decide_eq_false (by omega)
  · unfold canonicalOrder
    have hs := svCmp_anti D.mem (D.mix a).name (D.mix b).name
    by_cases hp : (D.mix a).orderPriority = (D.mix b).orderPriority
    · rw [if_neg (show ¬ ((D.mix a).orderPriority ≠ (D.mix b).orderPriority) from fun h => h hp), if_neg (show ¬ ((D.mix b).orderPriority ≠ (D.mix a).orderPriority) from fun h => h hp.symm)]
      simp only
      by_cases h0 : svCmp D.mem (D.mix a).name (D.mix b).name = 0
      · rw [if_neg (show ¬ (svCmp D.mem (D.mix a).name (D.mix b).name ≠ 0) from fun h => h h0), if_neg (show ¬ (svCmp D.mem (D.mix b).name (D.mix a).name ≠ 0) from by omega)]
        by_cases hi : ids a = ids b
        · rw [if_neg (show ¬ (ids a ≠ ids b) from fun h => h hi), if_neg (show ¬ (ids b ≠ ids a) from fun h => h hi.symm)]
          rcases Nat.lt_or_gt_of_ne hne with h | h
          · exact .inl (decide_eq_true h)
          · exact .inr (decide_eq_true h)
        · rw [if_pos hi, if_pos (fun e => hi e.symm)]
          cases ha : ids a with
          | none =>
            cases hb : ids b with
            | none => exact absurd (by rw [ha, hb]) hi
            | some j => exact .inr rfl
          | some i =>
            cases hb : ids b with
            | none => exact .inl rfl
            | some j =>
              have : i ≠ j := fun e => hi (by rw [ha, hb, e])
              rcases Nat.lt_or_gt_of_ne this with h | h
              · exact .inl (decide_eq_true h)
              · exact .inr (decide_eq_true h)
      · rw [if_pos h0, if_pos (show svCmp D.mem (D.mix b).name (D.mix a).name ≠ 0 from by omega)]
        by_cases h1 : svCmp D.mem (D.mix a).name (D.mix b).name < 0
        · exact .inl (decide_eq_true h1)
        · exact .inr (decide_eq_true (by omega))
    · rw [if_pos hp, if_pos (fun e => hp e.symm)]
      by_cases h1 : (D.mix a).orderPriority < (D.mix b).orderPriority
      · exact .inl (decide_eq_true h1)
      · exact .inr (decide_eq_true (by omega))

theorem strictTotal_iff_noCycle {α : Type} {S : α → Prop} {lt : α → α → Bool} (h : Decides S lt) : StrictTotalOn S lt ↔ NoCycleOf S lt := by
  constructor
  · rintro h1 ⟨a, b, c, ha, hb, hc, h2, h3, h4⟩
    have := h1.trans a b c ha hb hc h2 h3
    rw [h.asymm c a hc ha h4] at this
    exact Bool.noConfusion this
  · intro h1
    refine ⟨h.irrefl, fun a b c ha hb hc h2 h3 => ?_, h.total⟩
    by_cases hac : a = c
    · subst hac
      rw [h.asymm a b ha hb h2] at h3
      exact Bool.noConfusion h3
    · rcases h.total a c ha hc hac with h4 | h4
      · exact h4
      · exact absurd ⟨a, b, c, ha, hb, hc, h2, h3, h4⟩ h1

/-- three different elements of a cycle -/
theorem cycle_distinct {α : Type} {S : α → Prop} {lt : α → α → Bool} (h : Decides S lt) {a b c : α} (ha : S a) (hb : S b) (hc : S c) (h1 : lt a b = true) (h2 : lt b c = true) (h3 : lt c a = true) :
    a ≠ b ∧ b ≠ c ∧ c ≠ a := by
  refine ⟨?_, ?_, ?_⟩
  · rintro rfl; rw [h.irrefl a ha] at h1; exact Bool.noConfusion h1
  · rintro rfl; rw [h.irrefl b hb] at h2; exact Bool.noConfusion h2
  · rintro rfl; rw [h.irrefl c hc] at h3; exact Bool.noConfusion h3

/-- the map after adding rules to an empty one -/
def mapOf (D : Decls) (rs : List Rule) : List (Rule × Nat) := rs.foldl (fun l r => (ruleIncr D r l).1) []

theorem run_adds (D : Decls) (d : DomId) : ∀ (rs : List Rule) (W : World), (∀ r ∈ rs, (ruleOf D r).apply ≠ none) →
    ((run D W (rs.map (.addRule d))).doms d).rules = rs.foldl (fun l r => (ruleIncr D r l).1) (W.doms d).rules ∧
    ∀ k n, ruleCount d k n (trace D W (rs.map (.addRule d))) = n + rs.count k
  | [], _, _ => ⟨rfl, fun _ _ => rfl⟩
  | r :: rs, W, h => by
    rcases addRule_rules D W d r with ⟨h2, -⟩ | ⟨-, h2, h3⟩
    · exact absurd (by simpa using h2) (h r List.mem_cons_self)
    · obtain ⟨i1, i2⟩ := run_adds D d rs (addRule D W d r).2 (fun x hx => h x (List.mem_cons_of_mem _ hx))
      refine ⟨?_, fun k n => ?_⟩
      · show ((run D (addRule D W d r).2 (rs.map (.addRule d))).doms d).rules = _
        rw [i1, h3]; rfl
      · show ruleCount d k (ruleCountStep d k n (.addRule d r, (addRule D W d r).1)) (trace D (addRule D W d r).2 (rs.map (.addRule d))) = _
        rw [i2 k, h2, List.count_cons]
        unfold ruleCountStep
        by_cases hk : r = k
        · subst hk; simp; omega
        · simp [hk]

theorem mapOf_two {D : Decls} {a b : Rule} (h : ruleLt D a b = true) : mapOf D [a, b] = [(a, 1), (b, 1)] := by
  unfold mapOf
  simp only [List.foldl, ruleIncr]
  rw [if_pos h]

theorem mapOf_three {D : Decls} {S : Rule → Prop} {a b c : Rule} (hd : Decides S (ruleLt D)) (ha : S a) (hb : S b) (hc : S c)
    (h1 : ruleLt D a b = true) (h2 : ruleLt D b c = true) (h3 : ruleLt D c a = true) :
    mapOf D [a, b, c] = [(c, 1), (a, 1), (b, 1)] ∧ mapOf D [a, b, c, b] = [(b, 1), (c, 1), (a, 1), (b, 1)] := by
  have h4 := hd.asymm c a hc ha h3
  have h5 := hd.asymm b c hb hc h2
  have e : mapOf D [a, b, c] = [(c, 1), (a, 1), (b, 1)] := by
    show (ruleIncr D c (mapOf D [a, b])).1 = _
    rw [mapOf_two h1]
    unfold ruleIncr
    rw [if_neg (by rw [h4]; exact Bool.noConfusion), if_pos h3]
  refine ⟨e, ?_⟩
  show (ruleIncr D b (mapOf D [a, b, c])).1 = _
  rw [e]
  unfold ruleIncr
  rw [if_neg (by rw [h5]; exact Bool.noConfusion), if_pos h2]

/-- `type::compare` of three compositions goes in a circle exactly if, where they begin to differ, they have three mixins which do. -/
theorem cmpMixins_cycle {lt : Mix → Mix → Bool} (hd : Decides (fun _ => True) lt) : ∀ (as bs cs : List Mix), as ≠ bs → bs ≠ cs → cs ≠ as →
    ((cmpMixins lt as bs = -1 ∧ cmpMixins lt bs cs = -1 ∧ cmpMixins lt cs as = -1) ↔
      ∃ p a b c as' bs' cs', as = p ++ a :: as' ∧ bs = p ++ b :: bs' ∧ cs = p ++ c :: cs' ∧ lt a b = true ∧ lt b c = true ∧ lt c a = true)
  | [], bs, cs, hab, _, hca => by
    constructor
    · rintro ⟨-, -, h⟩
      cases cs with
      | nil => exact absurd rfl hca
      | cons c cs => simp [cmpMixins] at h
    · rintro ⟨p, a, b, c, as', bs', cs', h, -⟩; simp at h
  | a :: as, [], cs, _, _, _ => by
    constructor
    · rintro ⟨h, -⟩; simp [cmpMixins] at h
    · rintro ⟨p, a, b, c, as', bs', cs', -, h, -⟩; simp at h
  | a :: as, b :: bs, [], _, _, _ => by
    constructor
    · rintro ⟨-, h, -⟩; simp [cmpMixins] at h
    · rintro ⟨p, a, b, c, as', bs', cs', -, -, h, -⟩; simp at h
  | a :: as, b :: bs, c :: cs, hab, hbc, hca => by
    have low : ∀ {x y : Mix} {xs ys : List Mix}, x ≠ y → (cmpMixins lt (x :: xs) (y :: ys) = -1 ↔ lt x y = true) := by
      intro x y xs ys hne
      unfold cmpMixins
      rw [if_pos hne]
      cases lt x y <;> simp
    have same : ∀ {x : Mix} {xs ys : List Mix}, cmpMixins lt (x :: xs) (x :: ys) = cmpMixins lt xs ys := by
      intro x xs ys
      conv => lhs; unfold cmpMixins
      rw [if_neg (by simp)]
    have dec : ∀ {x y}, lt x y = true → lt y x = true → False := by
      intro x y h1 h2
      rw [hd.asymm x y trivial trivial h1] at h2; exact Bool.noConfusion h2
    have hself : ∀ {x}, lt x x = true → False := fun h => dec h h
    have head : ∀ {P : Prop}, (∀ p a' b' c' as' bs' cs', a :: as = p ++ a' :: as' → b :: bs = p ++ b' :: bs' → c :: cs = p ++ c' :: cs' → lt a' b' = true → lt b' c' = true → lt c' a' = true →
        (p = [] → a = a' → b = b' → c = c' → P) → (∀ p', p = a :: p' → a = b → b = c → as = p' ++ a' :: as' → bs = p' ++ b' :: bs' → cs = p' ++ c' :: cs' → P) → P) := by
      intro P p a' b' c' as' bs' cs' e1 e2 e3 _ _ _ k1 k2
      cases p with
      | nil =>
        simp only [List.nil_append, List.cons.injEq] at e1 e2 e3
        exact k1 rfl e1.1 e2.1 e3.1
      | cons x p' =>
        simp only [List.cons_append, List.cons.injEq] at e1 e2 e3
        exact k2 p' (by rw [e1.1]) (by rw [e1.1, e2.1]) (by rw [e2.1, e3.1]) e1.2 e2.2 e3.2
    by_cases hx : a = b
    · subst hx
      by_cases hy : a = c
      · subst hy
        rw [same, same, same]
        have ih := cmpMixins_cycle hd as bs cs (fun e => hab (by rw [e])) (fun e => hbc (by rw [e])) (fun e => hca (by rw [e]))
        rw [ih]
        constructor
        · rintro ⟨p, a', b', c', as', bs', cs', h1, h2, h3, h4⟩
          exact ⟨a :: p, a', b', c', as', bs', cs', by rw [h1]; rfl, by rw [h2]; rfl, by rw [h3]; rfl, h4⟩
        · rintro ⟨p, a', b', c', as', bs', cs', h1, h2, h3, h4, h5, h6⟩
          refine head p a' b' c' as' bs' cs' h1 h2 h3 h4 h5 h6 ?_ ?_
          · rintro - e1 e2 e3
            rw [← e1, ← e2] at h4
            exact (hself h4).elim
          · intro p' _ _ _ e1 e2 e3
            exact ⟨p', a', b', c', as', bs', cs', e1, e2, e3, h4, h5, h6⟩
      · constructor
        · rintro ⟨-, h2, h3⟩
          rw [low hy] at h2
          rw [low (fun e => hy e.symm)] at h3
          exact (dec h2 h3).elim
        · rintro ⟨p, a', b', c', as', bs', cs', h1, h2, h3, h4, h5, h6⟩
          refine head p a' b' c' as' bs' cs' h1 h2 h3 h4 h5 h6 ?_ ?_
          · rintro - e1 e2 e3
            rw [← e1, ← e2] at h4
            exact (hself h4).elim
          · intro p' _ _ e _ _ _
            exact absurd e hy
    · by_cases hy : b = c
      · subst hy
        constructor
        · rintro ⟨h1, -, h3⟩
          rw [low hx] at h1
          rw [low (fun e => hx e.symm)] at h3
          exact (dec h1 h3).elim
        · rintro ⟨p, a', b', c', as', bs', cs', h1, h2, h3, h4, h5, h6⟩
          refine head p a' b' c' as' bs' cs' h1 h2 h3 h4 h5 h6 ?_ ?_
          · rintro - e1 e2 e3
            rw [← e2, ← e3] at h5
            exact (hself h5).elim
          · intro p' _ e _ _ _ _
            exact absurd e hx
      · by_cases hz : c = a
        · subst hz
          constructor
          · rintro ⟨h1, h2, -⟩
            rw [low hx] at h1
            rw [low hy] at h2
            exact (dec h1 h2).elim
          · rintro ⟨p, a', b', c', as', bs', cs', h1, h2, h3, h4, h5, h6⟩
            refine head p a' b' c' as' bs' cs' h1 h2 h3 h4 h5 h6 ?_ ?_
            · rintro - e1 e2 e3
              rw [← e1, ← e3] at h6
              exact (hself h6).elim
            · intro p' _ e _ _ _ _
              exact absurd e hx
        · rw [low hx, low hy, low hz]
          constructor
          · rintro ⟨h1, h2, h3⟩
            exact ⟨[], a, b, c, as, bs, cs, rfl, rfl, rfl, h1, h2, h3⟩
          · rintro ⟨p, a', b', c', as', bs', cs', h1, h2, h3, h4, h5, h6⟩
            refine head p a' b' c' as' bs' cs' h1 h2 h3 h4 h5 h6 ?_ ?_
            · rintro - e1 e2 e3
              subst e1; subst e2; subst e3
              exact ⟨h4, h5, h6⟩
            · intro p' _ e _ _ _ _
              exact absurd e hx

end Dnmx
