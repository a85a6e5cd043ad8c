import Verif.Spec.Compare
import Verif.Proofs.SystemLemmas
import Verif.Proofs.OrderLemmas

/-! # Lemmas on comparison -/

set_option linter.unusedSimpArgs false
set_option linter.unusedVariables false
set_option linter.unusedSectionVars false

namespace Dnmx
open Spec

/-! ## Lists of mixins -/

theorem cmpMixins_cases (lt : Mix → Mix → Bool) (as bs : List Mix) : cmpMixins lt as bs = -1 ∨ cmpMixins lt as bs = 1 := by
  induction as generalizing bs with
  | nil => left; simp [cmpMixins]
  | cons a as ih =>
    cases bs with
    | nil => right; simp [cmpMixins]
    | cons b bs =>
      unfold cmpMixins
      split
      · split <;> simp
      · exact ih bs

section
variable {lt : Mix → Mix → Bool} {P : Mix → Prop} (hs : StrictTotalOn P lt)
include hs

theorem StrictTotalOn.asymm {a b : Mix} (ha : P a) (hb : P b) (h : lt a b = true) : lt b a = false := by
  cases h' : lt b a with
  | false => rfl
  | true =>
    have := hs.trans a b a ha hb ha h h'
    rw [hs.irrefl a ha] at this; exact absurd this (by simp)

theorem cmpMixins_anti : ∀ as bs : List Mix, (∀ m ∈ as, P m) → (∀ m ∈ bs, P m) → as ≠ bs → cmpMixins lt bs as = - cmpMixins lt as bs ∧ cmpMixins lt as bs ≠ 0
  | [], [], _, _, h => absurd rfl h
  | [], _ :: _, _, _, _ => ⟨rfl, by simp [cmpMixins]⟩
  | _ :: _, [], _, _, _ => ⟨rfl, by simp [cmpMixins]⟩
  | a :: as, b :: bs, ha, hb, h => by
    unfold cmpMixins
    by_cases e : a = b
    · subst e
      simp only [ne_eq, not_true_eq_false, if_false]
      exact cmpMixins_anti as bs (fun m hm => ha m (by simp [hm])) (fun m hm => hb m (by simp [hm])) (fun h' => h (by rw [h']))
    · have e' : b ≠ a := fun x => e x.symm
      simp only [ne_eq, e, e', not_false_eq_true, if_true]
      rcases hs.total a b (ha a (by simp)) (hb b (by simp)) e with h1 | h1
      · rw [h1, StrictTotalOn.asymm hs (ha a (by simp)) (hb b (by simp)) h1]; simp
      · rw [h1, StrictTotalOn.asymm hs (hb b (by simp)) (ha a (by simp)) h1]; simp

theorem cmpMixins_trans : ∀ as bs cs : List Mix, (∀ m ∈ as, P m) → (∀ m ∈ bs, P m) → (∀ m ∈ cs, P m) → cmpMixins lt as bs < 0 → cmpMixins lt bs cs < 0 → cmpMixins lt as cs < 0
  | [], _, _, _, _, _, _, _ => by simp [cmpMixins]
  | _ :: _, [], _, _, _, _, h, _ => by simp [cmpMixins] at h
  | _ :: _, _ :: _, [], _, _, _, _, h => by simp [cmpMixins] at h
  | a :: as, b :: bs, c :: cs, ha, hb, hc, h1, h2 => by
    unfold cmpMixins at h1 h2 ⊢
    have pa := ha a (by simp)
    have pb := hb b (by simp)
    have pc := hc c (by simp)
    by_cases e1 : a = b
    · subst e1
      simp only [ne_eq, not_true_eq_false, if_false] at h1
      by_cases e2 : a = c
      · subst e2
        simp only [ne_eq, not_true_eq_false, if_false] at h2 ⊢
        exact cmpMixins_trans as bs cs (fun m hm => ha m (by simp [hm])) (fun m hm => hb m (by simp [hm])) (fun m hm => hc m (by simp [hm])) h1 h2
      · simp only [ne_eq, e2, not_false_eq_true, if_true] at h2 ⊢
        exact h2
    · simp only [ne_eq, e1, not_false_eq_true, if_true] at h1
      have l1 : lt a b = true := by
        cases h : lt a b with
        | true => rfl
        | false => rw [h] at h1; simp at h1
      by_cases e2 : b = c
      · subst e2
        simp only [ne_eq, e1, not_false_eq_true, if_true, l1]
        simp
      · simp only [ne_eq, e2, not_false_eq_true, if_true] at h2
        have l2 : lt b c = true := by
          cases h : lt b c with
          | true => rfl
          | false => rw [h] at h2; simp at h2
        have l3 := hs.trans a b c pa pb pc l1 l2
        have e3 : a ≠ c := by
          intro e; subst e
          rw [hs.irrefl a pa] at l3; simp at l3
        simp only [ne_eq, e3, not_false_eq_true, if_true, l3]
        simp

end

/-! ## Values -/

/-- `equals` and `compare` of values at positions. -/
def eqVals (D : Decls) (F : CmpFns) (x y : Nat → Nat) : Nat → List Mix → Bool
  | _, [] => true
  | i, m :: ms =>
    if (D.mix m).hasEquals then (if F.eq m (x i) (y i) then eqVals D F x y (i + 1) ms else false)
    else if (D.mix m).hasCompare then (if F.cmp m (x i) (y i) ≠ 0 then false else eqVals D F x y (i + 1) ms)
    else false

def cmpVals (D : Decls) (F : CmpFns) (x y : Nat → Nat) : Nat → List Mix → Except XErr Int
  | _, [] => .ok 0
  | i, m :: ms =>
    if !(D.mix m).hasCompare then .error (.missingFunc m)
    else if F.cmp m (x i) (y i) ≠ 0 then .ok (F.cmp m (x i) (y i))
    else cmpVals D F x y (i + 1) ms

variable {D : Decls} {F : CmpFns}

theorem eqVals_iff (x y : Nat → Nat) : ∀ (ms : List Mix) (i : Nat), eqVals D F x y i ms = true ↔ ∀ (j : Nat) (m : Mix), ms[j]? = some m → SameBy D F m (x (i + j)) (y (i + j))
  | [], i => by simp [eqVals]
  | m :: ms, i => by
    have ih := eqVals_iff x y ms (i + 1)
    have hsplit : (∀ (j : Nat) (m' : Mix), (m :: ms)[j]? = some m' → SameBy D F m' (x (i + j)) (y (i + j))) ↔
        SameBy D F m (x i) (y i) ∧ ∀ (j : Nat) (m' : Mix), ms[j]? = some m' → SameBy D F m' (x (i + 1 + j)) (y (i + 1 + j)) := by
      constructor
      · intro h
        refine ⟨h 0 m rfl, fun j m' hj => ?_⟩
        have := h (j + 1) m' (by simpa using hj)
        rwa [show i + (j + 1) = i + 1 + j by omega] at this
      · rintro ⟨h0, h1⟩ j m' hj
        cases j with
        | zero => simp at hj; subst hj; exact h0
        | succ j =>
          have := h1 j m' (by simpa using hj)
          rwa [show i + (j + 1) = i + 1 + j by omega]
    rw [hsplit, ← ih, show eqVals D F x y i (m :: ms) = (if (D.mix m).hasEquals then (if F.eq m (x i) (y i) then eqVals D F x y (i + 1) ms else false)
      else if (D.mix m).hasCompare then (if F.cmp m (x i) (y i) ≠ 0 then false else eqVals D F x y (i + 1) ms) else false) from rfl]
    unfold SameBy
    by_cases h1 : (D.mix m).hasEquals = true
    · simp only [h1, if_true]
      by_cases h2 : F.eq m (x i) (y i) = true <;> simp [h2]
    · simp only [h1, if_false]
      by_cases h2 : (D.mix m).hasCompare = true
      · by_cases h3 : F.cmp m (x i) (y i) = 0 <;> simp [h2, h3]
      · simp [h2]

theorem sameBy_symm (hL : Lawful D F) {m : Mix} {v w : Nat} (h : SameBy D F m v w) : SameBy D F m w v := by
  unfold SameBy at h ⊢
  by_cases h1 : (D.mix m).hasEquals = true
  · simp only [h1, if_true] at h ⊢; exact hL.eqSymm m v w h1 h
  · simp only [h1, if_false] at h ⊢
    have h3 := hL.cmpAnti m v w h.1
    have h4 := hL.cmpAnti m w v h.1
    refine ⟨h.1, ?_⟩
    have := h.2
    omega

theorem cmp_zero_trans (hL : Lawful D F) {m : Mix} (hc : (D.mix m).hasCompare = true) {u v w : Nat} (h1 : F.cmp m u v = 0) (h2 : F.cmp m v w = 0) : F.cmp m u w = 0 := by
  have a1 := hL.cmpAnti m u v hc
  have a2 := hL.cmpAnti m v u hc
  have a3 := hL.cmpAnti m v w hc
  have a4 := hL.cmpAnti m w v hc
  have a5 := hL.cmpAnti m u w hc
  have a6 := hL.cmpAnti m w u hc
  have t1 := hL.cmpTrans m u v w hc (by omega) (by omega)
  have t2 := hL.cmpTrans m w v u hc (by omega) (by omega)
  omega

theorem sameBy_trans (hL : Lawful D F) {m : Mix} {u v w : Nat} (h : SameBy D F m u v) (h' : SameBy D F m v w) : SameBy D F m u w := by
  unfold SameBy at h h' ⊢
  by_cases h1 : (D.mix m).hasEquals = true
  · simp only [h1, if_true] at h h' ⊢; exact hL.eqTrans m u v w h1 h h'
  · simp only [h1, if_false] at h h' ⊢
    exact ⟨h.1, cmp_zero_trans hL h.1 h.2 h'.2⟩

theorem cmpVals_anti (hL : Lawful D F) (x y : Nat → Nat) : ∀ (ms : List Mix) (i : Nat),
    (∀ e, cmpVals D F x y i ms = .error e → cmpVals D F y x i ms = .error e) ∧
    ∀ c, cmpVals D F x y i ms = .ok c → ∃ c', cmpVals D F y x i ms = .ok c' ∧ (c < 0 ↔ 0 < c') ∧ (c' < 0 ↔ 0 < c)
  | [], i => by
    refine ⟨fun e h => by simp [cmpVals] at h, fun c h => ?_⟩
    simp [cmpVals] at h; subst h
    exact ⟨0, rfl, by simp, by simp⟩
  | m :: ms, i => by
    obtain ⟨ih1, ih2⟩ := cmpVals_anti hL x y ms (i + 1)
    unfold cmpVals
    by_cases hc : (D.mix m).hasCompare = true
    · have a1 := hL.cmpAnti m (x i) (y i) hc
      have a2 := hL.cmpAnti m (y i) (x i) hc
      simp only [hc, Bool.not_true, Bool.false_eq_true, if_false]
      by_cases h0 : F.cmp m (x i) (y i) = 0
      · have h0' : F.cmp m (y i) (x i) = 0 := by omega
        simp only [h0, h0', ne_eq, not_true_eq_false, if_false]
        exact ⟨ih1, ih2⟩
      · have h0' : F.cmp m (y i) (x i) ≠ 0 := by omega
        simp only [h0, h0', ne_eq, not_false_eq_true, if_true]
        refine ⟨fun e h => by simp at h, fun c h => ?_⟩
        simp at h; subst h
        exact ⟨_, rfl, a1, a2⟩
    · simp only [hc, Bool.not_false, if_true]
      exact ⟨fun e h => h, fun c h => by simp at h⟩

theorem cmpVals_trans (hL : Lawful D F) (x y z : Nat → Nat) : ∀ (ms : List Mix) (i : Nat) (c c' : Int),
    cmpVals D F x y i ms = .ok c → cmpVals D F y z i ms = .ok c' → c ≤ 0 → c' ≤ 0 → ∃ c'', cmpVals D F x z i ms = .ok c'' ∧ c'' ≤ 0 ∧ (c'' = 0 → c = 0 ∧ c' = 0)
  | [], i, c, c', h1, h2, _, _ => by
    simp [cmpVals] at h1 h2; subst h1 h2
    exact ⟨0, rfl, by simp, by simp⟩
  | m :: ms, i, c, c', h1, h2, hc1, hc2 => by
    unfold cmpVals at h1 h2 ⊢
    by_cases hc : (D.mix m).hasCompare = true
    · simp only [hc, Bool.not_true, Bool.false_eq_true, if_false] at h1 h2 ⊢
      have a1 := hL.cmpAnti m (x i) (y i) hc
      have a2 := hL.cmpAnti m (y i) (x i) hc
      have a3 := hL.cmpAnti m (y i) (z i) hc
      have a4 := hL.cmpAnti m (z i) (y i) hc
      have a5 := hL.cmpAnti m (x i) (z i) hc
      have a6 := hL.cmpAnti m (z i) (x i) hc
      have t1 := hL.cmpTrans m (x i) (y i) (z i) hc
      have t2 := hL.cmpTrans m (z i) (x i) (y i) hc
      have t3 := hL.cmpTrans m (y i) (z i) (x i) hc
      have t4 := hL.cmpTrans m (z i) (y i) (x i) hc
      by_cases e1 : F.cmp m (x i) (y i) = 0
      · simp only [e1, ne_eq, not_true_eq_false, if_false] at h1
        by_cases e2 : F.cmp m (y i) (z i) = 0
        · simp only [e2, ne_eq, not_true_eq_false, if_false] at h2
          have e3 := cmp_zero_trans hL hc e1 e2
          simp only [e3, ne_eq, not_true_eq_false, if_false]
          exact cmpVals_trans hL x y z ms (i + 1) c c' h1 h2 hc1 hc2
        · simp only [e2, ne_eq, not_false_eq_true, if_true] at h2
          simp at h2
          have e3 : F.cmp m (x i) (z i) ≠ 0 ∧ F.cmp m (x i) (z i) ≤ 0 := by omega
          simp only [e3.1, ne_eq, not_false_eq_true, if_true]
          exact ⟨_, rfl, e3.2, fun h => absurd h e3.1⟩
      · simp only [e1, ne_eq, not_false_eq_true, if_true] at h1
        simp at h1
        have e2 : F.cmp m (y i) (z i) ≤ 0 := by
          by_cases e2 : F.cmp m (y i) (z i) = 0
          · omega
          · simp only [e2, ne_eq, not_false_eq_true, if_true] at h2
            simp at h2; omega
        have e3 : F.cmp m (x i) (z i) ≠ 0 ∧ F.cmp m (x i) (z i) ≤ 0 := by omega
        simp only [e3.1, ne_eq, not_false_eq_true, if_true]
        exact ⟨_, rfl, e3.2, fun h => absurd h e3.1⟩
    · simp only [hc, Bool.not_false, if_true] at h1
      simp at h1

/-- What a result of `compare` means. -/
theorem cmpVals_meaning (x y : Nat → Nat) : ∀ (ms : List Mix) (i : Nat),
    (∀ c, cmpVals D F x y i ms = .ok c → (c = 0 ∧ ∀ (j : Nat) (m : Mix), ms[j]? = some m → (D.mix m).hasCompare = true ∧ F.cmp m (x (i + j)) (y (i + j)) = 0) ∨
      (c ≠ 0 ∧ ∃ (k : Nat) (m : Mix), ms[k]? = some m ∧ (D.mix m).hasCompare = true ∧ c = F.cmp m (x (i + k)) (y (i + k)) ∧
        ∀ (j : Nat) (m : Mix), j < k → ms[j]? = some m → (D.mix m).hasCompare = true ∧ F.cmp m (x (i + j)) (y (i + j)) = 0)) ∧
    ∀ e, cmpVals D F x y i ms = .error e → ∃ (k : Nat) (m : Mix), ms[k]? = some m ∧ (D.mix m).hasCompare = false ∧ e = .missingFunc m ∧
        ∀ (j : Nat) (m : Mix), j < k → ms[j]? = some m → (D.mix m).hasCompare = true ∧ F.cmp m (x (i + j)) (y (i + j)) = 0
  | [], i => by
    refine ⟨fun c h => ?_, fun e h => by simp [cmpVals] at h⟩
    simp [cmpVals] at h; subst h
    left; exact ⟨rfl, fun j m h => by simp at h⟩
  | m :: ms, i => by
    obtain ⟨ih1, ih2⟩ := cmpVals_meaning x y ms (i + 1)
    unfold cmpVals
    by_cases hc : (D.mix m).hasCompare = true
    · simp only [hc, Bool.not_true, Bool.false_eq_true, if_false]
      by_cases h0 : F.cmp m (x i) (y i) = 0
      · simp only [h0, ne_eq, not_true_eq_false, if_false]
        have hcons : ∀ (k : Nat), (∀ (j : Nat) (m : Mix), j < k → ms[j]? = some m → (D.mix m).hasCompare = true ∧ F.cmp m (x (i + 1 + j)) (y (i + 1 + j)) = 0) →
            ∀ (j : Nat) (m' : Mix), j < k + 1 → (m :: ms)[j]? = some m' → (D.mix m').hasCompare = true ∧ F.cmp m' (x (i + j)) (y (i + j)) = 0 := by
          intro k h j m' hj hm
          cases j with
          | zero => simp at hm; subst hm; exact ⟨hc, h0⟩
          | succ j =>
            have := h j m' (by omega) (by simpa using hm)
            rwa [show i + (j + 1) = i + 1 + j by omega]
        refine ⟨fun c h => ?_, fun e h => ?_⟩
        · rcases ih1 c h with ⟨h1, h2⟩ | ⟨h1, k, m', h2, h3, h4, h5⟩
          · left
            refine ⟨h1, fun j m' hm => hcons (j + 1) (fun j m _ => h2 j m) j m' (by omega) hm⟩
          · right
            refine ⟨h1, k + 1, m', by simpa using h2, h3, ?_, hcons k h5⟩
            rw [show i + (k + 1) = i + 1 + k by omega]; exact h4
        · obtain ⟨k, m', h2, h3, h4, h5⟩ := ih2 e h
          exact ⟨k + 1, m', by simpa using h2, h3, h4, hcons k h5⟩
      · simp only [h0, ne_eq, not_false_eq_true, if_true]
        refine ⟨fun c h => ?_, fun e h => by simp at h⟩
        simp at h; subst h
        right
        exact ⟨h0, 0, m, rfl, hc, rfl, fun j _ hj => by omega⟩
    · simp only [hc, Bool.not_false, if_true]
      refine ⟨fun c h => by simp at h, fun e h => ?_⟩
      simp at h; subst h
      exact ⟨0, m, rfl, by simpa using hc, rfl, fun j _ hj => by omega⟩

/-! ## Objects -/

variable {E : TyEnv}

/-- The values of an object by position. -/
theorem cmp_values_of {h : Heap} (hk : HeapOk D E h) {o : Nat} {ob : Obj} (ho : h.obj? o = some ob) {t : TypeId} (ht : ob.ty = some t) :
    ∃ x : Nat → Nat, (∀ (i : Nat) (m : Mix), (E.mixins t)[i]? = some m → valueAt h ob.data i = some (m, x i) ∧ ∃ l, Holds E h o m l (x i)) := by
  have key : ∀ i : Nat, ∃ v, ∀ m, (E.mixins t)[i]? = some m → valueAt h ob.data i = some (m, v) ∧ ∃ l, Holds E h o m l v := by
    intro i
    cases hm : (E.mixins t)[i]? with
    | none => exact ⟨0, fun m h => by simp at h⟩
    | some m =>
      have hob := hk.objs o ob ho
      unfold ObjOk at hob
      cases hd : ob.data with
      | none =>
        rw [hd] at hob
        simp only at hob
        rw [hob t ht] at hm; simp at hm
      | some a =>
        rw [hd] at hob
        obtain ⟨t', h1, h2, h3, h4⟩ := hob
        rw [ht] at h1; simp at h1; subst h1
        obtain ⟨sl, v, h5, h6, h7, h8⟩ := h4 i m hm
        refine ⟨v, fun m' hm' => ?_⟩
        simp at hm'; subst hm'
        refine ⟨?_, sl.loc, i, sl, ⟨ob, t, a, ho, ht, hd, hm, h5⟩, rfl, h7⟩
        simp [valueAt, Heap.slot?, h3, h5, h7]
  exact ⟨fun i => (key i).choose, fun i => (key i).choose_spec⟩

theorem equalsFrom_vals {h : Heap} {a b : Option Nat} {x y : Nat → Nat} {all : List Mix} (hx : ∀ (i : Nat) (m : Mix), all[i]? = some m → valueAt h a i = some (m, x i))
    (hy : ∀ (i : Nat) (m : Mix), all[i]? = some m → valueAt h b i = some (m, y i)) : ∀ (ms : List Mix) (i : Nat), (∀ j, ms[j]? = all[i + j]?) → equalsFrom D F h a b i ms = some (eqVals D F x y i ms)
  | [], i, _ => rfl
  | m :: ms, i, hi => by
    have h0 : all[i]? = some m := by have := hi 0; simpa using this.symm
    have ih := equalsFrom_vals hx hy ms (i + 1) (fun j => by
      have := hi (j + 1)
      rw [show i + (j + 1) = i + 1 + j by omega] at this
      simpa using this)
    unfold equalsFrom eqVals
    rw [hx i m h0, hy i m h0]
    simp only [ne_eq, not_true_eq_false, or_self, if_false, ih]
    by_cases h1 : (D.mix m).hasEquals = true
    · simp only [h1, if_true]; split <;> rfl
    · by_cases h2 : (D.mix m).hasCompare = true
      · simp only [h1, h2, if_false, if_true, Bool.false_eq_true]
        by_cases h3 : F.cmp m (x i) (y i) = 0 <;> simp [h3]
      · simp [h1, h2]

theorem compareFrom_vals {h : Heap} {a b : Option Nat} {x y : Nat → Nat} {all : List Mix} (hx : ∀ (i : Nat) (m : Mix), all[i]? = some m → valueAt h a i = some (m, x i))
    (hy : ∀ (i : Nat) (m : Mix), all[i]? = some m → valueAt h b i = some (m, y i)) : ∀ (ms : List Mix) (i : Nat), (∀ j, ms[j]? = all[i + j]?) → compareFrom D F h a b i ms = some (cmpVals D F x y i ms)
  | [], i, _ => rfl
  | m :: ms, i, hi => by
    have h0 : all[i]? = some m := by have := hi 0; simpa using this.symm
    have ih := compareFrom_vals hx hy ms (i + 1) (fun j => by
      have := hi (j + 1)
      rw [show i + (j + 1) = i + 1 + j by omega] at this
      simpa using this)
    unfold compareFrom cmpVals
    rw [hx i m h0, hy i m h0]
    simp only [ne_eq, not_true_eq_false, or_self, if_false, ih]
    by_cases h2 : (D.mix m).hasCompare = true
    · simp only [h2, Bool.not_true, Bool.false_eq_true, if_false]; split <;> rfl
    · simp [h2]

variable (hE : ∀ t, (E.mixins t).Nodup)
include hE

/-- Values are at the position of their mixin. -/
theorem holds_val {h : Heap} (hk : HeapOk D E h) {o : Nat} {ob : Obj} (ho : h.obj? o = some ob) {t : TypeId} (ht : ob.ty = some t) {x : Nat → Nat}
    (hx : ∀ (i : Nat) (m : Mix), (E.mixins t)[i]? = some m → valueAt h ob.data i = some (m, x i) ∧ ∃ l, Holds E h o m l (x i)) {m : Mix} {l : Loc} {v : Nat} (hh : Holds E h o m l v) :
    ∃ i : Nat, (E.mixins t)[i]? = some m ∧ v = x i := by
  obtain ⟨i, sl, ⟨ob', t', a, h1, h2, h3, h4, h5⟩, h6, h7⟩ := hh
  rw [ho] at h1; simp at h1; subst h1
  rw [ht] at h2; simp at h2; subst h2
  refine ⟨i, h4, ?_⟩
  have h8 := (hx i m h4).1
  have hob := hk.objs o ob ho
  unfold ObjOk at hob
  rw [h3] at hob
  obtain ⟨_, _, _, h9, _⟩ := hob
  subst h6
  simp [valueAt, h3, Heap.slot?, h9, h5, h7] at h8
  exact h8

theorem index_unique {t : TypeId} {i j : Nat} {m : Mix} (h1 : (E.mixins t)[i]? = some m) (h2 : (E.mixins t)[j]? = some m) : i = j := by
  exact (List.getElem?_inj (List.getElem?_eq_some_iff.1 h1).1 (hE t)).1 (h1.trans h2.symm)

theorem objEquals_iff {h : Heap} (hk : HeapOk D E h) (hty : AllTyped h) {o o' : Nat} {ob ob' : Obj} (ho : h.obj? o = some ob) (ho' : h.obj? o' = some ob') :
    ∃ b, objEquals D E F h o o' = some b ∧ (b = true ↔ ObjectsEqual D E F h o o') := by
  unfold objEquals
  simp only [ho, ho']
  by_cases e : o = o'
  · subst e
    exact ⟨true, by simp, by simp [ObjectsEqual]⟩
  · simp only [e, if_false]
    by_cases et : ob.ty = ob'.ty
    · simp only [et, ne_eq, not_true_eq_false, if_false]
      cases ht' : ob'.ty with
      | none => exact absurd ht' (hty o' ob' ho')
      | some t =>
        have ht : ob.ty = some t := et.trans ht'
        obtain ⟨x, hx⟩ := cmp_values_of hk ho ht
        obtain ⟨y, hy⟩ := cmp_values_of hk ho' ht'
        refine ⟨eqVals D F x y 0 (E.mixins t), equalsFrom_vals (fun i m h => (hx i m h).1) (fun i m h => (hy i m h).1) _ 0 (fun j => by simp), ?_⟩
        rw [eqVals_iff]
        simp only [Nat.zero_add]
        constructor
        · intro h1
          right
          refine ⟨by simp [ho, ho', et], fun m l v l' w h2 h3 => ?_⟩
          obtain ⟨i, h4, rfl⟩ := holds_val hE hk ho ht hx h2
          obtain ⟨j, h5, rfl⟩ := holds_val hE hk ho' ht' hy h3
          have := index_unique hE h4 h5; subst this
          exact h1 _ m h4
        · rintro (h1 | ⟨_, h1⟩) j m hj
          · exact absurd h1 e
          · obtain ⟨_, l, h2⟩ := hx j m hj
            obtain ⟨_, l', h3⟩ := hy j m hj
            exact h1 m l _ l' _ h2 h3
    · refine ⟨false, by simp [et], ?_⟩
      simp [ObjectsEqual, e, ho, ho', et]

theorem objectsEqual_symm (hL : Lawful D F) {h : Heap} {o o' : Nat} (hh : ObjectsEqual D E F h o o') : ObjectsEqual D E F h o' o := by
  rcases hh with h1 | ⟨h1, h2⟩
  · left; exact h1.symm
  · right
    exact ⟨h1.symm, fun m l v l' w h3 h4 => sameBy_symm hL (h2 m l' w l v h4 h3)⟩

theorem objectsEqual_trans (hL : Lawful D F) {h : Heap} (hk : HeapOk D E h) (hty : AllTyped h) {o o' o'' : Nat} {ob' : Obj} (ho' : h.obj? o' = some ob')
    (hh : ObjectsEqual D E F h o o') (hh' : ObjectsEqual D E F h o' o'') : ObjectsEqual D E F h o o'' := by
  rcases hh with rfl | ⟨h1, h2⟩
  · exact hh'
  rcases hh' with rfl | ⟨h1', h2'⟩
  · right; exact ⟨h1, h2⟩
  right
  refine ⟨h1.trans h1', fun m l v l' w h3 h4 => ?_⟩
  cases ht : ob'.ty with
  | none => exact absurd ht (hty o' ob' ho')
  | some t =>
    obtain ⟨y, hy⟩ := cmp_values_of hk ho' ht
    have h3' := h3
    obtain ⟨i, sl, ⟨ob, t', a, g1, g2, g3, g4, g5⟩, _⟩ := h3'
    have : t' = t := by simp [g1, ho', ht, g2] at h1; exact h1
    subst this
    obtain ⟨_, k, h5⟩ := hy i m g4
    exact sameBy_trans hL (h2 m l v k _ h3 h5) (h2' m k _ l' w h5 h4)

omit hE

/-! ## Types -/

variable {d : DomId} {W : World}

/-- The mixins of types of a domain. -/
def InTypes (W : World) (d : DomId) (m : Mix) : Prop := ∃ r ∈ typesOf W d, m ∈ r.mixins

theorem names_total (hn : NamesProper D W d) (ids : Mix → Option Nat) : StrictTotalOn (InTypes W d) (canonicalOrder D ids) :=
  canonicalOrder_strictTotal D ids _ (fun m ⟨r, h1, h2⟩ => hn.valid r h1 m h2) (fun a b ⟨r, h1, h2⟩ ⟨r', h3, h4⟩ => hn.noAlias r h1 a h2 r' h3 b h4)

theorem typeAt_inTypes {t : TypeId} {r : TypeRec} (h : (W.doms d).typeAt d t = some r) : ∀ m ∈ r.mixins, InTypes W d m := by
  intro m hm
  rcases typeAt_some h with ⟨h1, h2⟩ | ⟨h1, h2, h3⟩
  · subst h2; simp [emptyType] at hm
  · exact ⟨r, h2, hm⟩

theorem typeAt_mixins_inj (hi : TypesInv D W d) {t t' : TypeId} {r r' : TypeRec} (h : (W.doms d).typeAt d t = some r) (h' : (W.doms d).typeAt d t' = some r') (hne : t ≠ t') : r.mixins ≠ r'.mixins := by
  rcases typeAt_some h with ⟨h1, h2⟩ | ⟨h1, h2, h3⟩
  · rcases typeAt_some h' with ⟨h1', h2'⟩ | ⟨h1', h2', h3'⟩
    · exact absurd (h1.trans h1'.symm) hne
    · subst h2
      intro e
      exact (hi.ok r' h2').nonempty e.symm
  · rcases typeAt_some h' with ⟨h1', h2'⟩ | ⟨h1', h2', h3'⟩
    · subst h2'
      intro e
      exact (hi.ok r h2).nonempty e
    · intro e
      have := findType_mem hi.comps r h2
      rw [e, findType_mem hi.comps r' h2'] at this
      simp at this; subst this
      exact hne (h3.symm.trans h3')

theorem typeCompare_some (addr : DomId → Nat) {d' : DomId} {t t' : TypeId} {r r' : TypeRec} (h : (W.doms d).typeAt d t = some r) (h' : (W.doms d').typeAt d' t' = some r') :
    ∃ c, typeCompare D W addr d t d' t' = some c := by
  unfold typeCompare
  by_cases e : d = d' ∧ t = t'
  · rw [if_pos e]; exact ⟨_, rfl⟩
  · rw [if_neg e]
    by_cases e' : d ≠ d'
    · rw [if_pos e']; exact ⟨_, rfl⟩
    · rw [if_neg e']
      have : d = d' := by simpa using e'
      subst this
      rw [h, h']; exact ⟨_, rfl⟩

theorem typeCompare_self (addr : DomId → Nat) (t : TypeId) : typeCompare D W addr d t d t = some 0 := by simp [typeCompare]

theorem typeCompare_ne {addr : DomId → Nat} {t t' : TypeId} {r r' : TypeRec} (h : (W.doms d).typeAt d t = some r) (h' : (W.doms d).typeAt d t' = some r') (hne : t ≠ t') :
    typeCompare D W addr d t d t' = some (cmpMixins (canonicalOrder D W.mixId) r.mixins r'.mixins) := by
  unfold typeCompare
  simp [hne, h, h']

theorem ofWorld_nodup (hi : TypesInv D W d) (t : TypeId) : ((TyEnv.ofWorld W d).mixins t).Nodup := by
  by_cases h : (TyEnv.ofWorld W d).mixins t = []
  · rw [h]; simp
  · obtain ⟨r, h1, h2, h3⟩ := ofWorld_typed hi h
    show (((W.doms d).typeAt d t).elim [] (·.mixins)).Nodup
    rw [h2]; exact h3.nodup

theorem ofWorld_mixins {t : TypeId} {r : TypeRec} (h : (W.doms d).typeAt d t = some r) : (TyEnv.ofWorld W d).mixins t = r.mixins := by
  show ((W.doms d).typeAt d t).elim [] (·.mixins) = _
  rw [h]; rfl

theorem typeCompare_anti (hi : ∀ d, TypesInv D W d) (hn : ∀ d, NamesProper D W d) {addr : DomId → Nat} (ha : ∀ d d', addr d = addr d' → d = d') {d d' : DomId} {t t' : TypeId} {c : Int}
    (h : typeCompare D W addr d t d' t' = some c) : typeCompare D W addr d' t' d t = some (-c) ∧ (c = 0 ↔ d = d' ∧ t = t') ∧ (c = -1 ∨ c = 0 ∨ c = 1) := by
  unfold typeCompare at h ⊢
  by_cases e : d = d' ∧ t = t'
  · obtain ⟨rfl, rfl⟩ := e
    simp at h; subst h; simp
  · rw [if_neg e] at h
    rw [if_neg (fun ⟨a, b⟩ => e ⟨a.symm, b.symm⟩)]
    by_cases e' : d = d'
    · subst e'
      simp only [ne_eq, not_true_eq_false, if_false] at h ⊢
      have hne : t ≠ t' := fun x => e ⟨rfl, x⟩
      cases h1 : (W.doms d).typeAt d t with
      | none => rw [h1] at h; simp at h
      | some r =>
        cases h2 : (W.doms d).typeAt d t' with
        | none => rw [h1, h2] at h; simp at h
        | some r' =>
          rw [h1, h2] at h
          simp at h; subst h
          have hs := names_total (hn d) W.mixId
          obtain ⟨h3, h4⟩ := cmpMixins_anti hs r.mixins r'.mixins (typeAt_inTypes h1) (typeAt_inTypes h2) (typeAt_mixins_inj (hi d) h1 h2 hne)
          refine ⟨by simp [h3], by simp [h4, hne], ?_⟩
          rcases cmpMixins_cases (canonicalOrder D W.mixId) r.mixins r'.mixins with h | h <;> simp [h]
    · have e'' : d' ≠ d := fun x => e' x.symm
      simp only [ne_eq, e', e'', not_false_eq_true, if_true] at h ⊢
      simp at h; subst h
      have hne : addr d ≠ addr d' := fun x => e' (ha _ _ x)
      by_cases hlt : addr d < addr d'
      · have : ¬ addr d' < addr d := by omega
        simp [hlt, this]
      · have : addr d' < addr d := by omega
        simp [hlt, this]

theorem typeCompare_trans (hi : ∀ d, TypesInv D W d) (hn : ∀ d, NamesProper D W d) {addr : DomId → Nat} (ha : ∀ d d', addr d = addr d' → d = d') {d d' d'' : DomId} {t t' t'' : TypeId} {c c' : Int}
    (h : typeCompare D W addr d t d' t' = some c) (h' : typeCompare D W addr d' t' d'' t'' = some c') (hc : c < 0) (hc' : c' < 0) :
    ∃ c'', typeCompare D W addr d t d'' t'' = some c'' ∧ c'' < 0 := by
  unfold typeCompare at h h' ⊢
  have e1 : ¬ (d = d' ∧ t = t') := fun e => by rw [if_pos e] at h; simp at h; omega
  have e2 : ¬ (d' = d'' ∧ t' = t'') := fun e => by rw [if_pos e] at h'; simp at h'; omega
  rw [if_neg e1] at h
  rw [if_neg e2] at h'
  by_cases f1 : d = d'
  · subst f1
    simp only [ne_eq, not_true_eq_false, if_false] at h
    cases h1 : (W.doms d).typeAt d t with
    | none => rw [h1] at h; simp at h
    | some r =>
      cases h2 : (W.doms d).typeAt d t' with
      | none => rw [h1, h2] at h; simp at h
      | some r' =>
        rw [h1, h2] at h
        simp at h; subst h
        by_cases f2 : d = d''
        · subst f2
          simp only [ne_eq, not_true_eq_false, if_false] at h'
          cases h3 : (W.doms d).typeAt d t'' with
          | none => rw [h2, h3] at h'; simp at h'
          | some r'' =>
            rw [h2, h3] at h'
            simp at h'; subst h'
            have hs := names_total (hn d) W.mixId
            have h4 := cmpMixins_trans hs r.mixins r'.mixins r''.mixins (typeAt_inTypes h1) (typeAt_inTypes h2) (typeAt_inTypes h3) hc hc'
            have hne : t ≠ t'' := by
              intro e; subst e
              rw [h1] at h3; simp at h3; subst h3
              have hne : t ≠ t' := fun x => e1 ⟨rfl, x⟩
              obtain ⟨h5, h6⟩ := cmpMixins_anti hs r.mixins r'.mixins (typeAt_inTypes h1) (typeAt_inTypes h2) (typeAt_mixins_inj (hi d) h1 h2 hne)
              omega
            exact ⟨cmpMixins (canonicalOrder D W.mixId) r.mixins r''.mixins, by simp [hne], h4⟩
        · simp only [ne_eq, f2, not_false_eq_true, if_true] at h'
          refine ⟨c', ?_, hc'⟩
          simp only [f2, false_and, if_false, ne_eq, not_false_eq_true, if_true]
          exact h'
  · simp only [ne_eq, f1, not_false_eq_true, if_true] at h
    by_cases f2 : d' = d''
    · subst f2
      refine ⟨c, ?_, hc⟩
      simp only [f1, false_and, if_false, ne_eq, not_false_eq_true, if_true]
      exact h
    · simp only [ne_eq, f2, not_false_eq_true, if_true] at h'
      have g1 : addr d < addr d' := by
        by_cases g : addr d < addr d'
        · exact g
        · simp [g] at h; omega
      have g2 : addr d' < addr d'' := by
        by_cases g : addr d' < addr d''
        · exact g
        · simp [g] at h'; omega
      have g3 : addr d < addr d'' := by omega
      have f3 : d ≠ d'' := fun e => by subst e; omega
      exact ⟨-1, by simp [f3, g3], by simp⟩

/-! ## compare of objects -/

/-- The values of an object. -/
def valsOf (h : Heap) (ob : Obj) (i : Nat) : Nat := ((valueAt h ob.data i).map (·.2)).getD 0

theorem valsOf_ok {h : Heap} (hk : HeapOk D E h) {o : Nat} {ob : Obj} (ho : h.obj? o = some ob) {t : TypeId} (ht : ob.ty = some t) (i : Nat) (m : Mix) (hm : (E.mixins t)[i]? = some m) :
    valueAt h ob.data i = some (m, valsOf h ob i) ∧ ∃ l, Holds E h o m l (valsOf h ob i) := by
  obtain ⟨x, hx⟩ := cmp_values_of hk ho ht
  obtain ⟨h1, h2⟩ := hx i m hm
  have : valsOf h ob i = x i := by simp [valsOf, h1]
  rw [this]; exact ⟨h1, h2⟩

inductive CmpCase (D : Decls) (F : CmpFns) (d : DomId) (S : Sys) (o o' : Nat) (ob ob' : Obj) : Option (Except XErr Int) → Prop
  | same : o = o' → CmpCase D F d S o o' ob ob' (some (.ok 0))
  | types (t t' : TypeId) (r r' : TypeRec) : o ≠ o' → ob.ty = some t → ob'.ty = some t' → t ≠ t' → (S.W.doms d).typeAt d t = some r → (S.W.doms d).typeAt d t' = some r' →
      CmpCase D F d S o o' ob ob' (some (.ok (cmpMixins (canonicalOrder D S.W.mixId) r.mixins r'.mixins)))
  | values (t : TypeId) : o ≠ o' → ob.ty = some t → ob'.ty = some t → CmpCase D F d S o o' ob ob' (some (cmpVals D F (valsOf S.h ob) (valsOf S.h ob') 0 ((TyEnv.ofWorld S.W d).mixins t)))

theorem objCompare_cases {S : Sys} (hi : SysInv D d S) (addr : DomId → Nat) {o o' : Nat} {ob ob' : Obj} (ho : S.h.obj? o = some ob) (ho' : S.h.obj? o' = some ob') :
    CmpCase D F d S o o' ob ob' (objCompare D F addr d S o o') := by
  unfold objCompare
  simp only [ho, ho']
  by_cases e : o = o'
  · rw [if_pos e]; exact .same e
  rw [if_neg e]
  cases ht : ob.ty with
  | none => exact absurd ht (hi.good.2 o ob ho)
  | some t =>
    cases ht' : ob'.ty with
    | none => exact absurd ht' (hi.good.2 o' ob' ho')
    | some t' =>
      obtain ⟨r, h1⟩ := hi.there o ob t ho ht
      obtain ⟨r', h2⟩ := hi.there o' ob' t' ho' ht'
      by_cases et : t = t'
      · subst et
        simp only [typeCompare_self, ne_eq, not_true_eq_false, if_false]
        rw [compareFrom_vals (fun i m h => (valsOf_ok hi.good.1 ho ht i m h).1) (fun i m h => (valsOf_ok hi.good.1 ho' ht' i m h).1) _ 0 (fun j => by simp)]
        exact .values t e ht ht'
      · simp only [typeCompare_ne h1 h2 et]
        have : cmpMixins (canonicalOrder D S.W.mixId) r.mixins r'.mixins ≠ 0 := by
          rcases cmpMixins_cases (canonicalOrder D S.W.mixId) r.mixins r'.mixins with h | h <;> simp [h]
        rw [if_pos this]
        exact .types t t' r r' e ht ht' et h1 h2

theorem objCompare_anti (hL : Lawful D F) {S : Sys} (hi : SysInv D d S) (hn : NamesProper D S.W d) (addr : DomId → Nat) {o o' : Nat} {ob ob' : Obj} (ho : S.h.obj? o = some ob) (ho' : S.h.obj? o' = some ob') :
    (∀ e, objCompare D F addr d S o o' = some (.error e) → objCompare D F addr d S o' o = some (.error e)) ∧
    ∀ c, objCompare D F addr d S o o' = some (.ok c) → ∃ c', objCompare D F addr d S o' o = some (.ok c') ∧ (c < 0 ↔ 0 < c') ∧ (c' < 0 ↔ 0 < c) := by
  have h1 := objCompare_cases (F := F) hi addr ho ho'
  have h2 := objCompare_cases (F := F) hi addr ho' ho
  generalize objCompare D F addr d S o o' = x at h1 ⊢
  generalize objCompare D F addr d S o' o = y at h2 ⊢
  cases h1 with
  | same e =>
    subst e
    refine ⟨fun e h => by simp at h, fun c h => ?_⟩
    simp at h; subst h
    cases h2 with
    | same e => exact ⟨0, rfl, by simp, by simp⟩
    | types _ _ _ _ e => exact absurd rfl e
    | values _ e => exact absurd rfl e
  | types t t' r r' e ht ht' hne hr hr' =>
    refine ⟨fun e h => by simp at h, fun c h => ?_⟩
    simp at h; subst h
    cases h2 with
    | same e' => exact absurd e'.symm e
    | types t1 t1' r1 r1' _ g1 g1' _ gr gr' =>
      rw [ht'] at g1; simp at g1; subst g1
      rw [ht] at g1'; simp at g1'; subst g1'
      rw [hr'] at gr; simp at gr; subst gr
      rw [hr] at gr'; simp at gr'; subst gr'
      have := (cmpMixins_anti (names_total hn S.W.mixId) r.mixins r'.mixins (typeAt_inTypes hr) (typeAt_inTypes hr') (typeAt_mixins_inj hi.types hr hr' hne)).1
      exact ⟨_, rfl, by omega, by omega⟩
    | values t1 _ g1 g1' =>
      rw [ht'] at g1; rw [ht] at g1'
      simp at g1 g1'
      exact absurd (g1'.trans g1.symm) hne
  | values t e ht ht' =>
    cases h2 with
    | same e' => exact absurd e'.symm e
    | types t1 t1' r1 r1' _ g1 g1' hne _ _ =>
      rw [ht'] at g1; rw [ht] at g1'
      simp at g1 g1'
      exact absurd (g1.symm.trans g1') hne
    | values t1 _ g1 g1' =>
      rw [ht'] at g1; simp at g1; subst g1
      obtain ⟨a1, a2⟩ := cmpVals_anti hL (valsOf S.h ob) (valsOf S.h ob') ((TyEnv.ofWorld S.W d).mixins t) 0
      refine ⟨fun e h => ?_, fun c h => ?_⟩
      · simp at h; rw [a1 e h]
      · simp at h
        obtain ⟨c', h3, h4⟩ := a2 c h
        exact ⟨c', by rw [h3], h4⟩

theorem objCompare_trans (hL : Lawful D F) {S : Sys} (hi : SysInv D d S) (hn : NamesProper D S.W d) (addr : DomId → Nat) {o o' o'' : Nat} {ob ob' ob'' : Obj}
    (ho : S.h.obj? o = some ob) (ho' : S.h.obj? o' = some ob') (ho'' : S.h.obj? o'' = some ob'') {c c' : Int} (h : objCompare D F addr d S o o' = some (.ok c)) (h' : objCompare D F addr d S o' o'' = some (.ok c'))
    (hc : c ≤ 0) (hc' : c' ≤ 0) : ∃ c'', objCompare D F addr d S o o'' = some (.ok c'') ∧ c'' ≤ 0 ∧ (c'' = 0 → c = 0 ∧ c' = 0) := by
  by_cases e1 : o = o'
  · subst e1
    have : c = 0 := by simp [objCompare, ho] at h; exact h.symm
    exact ⟨c', h', hc', fun x => ⟨this, x⟩⟩
  by_cases e2 : o' = o''
  · subst e2
    have : c' = 0 := by simp [objCompare, ho'] at h'; exact h'.symm
    exact ⟨c, h, hc, fun x => ⟨x, this⟩⟩
  by_cases e3 : o = o''
  · subst e3
    obtain ⟨c1, h1, h2, h3⟩ := (objCompare_anti hL hi hn addr ho ho').2 c h
    rw [h'] at h1; simp at h1; subst h1
    exact ⟨0, by simp [objCompare, ho], by simp, fun _ => by omega⟩
  have h1 := objCompare_cases (F := F) hi addr ho ho'
  have h2 := objCompare_cases (F := F) hi addr ho' ho''
  have h3 := objCompare_cases (F := F) hi addr ho ho''
  rw [h] at h1
  rw [h'] at h2
  generalize objCompare D F addr d S o o'' = z at h3 ⊢
  generalize hx : some (Except.ok c) = x at h1
  generalize hy : some (Except.ok c') = y at h2
  have hs := names_total hn S.W.mixId
  cases h1 with
  | same e => exact absurd e e1
  | types t t' r r' _ ht ht' hne hr hr' =>
    simp at hx; subst hx
    have n1 := (cmpMixins_anti hs r.mixins r'.mixins (typeAt_inTypes hr) (typeAt_inTypes hr') (typeAt_mixins_inj hi.types hr hr' hne))
    cases h2 with
    | same e => exact absurd e e2
    | types s s' q q' _ hs1 hs1' hne' hq hq' =>
      simp at hy; subst hy
      rw [ht'] at hs1; simp at hs1; subst hs1
      rw [hr'] at hq; simp at hq; subst hq
      have n2 := (cmpMixins_anti hs r'.mixins q'.mixins (typeAt_inTypes hr') (typeAt_inTypes hq') (typeAt_mixins_inj hi.types hr' hq' hne'))
      have l := cmpMixins_trans hs r.mixins r'.mixins q'.mixins (typeAt_inTypes hr) (typeAt_inTypes hr') (typeAt_inTypes hq') (by omega) (by omega)
      cases h3 with
      | same e => exact absurd e e3
      | types a b ra rb _ ga gb _ gra grb =>
        rw [ht] at ga; simp at ga; subst ga
        rw [hs1'] at gb; simp at gb; subst gb
        rw [hr] at gra; simp at gra; subst gra
        rw [hq'] at grb; simp at grb; subst grb
        exact ⟨_, rfl, by omega, fun x => by omega⟩
      | values a _ ga gb =>
        rw [ht] at ga; simp at ga; subst ga
        rw [hs1'] at gb; simp at gb; subst gb
        rw [hr] at hq'; simp at hq'; subst hq'
        omega
    | values s _ hs1 hs1' =>
      rw [ht'] at hs1; simp at hs1; subst hs1
      cases h3 with
      | same e => exact absurd e e3
      | types a b ra rb _ ga gb _ gra grb =>
        rw [ht] at ga; simp at ga; subst ga
        rw [hs1'] at gb; simp at gb; subst gb
        rw [hr] at gra; simp at gra; subst gra
        rw [hr'] at grb; simp at grb; subst grb
        exact ⟨_, rfl, by omega, fun x => by omega⟩
      | values a _ ga gb =>
        rw [ht] at ga; simp at ga; subst ga
        rw [hs1'] at gb; simp at gb; exact absurd gb.symm hne
  | values t _ ht ht' =>
    simp at hx
    cases h2 with
    | same e => exact absurd e e2
    | types s s' q q' _ hs1 hs1' hne' hq hq' =>
      simp at hy; subst hy
      rw [ht'] at hs1; simp at hs1; subst hs1
      have n2 := (cmpMixins_anti hs q.mixins q'.mixins (typeAt_inTypes hq) (typeAt_inTypes hq') (typeAt_mixins_inj hi.types hq hq' hne'))
      cases h3 with
      | same e => exact absurd e e3
      | types a b ra rb _ ga gb _ gra grb =>
        rw [ht] at ga; simp at ga; subst ga
        rw [hs1'] at gb; simp at gb; subst gb
        rw [hq] at gra; simp at gra; subst gra
        rw [hq'] at grb; simp at grb; subst grb
        exact ⟨_, rfl, by omega, fun x => by omega⟩
      | values a _ ga gb =>
        rw [ht] at ga; simp at ga; subst ga
        rw [hs1'] at gb; simp at gb; exact absurd gb.symm hne'
    | values s _ hs1 hs1' =>
      simp at hy
      rw [ht'] at hs1; simp at hs1; subst hs1
      cases h3 with
      | same e => exact absurd e e3
      | types a b ra rb _ ga gb hne _ _ =>
        rw [ht] at ga; simp at ga; subst ga
        rw [hs1'] at gb; simp at gb; exact absurd gb hne
      | values a _ ga gb =>
        rw [ht] at ga; simp at ga; subst ga
        obtain ⟨c'', g1, g2⟩ := cmpVals_trans hL _ _ _ _ 0 c c' hx.symm hy.symm hc hc'
        exact ⟨c'', by rw [g1], g2⟩

end Dnmx
