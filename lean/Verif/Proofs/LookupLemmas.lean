import Verif.Proofs.TraitLemmas
import Verif.Proofs.TypeApiLemmas

/-!
# Lemmas: `has` and `get`
-/

set_option linter.unusedSimpArgs false
set_option linter.unusedVariables false
set_option linter.unusedSectionVars false

namespace Dnmx
open Spec

variable {D : Decls} {d : DomId}

theorem emptyType_index (id : Option Nat) : (emptyType d).indexOf id = none := by
  cases id <;> simp [emptyType, TypeRec.indexOf]

/-- `index_of` of a type finds the first mixin that is asked for. -/
theorem indexOfKey_spec {W : World} (hr : RegInv W) (hi : TypesInv D W d) {t : TypeId} {r : TypeRec} (h : (W.doms d).typeAt d t = some r) (k : MixKey)
    (hk : ∀ m, k = .info m → W.mixId m = none ∨ W.mixDom m = some d) :
    (∀ i, r.indexOfKey D W k = some i → ∃ m, r.mixins[i]? = some m ∧ Asked D W m k ∧ ∀ (j : Nat) (m' : Mix), j < i → r.mixins[j]? = some m' → ¬ Asked D W m' k) ∧
    (r.indexOfKey D W k = none → ∀ m ∈ r.mixins, ¬ Asked D W m k) := by
  have hr' : r = emptyType d ∨ TypeOk D W.mixId W.mixDom d r := by
    unfold Dom.typeAt at h
    split at h
    · simp at h; exact .inl h.symm
    · exact .inr (hi.ok r (List.mem_of_find?_eq_some h))
  -- by id
  have key : ∀ id, (∀ i, r.indexOf id = some i → ∃ m, r.mixins[i]? = some m ∧ (id ≠ none ∧ W.mixId m = id) ∧ ∀ (j : Nat) (m' : Mix), j < i → r.mixins[j]? = some m' → ¬ (id ≠ none ∧ W.mixId m' = id)) ∧
      (r.indexOf id = none → ∀ m ∈ r.mixins, ¬ (id ≠ none ∧ W.mixId m = id)) := by
    intro id
    rcases hr' with rfl | ho
    · constructor
      · intro i hi; rw [emptyType_index] at hi; simp at hi
      · intro _ m hm; simp [emptyType] at hm
    · constructor
      · intro i hx
        obtain ⟨x, m, h1, h2, h3⟩ := (ho.indexOf hr id i).1 hx
        refine ⟨m, h2, ⟨by simp [h1], by rw [h3, h1]⟩, ?_⟩
        rintro j m' hj h4 ⟨-, h5⟩
        have := (ho.indexOf hr id j).2 ⟨x, m', h1, h4, by rw [h5, h1]⟩
        rw [hx] at this; simp at this; omega
      · rintro hx m hm ⟨h1, h2⟩
        obtain ⟨i, hi', he⟩ := List.getElem_of_mem hm
        cases id with
        | none => exact h1 rfl
        | some x =>
          have := (ho.indexOf hr (some x) i).2 ⟨x, m, rfl, by rw [List.getElem?_eq_getElem hi', he], h2⟩
          rw [hx] at this; simp at this
  cases k with
  | id id => exact key id
  | info m0 =>
    have hA : ∀ m ∈ r.mixins, (Asked D W m (.info m0) ↔ (W.mixId m0 ≠ none ∧ W.mixId m = W.mixId m0)) := by
      intro m hm
      rcases hr' with rfl | ho
      · simp [emptyType] at hm
      · obtain ⟨⟨x, h1⟩, h2⟩ := ho.reg m hm
        constructor
        · intro e; have e : m0 = m := e; subst e; simp [h1]
        · rintro ⟨h3, h4⟩
          show m0 = m
          rcases hk m0 rfl with h5 | h5
          · exact absurd h5 h3
          · rw [h1] at h4
            obtain ⟨d1, h6, h7⟩ := hr.mixReg m x h1
            obtain ⟨d2, h8, h9⟩ := hr.mixReg m0 x h4.symm
            rw [h2] at h6; simp at h6; subst h6
            rw [h5] at h8; simp at h8; subst h8
            rw [h7] at h9; simp at h9; exact h9.symm
    obtain ⟨k1, k2⟩ := key (W.mixId m0)
    constructor
    · intro i hx
      obtain ⟨m, h1, h2, h3⟩ := k1 i hx
      refine ⟨m, h1, (hA m (List.mem_of_getElem? h1)).2 h2, ?_⟩
      intro j m' hj h4 h5
      exact h3 j m' hj h4 ((hA m' (List.mem_of_getElem? h4)).1 h5)
    · intro hx m hm ha
      exact k2 hx m hm ((hA m hm).1 ha)
  | name n =>
    constructor
    · intro i hx
      have hx : indexOfNameFrom D n 0 r.mixins = some i := hx
      obtain ⟨j, m, h1, h2, h3, h4⟩ := (indexOfNameFrom_spec D n r.mixins 0 i).1 hx
      have : i = j := by omega
      subst this
      exact ⟨m, h2, h3, h4⟩
    · intro hx m hm ha
      have hx : indexOfNameFrom D n 0 r.mixins = none := hx
      -- the first with this name
      have hex : ∃ (i : Nat) (m' : Mix), r.mixins[i]? = some m' ∧ D.mixName m' = n := by
        obtain ⟨i, hi', he⟩ := List.getElem_of_mem hm
        exact ⟨i, m, by rw [List.getElem?_eq_getElem hi', he], ha⟩
      obtain ⟨i, hmin⟩ : ∃ i : Nat, (∃ m', r.mixins[i]? = some m' ∧ D.mixName m' = n) ∧ ∀ j : Nat, j < i → ¬ ∃ m', r.mixins[j]? = some m' ∧ D.mixName m' = n := by
        obtain ⟨i, m', h1, h2⟩ := hex
        have : ∀ i : Nat, (∃ m', r.mixins[i]? = some m' ∧ D.mixName m' = n) → ∃ i : Nat, (∃ m', r.mixins[i]? = some m' ∧ D.mixName m' = n) ∧ ∀ j : Nat, j < i → ¬ ∃ m', r.mixins[j]? = some m' ∧ D.mixName m' = n := by
          intro i
          induction i using Nat.strongRecOn with
          | _ i ih =>
            intro hp
            by_cases hj : ∃ j : Nat, j < i ∧ ∃ m', r.mixins[j]? = some m' ∧ D.mixName m' = n
            · obtain ⟨j, h1, h2⟩ := hj; exact ih j h1 h2
            · exact ⟨i, hp, fun j h1 h2 => hj ⟨j, h1, h2⟩⟩
        exact this i ⟨m', h1, h2⟩
      obtain ⟨⟨m', h1, h2⟩, h3⟩ := hmin
      have := (indexOfNameFrom_spec D n r.mixins 0 i).2 ⟨i, m', by omega, h1, h2, fun j m'' hj h4 h5 => h3 j hj ⟨m'', h4, h5⟩⟩
      rw [hx] at this; simp at this

/-- Where the mixin with a given index is. -/
theorem uncheckedGetAt_spec {S : Sys} (hi : SysInv D d S) {o : Nat} {ob : Obj} (ho : S.h.obj? o = some ob) {t : TypeId} (ht : ob.ty = some t) {i : Nat} {m : Mix}
    (hm : ((TyEnv.ofWorld S.W d).mixins t)[i]? = some m) : ∃ l v, uncheckedGetAt S.h ob i = some l ∧ Holds (TyEnv.ofWorld S.W d) S.h o m l v := by
  obtain ⟨x, hx⟩ := cmp_values_of hi.good.1 ho ht
  obtain ⟨h1, l, h2⟩ := hx i m hm
  obtain ⟨j, sl, h3, h4, h5⟩ := h2
  obtain ⟨ob', t', a, e1, e2, e3, e4, e5⟩ := h3
  rw [ho] at e1; simp at e1; subst e1
  rw [ht] at e2; simp at e2; subst e2
  have := index_unique (ofWorld_nodup hi.types) e4 hm
  subst this
  refine ⟨l, x j, ?_, j, sl, ⟨ob, t, a, ho, ht, e3, e4, e5⟩, h4, h5⟩
  unfold uncheckedGetAt
  rw [e3]
  simp only
  unfold valueAt at h1
  rw [e3] at h1
  simp only at h1
  cases hs : S.h.slot? a j with
  | none => rw [hs] at h1; simp at h1
  | some sl' =>
    have h6 := hs
    simp only [Heap.slot?] at h6
    split at h6
    · rw [e5] at h6; simp at h6; subst h6; simp [h4]
    · simp at h6

theorem typeOf_some {S : Sys} {o : Nat} {ob : Obj} (ho : S.h.obj? o = some ob) {t : TypeId} (ht : ob.ty = some t) {r : TypeRec} (h : (S.W.doms d).typeAt d t = some r) :
    typeOf S.W d S.h o = some (ob, r) := by
  unfold typeOf
  simp only [ho, ht, h]

end Dnmx
