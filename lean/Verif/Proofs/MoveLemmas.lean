import Verif.Proofs.ObservedLemmas

/-!
# New objects, and moves of objects
-/

set_option linter.unusedSimpArgs false
set_option linter.unusedVariables false
set_option linter.unusedSectionVars false

namespace Dnmx
open Spec

variable {D : Decls} {E : TyEnv} {orc : Orc}

/-! ## New objects -/

/-- The heap with one more object. -/
@[reducible] def Heap.addObj (h : Heap) (x : Option Obj) : Heap := { h with objs := h.objs ++ [x] }

theorem newNull_addObj (h : Heap) (al : Nat) : newNull h al = h.addObj (some ⟨none, none, false, al⟩) := rfl

theorem addObj_obj (h : Heap) (x : Option Obj) (o : Nat) : (h.addObj x).obj? o = if o = h.objs.length then x else h.obj? o := by
  unfold Heap.obj? Heap.addObj
  simp only
  rw [List.getElem?_append]
  by_cases h1 : o < h.objs.length
  · have : o ≠ h.objs.length := by omega
    simp [h1, this]
  · by_cases h2 : o = h.objs.length
    · subst h2; simp
    · simp only [h1, if_false, h2]
      rw [List.getElem?_eq_none (l := [x]) (by simp; omega), List.getElem?_eq_none (l := h.objs) (by omega)]

theorem length_not_obj {h : Heap} {o : Nat} {ob : Obj} (ho : h.obj? o = some ob) : o ≠ h.objs.length := by
  have := obj?_lt ho; omega

theorem addObj_slots {h : Heap} {x : Option Obj} (hx : Bare E x) {o i : Nat} {m : Mix} {sl : Slot} : SlotOf E (h.addObj x) o i m sl ↔ SlotOf E h o i m sl := by
  unfold SlotOf
  rw [addObj_obj]
  constructor
  · rintro ⟨ob, t, a, h1, h2, h3, h4, h5⟩
    split at h1
    · have := (hx ob h1).1; rw [this] at h3; simp at h3
    · exact ⟨ob, t, a, h1, h2, h3, h4, h5⟩
  · rintro ⟨ob, t, a, h1, h2, h3, h4, h5⟩
    exact ⟨ob, t, a, by rw [if_neg (length_not_obj h1)]; exact h1, h2, h3, h4, h5⟩

theorem addObj_holds {h : Heap} {x : Option Obj} (hx : Bare E x) {o : Nat} {m : Mix} {l : Loc} {v : Nat} : Holds E (h.addObj x) o m l v ↔ Holds E h o m l v := by
  unfold Holds
  constructor
  · rintro ⟨i, sl, h1, h2, h3⟩; exact ⟨i, sl, (addObj_slots hx).1 h1, h2, h3⟩
  · rintro ⟨i, sl, h1, h2, h3⟩; exact ⟨i, sl, (addObj_slots hx).2 h1, h2, h3⟩

theorem addObj_ok {h : Heap} (hk : HeapOk D E h) {x : Option Obj} (hx : Bare E x) : HeapOk D E (h.addObj x) := by
  constructor
  · intro o ob h1
    rw [addObj_obj] at h1
    split at h1
    · obtain ⟨h2, h3⟩ := hx ob h1
      unfold ObjOk; rw [h2]; exact h3
    · have hob := hk.objs o ob h1
      unfold ObjOk at hob ⊢
      cases hd : ob.data with
      | none => rw [hd] at hob; exact hob
      | some a => rw [hd] at hob; exact hob
  · intro a b hb
    obtain ⟨o, h2⟩ := hk.blocks a b hb
    refine ⟨o, ?_⟩
    rcases h2 with ⟨ob, h3, h4⟩ | ⟨i, m, sl, h3, h4⟩
    · exact .inl ⟨ob, by rw [addObj_obj, if_neg (length_not_obj h3)]; exact h3, h4⟩
    · exact .inr ⟨i, m, sl, (addObj_slots hx).2 h3, h4⟩
  · intro l y hl
    obtain ⟨o, i, m, sl, h2, h3⟩ := hk.lives l y hl
    exact ⟨o, i, m, sl, (addObj_slots hx).2 h2, h3⟩
  · exact hk.fresh
  · intro t
    show h.count t = _
    rw [hk.counts, usersOf_def, usersOf_def]
    simp only [List.countP_append, List.countP_cons, List.countP_nil]
    have : countsFor t x = false := by
      cases x with
      | none => rfl
      | some y => simp [countsFor, (hx y rfl).1]
    simp [this]

theorem bare_null (al : Nat) : Bare E (some ⟨none, none, false, al⟩) := by
  intro ob h; simp at h; subst h; exact ⟨rfl, fun t h => by simp at h⟩

theorem bare_none : Bare E none := by intro ob h; simp at h

/-- A dead object in place of one without data. -/
theorem setObj_bare {h : Heap} (hE : EnvOk D E) (hk : HeapOk D E h) {o : Nat} {ob : Obj} (ho : h.obj? o = some ob) (hd : ob.data = none) {x : Option Obj} (hx : Bare E x) :
    HeapOk D E (h.setObj o x) := by
  obtain ⟨h', h1, h2⟩ := clear_ok (D := D) hE hk ho
  have : h' = h := by
    unfold clearMixinData at h1
    rw [ho] at h1; simp only [hd] at h1; simp at h1; exact h1.symm
  subst this
  exact h2.heapOk hE hk ho hx

/-- Only the seal of an object changes. -/
theorem setObj_sealed {h : Heap} (hk : HeapOk D E h) {o : Nat} {ob : Obj} (ho : h.obj? o = some ob) (b : Bool) :
    HeapOk D E (h.setObj o (some { ob with isSealed := b })) ∧
    (∀ o' m l v, Holds E (h.setObj o (some { ob with isSealed := b })) o' m l v ↔ Holds E h o' m l v) := by
  have hobj : ∀ o', (h.setObj o (some { ob with isSealed := b })).obj? o' = if o' = o then some { ob with isSealed := b } else h.obj? o' :=
    obj?_set (h := h.setObj o _) (l := h.objs) rfl ho
  have hsl : ∀ o' i m sl, SlotOf E (h.setObj o (some { ob with isSealed := b })) o' i m sl ↔ SlotOf E h o' i m sl := by
    intro o' i m sl
    unfold SlotOf
    rw [hobj]
    by_cases hoo : o' = o
    · subst hoo
      simp only [if_true]
      constructor
      · rintro ⟨ob', t, a, h1, h2, h3, h4, h5⟩
        simp at h1; subst h1; exact ⟨ob, t, a, ho, h2, h3, h4, h5⟩
      · rintro ⟨ob', t, a, h1, h2, h3, h4, h5⟩
        rw [ho] at h1; simp at h1; subst h1; exact ⟨_, t, a, rfl, h2, h3, h4, h5⟩
    · simp only [hoo, if_false]
  refine ⟨?_, ?_⟩
  · constructor
    · intro o' ob' h1
      rw [hobj] at h1
      by_cases hoo : o' = o
      · subst hoo
        simp at h1; subst h1
        have hob := hk.objs o' ob ho
        unfold ObjOk at hob ⊢
        exact hob
      · rw [if_neg hoo] at h1
        exact hk.objs o' ob' h1
    · intro a b' hb
      obtain ⟨o', h2⟩ := hk.blocks a b' hb
      refine ⟨o', ?_⟩
      rcases h2 with ⟨ob', h3, h4⟩ | ⟨i, m, sl, h3, h4⟩
      · by_cases hoo : o' = o
        · subst hoo
          rw [ho] at h3; simp at h3; subst h3
          exact .inl ⟨{ ob with isSealed := b }, by rw [hobj, if_pos rfl], h4⟩
        · exact .inl ⟨ob', by rw [hobj, if_neg hoo]; exact h3, h4⟩
      · exact .inr ⟨i, m, sl, (hsl _ _ _ _).2 h3, h4⟩
    · intro l y hl
      obtain ⟨o', i, m, sl, h2, h3⟩ := hk.lives l y hl
      exact ⟨o', i, m, sl, (hsl _ _ _ _).2 h2, h3⟩
    · exact hk.fresh
    · intro t
      show h.count t = _
      rw [hk.counts]
      rw [usersOf_setObj ho _ t]
      have : countsFor t (some { ob with isSealed := b }) = countsFor t (some ob) := rfl
      rw [this]
      split <;> omega
  · intro o' m l v
    unfold Holds
    constructor
    · rintro ⟨i, sl, h1, h2, h3⟩; exact ⟨i, sl, (hsl _ _ _ _).1 h1, h2, h3⟩
    · rintro ⟨i, sl, h1, h2, h3⟩; exact ⟨i, sl, (hsl _ _ _ _).2 h1, h2, h3⟩

/-! ## Usurpation -/

theorem redirect_spec (o a : Nat) {bk : Blk} : ∀ (n : Nat) (h : Heap), h.blk a = some bk → (∀ i, i < n → ∃ sl, h.slot a i = some sl) →
    ∃ W, redirect o a n h = some { h with owner := W } ∧ (∀ i sl, i < n → h.slot a i = some sl → W sl.loc = some o) ∧
      (∀ l, (∀ i sl, i < n → h.slot a i = some sl → sl.loc ≠ l) → W l = h.owner l)
  | 0, h, _, _ => ⟨h.owner, rfl, fun i sl hi => by omega, fun _ _ => rfl⟩
  | n + 1, h, hbk, hs => by
    obtain ⟨W, h1, h2, h3⟩ := redirect_spec o a n h hbk (fun i hi => hs i (by omega))
    obtain ⟨sl, hsl⟩ := hs n (by omega)
    unfold redirect
    rw [h1]
    simp only
    rw [slot?_of (h := { h with owner := W }) hbk]
    simp only [hsl, Option.map_some]
    refine ⟨_, rfl, ?_, ?_⟩
    · intro i sl' hi hsl'
      by_cases hin : i = n
      · subst hin; rw [hsl] at hsl'; simp at hsl'; subst hsl'; simp
      · simp only
        split
        · rfl
        · exact h2 i sl' (by omega) hsl'
    · intro l hl
      have : l ≠ sl.loc := fun h => hl n sl (by omega) hsl h.symm
      simp only [this, if_false]
      exact h3 l (fun i sl' hi => hl i sl' (by omega))

/-- The contents of `src` have moved to `o`. -/
structure Usurped (E : TyEnv) (h : Heap) (o src : Nat) (ob sb : Obj) (t : TypeId) (h' : Heap) : Prop where
  objs : h'.objs = (h.objs.set o (some { ob with ty := sb.ty, data := sb.data, isSealed := sb.isSealed })).set src (some { sb with ty := some (E.emptyOf t), data := none })
  next : h'.next = h.next
  blk : h'.blk = h.blk
  slot : h'.slot = h.slot
  live : h'.live = h.live
  count : h'.count = h.count
  log : h'.log = h.log
  owned : ∀ a i m sl, sb.data = some a → (E.mixins t)[i]? = some m → h.slot a i = some sl → h'.owner sl.loc = some o
  owner : ∀ l, (∀ a i m sl, sb.data = some a → (E.mixins t)[i]? = some m → h.slot a i = some sl → sl.loc ≠ l) → h'.owner l = h.owner l

section
variable (hE : EnvOk D E) {h : Heap} {o src : Nat} {ob sb : Obj} (ho : h.obj? o = some ob) (hs : h.obj? src = some sb) (hos : o ≠ src)
  (hk : HeapOk D E (h.setObj o none)) {t : TypeId} (hty : sb.ty = some t)
include ho hs hos

theorem start_obj (o' : Nat) : (h.setObj o none).obj? o' = if o' = o then none else h.obj? o' :=
  obj?_set (h := h.setObj o none) (l := h.objs) rfl ho o'

include hE hk hty

theorem usurp_ok : ∃ h', usurp E h o src = some h' ∧ Usurped E h o src ob sb t h' := by
  have hso : (h.setObj o none).obj? src = some sb := by rw [start_obj ho hs hos, if_neg (fun h => hos h.symm)]; exact hs
  have hob := hk.objs src sb hso
  unfold ObjOk at hob
  unfold usurp
  rw [ho, hs]
  simp only [hty]
  cases hd : sb.data with
  | none =>
    rw [hd] at hob
    have hne := hob t hty
    simp only [hne, List.length_nil, if_true, Option.map_some]
    refine ⟨_, rfl, ?_, rfl, rfl, rfl, rfl, rfl, rfl, ?_, fun _ _ => rfl⟩
    · simp only [Heap.setObj, hty, hd]
    · intro a i m sl h1; rw [hd] at h1; simp at h1
  | some a =>
    rw [hd] at hob
    obtain ⟨t', h1, h2, h3, h4⟩ := hob
    rw [hty] at h1; simp at h1; subst h1
    obtain ⟨W, k1, k2, k3⟩ := redirect_spec o a (E.mixins t).length (h.setObj o (some { ob with ty := some t, data := some a, isSealed := sb.isSealed })) h3 (by
      intro i hi
      obtain ⟨m, hm⟩ := mixin_at hi
      obtain ⟨sl, v, q1, -⟩ := h4 i m hm
      exact ⟨sl, q1⟩)
    simp only [k1, Option.map_some]
    refine ⟨_, rfl, ?_, rfl, rfl, rfl, rfl, rfl, rfl, ?_, ?_⟩
    · simp only [Heap.setObj, hty, hd]
    · intro a' i m sl p1 p2 p3
      rw [hd] at p1; simp at p1; subst p1
      exact k2 i sl (lt_of_at p2) p3
    · intro l hl
      refine k3 l (fun i sl hi hsl => ?_)
      obtain ⟨m, hm⟩ := mixin_at hi
      exact hl a i m sl hd hm hsl

variable {h' : Heap} (hu : Usurped E h o src ob sb t h')
include hu

theorem usurped_obj (o' : Nat) : h'.obj? o' = if o' = src then some { sb with ty := some (E.emptyOf t), data := none } else
    if o' = o then some { ob with ty := sb.ty, data := sb.data, isSealed := sb.isSealed } else h.obj? o' := by
  have h1 : ((h.objs.set o (some { ob with ty := sb.ty, data := sb.data, isSealed := sb.isSealed }))[src]?).getD none = some sb := by
    rw [List.getElem?_set]; simp only [hos, if_false]; exact hs
  rw [obj?_set hu.objs h1 o']
  congr 1
  exact obj?_set (h := h.setObj o _) (l := h.objs) rfl ho o'

theorem usurped_slots {o' i : Nat} {m : Mix} {sl : Slot} : SlotOf E h' o' i m sl ↔
    o' ≠ src ∧ SlotOf E (h.setObj o none) (if o' = o then src else o') i m sl := by
  unfold SlotOf
  rw [usurped_obj hE ho hs hos hk hty hu, start_obj ho hs hos]
  by_cases h1 : o' = src
  · subst h1
    simp only [if_true]
    constructor
    · rintro ⟨ob', t', a, k1, k2, k3, k4, k5⟩
      simp at k1; subst k1; simp at k3
    · rintro ⟨h, -⟩; exact absurd rfl h
  · simp only [h1, if_false]
    by_cases h2 : o' = o
    · subst h2
      have : ¬ src = o' := fun h => hos h.symm
      simp only [if_true, this, if_false, hs]
      constructor
      · rintro ⟨ob', t', a, k1, k2, k3, k4, k5⟩
        simp at k1; subst k1
        refine ⟨fun h => h1 h, sb, t', a, rfl, k2, k3, k4, ?_⟩
        rw [hu.slot] at k5; exact k5
      · rintro ⟨-, ob', t', a, k1, k2, k3, k4, k5⟩
        simp at k1; subst k1
        refine ⟨_, t', a, rfl, k2, k3, k4, ?_⟩
        rw [hu.slot]; exact k5
    · simp only [h2, if_false]
      constructor
      · rintro ⟨ob', t', a, k1, k2, k3, k4, k5⟩
        refine ⟨fun h => h1 h, ob', t', a, k1, k2, k3, k4, ?_⟩
        rw [hu.slot] at k5; exact k5
      · rintro ⟨-, ob', t', a, k1, k2, k3, k4, k5⟩
        refine ⟨ob', t', a, k1, k2, k3, k4, ?_⟩
        rw [hu.slot]; exact k5

theorem usurped_holds {o' : Nat} {m : Mix} {l : Loc} {v : Nat} : Holds E h' o' m l v ↔
    o' ≠ src ∧ Holds E (h.setObj o none) (if o' = o then src else o') m l v := by
  unfold Holds
  constructor
  · rintro ⟨i, sl, h1, h2, h3⟩
    obtain ⟨k1, k2⟩ := (usurped_slots hE ho hs hos hk hty hu).1 h1
    exact ⟨k1, i, sl, k2, h2, by rw [hu.live] at h3; exact h3⟩
  · rintro ⟨k1, i, sl, k2, h2, h3⟩
    exact ⟨i, sl, (usurped_slots hE ho hs hos hk hty hu).2 ⟨k1, k2⟩, h2, by rw [hu.live]; exact h3⟩

theorem usurped_heapOk (hal : ob.alloc = sb.alloc) : HeapOk D E h' := by
  have hobj := usurped_obj hE ho hs hos hk hty hu
  have hobj0 := start_obj ho hs hos
  have hso : (h.setObj o none).obj? src = some sb := by rw [hobj0, if_neg (fun h => hos h.symm)]; exact hs
  have hsl : ∀ {o' i : Nat} {m : Mix} {sl : Slot}, SlotOf E h' o' i m sl ↔ o' ≠ src ∧ SlotOf E (h.setObj o none) (if o' = o then src else o') i m sl :=
    usurped_slots hE ho hs hos hk hty hu
  have back : ∀ {o' i : Nat} {m : Mix} {sl : Slot}, SlotOf E (h.setObj o none) o' i m sl → SlotOf E h' (if o' = src then o else o') i m sl := by
    intro o' i m sl h1
    have hne : o' ≠ o := by
      rintro rfl
      obtain ⟨ob', t', a, k1, -⟩ := h1
      rw [hobj0, if_pos rfl] at k1; simp at k1
    rw [hsl]
    by_cases h2 : o' = src
    · subst h2
      simp only [if_true]
      exact ⟨hos, h1⟩
    · simp only [h2, if_false, hne]
      exact ⟨h2, h1⟩
  constructor
  · intro o' ob' h1
    rw [hobj] at h1
    by_cases h2 : o' = src
    · rw [if_pos h2] at h1
      simp at h1; subst h1
      unfold ObjOk
      simp only
      intro t' ht'
      simp at ht'; subst ht'; exact hE.empty t
    · rw [if_neg h2] at h1
      by_cases h3 : o' = o
      · rw [if_pos h3] at h1
        simp at h1; subst h1
        have hob := hk.objs src sb hso
        unfold ObjOk at hob ⊢
        simp only
        cases hd : sb.data with
        | none => rw [hd] at hob; exact hob
        | some a =>
          rw [hd] at hob
          obtain ⟨t', p1, p2, p3, p4⟩ := hob
          rw [hty] at p1; simp at p1; subst p1
          refine ⟨t, hty, p2, ?_, ?_⟩
          · rw [hu.blk, hal]; exact p3
          · intro i m hm
            obtain ⟨sl, v, q1, q2, q3, q4⟩ := p4 i m hm
            refine ⟨sl, v, by rw [hu.slot]; exact q1, ?_, by rw [hu.live]; exact q3, ?_⟩
            · rw [hal, hu.blk]; exact q2
            · rw [h3]; exact hu.owned a i m sl hd hm q1
      · rw [if_neg h3] at h1
        have h1' : (h.setObj o none).obj? o' = some ob' := by rw [hobj0, if_neg h3]; exact h1
        have hob := hk.objs o' ob' h1'
        unfold ObjOk at hob ⊢
        cases hd : ob'.data with
        | none => rw [hd] at hob; exact hob
        | some a =>
          rw [hd] at hob
          obtain ⟨t', p1, p2, p3, p4⟩ := hob
          refine ⟨t', p1, p2, by rw [hu.blk]; exact p3, ?_⟩
          intro i m hm
          obtain ⟨sl, v, q1, q2, q3, q4⟩ := p4 i m hm
          refine ⟨sl, v, by rw [hu.slot]; exact q1, by rw [hu.blk]; exact q2, by rw [hu.live]; exact q3, ?_⟩
          rw [hu.owner]
          · exact q4
          · intro a2 i2 m2 sl2 r1 r2 r3 r4
            have s1 : SlotOf E (h.setObj o none) o' i m sl := ⟨ob', t', a, h1', p1, hd, hm, q1⟩
            have s2 : SlotOf E (h.setObj o none) src i2 m2 sl2 := ⟨sb, t, a2, hso, hty, r1, r2, r3⟩
            exact h2 ((s2.same hE hk s1 r4).1.symm)
  · intro a b hb
    rw [hu.blk] at hb
    obtain ⟨o', h2⟩ := hk.blocks a b hb
    refine ⟨if o' = src then o else o', ?_⟩
    rcases h2 with ⟨ob', h3, h4⟩ | ⟨i, m, sl, h3, h4⟩
    · left
      have hne : o' ≠ o := by rintro rfl; rw [hobj0, if_pos rfl] at h3; simp at h3
      rw [hobj0, if_neg hne] at h3
      by_cases h2 : o' = src
      · subst h2
        rw [hs] at h3; simp at h3; subst h3
        refine ⟨{ ob with ty := sb.ty, data := sb.data, isSealed := sb.isSealed }, by rw [hobj, if_pos rfl, if_neg hos, if_pos rfl], h4⟩
      · refine ⟨ob', ?_, h4⟩
        rw [hobj, if_neg h2, if_neg h2, if_neg hne]; exact h3
    · exact .inr ⟨i, m, sl, back h3, h4⟩
  · intro l y hl
    rw [hu.live] at hl
    obtain ⟨o', i, m, sl, h2, h3⟩ := hk.lives l y hl
    exact ⟨_, i, m, sl, back h2, h3⟩
  · intro a b hb
    rw [hu.blk] at hb
    rw [hu.next]; exact hk.fresh a b hb
  · intro t'
    rw [hu.count]
    have h0 : h.count t' = _ := hk.counts t'
    rw [h0]
    have e0 : (usersOf (h.setObj o none) t' : Int) = usersOf h t' - (if countsFor t' (some ob) then 1 else 0) + 0 := by
      have := usersOf_setObj ho none t'
      simpa [countsFor] using this
    have e1 := usersOf_setObj ho (some { ob with ty := sb.ty, data := sb.data, isSealed := sb.isSealed }) t'
    have hs1 : (h.setObj o (some { ob with ty := sb.ty, data := sb.data, isSealed := sb.isSealed })).obj? src = some sb := by
      rw [obj?_setObj_ne _ (fun h => hos h.symm)]; exact hs
    have e2 := usersOf_setObj hs1 (some { sb with ty := some (E.emptyOf t), data := none }) t'
    have e3 : usersOf h' t' = usersOf ((h.setObj o (some { ob with ty := sb.ty, data := sb.data, isSealed := sb.isSealed })).setObj src (some { sb with ty := some (E.emptyOf t), data := none })) t' := by
      unfold usersOf; rw [hu.objs]
    rw [e3, e2, e1, e0]
    have c1 : countsFor t' (some { ob with ty := sb.ty, data := sb.data, isSealed := sb.isSealed }) = countsFor t' (some sb) := rfl
    have c2 : countsFor t' (some { sb with ty := some (E.emptyOf t), data := none }) = false := by simp [countsFor]
    rw [c1, c2]
    split <;> split <;> simp

end

end Dnmx
