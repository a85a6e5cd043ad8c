import Verif.Proofs.MutationLemmas

/-!
# Destruction of objects
-/

set_option linter.unusedSimpArgs false
set_option linter.unusedVariables false
set_option linter.unusedSectionVars false

namespace Dnmx
open Spec

variable {D : Decls} {E : TyEnv} {orc : Orc}

/-- The destructor calls for all mixins of type `t` in the buffer with mixin data `slot`, last one first. -/
def allDestroys (D : Decls) (E : TyEnv) (t : TypeId) (slot : Nat → Option Slot) : List (Mix × Loc) :=
  ((List.range (E.mixins t).length).filterMap (fun i => ((E.mixins t)[i]?).bind (fun m =>
    if (D.mix m).hasDestroy then (slot i).map (fun sl => (m, sl.loc)) else none))).reverse

/-- All data of object `o` are gone. -/
structure Cleared (D : Decls) (E : TyEnv) (h : Heap) (o : Nat) (ob : Obj) (h' : Heap) : Prop where
  objs : h'.objs = h.objs.set o (some { ob with data := none })
  next : h'.next = h.next
  slot : h'.slot = h.slot
  owner : h'.owner = h.owner
  blkDead : ∀ a, (ob.data = some a ∨ ∃ i m sl, SlotOf E h o i m sl ∧ sl.buf = some a) → h'.blk a = none
  blkKeep : ∀ a, ob.data ≠ some a → (∀ i m sl, SlotOf E h o i m sl → sl.buf ≠ some a) → h'.blk a = h.blk a
  dead : ∀ i m sl, SlotOf E h o i m sl → h'.live sl.loc = none
  keep : ∀ l, (∀ i m sl, SlotOf E h o i m sl → sl.loc ≠ l) → h'.live l = h.live l
  count : ∀ x, h'.count x = h.count x - if countsFor x (some ob) then 1 else 0
  inits : initsOf h'.log = initsOf h.log
  destroys : destroysOf h'.log = destroysOf h.log ++ (match ob.data, ob.ty with
    | some b, some t => allDestroys D E t (h.slot b)
    | _, _ => [])

theorem set_self {h : Heap} {o : Nat} {ob : Obj} (ho : h.obj? o = some ob) : h.objs.set o (some ob) = h.objs := by
  apply List.ext_getElem?
  intro i
  rw [List.getElem?_set]
  split
  · rename_i hi; subst hi
    have := ho
    unfold Heap.obj? at this
    cases hx : h.objs[o]? with
    | none => rw [hx] at this; simp at this
    | some y =>
      rw [hx] at this; simp at this; subst this
      have := (List.getElem?_eq_some_iff.1 hx).1
      simp [this]
  · rfl

theorem clear_ok (hE : EnvOk D E) {h : Heap} (hk : HeapOk D E h) {o : Nat} {ob : Obj} (ho : h.obj? o = some ob) :
    ∃ h', clearMixinData D E h o = some h' ∧ Cleared D E h o ob h' := by
  unfold clearMixinData
  rw [ho]
  simp only
  have hob := hk.objs o ob ho
  unfold ObjOk at hob
  cases hd : ob.data with
  | none =>
    simp only
    have hno : ∀ i m sl, ¬ SlotOf E h o i m sl := by
      rintro i m sl ⟨ob', t, a, h1, -, h3, -⟩
      rw [ho] at h1; simp at h1; subst h1; rw [hd] at h3; simp at h3
    refine ⟨h, rfl, ?_, rfl, rfl, rfl, ?_, fun _ _ _ => rfl, fun i m sl hs => absurd hs (hno i m sl), fun _ _ => rfl, ?_, rfl, ?_⟩
    · have : ({ ob with data := none } : Obj) = ob := by cases ob; simp at hd; subst hd; rfl
      rw [this, set_self ho]
    · rintro a (h1 | ⟨i, m, sl, h1, -⟩)
      · rw [hd] at h1; simp at h1
      · exact absurd h1 (hno i m sl)
    · intro x; simp [countsFor, hd]
    · rw [hd]; simp
  | some a =>
    rw [hd] at hob
    obtain ⟨t, hty, hne, hblk, hmix⟩ := hob
    rw [hty]
    simp only
    have hidx : ∀ (s : Sess), s.oldData = none → ∀ m, s.oldIndex E m = none := by
      intro s hs m; unfold Sess.oldIndex; rw [hs]
    have hslot : ∀ (i : Nat) (m : Mix), (E.mixins t)[i]? = some m → ∃ sl v, h.slot a i = some sl ∧ PlaceOk D E h.blk ob.alloc t a i m sl ∧ h.live sl.loc = some (m, v) := by
      intro i m hm
      obtain ⟨sl, v, h1, h2, h3, -⟩ := hmix i m hm
      exact ⟨sl, v, h1, h2, h3⟩
    have hso : ∀ i m sl, SlotOf E h o i m sl ↔ (E.mixins t)[i]? = some m ∧ h.slot a i = some sl := by
      intro i m sl
      constructor
      · rintro ⟨ob', t', a', h1, h2, h3, h4, h5⟩
        rw [ho] at h1; simp at h1; subst h1
        rw [hty] at h2; rw [hd] at h3; simp at h2 h3; subst h2; subst h3
        exact ⟨h4, h5⟩
      · rintro ⟨h1, h2⟩; exact ⟨ob, t, a, ho, hty, hd, h1, h2⟩
    generalize hS : (⟨h, o, ob.alloc, none, none, t, some a, (E.mixins t).length, (E.mixins t).length, false, false⟩ : Sess) = S
    have e1 : S.data = some a := by rw [← hS]
    have e2 : S.ty = t := by rw [← hS]
    have e3 : S.oldData = none := by rw [← hS]
    have e4 : S.oldTy = none := by rw [← hS]
    have e5 : S.al = ob.alloc := by rw [← hS]
    have e6 : S.h = h := by rw [← hS]
    have e7 : S.alloced = (E.mixins t).length := by rw [← hS]
    have e8 : S.updated = (E.mixins t).length := by rw [← hS]
    obtain ⟨L, G, k1, ⟨k2, k2'⟩, k3, k4⟩ := destroyLoop_spec (D := D) hE S a e1 (E.mixins t).length h (by rw [e2]; exact Nat.le_refl _) hblk (by
      intro i m _ hm _
      rw [e2] at hm
      obtain ⟨sl, v, h1, -, h3⟩ := hslot i m hm
      obtain ⟨bk, h4⟩ := SlotOf.allocated (D := D) (E := E) (o := o) hk ⟨ob, t, a, ho, hty, hd, hm, h1⟩
      exact ⟨sl, v, h1, h3, by rw [h4]; rfl⟩)
    obtain ⟨B, G', k5, ⟨k6, k6'⟩, k7, k8⟩ := deallocLoop_spec (D := D) hE S a e1 (E.mixins t).length { h with live := L, log := h.log ++ G } (by rw [e2]; exact Nat.le_refl _) hblk (by
      intro i m _ hm
      rw [e2] at hm
      obtain ⟨sl, v, h1, h2, h3⟩ := hslot i m hm
      refine ⟨sl, h1, fun _ e he => ?_⟩
      rw [e5]
      exact (h2.buf_loc he).2.1)
    simp only at k5 k8
    rw [e2] at k3 k4 k7 k8
    -- the unified buffer is not one of the separate buffers
    have hBa : B a = some (.unified t ob.alloc) := by
      rw [k8 a, hblk]
      intro i m sl _ hm _ hsl he
      obtain ⟨sl', v, h1, h2, h3⟩ := hslot i m hm
      rw [show h.slot a i = some sl' from h1] at hsl; simp at hsl; subst hsl
      have := (h2.buf_loc he).2.1
      rw [hblk] at this; simp [provenance] at this
    unfold rollback
    rw [e4, e2, e8, e7, e6, k1]
    simp only [reduceCtorEq, if_false, Option.bind, k5, e1, deallocBuffer, Heap.deallocate, e5, hBa, if_true, Option.map_some]
    refine ⟨_, rfl, by simp [hty], rfl, rfl, rfl, ?_, ?_, ?_, ?_, ?_, ?_, ?_⟩
    · rintro x (h1 | ⟨i, m, sl, h1, h2⟩)
      · rw [hd] at h1; simp at h1; subst h1; simp
      · simp only
        split
        · rfl
        · exact k7 i m sl x (lt_of_at ((hso _ _ _).1 h1).1) ((hso _ _ _).1 h1).1 (hidx S e3 m) ((hso _ _ _).1 h1).2 h2
    · intro x h1 h2
      have : x ≠ a := by rintro rfl; exact h1 hd
      simp only [this, if_false]
      exact k8 x (fun i m sl _ hm _ hsl => h2 i m sl ((hso _ _ _).2 ⟨hm, hsl⟩))
    · intro i m sl hs
      exact k3 i m sl (lt_of_at ((hso _ _ _).1 hs).1) ((hso _ _ _).1 hs).1 (hidx S e3 m) ((hso _ _ _).1 hs).2
    · intro l hl
      exact k4 l (fun i m sl _ hm _ hsl => hl i m sl ((hso _ _ _).2 ⟨hm, hsl⟩))
    · intro x
      simp only [countsFor, hty, hd, Option.isSome_some, Bool.and_true]
      by_cases hx : x = t
      · subst hx; simp; omega
      · have hx' : ¬ t = x := fun h => hx h.symm
        simp [hx, hx']
    · simp only [initsOf, List.filterMap_append] at k2 k6 ⊢
      rw [k2, k6]; simp [initOf]
    · simp only [destroysOf, List.filterMap_append] at k2' k6' ⊢
      rw [k2', k6', hd, hty]
      simp only [List.filterMap_cons, List.filterMap_nil, destroyOf, List.append_nil, allDestroys]
      congr 2
      apply filterMap_same
      intro i hi
      unfold loopDestroys
      rw [e2]
      simp only [hidx S e3, Option.isNone_none, Bool.true_and]

/-- An object without data. -/
def Bare (E : TyEnv) (x : Option Obj) : Prop := ∀ ob, x = some ob → ob.data = none ∧ ∀ t, ob.ty = some t → E.mixins t = []

theorem obj?_set {h : Heap} {l : List (Option Obj)} (hl : h.objs = l.set o x) {ob : Obj} (hx : (l[o]?).getD none = some ob) (o' : Nat) :
    h.obj? o' = if o' = o then x else (l[o']?).getD none := by
  unfold Heap.obj?
  rw [hl, List.getElem?_set]
  by_cases h1 : o = o'
  · subst h1
    have : o < l.length := by
      apply Classical.byContradiction
      intro hn
      rw [List.getElem?_eq_none (by omega)] at hx; simp at hx
    simp [this]
  · have : ¬ o' = o := fun h => h1 h.symm
    simp [h1, this]

section
variable (hE : EnvOk D E) {h : Heap} (hk : HeapOk D E h) {o : Nat} {ob : Obj} (ho : h.obj? o = some ob) {h' : Heap} (hc : Cleared D E h o ob h')
include hc

include ho in
theorem Cleared.objs' (x : Option Obj) (o' : Nat) : (h'.setObj o x).obj? o' = if o' = o then x else h.obj? o' :=
  obj?_set (h := h'.setObj o x) (l := h.objs) (by simp [Heap.setObj, hc.objs]) ho o'

include ho in
theorem Cleared.obj : h'.obj? o = some { ob with data := none } := by
  have := obj?_set (h := h') (l := h.objs) hc.objs ho o
  simpa using this

include ho in
theorem Cleared.slots {x : Option Obj} (hx : Bare E x) {o' i : Nat} {m : Mix} {sl : Slot} :
    SlotOf E (h'.setObj o x) o' i m sl ↔ o' ≠ o ∧ SlotOf E h o' i m sl := by
  unfold SlotOf
  constructor
  · rintro ⟨ob', t, a, h1, h2, h3, h4, h5⟩
    rw [hc.objs' ho] at h1
    by_cases hoo : o' = o
    · rw [if_pos hoo] at h1
      have := (hx ob' h1).1
      rw [this] at h3; simp at h3
    · rw [if_neg hoo] at h1
      refine ⟨hoo, ob', t, a, h1, h2, h3, h4, ?_⟩
      have : (h'.setObj o x).slot = h'.slot := rfl
      rw [this, hc.slot] at h5; exact h5
  · rintro ⟨hoo, ob', t, a, h1, h2, h3, h4, h5⟩
    refine ⟨ob', t, a, ?_, h2, h3, h4, ?_⟩
    · rw [hc.objs' ho, if_neg hoo]; exact h1
    · show h'.slot a i = some sl
      rw [hc.slot]; exact h5

include hE hk ho

theorem Cleared.liveOther {o' i : Nat} {m : Mix} {sl : Slot} (hoo : o' ≠ o) (hs : SlotOf E h o' i m sl) : h'.live sl.loc = h.live sl.loc :=
  hc.keep _ (fun i' m' sl' hs' hl => hoo ((hs'.same hE hk hs hl).1.symm))

theorem Cleared.blkOther {o' i : Nat} {m : Mix} {sl : Slot} (hoo : o' ≠ o) (hs : SlotOf E h o' i m sl) {e : Nat} (he : sl.buf = some e) : h'.blk e = h.blk e := by
  obtain ⟨ob', t', a', v', f1, f2, f3, f4, f5, f6, f7, f8, f9⟩ := hs.facts hk
  have hp := f6.buf_loc he
  apply hc.blkKeep
  · intro hd
    have hob := hk.objs o ob ho
    unfold ObjOk at hob; rw [hd] at hob
    obtain ⟨t, -, -, hblk, -⟩ := hob
    rw [hp.2.1] at hblk; simp [provenance] at hblk
  · intro i' m' sl' hs' he'
    obtain ⟨ob2, t2, a2, v2, g1, g2, g3, g4, g5, g6, g7, g8, g9⟩ := hs'.facts hk
    have hp' := g6.buf_loc he'
    have hl : sl'.loc = sl.loc := by rw [hp.1, hp'.1]
    exact hoo (hs'.same hE hk hs hl).1.symm

theorem Cleared.dataOther {o' : Nat} {ob' : Obj} (hoo : o' ≠ o) (ho' : h.obj? o' = some ob') {a : Nat} (ha : ob'.data = some a) : h'.blk a = h.blk a := by
  have hob := hk.objs o' ob' ho'
  unfold ObjOk at hob; rw [ha] at hob
  obtain ⟨t, -, -, hblk, -⟩ := hob
  apply hc.blkKeep
  · intro hd; exact hoo (data_inj hk ho' ho ha hd)
  · intro i' m' sl' hs' he'
    obtain ⟨ob2, t2, a2, v2, g1, g2, g3, g4, g5, g6, g7, g8, g9⟩ := hs'.facts hk
    have hp' := (g6.buf_loc he').2.1
    rw [hblk] at hp'; simp [provenance] at hp'

/-- The heap is healthy again when the object gets an empty type or is gone. -/
theorem Cleared.heapOk {x : Option Obj} (hx : Bare E x) : HeapOk D E (h'.setObj o x) := by
  have hsl := @Cleared.slots D E h o ob ho h' hc x hx
  constructor
  · intro o' ob' h1
    rw [hc.objs' ho] at h1
    by_cases hoo : o' = o
    · rw [if_pos hoo] at h1
      obtain ⟨h2, h3⟩ := hx ob' h1
      unfold ObjOk; rw [h2]; exact h3
    · rw [if_neg hoo] at h1
      have hob := hk.objs o' ob' h1
      unfold ObjOk at hob ⊢
      cases hd : ob'.data with
      | none => rw [hd] at hob; exact hob
      | some a =>
        rw [hd] at hob
        obtain ⟨t, h2, h3, h4, h5⟩ := hob
        refine ⟨t, h2, h3, ?_, ?_⟩
        · show h'.blk a = _
          rw [hc.dataOther hE hk ho hoo h1 hd]; exact h4
        · intro i m hm
          obtain ⟨sl, v, k1, k2, k3, k4⟩ := h5 i m hm
          have hs : SlotOf E h o' i m sl := ⟨ob', t, a, h1, h2, hd, hm, k1⟩
          refine ⟨sl, v, ?_, ?_, ?_, ?_⟩
          · show h'.slot a i = _
            rw [hc.slot]; exact k1
          · unfold PlaceOk at k2 ⊢
            split
            · rename_i hi; rw [if_pos hi] at k2; exact k2
            · rename_i hi; rw [if_neg hi] at k2
              obtain ⟨e, e1, e2⟩ := k2
              refine ⟨e, e1, ?_⟩
              show h'.blk e = _
              rw [hc.blkOther hE hk ho hoo hs (e := e) (by rw [e1])]; exact e2
          · show h'.live sl.loc = _
            rw [hc.liveOther hE hk ho hoo hs]; exact k3
          · show h'.owner sl.loc = _
            rw [hc.owner]; exact k4
  · intro a b hb
    have hb' : h'.blk a = some b := hb
    have hba : h.blk a = some b := by
      apply Classical.byContradiction
      intro hn
      by_cases h1 : ob.data = some a ∨ ∃ i m sl, SlotOf E h o i m sl ∧ sl.buf = some a
      · rw [hc.blkDead a h1] at hb'; simp at hb'
      · rw [hc.blkKeep a (fun h => h1 (.inl h)) (fun i m sl hs he => h1 (.inr ⟨i, m, sl, hs, he⟩))] at hb'
        exact hn hb'
    obtain ⟨o', h2⟩ := hk.blocks a b hba
    by_cases hoo : o' = o
    · exfalso
      subst hoo
      have : h'.blk a = none := by
        apply hc.blkDead
        rcases h2 with ⟨ob', h3, h4⟩ | h3
        · rw [ho] at h3; simp at h3; subst h3; exact .inl h4
        · exact .inr h3
      rw [this] at hb'; simp at hb'
    · refine ⟨o', ?_⟩
      rcases h2 with ⟨ob', h3, h4⟩ | ⟨i, m, sl, h3, h4⟩
      · exact .inl ⟨ob', by rw [hc.objs' ho, if_neg hoo]; exact h3, h4⟩
      · exact .inr ⟨i, m, sl, hsl.2 ⟨hoo, h3⟩, h4⟩
  · intro l y hl
    have hl' : h'.live l = some y := hl
    by_cases h1 : ∃ i m sl, SlotOf E h o i m sl ∧ sl.loc = l
    · obtain ⟨i, m, sl, h2, rfl⟩ := h1
      rw [hc.dead i m sl h2] at hl'; simp at hl'
    · rw [hc.keep l (fun i m sl hs he => h1 ⟨i, m, sl, hs, he⟩)] at hl'
      obtain ⟨o', i, m, sl, h2, h3⟩ := hk.lives l y hl'
      refine ⟨o', i, m, sl, hsl.2 ⟨?_, h2⟩, h3⟩
      rintro rfl
      exact h1 ⟨i, m, sl, h2, h3⟩
  · intro a b hb
    have hb' : h'.blk a = some b := hb
    show a < h'.next
    rw [hc.next]
    by_cases h1 : ob.data = some a ∨ ∃ i m sl, SlotOf E h o i m sl ∧ sl.buf = some a
    · rw [hc.blkDead a h1] at hb'; simp at hb'
    · rw [hc.blkKeep a (fun h => h1 (.inl h)) (fun i m sl hs he => h1 (.inr ⟨i, m, sl, hs, he⟩))] at hb'
      exact hk.fresh a b hb'
  · intro t
    show h'.count t = _
    rw [hc.count, hk.counts]
    have h1 : (h'.setObj o x).objs = (h.setObj o x).objs := by simp [Heap.setObj, hc.objs]
    have h2 : usersOf (h'.setObj o x) t = usersOf (h.setObj o x) t := by unfold usersOf; rw [h1]
    have h3 : countsFor t x = false := by
      cases x with
      | none => rfl
      | some y => simp [countsFor, (hx y rfl).1]
    rw [h2, usersOf_setObj ho x t, h3]
    simp

/-- Other objects are not affected. -/
theorem Cleared.holds {x : Option Obj} (hx : Bare E x) {o' : Nat} (hoo : o' ≠ o) {m : Mix} {l : Loc} {v : Nat} :
    Holds E (h'.setObj o x) o' m l v ↔ Holds E h o' m l v := by
  have hsl := @Cleared.slots D E h o ob ho h' hc x hx
  unfold Holds
  constructor
  · rintro ⟨i, sl, h1, rfl, h3⟩
    have h1 := (hsl.1 h1).2
    refine ⟨i, sl, h1, rfl, ?_⟩
    rw [← hc.liveOther hE hk ho hoo h1]; exact h3
  · rintro ⟨i, sl, h1, rfl, h3⟩
    refine ⟨i, sl, hsl.2 ⟨hoo, h1⟩, rfl, ?_⟩
    show h'.live sl.loc = _
    rw [hc.liveOther hE hk ho hoo h1]; exact h3

end

end Dnmx
