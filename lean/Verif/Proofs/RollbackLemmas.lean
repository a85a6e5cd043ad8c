import Verif.Proofs.UpdateLemmas

/-! # Lemmas about rolled back mutations -/

set_option linter.unusedSimpArgs false

namespace Dnmx
open Spec

variable {D : Decls} {E : TyEnv} {orc : Orc}

/-- Health depends on the memory below `next` only, and not on values. -/
theorem HeapOk_transfer {h h' : Heap} (hk : HeapOk D E h) (ho : h'.objs = h.objs) (hb : ∀ a, h'.blk a = h.blk a)
    (hs : ∀ a i, a < h.next → h'.slot a i = h.slot a i) (hw : ∀ l : Loc, l.1 < h.next → h'.owner l = h.owner l)
    (hl : ∀ l, (h'.live l).map Prod.fst = (h.live l).map Prod.fst) (hc : ∀ x, h'.count x = h.count x) (hn : h.next ≤ h'.next) : HeapOk D E h' := by
  have hobj : ∀ o, h'.obj? o = h.obj? o := fun o => by unfold Heap.obj?; rw [ho]
  have hsl : ∀ o i m sl, SlotOf E h o i m sl → SlotOf E h' o i m sl := by
    rintro o i m sl ⟨ob, t, a, h1, h2, h3, h4, h5⟩
    refine ⟨ob, t, a, by rw [hobj]; exact h1, h2, h3, h4, ?_⟩
    rw [hs a i (by
      have hob := hk.objs o ob h1
      unfold ObjOk at hob; rw [h3] at hob
      obtain ⟨_, -, -, h7, -⟩ := hob
      exact hk.fresh _ _ h7)]
    exact h5
  constructor
  · intro o ob h1
    rw [hobj] at h1
    have hob := hk.objs o ob h1
    unfold ObjOk at hob ⊢
    cases hd : ob.data with
    | none => rw [hd] at hob; exact hob
    | some a =>
      rw [hd] at hob
      obtain ⟨t, h2, h3, h4, h5⟩ := hob
      refine ⟨t, h2, h3, by rw [hb]; exact h4, ?_⟩
      intro i m hm
      obtain ⟨sl, v, k1, k2, k3, k4⟩ := h5 i m hm
      have hlt : sl.loc.1 < h.next := by
        have : SlotOf E h o i m sl := ⟨ob, t, a, h1, h2, hd, hm, k1⟩
        obtain ⟨b, hb'⟩ := this.allocated hk
        exact hk.fresh _ _ hb'
      have hv := hl sl.loc
      rw [k3] at hv
      simp only [Option.map_some, Option.map_eq_some_iff] at hv
      obtain ⟨⟨m', v'⟩, hv1, hv2⟩ := hv
      simp at hv2; subst hv2
      refine ⟨sl, v', by rw [hs a i (hk.fresh _ _ h4)]; exact k1, ?_, hv1, by rw [hw _ hlt]; exact k4⟩
      unfold PlaceOk at k2 ⊢
      split
      · rename_i hi; rw [if_pos hi] at k2; exact k2
      · rename_i hi; rw [if_neg hi] at k2
        obtain ⟨e, e1, e2⟩ := k2
        exact ⟨e, e1, by rw [hb]; exact e2⟩
  · intro a b h1
    rw [hb] at h1
    obtain ⟨o, h2⟩ := hk.blocks a b h1
    refine ⟨o, ?_⟩
    rcases h2 with ⟨ob, h3, h4⟩ | ⟨i, m, sl, h3, h4⟩
    · exact .inl ⟨ob, by rw [hobj]; exact h3, h4⟩
    · exact .inr ⟨i, m, sl, hsl _ _ _ _ h3, h4⟩
  · intro l x h1
    have hv := hl l
    rw [h1] at hv
    simp only [Option.map_some] at hv
    have hv := hv.symm
    simp only [Option.map_eq_some_iff] at hv
    obtain ⟨y, hv1, -⟩ := hv
    obtain ⟨o, i, m, sl, h2, h3⟩ := hk.lives l y hv1
    exact ⟨o, i, m, sl, hsl _ _ _ _ h2, h3⟩
  · intro a b h1
    rw [hb] at h1
    exact Nat.lt_of_lt_of_le (hk.fresh a b h1) hn
  · intro t; rw [hc, hk.counts]; unfold usersOf; rw [ho]

/-- The heap is as before a mutation of `o` to `t`, apart from the values of touched common mixins. -/
structure Undone (E : TyEnv) (h0 : Heap) (ob : Obj) (t : TypeId) (T : Nat → Bool) (h : Heap) : Prop where
  objs : h.objs = h0.objs
  next : h0.next ≤ h.next
  blk : ∀ a, h.blk a = h0.blk a
  slot : ∀ a i, a < h0.next → h.slot a i = h0.slot a i
  owner : ∀ l : Loc, l.1 < h0.next → h.owner l = h0.owner l
  live : ∀ l : Loc, h.live l = h0.live l ∨
    ∃ (j : Nat) (m : Mix) (b i : Nat) (sl : Slot) (v : Nat), T j = true ∧ (E.mixins t)[j]? = some m ∧ mixinIndex E ob m = some (b, i) ∧
      h0.slot b i = some sl ∧ sl.loc = l ∧ h.live l = some (m, v)
  count : ∀ x, h.count x = h0.count x

theorem Undone.refl (E : TyEnv) (h0 : Heap) (ob : Obj) (t : TypeId) (T : Nat → Bool) : Undone E h0 ob t T h0 :=
  ⟨rfl, Nat.le_refl _, fun _ => rfl, fun _ _ _ => rfl, fun _ _ => rfl, fun _ => .inl rfl, fun _ => rfl⟩

theorem Undone.ticked {h0 h : Heap} {ob : Obj} {t : TypeId} {T : Nat → Bool} (hu : Undone E h0 ob t T h) : Undone E h0 ob t T h.ticked :=
  ⟨hu.objs, hu.next, hu.blk, hu.slot, hu.owner, hu.live, hu.count⟩

theorem Undone.heapOk (hE : EnvOk D E) {h0 h : Heap} (hk : HeapOk D E h0) {o : Nat} {ob : Obj} (ho : h0.obj? o = some ob) {t : TypeId} {T : Nat → Bool}
    (hu : Undone E h0 ob t T h) : HeapOk D E h := by
  refine HeapOk_transfer hk hu.objs hu.blk hu.slot hu.owner ?_ hu.count hu.next
  intro l
  rcases hu.live l with h1 | ⟨j, m, b, i, sl, v, -, h2, h3, h4, h5, h6⟩
  · rw [h1]
  · obtain ⟨x, x1, x2, -⟩ := common_slot hE hk ho (mem_of_at h2) h3
    rw [h4] at x2; simp at x2; subst x2
    obtain ⟨_, _, _, v', -, -, -, -, -, -, h7, -⟩ := x1.facts hk
    rw [h6, ← h5, h7]; rfl

/-- The destructor calls of a rollback. -/
def undoDestroys (D : Decls) (E : TyEnv) (ob : Obj) (t : TypeId) (slot : Nat → Option Slot) (n : Nat) : List (Mix × Loc) :=
  ((List.range n).filterMap (fun i => ((E.mixins t)[i]?).bind (fun m =>
    if (mixinIndex E ob m).isNone && (D.mix m).hasDestroy then (slot i).map (fun sl => (m, sl.loc)) else none))).reverse

theorem rollback_ok (hE : EnvOk D E) {h0 : Heap} (hk : HeapOk D E h0) {o : Nat} {ob : Obj} {t : TypeId}
    (hty : ob.ty ≠ some t) {g : Ghost} {s : Sess} (hs : SessOk D E h0 o ob t g s) :
    ∃ s', rollback D E s = some s' ∧ s'.movedOut = true ∧ Undone E h0 ob t g.T s'.h ∧ initsOf s'.h.log = initsOf s.h.log ∧
      destroysOf s'.h.log = destroysOf s.h.log ++ undoDestroys D E ob t (s.h.slot h0.next) s.updated ∧
      ∀ l : Loc, l.1 < h0.next → s'.h.live l = s.h.live l := by
  have hup := hs.updated
  have hal := hs.alloced
  have hix := hs.oldIndex
  obtain ⟨L, G, d1, dG, d2, d3⟩ := destroyLoop_spec (D := D) hE s h0.next hs.data s.updated s.h (by rw [hs.ty]; omega) hs.blkA (by
    intro i m hi hm ho'
    rw [hs.ty] at hm; rw [hix] at ho'
    obtain ⟨sl, h1, -⟩ := hs.slots i m (by omega) hm
    obtain ⟨v, h2⟩ := hs.liveNew i m sl hi hm ho' h1
    obtain ⟨x, x1, -, ⟨bk, x3⟩, -⟩ := new_place hs (by omega) hm ho'
    rw [h1] at x1; simp at x1; subst x1
    exact ⟨sl, v, h1, h2, by rw [x3]; rfl⟩)
  obtain ⟨B, G', e1, eG, e2, e3⟩ := deallocLoop_spec (D := D) hE s h0.next hs.data s.alloced { s.h with live := L, log := s.h.log ++ G } (by rw [hs.ty]; omega) hs.blkA (by
    intro i m hi hm
    rw [hs.ty] at hm
    obtain ⟨sl, h1, -⟩ := hs.slots i m (by omega) hm
    refine ⟨sl, h1, ?_⟩
    intro ho' e he
    rw [hix] at ho'
    obtain ⟨x, x1, -, -, -, x5, -⟩ := new_place hs hi hm ho'
    rw [h1] at x1; simp at x1; subst x1
    rw [hs.sal]
    exact (x5 e he).1)
  have hBA : B h0.next = some (.unified s.ty s.al) := by
    rw [e3 h0.next]
    · rw [hs.ty, hs.sal]; exact hs.blkA
    · intro i m sl hi hm ho' hsl hb
      rw [hs.ty] at hm; rw [hix] at ho'
      obtain ⟨x, x1, -, -, -, x5, -⟩ := new_place hs hi hm ho'
      simp only at hsl
      rw [hsl] at x1; simp at x1; subst x1
      have := (x5 _ hb).2.1
      omega
  unfold rollback
  rw [hs.oldTy, hs.ty, if_neg hty, d1]
  simp only [Option.bind]
  rw [e1]
  simp only [hs.data]
  have hde : deallocBuffer { s.h with blk := B, live := L, log := s.h.log ++ G ++ G' } t s.al h0.next =
      some { s.h with blk := fun x => if x = h0.next then none else B x, live := L, log := s.h.log ++ G ++ G' ++ [.dealloc h0.next],
                      count := fun x => if x = t then s.h.count x + (-1) else s.h.count x } := by
    rw [hs.ty] at hBA
    simp only [deallocBuffer, Heap.deallocate, hBA, if_true, Option.map_some]
  rw [hde]
  have hold : ∀ l : Loc, l.1 < h0.next → L l = s.h.live l := by
    intro l hl
    apply d3 l
    intro i m sl k1 k2 k3 k4 k5
    rw [hs.ty] at k2; rw [hix] at k3
    obtain ⟨x, x1, x2, -⟩ := new_place hs (by omega) k2 k3
    rw [k4] at x1; simp at x1; subst x1
    rw [k5] at x2; omega
  refine ⟨_, rfl, rfl, ?_, ?_, ?_, hold⟩
  · have hnew : ∀ a, h0.next < a → B a = none := by
      intro a ha
      cases hx : s.h.blk a with
      | none =>
        by_cases hex : ∃ (i : Nat) (m : Mix) (sl : Slot), i < s.alloced ∧ (E.mixins s.ty)[i]? = some m ∧ s.oldIndex E m = none ∧ s.h.slot h0.next i = some sl ∧ sl.buf = some a
        · obtain ⟨i, m, sl, k1, k2, k3, k4, k5⟩ := hex
          exact e2 i m sl a k1 k2 k3 k4 k5
        · rw [e3 a (fun i m sl k1 k2 k3 k4 k5 => hex ⟨i, m, sl, k1, k2, k3, k4, k5⟩)]; exact hx
      | some b =>
        obtain ⟨i, m, sl, k1, k2, k3, k4, k5⟩ := hs.blkNew a b ha hx
        exact e2 i m sl a k1 (by rw [hs.ty]; exact k2) (by rw [hix]; exact k3) k4 k5
    refine ⟨hs.objs, Nat.le_of_lt hs.next, ?_, hs.slotOld, hs.ownerOld, ?_, ?_⟩
    · intro a
      simp only
      rcases Nat.lt_trichotomy a h0.next with hlt | heq | hgt
      · rw [if_neg (by omega), e3 a]
        · exact hs.blkOld a hlt
        · intro i m sl k1 k2 k3 k4 k5
          rw [hs.ty] at k2; rw [hix] at k3
          obtain ⟨x, x1, -, -, -, x5, -⟩ := new_place hs k1 k2 k3
          simp only at k4
          rw [k4] at x1; simp at x1; subst x1
          have := (x5 _ k5).2.1
          omega
      · subst heq
        simp only [if_true]
        cases hx : h0.blk h0.next with
        | none => rfl
        | some b => have := hk.fresh _ _ hx; omega
      · rw [if_neg (by omega), hnew a hgt]
        cases hx : h0.blk a with
        | none => rfl
        | some b => have := hk.fresh _ _ hx; omega
    · intro l
      simp only
      by_cases hl : l.1 < h0.next
      · rw [hold l hl]; exact hs.liveOld l hl
      · left
        rw [not_live_fresh hk (by omega : h0.next ≤ l.1)]
        by_cases hex : ∃ (i : Nat) (m : Mix) (sl : Slot), i < s.updated ∧ (E.mixins s.ty)[i]? = some m ∧ s.oldIndex E m = none ∧ s.h.slot h0.next i = some sl ∧ sl.loc = l
        · obtain ⟨i, m, sl, k1, k2, k3, k4, k5⟩ := hex
          rw [← k5]; exact d2 i m sl k1 k2 k3 k4
        · rw [d3 l (fun i m sl k1 k2 k3 k4 k5 => hex ⟨i, m, sl, k1, k2, k3, k4, k5⟩)]
          cases hx : s.h.live l with
          | none => rfl
          | some x =>
            exfalso
            obtain ⟨i, m, sl, k1, k2, k3, k4, k5⟩ := hs.liveOnly l x (by omega) hx
            exact hex ⟨i, m, sl, k1, by rw [hs.ty]; exact k2, by rw [hix]; exact k3, k4, k5⟩
    · intro x
      simp only
      rw [hs.count]
      split <;> omega
  · simp only [initsOf] at dG eG ⊢
    simp only [List.filterMap_append, dG.1, eG.1]
    simp [initOf]
  · simp only [destroysOf] at dG eG ⊢
    simp only [List.filterMap_append, dG.2, eG.2]
    simp only [List.filterMap_cons, List.filterMap_nil, destroyOf, List.append_nil, undoDestroys]
    congr 2
    apply filterMap_same
    intro i hi
    unfold loopDestroys
    rw [hs.ty]
    simp only [hix]

/-- A failed start leaves nothing behind. -/
theorem rollback_begin {h0 : Heap} {o : Nat} {ob : Obj} {t : TypeId} (n : Nat) :
    ∃ s', rollback D E { Sess.begin h0 o ob t with h := { h0 with tick := n } } = some s' ∧ s'.movedOut = true ∧ s'.h = { h0 with tick := n } := by
  unfold rollback
  simp only [Sess.begin]
  split
  · exact ⟨_, rfl, rfl, rfl⟩
  · simp only [destroyLoop, Option.bind, deallocLoop]
    exact ⟨_, rfl, rfl, rfl⟩

end Dnmx
