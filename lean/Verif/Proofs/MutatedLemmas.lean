import Verif.Proofs.FinalizeLemmas

/-! # Lemmas about the heap after a completed mutation -/

set_option linter.unusedSimpArgs false

namespace Dnmx
open Spec

variable {D : Decls} {E : TyEnv} {orc : Orc}

/-- The heap `h` after the old buffer is gone; `h1` is the heap after all updates. -/
structure Fin (D : Decls) (E : TyEnv) (h0 : Heap) (o : Nat) (ob : Obj) (t : TypeId) (h1 : Heap) (h : Heap) : Prop where
  objs : h.objs = h1.objs
  next : h.next = h1.next
  slot : h.slot = h1.slot
  owner : h.owner = h1.owner
  count : ∀ x, h.count x = h1.count x - if countsFor x (some ob) then 1 else 0
  dead : ∀ (j : Nat) (m : Mix) (sl : Slot), SlotOf E h0 o j m sl → (sl.buf = none ∨ E.indexOf t m = none) → h.live sl.loc = none
  moved : ∀ (j i : Nat) (m : Mix) (sl : Slot), SlotOf E h0 o j m sl → sl.buf = none → (E.mixins t)[i]? = some m →
    ∃ v, h1.live sl.loc = some (m, v) ∧ h.live (h0.next, i) = some (m, v)
  keep : ∀ l, (∀ (j : Nat) (m : Mix) (sl : Slot), SlotOf E h0 o j m sl → (sl.buf = none ∨ E.indexOf t m = none) → sl.loc ≠ l) →
    (∀ (j i : Nat) (m : Mix) (sl : Slot), SlotOf E h0 o j m sl → sl.buf = none → (E.mixins t)[i]? = some m → l ≠ (h0.next, i)) → h.live l = h1.live l
  blkData : ∀ b, ob.data = some b → h.blk b = none
  blkDead : ∀ (j : Nat) (m : Mix) (sl : Slot) (e : Nat), SlotOf E h0 o j m sl → E.indexOf t m = none → sl.buf = some e → h.blk e = none
  blkKeep : ∀ a, ob.data ≠ some a → (∀ (j : Nat) (m : Mix) (sl : Slot), SlotOf E h0 o j m sl → E.indexOf t m = none → sl.buf ≠ some a) → h.blk a = h1.blk a
  inits : initsOf h.log = initsOf h1.log
  destroys : destroysOf h.log = destroysOf h1.log ++ (match ob.data, ob.ty with
    | some b, some told => finDestroys D E told t (h0.slot b) (E.mixins told).length
    | _, _ => [])

theorem slotOf_lt (hE : EnvOk D E) {h : Heap} {o j : Nat} {m : Mix} {sl : Slot} (hs : SlotOf E h o j m sl) {ob : Obj} (ho : h.obj? o = some ob) {told : TypeId}
    (ht : ob.ty = some told) : (E.mixins told)[j]? = some m := by
  obtain ⟨ob', t, a, h1, h2, h3, h4, h5⟩ := hs
  rw [ho] at h1; simp at h1; subst h1
  rw [ht] at h2; simp at h2; subst h2
  exact h4

theorem finalize_fin (hE : EnvOk D E) {h0 : Heap} (hk : HeapOk D E h0) {o : Nat} {ob : Obj} (ho : h0.obj? o = some ob) {t : TypeId} (hty : ob.ty ≠ some t)
    {g : Ghost} {s : Sess} (hs : SessOk D E h0 o ob t g s) (hal : s.alloced = (E.mixins t).length) (hc : s.complete = true) :
    ∃ s' h2, finalize D E orc s = some s' ∧ Fin D E h0 o ob t s.h h2 ∧
      s'.h = h2.setObj o (some { ob with ty := some t, data := some h0.next }) ∧ s'.movedOut = false := by
  have hatt : ∀ h2 : Heap, h2.objs = s.h.objs → attach s h2 = { s with h := h2.setObj o (some { ob with ty := some t, data := some h0.next }) } := by
    intro h2 he
    unfold attach
    have : h2.obj? s.o = some ob := by unfold Heap.obj? at ho ⊢; rw [he, hs.objs, hs.so]; exact ho
    rw [this]; simp only [hs.ty, hs.data, hs.so]
  unfold finalize
  rw [hs.oldTy, hs.ty, if_neg hty, hs.oldData, hc]
  simp only [Bool.not_true, Bool.false_eq_true, if_false]
  cases hb : ob.data with
  | none =>
    have hno : ∀ (j : Nat) (m : Mix) (sl : Slot), ¬ SlotOf E h0 o j m sl := by
      rintro j m sl ⟨ob', t', a, h1, h2, h3, h4, h5⟩
      rw [ho] at h1; simp at h1; subst h1
      rw [hb] at h3; simp at h3
    refine ⟨attach s s.h, s.h, by simp, ⟨rfl, rfl, rfl, rfl, ?_, ?_, ?_, ?_, ?_, ?_, ?_, rfl, ?_⟩, ?_, ?_⟩
    · intro x; simp [countsFor, hb]
    · intro j m sl h; exact absurd h (hno j m sl)
    · intro j i m sl h; exact absurd h (hno j m sl)
    · intros; rfl
    · intro b h; rw [hb] at h; simp at h
    · intro j m sl e h; exact absurd h (hno j m sl)
    · intros; rfl
    · rw [hb]; simp
    · rw [hatt s.h rfl]
    · rw [hatt s.h rfl]; exact hs.movedOut
  | some b =>
    have hob := hk.objs o ob ho
    unfold ObjOk at hob; rw [hb] at hob
    obtain ⟨told, ht, -, hblk, -⟩ := hob
    have hblt := data_lt hk ho hb
    obtain ⟨h', f1, f2⟩ := finalizeLoop_ok (orc := orc) hE hk ho hs hb ht hal (E.mixins told) 0 s.h (Nat.zero_le _) rfl
      ⟨rfl, rfl, rfl, rfl, rfl, fun j _ _ h => absurd h (by omega), fun j _ _ _ h => absurd h (by omega), fun _ _ _ => rfl,
        fun j _ _ _ h => absurd h (by omega), fun _ _ => rfl, rfl, by simp [finDestroys]⟩
    have hb' : h'.blk b = some (.unified told s.al) := by
      rw [f2.blkKeep b, hs.blkOld b hblt, hs.sal]; exact hblk
      intro j m sl hj hsl _ hbe
      obtain ⟨ob', t', a', v', c1, c2, c3, c4, c5, c6, -⟩ := hsl.facts hk
      have := (c6.buf_loc hbe).2.1
      rw [hblk] at this; simp [provenance] at this
    rw [ht]; simp only [hs.data]
    rw [f1]; simp only [Option.bind]
    have hde : deallocBuffer h' told s.al b = some { h' with blk := fun x => if x = b then none else h'.blk x, log := h'.log ++ [.dealloc b], count := fun x => if x = told then h'.count x + (-1) else h'.count x } := by
      simp only [deallocBuffer, Heap.deallocate, hb', if_true, Option.map_some]
    rw [hde]; simp only
    have hlt : ∀ (j : Nat) (m : Mix) (sl : Slot), SlotOf E h0 o j m sl → j < (E.mixins told).length := fun j m sl h => lt_of_at (slotOf_lt hE h ho ht)
    refine ⟨_, { h' with blk := fun x => if x = b then none else h'.blk x, log := h'.log ++ [.dealloc b], count := fun x => if x = told then h'.count x + (-1) else h'.count x }, rfl, ⟨f2.objs, f2.next, f2.slot, f2.owner, ?_, ?_, ?_, ?_, ?_, ?_, ?_, ?_, ?_⟩, ?_, ?_⟩
    · intro x
      simp only [f2.count, countsFor, ht, hb, Option.isSome_some, Bool.and_true]
      by_cases hx : x = told
      · subst hx; simp; omega
      · have : (some told == some x) = false := by simpa using fun h => hx h.symm
        rw [if_neg hx, this]; simp
    · intro j m sl h; exact f2.dead j m sl (hlt j m sl h) h
    · intro j i m sl h; exact f2.moved j i m sl (hlt j m sl h) h
    · intro l q1 q2
      exact f2.keep l (fun j m sl _ => q1 j m sl) (fun j i m sl _ => q2 j i m sl)
    · intro b' h; rw [hb] at h; simp at h; simp [h]
    · intro j m sl e h1 h2 h3
      simp only
      split
      · rfl
      · exact f2.blkDead j m sl e (hlt j m sl h1) h1 h2 h3
    · intro a q1 q2
      simp only
      rw [if_neg (by intro h; exact q1 (by rw [hb, h]))]
      exact f2.blkKeep a (fun j m sl _ => q2 j m sl)
    · rw [← f2.inits]; simp [initsOf, initOf]
    · rw [hb, ht]; simp only
      rw [← f2.destroys]; simp [destroysOf, destroyOf]
    · rw [hatt _ (by simp only; exact f2.objs)]
    · rw [hatt _ (by simp only; exact f2.objs)]; exact hs.movedOut

/-- The heap after a completed mutation of object `o` from state `ob` to type `t`. -/
def mutatedObj (h0 : Heap) (ob : Obj) (t : TypeId) : Obj := { ob with ty := some t, data := some h0.next }

section
variable (hE : EnvOk D E) {h0 : Heap} (hk : HeapOk D E h0) {o : Nat} {ob : Obj} (ho : h0.obj? o = some ob) {t : TypeId} (hne : E.mixins t ≠ [])
  {g : Ghost} {s : Sess} (hs : SessOk D E h0 o ob t g s) (hal : s.alloced = (E.mixins t).length) (hc : s.complete = true) {h : Heap} (hf : Fin D E h0 o ob t s.h h)
include hE hk ho hne hs hal hc hf

/-- What became of mixin `m` with index `i` of the new type. -/
theorem fin_mixin {i : Nat} {m : Mix} (hm : (E.mixins t)[i]? = some m) :
    ∃ sl v, h.slot h0.next i = some sl ∧ PlaceOk D E h.blk ob.alloc t h0.next i m sl ∧ h.live sl.loc = some (m, v) ∧ h.owner sl.loc = some o ∧
      (mixinIndex E ob m = none → s.h.live sl.loc = some (m, v)) ∧
      (∀ b j sl0, mixinIndex E ob m = some (b, j) → h0.slot b j = some sl0 → s.h.live sl0.loc = some (m, v) ∧ (sl0.buf ≠ none → sl = sl0) ∧
        (sl0.buf = none → sl = ⟨none, (h0.next, i)⟩)) := by
  have hi : i < s.alloced := by rw [hal]; exact lt_of_at hm
  have hup : s.updated = (E.mixins t).length := (hs.complete.1 hc).2
  have hdlt : ∀ b, ob.data = some b → b < h0.next := fun b => data_lt hk ho
  have hbuflt : ∀ (j : Nat) (m : Mix) (sl : Slot) (e : Nat), SlotOf E h0 o j m sl → sl.buf = some e → e < h0.next := by
    intro j m sl e hsl hbe
    obtain ⟨ob', t', a', v', c1, c2, c3, c4, c5, c6, -⟩ := hsl.facts hk
    exact hk.fresh _ _ (c6.buf_loc hbe).2.1
  rw [hf.slot, hf.owner]
  cases hix : mixinIndex E ob m with
  | none =>
    obtain ⟨sl, p1, p2, p3, p4, p5, p6⟩ := new_place hs hi hm hix
    obtain ⟨v, hv⟩ := hs.liveNew i m sl (by rw [hup]; exact lt_of_at hm) hm hix p1
    have hkeep : h.live sl.loc = s.h.live sl.loc := by
      apply hf.keep
      · intro j m' sl' hsl' _ heq
        have := slot_lt hk hsl'; rw [heq] at this; omega
      · intro j i' m' sl' hsl' hbn hm' heq
        cases hb : sl.buf with
        | some e =>
          obtain ⟨-, q2, q3, -⟩ := p5 e hb
          rw [q3] at heq; simp at heq; omega
        | none =>
          obtain ⟨q1, -⟩ := p6 hb
          rw [q1] at heq; simp at heq; subst heq
          rw [hm] at hm'; simp at hm'; subst hm'
          obtain ⟨_, _, hx, _⟩ := index_of_slot hE ho hsl'
          rw [hix] at hx; simp at hx
    refine ⟨sl, v, p1, ?_, by rw [hkeep, hv], p4, fun _ => hv, fun b j sl0 h => by simp at h⟩
    unfold PlaceOk
    cases hb : sl.buf with
    | none =>
      obtain ⟨q1, q2⟩ := p6 hb
      rw [if_pos q2]; cases sl; simp only at hb q1; rw [hb, q1]
    | some e =>
      obtain ⟨q1, q2, q3, q4⟩ := p5 e hb
      rw [q4]; simp only [Bool.false_eq_true, if_false]
      refine ⟨e, by cases sl; simp only at hb q3; rw [hb, q3], ?_⟩
      rw [hf.blkKeep e, q1]
      · intro hd; have := hdlt _ hd; omega
      · intro j m' sl' hsl' _ hbe; have := hbuflt j m' sl' e hsl' hbe; omega
  | some p =>
    obtain ⟨b, j⟩ := p
    obtain ⟨sl0, a1, a2, a3⟩ := common_slot hE hk ho (mem_of_at hm) hix
    obtain ⟨ob', t', a', v', c1, c2, c3, c4, c5, c6, c7, c8, c9⟩ := a1.facts hk
    rw [ho] at c1; simp at c1; subst c1
    have hint : E.internal t i = E.internal t' j := by rw [hE.internal t i m hm, hE.internal t' j m c4]
    obtain ⟨sl, p1, p2⟩ := hs.slots i m hi hm
    unfold SessSlot at p2
    cases hb : sl0.buf with
    | none =>
      obtain ⟨q1, q2⟩ := c6.nobuf_loc hb
      rw [hint, q2, if_pos rfl] at p2
      obtain ⟨rfl, p3⟩ := p2
      obtain ⟨v, m1, m2⟩ := hf.moved j i m sl0 a1 hb hm
      refine ⟨_, v, p1, ?_, m2, p3, fun h => by simp at h, ?_⟩
      · unfold PlaceOk; rw [hint, q2, if_pos rfl]
      · intro b' j' sl' hx hsl'
        simp at hx; obtain ⟨rfl, rfl⟩ := hx
        rw [a2] at hsl'; simp at hsl'; subst hsl'
        exact ⟨m1, fun h => absurd hb h, fun _ => rfl⟩
    | some e =>
      obtain ⟨q1, q2, q3⟩ := c6.buf_loc hb
      rw [hint, q3] at p2; simp only [Bool.false_eq_true, if_false] at p2
      rw [hix] at p2; simp only at p2
      rw [a2] at p2; simp at p2; subst p2
      have hlt := slot_lt hk a1
      have htm : E.indexOf t m = some i := (hE.index t t m i (mem_of_at hm)).2 hm
      have hkeep : h.live sl0.loc = s.h.live sl0.loc := by
        apply hf.keep
        · intro j' m' sl' hsl' hor heq
          obtain ⟨-, rfl, rfl⟩ := hsl'.same hE hk a1 heq
          have : sl' = sl0 := by
            obtain ⟨x, x1, x2, x3⟩ := index_of_slot hE ho hsl'
            rw [hix] at x2; simp at x2; subst x2; rw [a2] at x3; simp at x3; exact x3.symm
          subst this
          rcases hor with h' | h'
          · rw [hb] at h'; simp at h'
          · rw [htm] at h'; simp at h'
        · intro j' i' m' sl' _ _ _ heq
          rw [heq] at hlt; simp at hlt
      obtain ⟨⟨v, hv⟩, -⟩ := common_live hE hk ho hs hm hix a2
      refine ⟨sl0, v, p1, ?_, by rw [hkeep, hv], by rw [hs.ownerOld _ hlt]; exact c8, fun h => by simp at h, ?_⟩
      · unfold PlaceOk; rw [hint, q3]; simp only [Bool.false_eq_true, if_false]
        refine ⟨e, q1, ?_⟩
        rw [hf.blkKeep e, hs.blkOld e (hk.fresh _ _ q2), q2]
        · intro hd; rw [c3] at hd; simp at hd; subst hd; rw [c9] at q2; simp [provenance] at q2
        · intro j' m' sl' hsl' hrem hbe
          obtain ⟨_, _, _, _, _, _, _, _, _, d6, -⟩ := hsl'.facts hk
          have heq : sl'.loc = sl0.loc := by rw [(d6.buf_loc hbe).1, q1]
          obtain ⟨-, -, rfl⟩ := hsl'.same hE hk a1 heq
          rw [htm] at hrem; simp at hrem
      · intro b' j' sl' hx hsl'
        simp at hx; obtain ⟨rfl, rfl⟩ := hx
        rw [a2] at hsl'; simp at hsl'; subst hsl'
        exact ⟨hv, fun _ => rfl, fun h => by rw [hb] at h; simp at h⟩

omit hne hal hc in
/-- Mixins of other objects stay as they are. -/
theorem fin_other {o' i : Nat} {m : Mix} {sl : Slot} (hoo : o' ≠ o) (hsl : SlotOf E h0 o' i m sl) :
    h.live sl.loc = h0.live sl.loc ∧ h.owner sl.loc = h0.owner sl.loc ∧ (∀ e, sl.buf = some e → h.blk e = h0.blk e) := by
  have hlt := slot_lt hk hsl
  refine ⟨?_, by rw [hf.owner, hs.ownerOld _ hlt], ?_⟩
  · rw [hf.keep sl.loc]
    · rcases hs.liveOld sl.loc hlt with h9 | ⟨j', m', b', i', sl', v', a1, a2, a3, a4, a5, a6⟩
      · exact h9
      · exfalso
        obtain ⟨x, x1, x2, -⟩ := common_slot hE hk ho (mem_of_at a2) a3
        rw [a4] at x2; simp at x2; subst x2
        exact hoo (hsl.same hE hk x1 a5.symm).1
    · intro j m' sl' hsl' _ heq
      exact hoo (hsl.same hE hk hsl' heq.symm).1
    · intro j i' m' sl' _ _ _ heq
      rw [heq] at hlt; simp at hlt
  · intro e he
    obtain ⟨_, _, _, _, _, _, _, _, _, d6, -⟩ := hsl.facts hk
    obtain ⟨q1, q2, -⟩ := d6.buf_loc he
    rw [hf.blkKeep e, hs.blkOld e (hk.fresh _ _ q2)]
    · intro hd
      have hob := hk.objs o ob ho
      unfold ObjOk at hob; rw [hd] at hob
      obtain ⟨_, -, -, h7, -⟩ := hob
      rw [h7] at q2; simp [provenance] at q2
    · intro j m' sl' hsl' _ hbe
      obtain ⟨_, _, _, _, _, _, _, _, _, c6, -⟩ := hsl'.facts hk
      have heq : sl'.loc = sl.loc := by rw [(c6.buf_loc hbe).1, q1]
      exact hoo (hsl.same hE hk hsl' heq.symm).1

theorem fin_heapOk : HeapOk D E (h.setObj o (some (mutatedObj h0 ob t))) := by
  have hup : s.updated = (E.mixins t).length := (hs.complete.1 hc).2
  have ho' : h.obj? o = some ob := by unfold Heap.obj? at ho ⊢; rw [hf.objs, hs.objs]; exact ho
  have hobj : ∀ o', o' ≠ o → (h.setObj o (some (mutatedObj h0 ob t))).obj? o' = h0.obj? o' := by
    intro o' hne'
    rw [obj?_setObj_ne _ hne']; unfold Heap.obj?; rw [hf.objs, hs.objs]
  have hobjo : (h.setObj o (some (mutatedObj h0 ob t))).obj? o = some (mutatedObj h0 ob t) := obj?_setObj_same ho' _
  have hslot : ∀ a i, a < h0.next → h.slot a i = h0.slot a i := fun a i ha => by rw [hf.slot, hs.slotOld a i ha]
  have hslo : ∀ o' i m sl, o' ≠ o → SlotOf E h0 o' i m sl → SlotOf E (h.setObj o (some (mutatedObj h0 ob t))) o' i m sl := by
    rintro o' i m sl hne' ⟨ob', t', a, h1, h2, h3, h4, h5⟩
    refine ⟨ob', t', a, by rw [hobj o' hne']; exact h1, h2, h3, h4, ?_⟩
    show h.slot a i = some sl
    rw [hslot a i (data_lt hk h1 h3)]; exact h5
  have hnew : ∀ (i : Nat) (m : Mix) (sl : Slot), (E.mixins t)[i]? = some m → s.h.slot h0.next i = some sl →
      SlotOf E (h.setObj o (some (mutatedObj h0 ob t))) o i m sl := by
    intro i m sl hm hsl
    exact ⟨mutatedObj h0 ob t, t, h0.next, hobjo, rfl, rfl, hm, by show h.slot _ _ = _; rw [hf.slot]; exact hsl⟩
  have hremoved : ∀ (j : Nat) (m : Mix) (sl : Slot), SlotOf E h0 o j m sl → E.indexOf t m ≠ none → sl.buf ≠ none →
      ∃ i, SlotOf E (h.setObj o (some (mutatedObj h0 ob t))) o i m sl := by
    intro j m sl hsl hin hb
    cases hi : E.indexOf t m with
    | none => exact absurd hi hin
    | some i =>
      have hmj : m ∈ E.mixins (ob.ty.getD 0) := by
        obtain ⟨ob', t', a, h1, h2, h3, h4, h5⟩ := hsl
        rw [ho] at h1; simp at h1; subst h1
        rw [h2]; exact mem_of_at h4
      have hm := (hE.index t _ m i hmj).1 hi
      obtain ⟨b, _, hix, hs0⟩ := index_of_slot hE ho hsl
      obtain ⟨sl', v, h1, -, -, -, -, h2⟩ := fin_mixin hE hk ho hne hs hal hc hf hm
      have := (h2 b j sl hix hs0).2.1 hb
      subst this
      rw [hf.slot] at h1
      exact ⟨i, hnew i m sl' hm h1⟩
  constructor
  · intro o' ob' h1
    by_cases hoo : o' = o
    · subst hoo
      rw [hobjo] at h1; simp at h1; subst h1
      unfold ObjOk; simp only [mutatedObj]
      refine ⟨t, rfl, hne, ?_, ?_⟩
      · show h.blk h0.next = _
        rw [hf.blkKeep h0.next, hs.blkA]
        · intro hd; have := data_lt hk ho hd; omega
        · intro j m sl hsl _ hbe
          obtain ⟨_, _, _, _, _, _, _, _, _, d6, -⟩ := hsl.facts hk
          have := hk.fresh _ _ (d6.buf_loc hbe).2.1; omega
      · intro i m hm
        obtain ⟨sl, v, k1, k2, k3, k4, -⟩ := fin_mixin hE hk ho hne hs hal hc hf hm
        exact ⟨sl, v, k1, k2, k3, k4⟩
    · rw [hobj o' hoo] at h1
      have hob := hk.objs o' ob' h1
      unfold ObjOk at hob ⊢
      cases hd : ob'.data with
      | none => rw [hd] at hob; exact hob
      | some a =>
        rw [hd] at hob
        obtain ⟨t', h2, h3, h4, h5⟩ := hob
        refine ⟨t', h2, h3, ?_, ?_⟩
        · show h.blk a = _
          rw [hf.blkKeep a, hs.blkOld a (hk.fresh _ _ h4), h4]
          · intro hd'; exact hoo (data_inj hk h1 ho hd hd')
          · intro j m sl hsl _ hbe
            obtain ⟨_, _, _, _, _, _, _, _, _, d6, -⟩ := hsl.facts hk
            have := (d6.buf_loc hbe).2.1
            rw [h4] at this; simp [provenance] at this
        · intro i m hm
          obtain ⟨sl, v, k1, k2, k3, k4⟩ := h5 i m hm
          have hsl : SlotOf E h0 o' i m sl := ⟨ob', t', a, h1, h2, hd, hm, k1⟩
          obtain ⟨l1, l2, l3⟩ := fin_other hE hk ho hs hf hoo hsl
          refine ⟨sl, v, by show h.slot a i = _; rw [hslot a i (hk.fresh _ _ h4)]; exact k1, ?_, by show h.live _ = _; rw [l1]; exact k3, by show h.owner _ = _; rw [l2]; exact k4⟩
          unfold PlaceOk at k2 ⊢
          split
          · rename_i hi; rw [if_pos hi] at k2; exact k2
          · rename_i hi; rw [if_neg hi] at k2
            obtain ⟨e, e1, e2⟩ := k2
            exact ⟨e, e1, by show h.blk e = _; rw [l3 e (by rw [e1])]; exact e2⟩
  · intro a b hb
    have hb : h.blk a = some b := hb
    have hd : ob.data ≠ some a := fun hd => by rw [hf.blkData a hd] at hb; simp at hb
    have hk2 : ∀ (j : Nat) (m : Mix) (sl : Slot), SlotOf E h0 o j m sl → E.indexOf t m = none → sl.buf ≠ some a :=
      fun j m sl q1 q2 q3 => by rw [hf.blkDead j m sl a q1 q2 q3] at hb; simp at hb
    rw [hf.blkKeep a hd hk2] at hb
    rcases Nat.lt_trichotomy a h0.next with hlt | heq | hgt
    · rw [hs.blkOld a hlt] at hb
      obtain ⟨o', h2⟩ := hk.blocks a b hb
      rcases h2 with ⟨ob', h3, h4⟩ | ⟨i, m, sl, h3, h4⟩
      · have hoo : o' ≠ o := by
          intro h; subst h; rw [ho] at h3; simp at h3; subst h3; exact hd h4
        exact ⟨o', .inl ⟨ob', by rw [hobj o' hoo]; exact h3, h4⟩⟩
      · by_cases hoo : o' = o
        · subst hoo
          obtain ⟨i', hi'⟩ := hremoved i m sl h3 (fun hn => hk2 i m sl h3 hn h4) (by rw [h4]; simp)
          exact ⟨o', .inr ⟨i', m, sl, hi', h4⟩⟩
        · exact ⟨o', .inr ⟨i, m, sl, hslo o' i m sl hoo h3, h4⟩⟩
    · subst heq
      exact ⟨o, .inl ⟨_, hobjo, rfl⟩⟩
    · obtain ⟨i, m, sl, k1, k2, k3, k4, k5⟩ := hs.blkNew a b hgt hb
      exact ⟨o, .inr ⟨i, m, sl, hnew i m sl k2 k4, k5⟩⟩
  · intro l x hl
    have hl : h.live l = some x := hl
    by_cases hdead : ∃ (j : Nat) (m : Mix) (sl : Slot), SlotOf E h0 o j m sl ∧ (sl.buf = none ∨ E.indexOf t m = none) ∧ sl.loc = l
    · obtain ⟨j, m, sl, q1, q2, q3⟩ := hdead
      rw [← q3, hf.dead j m sl q1 q2] at hl; simp at hl
    · by_cases hmov : ∃ (j i : Nat) (m : Mix) (sl : Slot), SlotOf E h0 o j m sl ∧ sl.buf = none ∧ (E.mixins t)[i]? = some m ∧ l = (h0.next, i)
      · obtain ⟨j, i, m, sl, q1, q2, q3, q4⟩ := hmov
        obtain ⟨b, _, hix, hs0⟩ := index_of_slot hE ho q1
        obtain ⟨sl', v, h1, -, -, -, -, h2⟩ := fin_mixin hE hk ho hne hs hal hc hf q3
        have := (h2 b j sl hix hs0).2.2 q2
        rw [hf.slot] at h1
        exact ⟨o, i, m, sl', hnew i m sl' q3 h1, by rw [this, q4]⟩
      · rw [hf.keep l (fun j m sl q1 q2 q3 => hdead ⟨j, m, sl, q1, q2, q3⟩) (fun j i m sl q1 q2 q3 q4 => hmov ⟨j, i, m, sl, q1, q2, q3, q4⟩)] at hl
        by_cases hlt : l.1 < h0.next
        · have : ∃ y, h0.live l = some y := by
            rcases hs.liveOld l hlt with h9 | ⟨j', m', b', i', sl', v', a1, a2, a3, a4, a5, a6⟩
            · exact ⟨x, by rw [← h9]; exact hl⟩
            · obtain ⟨y, y1, y2, -⟩ := common_slot hE hk ho (mem_of_at a2) a3
              rw [a4] at y2; simp at y2; subst y2
              obtain ⟨_, _, _, v'', -, -, -, -, -, -, h7, -⟩ := y1.facts hk
              exact ⟨_, a5 ▸ h7⟩
          obtain ⟨y, hy⟩ := this
          obtain ⟨o', i, m, sl, h3, h4⟩ := hk.lives l y hy
          by_cases hoo : o' = o
          · subst hoo
            obtain ⟨i', hi'⟩ := hremoved i m sl h3 (fun hn => hdead ⟨i, m, sl, h3, .inr hn, h4⟩) (fun hn => hdead ⟨i, m, sl, h3, .inl hn, h4⟩)
            exact ⟨o', i', m, sl, hi', h4⟩
          · exact ⟨o', i, m, sl, hslo o' i m sl hoo h3, h4⟩
        · obtain ⟨i, m, sl, k1, k2, k3, k4, k5⟩ := hs.liveOnly l x (by omega) hl
          exact ⟨o, i, m, sl, hnew i m sl k2 k4, k5⟩
  · intro a b hb
    have hb : h.blk a = some b := hb
    show a < h.next
    have hd : ob.data ≠ some a := fun hd => by rw [hf.blkData a hd] at hb; simp at hb
    have hk2 : ∀ (j : Nat) (m : Mix) (sl : Slot), SlotOf E h0 o j m sl → E.indexOf t m = none → sl.buf ≠ some a :=
      fun j m sl q1 q2 q3 => by rw [hf.blkDead j m sl a q1 q2 q3] at hb; simp at hb
    rw [hf.blkKeep a hd hk2] at hb
    rw [hf.next]; exact hs.fresh a b hb
  · intro x
    show h.count x = _
    rw [usersOf_setObj ho', hf.count, hs.count]
    have : usersOf h x = usersOf h0 x := by unfold usersOf; rw [hf.objs, hs.objs]
    rw [this, hk.counts]
    have hx : countsFor x (some (mutatedObj h0 ob t)) = (t == x) := by simp [countsFor, mutatedObj]
    rw [hx]
    by_cases hxt : x = t
    · subst hxt; simp; omega
    · have : (t == x) = false := by simpa using Ne.symm hxt
      rw [if_neg hxt, this]; simp

end

end Dnmx
