import Verif.Props.Objects
import Verif.Proofs.TransferLemmas

/-!
# Sealed objects (C37) and moves of objects (C38)
-/

namespace Dnmx.Props
open Spec

/-! ## C37 -/

/-- Operations that would change the type or the mixins of object `o`, other than its destruction and moves from it. -/
def changes (o : Nat) : OOp → Prop
  | .moveAssign o' src => o' = o ∧ src ≠ o
  | .copyFrom o' _ => o' = o
  | .clear o' => o' = o
  | .reset o' _ => o' = o
  | .mutation o' _ _ => o' = o
  | _ => False

/-- C37: operations that would change the type or mixins of a sealed object throw, and nothing changes at all. -/
theorem C37_sealed_refuses (D : Decls) (E : TyEnv) (orc : Orc) (hE : EnvOk D E) (h : Heap) (hk : HeapOk D E h) (ht : AllTyped h)
    (o : Nat) (ob : Obj) (ho : h.obj? o = some ob) (hsl : ob.isSealed = true) (u : Bool) (op : OOp) (hp : Proper E h op) (hc : changes o op) :
    ∃ e, ostep D E orc u h op = .throw h e := by
  cases op with
  | moveAssign o' src =>
    obtain ⟨rfl, hne⟩ := hc
    obtain ⟨sb, hs⟩ := alive_obj hE hp.2
    unfold ostep moveAssign
    simp only [ho, hs]
    rw [if_neg (fun h => hne h.symm)]
    by_cases hal : ob.alloc = sb.alloc
    · rw [if_pos hal, if_pos hsl]; exact ⟨_, rfl⟩
    · rw [if_neg hal]; exact ⟨_, rfl⟩
  | copyFrom o' src =>
    obtain rfl : o' = o := hc
    obtain ⟨sb, hs⟩ := alive_obj hE hp.2
    obtain ⟨own, hty⟩ := typed_obj hE ⟨hk, ht⟩ ho
    obtain ⟨t, hsty⟩ := typed_obj hE ⟨hk, ht⟩ hs
    unfold ostep copyFrom
    simp only [ho, hs]
    cases hd : sb.data with
    | none => simp only [hsl, if_true]; exact ⟨_, rfl⟩
    | some a =>
      simp only [hsty, hty]
      cases hck : copyFromCheck D E own (E.mixins t) with
      | some m => exact ⟨_, rfl⟩
      | none => simp only; unfold perform; rw [withMutation_sealed ho hsl]; exact ⟨_, rfl⟩
  | clear o' =>
    obtain rfl : o' = o := hc
    unfold ostep clearObject
    simp only [ho, hsl, if_true]; exact ⟨_, rfl⟩
  | reset o' t =>
    obtain rfl : o' = o := hc
    unfold ostep
    simp only [resetType_sealed ho hsl]; exact ⟨_, rfl⟩
  | mutation o' t steps =>
    obtain rfl : o' = o := hc
    unfold ostep
    simp only [withMutation_sealed ho hsl]; exact ⟨_, rfl⟩
  | newEmpty _ _ => exact hc.elim
  | newOfType _ _ _ => exact hc.elim
  | moveNew _ => exact hc.elim
  | destroy _ => exact hc.elim
  | copy _ _ => exact hc.elim
  | copyMatching _ _ => exact hc.elim
  | moveMatching _ _ _ => exact hc.elim
  | «seal» _ => exact hc.elim
  | mutateTo _ _ _ => exact hc.elim

/-- C37: `mutate_to`, too, unless the type is the one that the object has; then nothing happens. -/
theorem C37_sealed_refuses_mutate_to (D : Decls) (E : TyEnv) (orc : Orc) (h : Heap) (o : Nat) (ob : Obj) (ho : h.obj? o = some ob) (hsl : ob.isSealed = true)
    (u : Bool) (t : TypeId) (ops : List InitOp) :
    mutateTo D E orc u h o t ops = if ob.ty = some t then .ok h else .throw h .isSealed := by
  unfold mutateTo
  simp only [ho]
  by_cases hty : ob.ty = some t
  · rw [if_pos hty, if_pos hty]
  · rw [if_neg hty, if_neg hty, withMutation_sealed ho hsl]

/-- C37: a sealed object stays as it is (type, mixin data, sealed status, allocator) through every operation that is not its destruction or a move
from it. In particular `seal` has no inverse. -/
theorem C37_sealed_stays (D : Decls) (E : TyEnv) (orc : Orc) (hE : EnvOk D E) (h : Heap) (hk : HeapOk D E h) (ht : AllTyped h)
    (o : Nat) (ob : Obj) (ho : h.obj? o = some ob) (hsl : ob.isSealed = true) (u : Bool) (op : OOp) (hp : Proper E h op)
    (hd : op ≠ .destroy o) (hm : op ≠ .moveNew o) (hma : ∀ o', o' ≠ o → op ≠ .moveAssign o' o) (h' : Heap)
    (hr : ostep D E orc u h op = .ok h' ∨ ∃ e, ostep D E orc u h op = .throw h' e) : h'.obj? o = some ob := by
  by_cases hn : o ∈ subjects op
  · have thr : (∃ e, ostep D E orc u h op = .throw h e) → h'.obj? o = some ob := by
      rintro ⟨e, h1⟩
      rcases hr with h2 | ⟨e', h2⟩
      · rw [h1] at h2; simp at h2
      · rw [h1] at h2; simp at h2; rw [← h2.1]; exact ho
    have ref := fun hc => thr (C37_sealed_refuses D E orc hE h hk ht o ob ho hsl u op hp hc)
    cases op with
    | newEmpty _ _ => simp [subjects] at hn
    | newOfType _ _ _ => simp [subjects] at hn
    | moveNew src => simp [subjects] at hn; subst hn; exact absurd rfl hm
    | destroy o' => simp [subjects] at hn; subst hn; exact absurd rfl hd
    | moveAssign o' src =>
      simp [subjects] at hn
      by_cases hos : o' = src
      · subst hos
        unfold ostep moveAssign at hr
        simp at hr
        rw [← hr]; exact ho
      · rcases hn with rfl | rfl
        · exact ref ⟨rfl, fun h => hos h.symm⟩
        · exact absurd rfl (hma o' hos)
    | copy _ _ => simp [subjects] at hn
    | copyFrom o' _ => simp [subjects] at hn; subst hn; exact ref rfl
    | copyMatching _ _ => simp [subjects] at hn
    | moveMatching _ _ _ => simp [subjects] at hn
    | clear o' => simp [subjects] at hn; subst hn; exact ref rfl
    | reset o' _ => simp [subjects] at hn; subst hn; exact ref rfl
    | «seal» o' =>
      simp [subjects] at hn; subst hn
      unfold ostep sealObject at hr
      simp [ho] at hr
      rw [← hr, obj?_setObj_same ho, ← hsl]
    | mutation o' _ _ => simp [subjects] at hn; subst hn; exact ref rfl
    | mutateTo o' t ops =>
      simp [subjects] at hn; subst hn
      unfold ostep at hr
      simp only [C37_sealed_refuses_mutate_to D E orc h o ob ho hsl u t ops] at hr
      by_cases hty : ob.ty = some t
      · simp [hty] at hr; rw [← hr]; exact ho
      · simp [hty] at hr; rw [← hr]; exact ho
  · have := bystander (orc := orc) hE ⟨hk, ht⟩ u hp (o := o) (by unfold Alive; rw [ho]; simp) hn
    rcases hr with h1 | ⟨e, h1⟩ <;> (rw [h1] at this; exact this.trans ho)

/-- An object of type 1 that is sealed, and another one. -/
def sealedHeap : Heap := runOf [.newOfType 1 0 true, .newOfType 2 0 false]

theorem sealedHeap_good : HeapOk objDecls objEnv sealedHeap ∧ AllTyped sealedHeap := runOf_good _ (by decide +kernel)

example : (sealedHeap.obj? 0).map (fun ob => (ob.ty, ob.isSealed)) = some (some 1, true) ∧
    (∀ op ∈ [OOp.clear 0, .reset 0 1, .copyFrom 0 1, .moveAssign 0 1, .mutation 0 2 []], Proper objEnv sealedHeap op ∧
      threw (ostep objDecls objEnv objOrc false sealedHeap op) = some .isSealed) ∧
    finished (ostep objDecls objEnv objOrc false sealedHeap (.copyMatching 0 1)) = true ∧
    finished (ostep objDecls objEnv objOrc false sealedHeap (.mutateTo 0 1 [])) = true :=
  ⟨by decide +kernel, by decide +kernel, by decide +kernel, by decide +kernel⟩

/-! ## C38 -/

/-- C38: move construction. The new object has the source's type, mixins (same addresses and values) and sealed status, no function of a mixin
is called, the source is empty. Missing: the source can be used like a new object only if it was not sealed (`C38_sealed_source_refuted`). -/
theorem C38_move_construct_partial (D : Decls) (E : TyEnv) (hE : EnvOk D E) (h : Heap) (hk : HeapOk D E h) (ht : AllTyped h) (src : Nat) (sb : Obj)
    (hs : h.obj? src = some sb) : ∃ h', moveConstruct E h src = .ok h' ∧ Moved E h h.objs.length src sb sb.alloc h' ∧ h'.log = h.log :=
  moveConstruct_moved (D := D) hE ⟨hk, ht⟩ hs

/-- C38: move assignment; the old mixins of the target are destroyed once each. -/
theorem C38_move_assign_partial (D : Decls) (E : TyEnv) (hE : EnvOk D E) (h : Heap) (hk : HeapOk D E h) (ht : AllTyped h) (o src : Nat) (ob sb : Obj)
    (ho : h.obj? o = some ob) (hs : h.obj? src = some sb) (hos : o ≠ src) (hal : ob.alloc = sb.alloc) (hsl : ob.isSealed = false) :
    ∃ h', moveAssign D E h o src = .ok h' ∧ Moved E h o src sb sb.alloc h' ∧ AllDestroyed D E h o ob h' :=
  moveAssign_moved hE ⟨hk, ht⟩ ho hs hos hal hsl

/-- C38: the source of a move of an object that is not sealed is what `object(domain)` makes. -/
theorem C38_source_like_new_partial (D : Decls) (E : TyEnv) (orc : Orc) (hE : EnvOk D E) (h : Heap) (hk : HeapOk D E h) (ht : AllTyped h) (src : Nat) (sb : Obj)
    (hs : h.obj? src = some sb) (hsl : sb.isSealed = false) (t : TypeId) (hty : sb.ty = some t) (h' : Heap) (hr : moveConstruct E h src = .ok h') :
    ∃ h1, ostep D E orc false h (.newEmpty t sb.alloc) = .ok h1 ∧ h'.obj? src = h1.obj? h.objs.length := by
  refine ⟨h.addObj (some ⟨some (E.emptyOf t), none, false, sb.alloc⟩), rfl, ?_⟩
  rw [addObj_obj, if_pos rfl]
  unfold moveConstruct at hr
  rw [hs] at hr
  simp only at hr
  have hne := length_not_obj hs
  have ho1 : (newNull h sb.alloc).obj? h.objs.length = some ⟨none, none, false, sb.alloc⟩ := by rw [newNull_addObj, addObj_obj, if_pos rfl]
  have hs1 : (newNull h sb.alloc).obj? src = some sb := by rw [newNull_addObj, addObj_obj, if_neg hne]; exact hs
  have hk1 : HeapOk D E ((newNull h sb.alloc).setObj h.objs.length none) := setObj_bare hE (addObj_ok hk (bare_null _)) ho1 rfl bare_none
  obtain ⟨h'', k1, k2⟩ := usurp_ok hE ho1 hs1 (fun h => hne h.symm) hk1 hty
  rw [k1] at hr; simp at hr; subst hr
  rw [usurped_obj hE ho1 hs1 (fun h => hne h.symm) hk1 hty k2, if_pos rfl, ← hsl]

-- object 2 (mixins 2, 1 in the buffer, 3 separate) is moved to object 0, whose mixins are destroyed
example : (objHeap.obj? 2).map (·.ty) = some (some 2) ∧
    ((after (moveAssign objDecls objEnv objHeap 0 2)).objs.map (fun x => x.map (fun ob => (ob.ty, ob.data)))) = [some (some 2, some 4), some (some 1, some 2), some (some 0, none)] ∧
    (after (moveAssign objDecls objEnv objHeap 0 2)).log.drop objHeap.log.length = [.destroy 3 (1, 0), .destroy 1 (0, 0), .dealloc 1, .dealloc 0] ∧
    finished (ostep objDecls objEnv objOrc false (after (moveAssign objDecls objEnv objHeap 0 2)) (.reset 2 1)) = true :=
  ⟨by decide +kernel, by decide +kernel, by decide +kernel, by decide +kernel⟩

/-- C38 is not true for sealed objects: the source stays sealed, so it can never be used again except to be destroyed or moved from (`usurp`, object.cpp
303-316, does not reset `m_sealed`). Sealing does not end by moving the object away. -/
theorem C38_sealed_source_refuted :
    let h := after (moveConstruct objEnv sealedHeap 0)
    h.obj? 0 = some ⟨some 0, none, true, 0⟩ ∧ threw (ostep objDecls objEnv objOrc false h (.reset 0 1)) = some .isSealed ∧
    threw (ostep objDecls objEnv objOrc false h (.moveAssign 0 1)) = some .isSealed :=
  ⟨by decide +kernel, by decide +kernel, by decide +kernel⟩

end Dnmx.Props
