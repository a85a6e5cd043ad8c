import Verif.Proofs.OutcomeLemmas

/-!
# Objects that are cleared or moved, and objects that take no part in an operation
-/

set_option linter.unusedSimpArgs false
set_option linter.unusedVariables false
set_option linter.unusedSectionVars false

namespace Dnmx
open Spec

variable {D : Decls} {E : TyEnv} {orc : Orc}

theorem cleared_destroyed (hE : EnvOk D E) {h : Heap} (hk : HeapOk D E h) {o : Nat} {ob : Obj} (ho : h.obj? o = some ob) {h' : Heap} (hc : Cleared D E h o ob h') :
    AllDestroyed D E h o ob h' := by
  refine ⟨hc.inits, _, hc.destroys, ?_, ?_⟩
  · have hob := hk.objs o ob ho
    unfold ObjOk at hob
    unfold ownMixins
    cases hd : ob.data with
    | none =>
      rw [hd] at hob
      cases hty : ob.ty with
      | none => rfl
      | some t => simp [hob t hty]
    | some a =>
      rw [hd] at hob
      obtain ⟨t, h1, h2, h3, h4⟩ := hob
      simp only [h1, Option.elim]
      unfold allDestroys
      rw [List.map_reverse]
      congr 1
      refine range_filterMap Prod.fst (E.mixins t) (fun m => (D.mix m).hasDestroy) (fun i m => (h.slot a i).map (fun sl => (m, sl.loc))) ?_
      intro i m hm hp
      obtain ⟨sl, v, k1, -⟩ := h4 i m hm
      exact ⟨(m, sl.loc), by rw [k1]; rfl, rfl⟩
  · intro m p hm
    cases hd : ob.data with
    | none => rw [hd] at hm; simp at hm
    | some a =>
      rw [hd] at hm
      cases hty : ob.ty with
      | none => rw [hty] at hm; simp at hm
      | some t =>
        rw [hty] at hm
        simp only [allDestroys, List.mem_reverse, List.mem_filterMap, List.mem_range] at hm
        obtain ⟨i, hi, h1⟩ := hm
        cases hmi : (E.mixins t)[i]? with
        | none => rw [hmi] at h1; simp at h1
        | some m' =>
          rw [hmi] at h1
          simp only [Option.bind] at h1
          split at h1
          · cases hs : h.slot a i with
            | none => rw [hs] at h1; simp at h1
            | some sl =>
              rw [hs] at h1; simp at h1
              obtain ⟨rfl, rfl⟩ := h1
              have hso : SlotOf E h o i m' sl := ⟨ob, t, a, ho, hty, hd, hmi, hs⟩
              obtain ⟨_, _, _, v, -, -, -, -, -, -, f7, -⟩ := hso.facts hk
              exact ⟨v, i, sl, hso, rfl, f7⟩
          · simp at h1

theorem usurped_moved (hE : EnvOk D E) {h : Heap} {o src : Nat} {ob sb : Obj} (ho : h.obj? o = some ob) (hs : h.obj? src = some sb) (hos : o ≠ src)
    (hk : HeapOk D E (h.setObj o none)) {t : TypeId} (hty : sb.ty = some t) {h' : Heap} (hu : Usurped E h o src ob sb t h') (hal : ob.alloc = sb.alloc) : Moved E h o src sb ob.alloc h' := by
  have hobj := usurped_obj hE ho hs hos hk hty hu
  have hh : ∀ {o' : Nat} {m : Mix} {l : Loc} {v : Nat}, Holds E h' o' m l v ↔ o' ≠ src ∧ Holds E (h.setObj o none) (if o' = o then src else o') m l v :=
    usurped_holds hE ho hs hos hk hty hu
  have hne : ∀ {o' : Nat} {m : Mix} {l : Loc} {v : Nat}, o' ≠ o → (Holds E (h.setObj o none) o' m l v ↔ Holds E h o' m l v) := by
    intro o' m l v hoo
    unfold Holds SlotOf
    rw [obj?_setObj_ne none hoo]
  have hk' := usurped_heapOk hE ho hs hos hk hty hu hal
  refine ⟨?_, ?_, ?_, ?_, ?_, ?_, ?_⟩
  · rw [hobj, if_neg hos, if_pos rfl]
  · intro m l v; rw [hh, if_pos rfl, hne (fun h => hos h.symm)]; exact ⟨fun h => h.2, fun h => ⟨hos, h⟩⟩
  · rintro m l v ⟨i, sl, hsl, rfl, -⟩
    obtain ⟨_, _, _, _, -, -, -, -, -, -, -, f8, -⟩ := hsl.facts hk'
    exact f8
  · exact ⟨E.emptyOf t, hE.empty t, by rw [hobj, if_pos rfl]⟩
  · intro m l v hx; exact (hh.1 hx).1 rfl
  · intro o' h1 h2; rw [hobj, if_neg h2, if_neg h1]
  · intro o' m l v h1 h2; rw [hh, if_neg h1, hne h1]; exact ⟨fun h => h.2, fun h => ⟨h2, h⟩⟩

theorem moveConstruct_moved (hE : EnvOk D E) {h : Heap} (hg : Good D E h) {src : Nat} {sb : Obj} (hs : h.obj? src = some sb) :
    ∃ h', moveConstruct E h src = .ok h' ∧ Moved E h h.objs.length src sb sb.alloc h' ∧ h'.log = h.log := by
  obtain ⟨t, hty⟩ := typed_obj hE hg hs
  unfold moveConstruct
  rw [hs]
  simp only
  have hne := length_not_obj hs
  have ho1 : (newNull h sb.alloc).obj? h.objs.length = some ⟨none, none, false, sb.alloc⟩ := by rw [newNull_addObj, addObj_obj, if_pos rfl]
  have hs1 : (newNull h sb.alloc).obj? src = some sb := by rw [newNull_addObj, addObj_obj, if_neg hne]; exact hs
  have hk1 : HeapOk D E ((newNull h sb.alloc).setObj h.objs.length none) := setObj_bare hE (addObj_ok hg.1 (bare_null _)) ho1 rfl bare_none
  obtain ⟨h', k1, k2⟩ := usurp_ok hE ho1 hs1 (fun h => hne h.symm) hk1 hty
  rw [k1]
  have hm := usurped_moved hE ho1 hs1 (fun h => hne h.symm) hk1 hty k2 rfl
  have hh : ∀ {o' m l v}, Holds E (newNull h sb.alloc) o' m l v ↔ Holds E h o' m l v := by
    intro o' m l v; rw [newNull_addObj]; exact addObj_holds (bare_null _)
  refine ⟨h', rfl, ⟨hm.target, fun m l v => (hm.targetHolds m l v).trans hh, hm.targetOwner, hm.source, hm.sourceHolds, ?_, fun o' m l v h1 h2 => (hm.others o' m l v h1 h2).trans hh⟩, k2.log⟩
  intro o' h1 h2
  rw [hm.otherObjs o' h1 h2, newNull_addObj, addObj_obj, if_neg h1]

theorem moveAssign_moved (hE : EnvOk D E) {h : Heap} (hg : Good D E h) {o src : Nat} {ob sb : Obj} (ho : h.obj? o = some ob) (hs : h.obj? src = some sb) (hos : o ≠ src)
    (hal : ob.alloc = sb.alloc) (hsl : ob.isSealed = false) :
    ∃ h', moveAssign D E h o src = .ok h' ∧ Moved E h o src sb sb.alloc h' ∧ AllDestroyed D E h o ob h' := by
  obtain ⟨t, hty⟩ := typed_obj hE hg hs
  unfold moveAssign
  rw [if_neg hos, ho, hs]
  simp only [hal, if_true, hsl, Bool.false_eq_true, if_false]
  obtain ⟨h1, k1, k2⟩ := clear_ok (D := D) hE hg.1 ho
  have ho1 := k2.obj ho
  have hobj : ∀ o', o' ≠ o → h1.obj? o' = h.obj? o' := by
    intro o' hoo
    have := obj?_set (h := h1) (l := h.objs) k2.objs ho o'
    rw [if_neg hoo] at this
    exact this
  have hs1 : h1.obj? src = some sb := by rw [hobj src (fun h => hos h.symm)]; exact hs
  have hk1 := k2.heapOk hE hg.1 ho bare_none
  obtain ⟨h', k3, k4⟩ := usurp_ok hE ho1 hs1 hos hk1 hty
  simp only [k1, Option.bind, k3]
  have hm := usurped_moved hE ho1 hs1 hos hk1 hty k4 hal
  have hh : ∀ {o' m l v}, o' ≠ o → (Holds E h1 o' m l v ↔ Holds E h o' m l v) := by
    intro o' m l v hoo
    rw [← k2.holds hE hg.1 ho bare_none hoo]
    unfold Holds SlotOf
    rw [obj?_setObj_ne none hoo]
  refine ⟨h', rfl, ⟨?_, fun m l v => (hm.targetHolds m l v).trans (hh (fun h => hos h.symm)), hm.targetOwner, hm.source, hm.sourceHolds, ?_, fun o' m l v h1 h2 => (hm.others o' m l v h1 h2).trans (hh h1)⟩, ?_⟩
  · rw [hm.target, ← hal]
  · intro o' h1 h2
    rw [hm.otherObjs o' h1 h2, hobj o' h1]
  · obtain ⟨h2, h3⟩ := cleared_destroyed hE hg.1 ho k2
    unfold AllDestroyed
    rw [k4.log]
    exact ⟨h2, h3⟩

/-! ## Objects that take no part -/

/-- The records of objects that are not subjects of an operation do not change. -/
theorem bystander (hE : EnvOk D E) {h : Heap} (hg : Good D E h) (u : Bool) {op : OOp} (hp : Proper E h op) {o : Nat} (ha : Alive h o) (hn : o ∉ subjects op) :
    HStepOk (ostep D E orc u h op) (fun h' => h'.obj? o = h.obj? o) (fun h' _ => h'.obj? o = h.obj? o) := by
  obtain ⟨x, hx⟩ := alive_obj hE ha
  have hlen := length_not_obj hx
  have hnull : ∀ al, (newNull h al).obj? o = h.obj? o := by intro al; rw [newNull_addObj, addObj_obj, if_neg hlen]
  have hmut : ∀ {o' t steps}, o ≠ o' → Alive h o' → E.mixins t ≠ [] → (∀ st ∈ steps, properStep st.1 = true) →
      HStepOk (withMutation D E orc u h o' t steps) (fun h' => h'.obj? o = h.obj? o) (fun h' _ => h'.obj? o = h.obj? o) := by
    intro o' t steps hoo hal hne hst
    obtain ⟨ob, ho⟩ := alive_obj hE hal
    cases hsl : ob.isSealed with
    | true => rw [withMutation_sealed ho hsl]; exact rfl
    | false =>
      by_cases hty : ob.ty = some t
      · exact (withMutation_same_ok (orc := orc) hE hg.1 ho hsl hty hne u steps true (fitsSame_of_proper hst (by simp))).mono
          (fun h' hx => undone_obj hE hg.1 ho hx.1 o) (fun h' _ hx => undone_obj hE hg.1 ho hx.1 o)
      · refine (withMutation_ok (orc := orc) hE hg.1 ho hsl hty hne u steps true (fits_of_proper hst (by simp))).mono ?_ (fun h' _ hx => undone_obj hE hg.1 ho hx.1 o)
        intro h'
        cases u with
        | true => intro hx; exact undone_obj hE hg.1 ho hx.1 o
        | false => rintro ⟨F, G, hx⟩; rw [completed_obj hE hg.1 ho hne hx, if_neg hoo]
  cases op with
  | newEmpty t al =>
    show (h.addObj (some (⟨some (E.emptyOf t), none, false, al⟩ : Obj))).obj? o = h.obj? o
    rw [addObj_obj, if_neg hlen]
  | newOfType t al sd =>
    have hk1 : HeapOk D E (newNull h al) := addObj_ok hg.1 (bare_null al)
    have ho1 : (newNull h al).obj? h.objs.length = some ⟨none, none, false, al⟩ := by rw [newNull_addObj, addObj_obj, if_pos rfl]
    unfold ostep newOfType
    refine (resetType_ok (orc := orc) hE hk1 ho1 rfl u t).bind ?_ (fun h1 e1 hf => (untouched_new hE hg.1 hf e1).mono (fun _ hf => hf.elim) (fun _ _ hx => hx.objs o))
    intro h1 hP
    have : h1.obj? o = h.obj? o ∧ ∃ y, h1.obj? h.objs.length = some y := by
      rcases hP with (⟨h2, -⟩ | ⟨-, hne, h2, hc2, rfl⟩ | ⟨-, hne, -, F, G, hc2, -⟩ | ⟨-, -, -, hf⟩)
      · simp at h2
      · rw [hc2.objs' ho1, hc2.objs' ho1, if_pos rfl, if_neg hlen, hnull]; exact ⟨rfl, _, rfl⟩
      · rw [completed_obj hE hk1 ho1 hne hc2, completed_obj hE hk1 ho1 hne hc2, if_pos rfl, if_neg hlen, hnull]; exact ⟨rfl, _, rfl⟩
      · rw [undone_obj hE hk1 ho1 hf.1, undone_obj hE hk1 ho1 hf.1, ho1, hnull]; exact ⟨rfl, _, rfl⟩
    obtain ⟨h2, y, h3⟩ := this
    simp only [h3]
    show (h1.setObj _ _).obj? o = _
    rw [obj?_setObj_ne _ hlen]; exact h2
  | moveNew src =>
    obtain ⟨sb, hs⟩ := alive_obj hE hp
    obtain ⟨h', k1, k2, -⟩ := moveConstruct_moved hE hg hs
    unfold ostep; simp only; rw [k1]
    exact k2.otherObjs o hlen (by simpa [subjects] using hn)
  | destroy o' =>
    obtain ⟨ob, ho⟩ := alive_obj hE hp
    obtain ⟨h', k1, k2⟩ := destroyObject_ok (D := D) hE hg.1 ho
    unfold ostep; simp only; rw [k1]
    show (h'.setObj _ _).obj? o = _
    rw [k2.objs' ho, if_neg (by simpa [subjects] using hn)]
  | moveAssign o' src =>
    obtain ⟨ob, ho⟩ := alive_obj hE hp.1
    obtain ⟨sb, hs⟩ := alive_obj hE hp.2
    have hn1 : o ≠ o' ∧ o ≠ src := by simpa [subjects] using hn
    by_cases hos : o' = src
    · unfold ostep moveAssign; simp only; rw [if_pos hos]; exact rfl
    · by_cases hal : ob.alloc = sb.alloc
      · cases hsl : ob.isSealed with
        | true => unfold ostep moveAssign; simp only [ho, hs]; rw [if_neg hos, if_pos hal, hsl]; exact rfl
        | false =>
          obtain ⟨h', k1, k2, -⟩ := moveAssign_moved hE hg ho hs hos hal hsl
          unfold ostep; simp only; rw [k1]
          exact k2.otherObjs o hn1.1 hn1.2
      · unfold ostep moveAssign; simp only [ho, hs]; rw [if_neg hos, if_neg hal]; exact rfl
  | copy src al =>
    obtain ⟨sb, hs⟩ := alive_obj hE hp
    obtain ⟨t, hty⟩ := typed_obj hE hg hs
    have hne := length_not_obj hs
    have hk1 : HeapOk D E (newNull h al) := addObj_ok hg.1 (bare_null al)
    have ho1 : (newNull h al).obj? h.objs.length = some ⟨none, none, false, al⟩ := by rw [newNull_addObj, addObj_obj, if_pos rfl]
    have hs1 : (newNull h al).obj? src = some sb := by rw [newNull_addObj, addObj_obj, if_neg hne]; exact hs
    have hob := hg.1.objs src sb hs
    unfold ObjOk at hob
    unfold ostep copyObject
    simp only [hs]
    cases hd : sb.data with
    | none =>
      simp only
      show ((newNull h al).setObj _ _).obj? o = _
      rw [obj?_setObj_ne _ hlen, hnull]
    | some a =>
      rw [hd] at hob
      obtain ⟨t', p1, hnet, -, -⟩ := hob
      rw [hty] at p1; simp at p1; subst p1
      simp only [hty]
      have hnf : NewFnOk D E (newNull h al) h.objs.length ⟨none, none, false, al⟩ t (.copy src true) :=
        ⟨hne, ⟨sb, hs1, hty, by rw [hd]; simp⟩, fun h => by simp at h⟩
      refine (perform_ok (orc := orc) hE hk1 ho1 rfl (by simp) hnet u hnf (g := .noop) trivial).bind ?_
        (fun h1 e1 hf => (untouched_new hE hg.1 hf e1).mono (fun _ hf => hf.elim) (fun _ _ hx => hx.objs o))
      intro h1 hP
      show h1.obj? o = _
      cases u with
      | true => rw [undone_obj hE hk1 ho1 hP.1, hnull]
      | false =>
        obtain ⟨F, G, hc, -⟩ := hP
        rw [completed_obj hE hk1 ho1 hnet hc, if_neg hlen, hnull]
  | copyFrom o' src =>
    obtain ⟨ob, ho⟩ := alive_obj hE hp.1
    obtain ⟨sb, hs⟩ := alive_obj hE hp.2
    obtain ⟨own, hty⟩ := typed_obj hE hg ho
    obtain ⟨t, hsty⟩ := typed_obj hE hg hs
    have hoo : o ≠ o' := by simpa [subjects] using hn
    have hob := hg.1.objs src sb hs
    unfold ObjOk at hob
    unfold ostep copyFrom
    simp only [ho, hs]
    cases hd : sb.data with
    | none =>
      simp only
      cases hsl : ob.isSealed with
      | true => simp only [if_true]; exact rfl
      | false =>
        simp only [Bool.false_eq_true, if_false]
        obtain ⟨h1, k1, k2⟩ := clear_ok (D := D) hE hg.1 ho
        simp only [k1, k2.obj ho]
        show (h1.setObj _ _).obj? o = _
        rw [k2.objs' ho, if_neg hoo]
    | some a =>
      rw [hd] at hob
      obtain ⟨t', p1, hnet, -, -⟩ := hob
      rw [hsty] at p1; simp at p1; subst p1
      simp only [hsty, hty]
      cases hck : copyFromCheck D E own (E.mixins t) with
      | some m => exact rfl
      | none =>
        simp only
        obtain ⟨f1, f2⟩ := copyFrom_fns hE hg.1 ho hs hty hsty (by rw [hd]; simp) hck
        cases hsl : ob.isSealed with
        | true => unfold perform; rw [withMutation_sealed ho hsl]; exact rfl
        | false =>
          by_cases heq : own = t
          · subst heq
            refine (perform_same_ok (orc := orc) hE hg.1 ho hsl hty hnet u (.copy src false) (f2 rfl)).mono (fun h' hx => undone_obj hE hg.1 ho hx.1.1 o) (fun h' _ hx => undone_obj hE hg.1 ho hx.1 o)
          · have hne : ob.ty ≠ some t := by rw [hty]; simpa using heq
            refine (perform_ok (orc := orc) hE hg.1 ho hsl hne hnet u (f1 heq).1 (f1 heq).2).mono ?_ (fun h' _ hx => undone_obj hE hg.1 ho hx.1 o)
            intro h'
            cases u with
            | true => intro hx; exact undone_obj hE hg.1 ho hx.1 o
            | false => rintro ⟨F, G, hx, -⟩; rw [completed_obj hE hg.1 ho hnet hx, if_neg hoo]
  | copyMatching o' src =>
    obtain ⟨ob, ho⟩ := alive_obj hE hp.1
    obtain ⟨sb, hs⟩ := alive_obj hE hp.2
    obtain ⟨own, hty⟩ := typed_obj hE hg ho
    obtain ⟨t, hsty⟩ := typed_obj hE hg hs
    unfold ostep copyMatchingFrom
    simp only [ho, hs, hty, hsty]
    cases hck : copyMatchingCheck D E own (E.mixins t) with
    | some m => exact rfl
    | none =>
      simp only
      have hch := copyMatchingCheck_none hE (own := own) (t := t) (E.mixins t) (fun m hm => hm) hck
      refine (copyMatchingLoop_ok (orc := orc) hE hg.1 ho hs hty hsty hch (E.mixins t) 0 h rfl (Nat.zero_le _)
        ⟨Revalued.refl h, fun j _ _ _ hj => by omega, fun _ _ => rfl, rfl, rfl⟩).mono (fun h' hx => by unfold Heap.obj?; rw [hx.rev.objs]) ?_
      rintro h' e ⟨k, h1, m, sl, sl', v, tk, L, k1, k2, rfl, -⟩
      show ((h1.objs)[o]?).getD none = (h.objs[o]?).getD none
      rw [k1.rev.objs]
  | moveMatching o' src fb =>
    obtain ⟨ob, ho⟩ := alive_obj hE hp.1
    obtain ⟨sb, hs⟩ := alive_obj hE hp.2.1
    obtain ⟨own, hty⟩ := typed_obj hE hg ho
    obtain ⟨t, hsty⟩ := typed_obj hE hg hs
    unfold ostep moveMatchingFrom
    simp only [ho, hs, hty, hsty]
    cases hck : moveMatchingCheck D E own fb (E.mixins t) with
    | some m => exact rfl
    | none =>
      simp only
      have hch := moveMatchingCheck_none hE (own := own) (t := t) (E.mixins t) (fun m hm => hm) hck
      exact (moveMatchingLoop_ok (orc := orc) hE hg.1 ho hs hty hsty fb hp.2.2 hch (E.mixins t) 0 h rfl (Nat.zero_le _)
        ⟨Revalued.refl h, fun _ j _ _ _ hj => by omega, fun _ _ => rfl⟩).mono (fun h' hx => by unfold Heap.obj?; rw [hx.rev.objs]) (fun _ _ hx => hx.elim)
  | clear o' =>
    obtain ⟨ob, ho⟩ := alive_obj hE hp
    obtain ⟨own, hty⟩ := typed_obj hE hg ho
    unfold ostep clearObject
    simp only [ho]
    cases hsl : ob.isSealed with
    | true => simp only [if_true]; exact rfl
    | false =>
      simp only [Bool.false_eq_true, if_false]
      obtain ⟨h1, k1, k2⟩ := clear_ok (D := D) hE hg.1 ho
      simp only [k1, hty, k2.obj ho]
      show (h1.setObj _ _).obj? o = _
      rw [k2.objs' ho, if_neg (by simpa [subjects] using hn)]
  | reset o' t =>
    obtain ⟨ob, ho⟩ := alive_obj hE hp
    have hoo : o ≠ o' := by simpa [subjects] using hn
    unfold ostep
    simp only
    cases hsl : ob.isSealed with
    | true => rw [resetType_sealed ho hsl]; exact rfl
    | false =>
      refine (resetType_ok (orc := orc) hE hg.1 ho hsl u t).mono ?_ (fun h' _ hx => undone_obj hE hg.1 ho hx.1 o)
      rintro h' (⟨-, rfl⟩ | ⟨-, hne, h1, hc, rfl⟩ | ⟨-, hne, -, F, G, hc, -⟩ | ⟨-, -, -, hf⟩)
      · rfl
      · rw [hc.objs' ho, if_neg hoo]
      · rw [completed_obj hE hg.1 ho hne hc, if_neg hoo]
      · exact undone_obj hE hg.1 ho hf.1 o
  | «seal» o' =>
    obtain ⟨ob, ho⟩ := alive_obj hE hp
    unfold ostep sealObject
    simp only [ho]
    show (h.setObj _ _).obj? o = _
    rw [obj?_setObj_ne _ (by simpa [subjects] using hn)]
  | mutation o' t steps => exact hmut (by simpa [subjects] using hn) hp.1 hp.2.1 hp.2.2
  | mutateTo o' t ops =>
    obtain ⟨ob, ho, hp⟩ := hp
    unfold ostep mutateTo
    simp only [ho]
    by_cases hty : ob.ty = some t
    · rw [if_pos hty]; exact rfl
    · rw [if_neg hty]
      exact hmut (by simpa [subjects] using hn) (by unfold Alive; rw [ho]; simp) (hp.resolve_left hty) (mutateToSteps_proper _)

end Dnmx
