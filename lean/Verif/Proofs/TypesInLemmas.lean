import Verif.Proofs.TransferLemmas
import Verif.Spec.System

/-!
# Where the types of objects come from
-/

set_option linter.unusedSimpArgs false
set_option linter.unusedVariables false
set_option linter.unusedSectionVars false

namespace Dnmx
open Spec

variable {D : Decls} {E : TyEnv} {orc : Orc}

/-- The types of all objects are in `P`. -/
def TyIn (P : TypeId → Prop) (h : Heap) : Prop := ∀ o ob t, h.obj? o = some ob → ob.ty = some t → P t

theorem TyIn.set {P : TypeId → Prop} {h h' : Heap} (hp : TyIn P h) {o : Nat} {x : Option Obj} (hx : ∀ ob t, x = some ob → ob.ty = some t → P t)
    (ho : ∀ o', h'.obj? o' = if o' = o then x else h.obj? o') : TyIn P h' := by
  intro o' ob t h1 h2
  rw [ho] at h1
  split at h1
  · exact hx ob t h1 h2
  · exact hp o' ob t h1 h2

theorem TyIn.same {P : TypeId → Prop} {h h' : Heap} (hp : TyIn P h) (ho : ∀ o', h'.obj? o' = h.obj? o') : TyIn P h' := by
  intro o' ob t h1 h2
  rw [ho] at h1
  exact hp o' ob t h1 h2

theorem redirect_objs (o a : Nat) : ∀ (n : Nat) (h h' : Heap), redirect o a n h = some h' → h'.objs = h.objs
  | 0, h, h', hr => by simp [redirect] at hr; rw [hr]
  | n + 1, h, h', hr => by
    unfold redirect at hr
    cases h1 : redirect o a n h with
    | none => rw [h1] at hr; simp at hr
    | some h2 =>
      rw [h1] at hr
      simp only at hr
      cases h3 : h2.slot? a n with
      | none => rw [h3] at hr; simp at hr
      | some sl =>
        rw [h3] at hr; simp at hr
        rw [← hr]
        exact redirect_objs o a n h h2 h1

theorem usurp_types {P : TypeId → Prop} {h h' : Heap} {o src : Nat} (hr : usurp E h o src = some h') (hP : TyIn P h) (he : ∀ t, P (E.emptyOf t)) : TyIn P h' := by
  unfold usurp at hr
  cases ho : h.obj? o with
  | none => rw [ho] at hr; simp at hr
  | some ob =>
    cases hs : h.obj? src with
    | none => rw [ho, hs] at hr; simp at hr
    | some sb =>
      rw [ho, hs] at hr
      simp only at hr
      cases ht : sb.ty with
      | none => rw [ht] at hr; simp at hr
      | some t =>
        rw [ht] at hr
        simp only at hr
        have h1 : ∀ x : Heap, x.objs = h.objs.set o (some { ob with ty := some t, data := sb.data, isSealed := sb.isSealed }) →
            TyIn P (x.setObj src (some { sb with ty := some (E.emptyOf t), data := none })) := by
          intro x hx o' ob' t' k1 k2
          have k1 : ((x.objs.set src (some { sb with ty := some (E.emptyOf t), data := none }))[o']?).getD none = some ob' := k1
          rw [hx, List.getElem?_set] at k1
          split at k1
          · split at k1
            · simp at k1; subst k1; simp at k2; subst k2; exact he t
            · simp at k1
          · rw [List.getElem?_set] at k1
            split at k1
            · split at k1
              · simp at k1; subst k1; simp at k2; subst k2; exact hP src sb t hs ht
              · simp at k1
            · exact hP o' ob' t' k1 k2
        cases hd : sb.data with
        | none =>
          rw [hd] at hr
          simp only at hr
          split at hr
          · simp only [Option.map_some, Option.some.injEq] at hr
            rw [← hr]; exact h1 _ (by rw [hd])
          · simp at hr
        | some a =>
          rw [hd] at hr
          simp only at hr
          cases hx : redirect o a (E.mixins t).length (h.setObj o (some { ob with ty := some t, data := some a, isSealed := sb.isSealed })) with
          | none => rw [hx] at hr; simp at hr
          | some x =>
            rw [hx] at hr
            simp only [Option.map_some, Option.some.injEq] at hr
            rw [← hr]
            exact h1 x (by rw [redirect_objs _ _ _ _ _ hx, hd])

variable (hE : EnvOk D E)
include hE

theorem types_mutation {P : TypeId → Prop} {h : Heap} (hg : Good D E h) (u : Bool) {o : Nat} (ha : Alive h o) {t : TypeId} (hne : E.mixins t ≠ []) {steps : List (MStep × Bool)}
    (hst : ∀ st ∈ steps, properStep st.1 = true) (hP : TyIn P h) (ht : P t) :
    HStepOk (withMutation D E orc u h o t steps) (TyIn P) (fun h' _ => TyIn P h') := by
  obtain ⟨ob, ho⟩ := alive_obj hE ha
  cases hsl : ob.isSealed with
  | true => rw [withMutation_sealed ho hsl]; exact hP
  | false =>
    by_cases hty : ob.ty = some t
    · exact (withMutation_same_ok (orc := orc) hE hg.1 ho hsl hty hne u steps true (fitsSame_of_proper hst (by simp))).mono
        (fun h' hx => hP.same (undone_obj hE hg.1 ho hx.1)) (fun h' _ hx => hP.same (undone_obj hE hg.1 ho hx.1))
    · refine (withMutation_ok (orc := orc) hE hg.1 ho hsl hty hne u steps true (fits_of_proper hst (by simp))).mono ?_ (fun h' _ hx => hP.same (undone_obj hE hg.1 ho hx.1))
      intro h'
      cases u with
      | true => intro hx; exact hP.same (undone_obj hE hg.1 ho hx.1)
      | false =>
        rintro ⟨F, G, hx⟩
        refine hP.set ?_ (completed_obj hE hg.1 ho hne hx)
        intro ob' t' h1 h2
        simp at h1; subst h1; simp [mutatedObj] at h2; subst h2; exact ht

theorem types_reset {P : TypeId → Prop} {h : Heap} (hk : HeapOk D E h) (u : Bool) {o : Nat} {ob : Obj} (ho : h.obj? o = some ob) {t : TypeId} (hP : TyIn P h) (ht : P t) :
    HStepOk (resetType D E orc u h o t) (TyIn P) (fun h' _ => ∀ o', h'.obj? o' = h.obj? o') := by
  cases hsl : ob.isSealed with
  | true => rw [resetType_sealed ho hsl]; intro o'; rfl
  | false =>
    refine (resetType_ok (orc := orc) hE hk ho hsl u t).mono ?_ (fun h' _ hx => undone_obj hE hk ho hx.1)
    rintro h' (⟨-, rfl⟩ | ⟨-, hne, h1, hc, rfl⟩ | ⟨-, hne, -, F, G, hc, -⟩ | ⟨-, -, -, hf⟩)
    · exact hP
    · refine hP.set ?_ (hc.objs' ho _)
      intro ob' t' h2 h3
      simp at h2; subst h2; simp at h3; subst h3; exact ht
    · refine hP.set ?_ (completed_obj hE hk ho hne hc)
      intro ob' t' h1 h2
      simp at h1; subst h1; simp [mutatedObj] at h2; subst h2; exact ht
    · exact hP.same (undone_obj hE hk ho hf.1)

theorem types_step {P : TypeId → Prop} {h : Heap} (hg : Good D E h) (u : Bool) {op : OOp} (hp : Proper E h op) (hP : TyIn P h) (he : ∀ t, P (E.emptyOf t)) (ht : ∀ t ∈ typesIn op, P t) :
    HStepOk (ostep D E orc u h op) (TyIn P) (fun h' _ => TyIn P h') := by
  have hnull : ∀ al, TyIn P (newNull h al) := by
    intro al
    refine hP.set (x := some ⟨none, none, false, al⟩) (o := h.objs.length) ?_ (fun o' => by rw [newNull_addObj, addObj_obj])
    intro ob t h1 h2; simp at h1; subst h1; simp at h2
  cases op with
  | newEmpty t al =>
    refine hP.set (x := some ⟨some (E.emptyOf t), none, false, al⟩) (o := h.objs.length) ?_ (fun o' => addObj_obj h _ o')
    intro ob t h1 h2; simp at h1; subst h1; simp at h2; subst h2; exact he _
  | newOfType t al sd =>
    have hk1 : HeapOk D E (newNull h al) := addObj_ok hg.1 (bare_null al)
    have ho1 : (newNull h al).obj? h.objs.length = some ⟨none, none, false, al⟩ := by rw [newNull_addObj, addObj_obj, if_pos rfl]
    unfold ostep newOfType
    refine (resetType_ok (orc := orc) hE hk1 ho1 rfl u t).bind ?_ (fun h1 e1 hf => (untouched_new hE hg.1 hf e1).mono (fun _ hf => hf.elim) (fun _ _ hx => hP.same hx.objs))
    intro h1 hf
    have htP : P t := ht t (by simp [typesIn])
    have hex : TyIn P h1 ∧ ∃ y, h1.obj? h.objs.length = some y := by
      rcases hf with (⟨h2, -⟩ | ⟨-, hne, h2, hc2, rfl⟩ | ⟨-, hne, -, F, G, hc2, -⟩ | ⟨-, -, -, hf⟩)
      · simp at h2
      · refine ⟨(hnull al).set ?_ (hc2.objs' ho1 _), by rw [hc2.objs' ho1, if_pos rfl]; exact ⟨_, rfl⟩⟩
        intro ob' t' h2 h3
        simp at h2; subst h2; simp at h3; subst h3; exact htP
      · refine ⟨(hnull al).set ?_ (completed_obj hE hk1 ho1 hne hc2), by rw [completed_obj hE hk1 ho1 hne hc2, if_pos rfl]; exact ⟨_, rfl⟩⟩
        intro ob' t' h1 h2
        simp at h1; subst h1; simp [mutatedObj] at h2; subst h2; exact htP
      · exact ⟨(hnull al).same (undone_obj hE hk1 ho1 hf.1), by rw [undone_obj hE hk1 ho1 hf.1, ho1]; exact ⟨_, rfl⟩⟩
    obtain ⟨hty, y, hy⟩ := hex
    simp only [hy]
    refine hty.set (x := some { y with isSealed := sd }) (o := h.objs.length) ?_ (obj?_set (h := h1.setObj _ _) (l := h1.objs) rfl hy)
    intro ob' t' k1 k2
    simp at k1; subst k1
    exact hty _ y t' hy k2
  | moveNew src =>
    obtain ⟨sb, hs⟩ := alive_obj hE hp
    unfold ostep moveConstruct
    simp only [hs]
    cases hu : usurp E (newNull h sb.alloc) h.objs.length src with
    | none =>
      obtain ⟨h', k1, -⟩ := moveConstruct_moved hE hg hs
      unfold moveConstruct at k1
      simp only [hs, hu] at k1
      simp at k1
    | some h' => exact usurp_types hu (hnull _) he
  | destroy o' =>
    obtain ⟨ob, ho⟩ := alive_obj hE hp
    obtain ⟨h', k1, k2⟩ := destroyObject_ok (D := D) hE hg.1 ho
    unfold ostep; simp only; rw [k1]
    exact hP.set (by intro ob t h1; simp at h1) (k2.objs' ho none)
  | moveAssign o' src =>
    obtain ⟨ob, ho⟩ := alive_obj hE hp.1
    obtain ⟨sb, hs⟩ := alive_obj hE hp.2
    by_cases hos : o' = src
    · unfold ostep moveAssign; simp only; rw [if_pos hos]; exact hP
    · by_cases hal : ob.alloc = sb.alloc
      · cases hsl : ob.isSealed with
        | true => unfold ostep moveAssign; simp only [ho, hs]; rw [if_neg hos, if_pos hal, hsl]; exact hP
        | false =>
          obtain ⟨h', k1, k2, -⟩ := moveAssign_moved hE hg ho hs hos hal hsl
          unfold ostep; simp only; rw [k1]
          unfold moveAssign at k1
          simp only [ho, hs] at k1
          rw [if_neg hos, if_pos hal, hsl] at k1
          simp only [Bool.false_eq_true, if_false] at k1
          obtain ⟨h1, c1, c2⟩ := clear_ok (D := D) hE hg.1 ho
          rw [c1] at k1
          simp only [Option.bind_some] at k1
          cases hu : usurp E h1 o' src with
          | none => rw [hu] at k1; simp at k1
          | some h2 =>
            rw [hu] at k1; simp at k1; subst k1
            refine usurp_types hu (hP.set ?_ (obj?_set (h := h1) (l := h.objs) c2.objs ho)) he
            intro ob' t' q1 q2
            simp at q1; subst q1
            exact hP o' ob t' ho q2
      · unfold ostep moveAssign; simp only [ho, hs]; rw [if_neg hos, if_neg hal]; exact hP
  | copy src al =>
    obtain ⟨sb, hs⟩ := alive_obj hE hp
    obtain ⟨t, hty⟩ := typed_obj hE hg hs
    have hne := length_not_obj hs
    have hk1 : HeapOk D E (newNull h al) := addObj_ok hg.1 (bare_null al)
    have ho1 : (newNull h al).obj? h.objs.length = some ⟨none, none, false, al⟩ := by rw [newNull_addObj, addObj_obj, if_pos rfl]
    have hs1 : (newNull h al).obj? src = some sb := by rw [newNull_addObj, addObj_obj, if_neg hne]; exact hs
    have hob := hg.1.objs src sb hs
    unfold ObjOk at hob
    unfold ostep copyObject
    simp only [hs]
    cases hd : sb.data with
    | none =>
      simp only
      refine (hnull al).set ?_ (obj?_set (h := (newNull h al).setObj _ _) (l := (newNull h al).objs) rfl ho1)
      intro ob' t' q1 q2
      simp at q1; subst q1; exact hP src sb t' hs q2
    | some a =>
      rw [hd] at hob
      obtain ⟨t', p1, hnet, -, -⟩ := hob
      rw [hty] at p1; simp at p1; subst p1
      simp only [hty]
      have hnf : NewFnOk D E (newNull h al) h.objs.length ⟨none, none, false, al⟩ t (.copy src true) :=
        ⟨hne, ⟨sb, hs1, hty, by rw [hd]; simp⟩, fun h => by simp at h⟩
      refine (perform_ok (orc := orc) hE hk1 ho1 rfl (by simp) hnet u hnf (g := .noop) trivial).bind ?_
        (fun h1 e1 hf => (untouched_new hE hg.1 hf e1).mono (fun _ hf => hf.elim) (fun _ _ hx => hP.same hx.objs))
      intro h1 hP1
      show TyIn P h1
      cases u with
      | true => exact (hnull al).same (undone_obj hE hk1 ho1 hP1.1)
      | false =>
        obtain ⟨F, G, hc, -⟩ := hP1
        refine (hnull al).set ?_ (completed_obj hE hk1 ho1 hnet hc)
        intro ob' t' q1 q2
        simp at q1; subst q1; simp [mutatedObj] at q2; subst q2
        exact hP src sb t hs hty
  | copyFrom o' src =>
    obtain ⟨ob, ho⟩ := alive_obj hE hp.1
    obtain ⟨sb, hs⟩ := alive_obj hE hp.2
    obtain ⟨own, hty⟩ := typed_obj hE hg ho
    obtain ⟨t, hsty⟩ := typed_obj hE hg hs
    have hob := hg.1.objs src sb hs
    have hPt : P t := hP src sb t hs hsty
    unfold ObjOk at hob
    unfold ostep copyFrom
    simp only [ho, hs]
    cases hd : sb.data with
    | none =>
      simp only
      cases hsl : ob.isSealed with
      | true => simp only [if_true]; exact hP
      | false =>
        simp only [Bool.false_eq_true, if_false]
        obtain ⟨h1, k1, k2⟩ := clear_ok (D := D) hE hg.1 ho
        simp only [k1, k2.obj ho]
        refine hP.set ?_ (k2.objs' ho _)
        intro ob' t' q1 q2
        simp at q1; subst q1
        exact hP src sb t' hs q2
    | some a =>
      rw [hd] at hob
      obtain ⟨t', p1, hnet, -, -⟩ := hob
      rw [hsty] at p1; simp at p1; subst p1
      simp only [hsty, hty]
      cases hck : copyFromCheck D E own (E.mixins t) with
      | some m => exact hP
      | none =>
        simp only
        obtain ⟨f1, f2⟩ := copyFrom_fns hE hg.1 ho hs hty hsty (by rw [hd]; simp) hck
        cases hsl : ob.isSealed with
        | true => unfold perform; rw [withMutation_sealed ho hsl]; exact hP
        | false =>
          by_cases heq : own = t
          · subst heq
            exact (perform_same_ok (orc := orc) hE hg.1 ho hsl hty hnet u (.copy src false) (f2 rfl)).mono (fun h' hx => hP.same (undone_obj hE hg.1 ho hx.1.1))
              (fun h' _ hx => hP.same (undone_obj hE hg.1 ho hx.1))
          · have hne : ob.ty ≠ some t := by rw [hty]; simpa using heq
            refine (perform_ok (orc := orc) hE hg.1 ho hsl hne hnet u (f1 heq).1 (f1 heq).2).mono ?_ (fun h' _ hx => hP.same (undone_obj hE hg.1 ho hx.1))
            intro h'
            cases u with
            | true => intro hx; exact hP.same (undone_obj hE hg.1 ho hx.1)
            | false =>
              rintro ⟨F, G, hx, -⟩
              refine hP.set ?_ (completed_obj hE hg.1 ho hnet hx)
              intro ob' t' q1 q2
              simp at q1; subst q1; simp [mutatedObj] at q2; subst q2; exact hPt
  | copyMatching o' src =>
    have h1 : ∀ o, Alive h o → HStepOk (ostep D E orc u h (.copyMatching o' src)) (fun h' => h'.obj? o = h.obj? o) (fun h' _ => h'.obj? o = h.obj? o) :=
      fun o ha => bystander hE hg u hp ha (by simp [subjects])
    have h2 := good_step (orc := orc) hE hg (u := u) hp (by simp [makesObject])
    obtain ⟨ob, ho⟩ := alive_obj hE hp.1
    obtain ⟨sb, hs⟩ := alive_obj hE hp.2
    obtain ⟨own, hty⟩ := typed_obj hE hg ho
    obtain ⟨t, hsty⟩ := typed_obj hE hg hs
    unfold ostep copyMatchingFrom
    simp only [ho, hs, hty, hsty]
    cases hck : copyMatchingCheck D E own (E.mixins t) with
    | some m => exact hP
    | none =>
      simp only
      have hch := copyMatchingCheck_none hE (own := own) (t := t) (E.mixins t) (fun m hm => hm) hck
      refine (copyMatchingLoop_ok (orc := orc) hE hg.1 ho hs hty hsty hch (E.mixins t) 0 h rfl (Nat.zero_le _)
        ⟨Revalued.refl h, fun j _ _ _ hj => by omega, fun _ _ => rfl, rfl, rfl⟩).mono (fun h' hx => hP.same (fun o => by unfold Heap.obj?; rw [hx.rev.objs])) ?_
      rintro h' e ⟨k, h1, m, sl, sl', v, tk, L, k1, k2, rfl, -⟩
      refine hP.same (fun o => ?_)
      show ((h1.objs)[o]?).getD none = (h.objs[o]?).getD none
      rw [k1.rev.objs]
  | moveMatching o' src fb =>
    obtain ⟨ob, ho⟩ := alive_obj hE hp.1
    obtain ⟨sb, hs⟩ := alive_obj hE hp.2.1
    obtain ⟨own, hty⟩ := typed_obj hE hg ho
    obtain ⟨t, hsty⟩ := typed_obj hE hg hs
    unfold ostep moveMatchingFrom
    simp only [ho, hs, hty, hsty]
    cases hck : moveMatchingCheck D E own fb (E.mixins t) with
    | some m => exact hP
    | none =>
      simp only
      have hch := moveMatchingCheck_none hE (own := own) (t := t) (E.mixins t) (fun m hm => hm) hck
      exact (moveMatchingLoop_ok (orc := orc) hE hg.1 ho hs hty hsty fb hp.2.2 hch (E.mixins t) 0 h rfl (Nat.zero_le _)
        ⟨Revalued.refl h, fun _ j _ _ _ hj => by omega, fun _ _ => rfl⟩).mono (fun h' hx => hP.same (fun o => by unfold Heap.obj?; rw [hx.rev.objs])) (fun _ _ hx => hx.elim)
  | clear o' =>
    obtain ⟨ob, ho⟩ := alive_obj hE hp
    obtain ⟨own, hty⟩ := typed_obj hE hg ho
    unfold ostep clearObject
    simp only [ho]
    cases hsl : ob.isSealed with
    | true => simp only [if_true]; exact hP
    | false =>
      simp only [Bool.false_eq_true, if_false]
      obtain ⟨h1, k1, k2⟩ := clear_ok (D := D) hE hg.1 ho
      simp only [k1, hty, k2.obj ho]
      refine hP.set ?_ (k2.objs' ho _)
      intro ob' t' q1 q2
      simp at q1; subst q1; simp at q2; subst q2; exact he own
  | reset o' t =>
    obtain ⟨ob, ho⟩ := alive_obj hE hp
    exact (types_reset hE hg.1 u ho hP (ht t (by simp [typesIn]))).mono (fun _ h => h) (fun h' _ hx => hP.same hx)
  | «seal» o' =>
    obtain ⟨ob, ho⟩ := alive_obj hE hp
    unfold ostep sealObject
    simp only [ho]
    refine hP.set ?_ (obj?_set (h := h.setObj _ _) (l := h.objs) rfl ho)
    intro ob' t' q1 q2
    simp at q1; subst q1
    exact hP o' ob t' ho q2
  | mutation o' t steps => exact types_mutation hE hg u hp.1 hp.2.1 hp.2.2 hP (ht t (by simp [typesIn]))
  | mutateTo o' t ops =>
    obtain ⟨ob, ho, hp⟩ := hp
    unfold ostep mutateTo
    simp only [ho]
    by_cases hty : ob.ty = some t
    · rw [if_pos hty]; exact hP
    · rw [if_neg hty]
      exact types_mutation hE hg u (by unfold Alive; rw [ho]; simp) (hp.resolve_left hty) (mutateToSteps_proper _) hP (ht t (by simp [typesIn]))

end Dnmx
