import Verif.Proofs.HandLemmas
import Verif.Proofs.ObjectV1Lemmas

/-!
# Lemmas: exceptions after `finalize`, moves from the object itself
-/

set_option linter.unusedSimpArgs false
set_option linter.unusedVariables false
set_option linter.unusedSectionVars false

namespace Dnmx
open Spec

variable {D : Decls} {E : TyEnv} {orc : Orc}

/-! ## Position -/

/-- `StillAt`, and the mutation is complete if its position is at the end. -/
def StillPos (E : TyEnv) (s0 s : Sess) : Prop := StillAt E s0 s ∧ ((E.mixins s.ty).length ≤ s.updated → s.complete = true)

theorem pos_updateNext {s0 s : Sess} (hs : StillPos E s0 s) (f : NewFn) (g : UpdFn) :
    RSess (StillPos E s0) (updateNext D E orc f g s) ∧ ∀ s', updateNext D E orc f g s = .ok s' → s'.complete = true ∨ s'.updated = s.updated + 1 := by
  obtain ⟨⟨hst, hae⟩, hpos⟩ := hs
  unfold updateNext
  cases hc : s.complete with
  | true => exact ⟨by simp only [if_true]; exact ⟨⟨hst, hae⟩, hpos⟩, fun s' h => by simp only [if_true] at h; injection h with h; subst h; exact .inl hc⟩
  | false =>
    have hlt : s.updated < (E.mixins s.ty).length := by
      rcases Nat.lt_or_ge s.updated (E.mixins s.ty).length with h | h
      · exact h
      · rw [hpos h] at hc; simp at hc
    simp only [hc, Bool.false_eq_true, if_false]
    have key : ∀ {r : Res Sess}, RSess (fun s' => Still s0 s' ∧ s'.updated = s.updated ∧ s'.complete = s.complete) r →
        RSess (StillPos E s0) (r.bind (fun s => .ok (s.advanced E)) .throw) ∧ ∀ s', r.bind (fun s => .ok (s.advanced E)) .throw = .ok s' → s'.complete = true ∨ s'.updated = s.updated + 1 := by
      intro r h
      cases r with
      | ok s' =>
        obtain ⟨h1, h2, h3⟩ := h
        have hty : s'.ty = s.ty := h1.ty.trans hst.ty.symm
        refine ⟨⟨⟨⟨h1.o, h1.data, h1.ty, h1.oldTy, h1.oldData, h1.movedOut, h1.objs⟩, (advanced_pos (E := E) (s := s')).2.2⟩, ?_⟩, ?_⟩
        · show (E.mixins s'.ty).length ≤ s'.updated + 1 → (s'.updated + 1 == (E.mixins s'.ty).length) = true
          intro h4
          rw [beq_iff_eq, hty, h2]
          rw [hty, h2] at h4
          omega
        · intro s'' h4
          simp only [Res.bind] at h4
          injection h4 with h4; subst h4
          right; show s'.updated + 1 = _; rw [h2]
      | throw s' e =>
        obtain ⟨h1, h2, h3⟩ := h
        have hty : s'.ty = s.ty := h1.ty.trans hst.ty.symm
        refine ⟨⟨⟨h1, fun hh => by rw [h3, hc] at hh; simp at hh⟩, fun h4 => ?_⟩, fun s'' h4 => by simp [Res.bind] at h4⟩
        rw [hty, h2] at h4
        omega
      | ub => exact ⟨trivial, fun s'' h4 => by simp [Res.bind] at h4⟩
    split
    · exact ⟨trivial, fun s'' h4 => by simp at h4⟩
    · split
      · split
        · exact ⟨trivial, fun s'' h4 => by simp at h4⟩
        · exact key (still_updateCommon hst g _ _ _)
      · split
        · exact ⟨trivial, fun s'' h4 => by simp at h4⟩
        · split
          · exact ⟨trivial, fun s'' h4 => by simp at h4⟩
          · exact key (still_constructNew hst f _ _ _)

theorem pos_updateLoop {s0 : Sess} (f : NewFn) (g : UpdFn) : ∀ (n : Nat) (s : Sess), StillPos E s0 s →
    RSess (StillPos E s0) (updateLoop D E orc f g n s) ∧ ∀ s', updateLoop D E orc f g n s = .ok s' → s'.complete = true ∨ s'.updated = s.updated + n
  | 0, s, hs => ⟨hs, fun s' h => by simp only [updateLoop] at h; injection h with h; subst h; exact .inr rfl⟩
  | n + 1, s, hs => by
    unfold updateLoop
    obtain ⟨h1, h2⟩ := pos_updateNext (D := D) (orc := orc) hs f g
    refine ⟨h1.bind (fun s' h => (pos_updateLoop f g n s' h).1) (fun s' e h => h), fun s' h => ?_⟩
    obtain ⟨s1, h3, h4⟩ := Res.bind_is_ok (by simp) h
    rw [h3] at h1
    obtain ⟨h5, h6⟩ := pos_updateLoop f g n s1 h1
    rcases h6 s' h4 with h | h
    · exact .inl h
    · rcases h2 s1 h3 with h7 | h7
      · left
        rw [h4] at h5
        -- complete sessions stay complete
        exact h5.2 (by
          have e1 : s'.ty = s1.ty := h5.1.1.ty.trans h1.1.1.ty.symm
          have := h1.1.2 h7
          rw [e1, h]; omega)
      · right; omega

theorem pos_mstep {s0 s : Sess} (hs : StillPos E s0 s) {st : MStep} (hst : properStep st = true) : RSess (StillPos E s0) (mstep D E orc s st) := by
  cases st with
  | next f g => exact (pos_updateNext hs f g).1
  | each f g upto => exact (pos_updateLoop f g _ s hs).1
  | «at» i f g =>
    unfold mstep updateAt
    simp only
    split
    · exact hs
    · exact (pos_updateLoop .dflt .noop _ s hs).1.bind (fun s' h => (pos_updateNext h f g).1) (fun s' e h => h)
  | finalize => simp [properStep] at hst
  | rollback => simp [properStep] at hst
  | throw => exact hs

theorem pos_msteps {s0 : Sess} : ∀ (steps : List (MStep × Bool)) (s : Sess), StillPos E s0 s → (∀ st ∈ steps, properStep st.1 = true) →
    RSess (StillPos E s0) (msteps D E orc steps s)
  | [], s, hs, _ => hs
  | (st, caught) :: rest, s, hs, hst => by
    unfold msteps
    refine (pos_mstep hs (hst (st, caught) (by simp))).bind (fun s' h => pos_msteps rest s' h (fun x hx => hst x (by simp [hx]))) ?_
    intro s' e h
    cases caught with
    | true => exact pos_msteps rest s' h (fun x hx => hst x (by simp [hx]))
    | false => exact h

/-- After `update_each_mixin` without limit the mutation is complete. -/
theorem each_complete {s0 s s' : Sess} (hs : StillPos E s0 s) (f : NewFn) (g : UpdFn) (hr : updateEach D E orc f g none s = .ok s') : s'.complete = true := by
  unfold updateEach at hr
  obtain ⟨h1, h2⟩ := pos_updateLoop (D := D) (orc := orc) f g _ s hs
  rw [hr] at h1
  rcases h2 s' hr with h | h
  · exact h
  · apply h1.2
    rw [h1.1.1.ty, ← hs.1.1.ty, h]
    simp only [Option.getD_none, Nat.min_self]
    omega

/-! ## Rollback does not change objects -/

theorem destroyLoop_objs {s : Sess} : ∀ (n : Nat) (h h' : Heap), destroyLoop D E s n h = some h' → h'.objs = h.objs
  | 0, h, h', hr => by simp only [destroyLoop, Option.some.injEq] at hr; rw [hr]
  | n + 1, h, h', hr => by
    unfold destroyLoop at hr
    split at hr
    · split at hr
      · exact destroyLoop_objs n h h' hr
      · split at hr
        · simp at hr
        · obtain ⟨h1, h2, h3⟩ := Option.bind_eq_some_iff.1 hr
          rw [destroyLoop_objs n h1 h' h3, destroy_objs_same h2]
    · simp at hr

theorem deallocLoop_objs {s : Sess} : ∀ (n : Nat) (h h' : Heap), deallocLoop D E s n h = some h' → h'.objs = h.objs
  | 0, h, h', hr => by simp only [deallocLoop, Option.some.injEq] at hr; rw [hr]
  | n + 1, h, h', hr => by
    unfold deallocLoop at hr
    split at hr
    · split at hr
      · simp at hr
      · split at hr
        · exact deallocLoop_objs n h h' hr
        · split at hr
          · exact deallocLoop_objs n h h' hr
          · obtain ⟨h1, h2, h3⟩ := Option.bind_eq_some_iff.1 hr
            rw [deallocLoop_objs n h1 h' h3, deallocate_objs_same h2]
    · simp at hr

theorem deallocBuffer_gone {h h' : Heap} {t : TypeId} {al a : Nat} (hr : deallocBuffer h t al a = some h') : h'.objs = h.objs ∧ h'.blk a = none := by
  unfold deallocBuffer at hr
  obtain ⟨h1, h2, rfl⟩ := Option.map_eq_some_iff.1 hr
  refine ⟨show h1.objs = h.objs from deallocate_objs_same h2, ?_⟩
  unfold Heap.deallocate at h2
  by_cases hb : h.blk a = some (.unified t al)
  · rw [if_pos hb] at h2; simp only [Option.some.injEq] at h2; subst h2; simp
  · rw [if_neg hb] at h2; simp at h2

theorem rollback_frees {s s' : Sess} {a : Nat} (hty : s.oldTy ≠ some s.ty) (hda : s.data = some a) (hr : rollback D E s = some s') : s'.h.objs = s.h.objs ∧ s'.h.blk a = none := by
  unfold rollback at hr
  rw [if_neg hty] at hr
  split at hr
  · simp at hr
  · rename_i h1 heq
    obtain ⟨h2, h3, h4⟩ := Option.bind_eq_some_iff.1 heq
    rw [hda] at hr
    simp only at hr
    obtain ⟨h5, h6, rfl⟩ := Option.map_eq_some_iff.1 hr
    obtain ⟨h7, h8⟩ := deallocBuffer_gone h6
    exact ⟨by show h5.objs = _; rw [h7, deallocLoop_objs _ _ _ h4, destroyLoop_objs _ _ _ h3], h8⟩

/-! ## `finalize` -/

theorem finalizeOne_objs {s : Sess} {b a oi : Nat} {m : Mix} {h h' : Heap} (hr : finalizeOne D E orc s b a oi m h = some h') : h'.objs = h.objs := by
  unfold finalizeOne at hr
  split at hr
  · simp at hr
  · split at hr
    · split at hr
      · simp only [Option.some.injEq] at hr; rw [hr]
      · split at hr
        · split at hr
          · obtain ⟨h1, h2, h3⟩ := Option.bind_eq_some_iff.1 hr
            rw [destroy_objs_same h3]
            show h1.objs = h.objs
            exact construct_objs_same h2
          · simp at hr
        · simp at hr
    · split at hr
      · simp at hr
      · rename_i h1 heq
        split at hr
        · simp only [Option.some.injEq] at hr; subst hr; exact destroy_objs_same heq
        · rw [deallocate_objs_same hr, destroy_objs_same heq]

theorem finalizeLoop_objs {s : Sess} {b a : Nat} : ∀ (ms : List Mix) (oi : Nat) (h h' : Heap), finalizeLoop D E orc s b a oi ms h = some h' → h'.objs = h.objs
  | [], oi, h, h', hr => by simp only [finalizeLoop, Option.some.injEq] at hr; rw [hr]
  | m :: ms, oi, h, h', hr => by
    unfold finalizeLoop at hr
    obtain ⟨h1, h2, h3⟩ := Option.bind_eq_some_iff.1 hr
    rw [finalizeLoop_objs ms _ h1 h' h3, finalizeOne_objs h2]

theorem attach_obj {s : Sess} {h : Heap} {ob : Obj} (ho : h.obj? s.o = some ob) :
    (attach s h).h.obj? s.o = some { ob with ty := some s.ty, data := s.data } := by
  unfold attach
  rw [ho]
  exact obj?_setObj_same ho _

/-- What `finalize` leaves, if it does something. -/
theorem finalize_leaves {s s' : Sess} {ob : Obj} (hc : s.complete = true) (ho : s.h.obj? s.o = some ob) (hob : s.oldTy = some s.ty → ob.ty = some s.ty ∧ ob.data = s.data)
    (hr : finalize D E orc s = some s') :
    s'.oldTy ≠ some s'.ty ∧ s'.ty = s.ty ∧ s'.data = s.data ∧ s'.movedOut = s.movedOut ∧ s'.h.obj? s.o = some { ob with ty := some s.ty, data := s.data } := by
  unfold finalize at hr
  simp only [hc, Bool.not_true, Bool.false_eq_true, if_false] at hr
  by_cases hty : s.oldTy = some s.ty
  · rw [if_pos hty] at hr
    injection hr with hr; subst hr
    obtain ⟨h1, h2⟩ := hob hty
    refine ⟨by simp, rfl, rfl, rfl, ?_⟩
    show s.h.obj? s.o = _
    rw [ho, ← h1, ← h2]
  · rw [if_neg hty] at hr
    cases hod : s.oldData with
    | none =>
      rw [hod] at hr
      simp only at hr
      injection hr with hr
      obtain ⟨p1, p2, p3, p4, p5, p6, p7, p8⟩ := attach_parts s s.h
      subst hr
      exact ⟨by rw [p7, p3]; exact hty, p3, p6, p1, attach_obj ho⟩
    | some b =>
      cases hot : s.oldTy with
      | none => rw [hod, hot] at hr; simp at hr
      | some t1 =>
        rw [hod, hot] at hr
        simp only at hr
        cases hda : s.data with
        | none => rw [hda] at hr; simp at hr
        | some a =>
          rw [hda] at hr
          simp only at hr
          split at hr
          · simp at hr
          · rename_i hx hxe
            injection hr with hr
            obtain ⟨p1, p2, p3, p4, p5, p6, p7, p8⟩ := attach_parts s hx
            obtain ⟨h1, h2, h3⟩ := Option.bind_eq_some_iff.1 hxe
            have hobjs : hx.objs = s.h.objs := by rw [(deallocBuffer_gone h3).1, finalizeLoop_objs _ _ _ _ h2]
            have ho' : hx.obj? s.o = some ob := by unfold Heap.obj? at ho ⊢; rw [hobjs]; exact ho
            subst hr
            refine ⟨by simp, p3, p6.trans hda, p1, ?_⟩
            show (attach s hx).h.obj? s.o = _
            rw [attach_obj ho', hda]

/-! ## The whole mutation -/

theorem allocate_data {h : Heap} {o : Nat} {ob : Obj} {t : TypeId} {s : Sess} (hd : ob.ty = some t → ob.data ≠ none) (hr : allocateMixinData D E orc (Sess.begin h o ob t) = .ok s) : s.data ≠ none := by
  unfold allocateMixinData at hr
  by_cases hty : ob.ty = some t
  · rw [if_pos (show (Sess.begin h o ob t).oldTy = some (Sess.begin h o ob t).ty from hty)] at hr
    injection hr with hr; subst hr
    exact hd hty
  · rw [if_neg (show ¬ (Sess.begin h o ob t).oldTy = some (Sess.begin h o ob t).ty from hty)] at hr
    split at hr
    · simp at hr
    · have h1 := allocLoop_still _ _ ⟨rfl, rfl, rfl, rfl, rfl, rfl, rfl⟩ s hr
      rw [h1.data]; simp

theorem allocate_pos {h : Heap} {o : Nat} {ob : Obj} {t : TypeId} {s : Sess} (hr : allocateMixinData D E orc (Sess.begin h o ob t) = .ok s) : s.updated = 0 := by
  unfold allocateMixinData at hr
  split at hr
  · injection hr with hr; subst hr; rfl
  · split at hr
    · simp at hr
    · exact (allocLoop_pos _ hr).2.1

/-- A complete mutation, `finalize`, and then an exception: the object designates memory that was given back. -/
theorem finalize_throw {h : Heap} {o : Nat} {ob : Obj} (ho : h.obj? o = some ob) {t : TypeId} (hne : E.mixins t ≠ []) (hd : ob.ty = some t → ob.data ≠ none)
    {steps : List (MStep × Bool)} (hl : ∀ st ∈ steps, properStep st.1 = true) (f : NewFn) (g : UpdFn) (hf : properStep (.each f g none) = true) (u c c' : Bool) {h1 : Heap}
    (hok : withMutation D E orc false h o t (steps ++ [(.each f g none, false)]) = .ok h1) :
    withMutation D E orc u h o t (steps ++ [(.each f g none, false), (.finalize, c), (.throw, false)]) = .ub ∨
    ∃ h', withMutation D E orc u h o t (steps ++ [(.each f g none, false), (.finalize, c), (.throw, false)]) = .throw h' .outside ∧
      ∃ a ob', h'.obj? o = some ob' ∧ ob'.ty = some t ∧ ob'.data = some a ∧ h'.blk a = none := by
  unfold withMutation at hok ⊢
  rw [ho] at hok ⊢
  simp only at hok ⊢
  by_cases hsl : ob.isSealed = true
  · rw [if_pos hsl] at hok
    unfold unwindWith at hok
    cases hx : Sess.dtor D E orc true (Sess.begin h o ob t) <;> rw [hx] at hok <;> simp [Res.bind] at hok
  · rw [if_neg hsl] at hok ⊢
    cases hal : allocateMixinData D E orc (Sess.begin h o ob t) with
    | ub => rw [hal] at hok; simp at hok
    | throw s e =>
      rw [hal] at hok
      simp only at hok
      unfold unwindWith at hok
      cases hx : Sess.dtor D E orc true s <;> rw [hx] at hok <;> simp [Res.bind] at hok
    | ok s0 =>
      rw [hal] at hok
      simp only at hok ⊢
      have hbg := allocate_begun hal
      rw [show steps ++ [(MStep.each f g none, false), (.finalize, c), (.throw, false)] = (steps ++ [(.each f g none, false)]) ++ [(.finalize, c), (.throw, false)] by simp]
      rw [msteps_append (steps ++ [(MStep.each f g none, false)])]
      have hp0 : StillPos E s0 s0 := by
        refine ⟨⟨⟨rfl, rfl, rfl, rfl, rfl, rfl, rfl⟩, fun hc => ?_⟩, fun hc => ?_⟩
        · rw [hbg.complete] at hc; simp at hc
        · rw [allocate_pos hal, hbg.ty] at hc
          have := List.length_pos_iff.2 hne
          omega
      cases hm : msteps D E orc (steps ++ [(.each f g none, false)]) s0 with
      | ub => rw [hm] at hok; simp [Res.bind] at hok
      | throw s e =>
        rw [hm] at hok
        simp only [Res.bind] at hok
        unfold unwindWith at hok
        cases hx : Sess.dtor D E orc true s <;> rw [hx] at hok <;> simp [Res.bind] at hok
      | ok s =>
        have hall : ∀ st ∈ steps ++ [(MStep.each f g none, false)], properStep st.1 = true := by
          intro st hst
          rcases List.mem_append.1 hst with h | h
          · exact hl st h
          · rw [List.mem_singleton] at h; subst h; exact hf
        have hps := pos_msteps (D := D) (orc := orc) _ s0 hp0 hall
        rw [hm] at hps
        have hcomp : s.complete = true := by
          rw [msteps_append] at hm
          have hp1 := pos_msteps (D := D) (orc := orc) steps s0 hp0 hl
          cases hm1 : msteps D E orc steps s0 with
          | ub => rw [hm1] at hm; simp [Res.bind] at hm
          | throw s1 e => rw [hm1] at hm; simp [Res.bind] at hm
          | ok s1 =>
            rw [hm1] at hm hp1
            simp only [Res.bind, msteps, mstep] at hm
            cases hx : updateEach D E orc f g none s1 with
            | ub => rw [hx] at hm; simp at hm
            | throw s2 e => rw [hx] at hm; simp at hm
            | ok s2 =>
              rw [hx] at hm
              simp only at hm
              injection hm with hm; subst hm
              exact each_complete hp1 f g hx
        have hso : s.o = o := hps.1.1.o.trans hbg.o
        have hsty : s.ty = t := hps.1.1.ty.trans hbg.ty
        have hob : s.h.obj? s.o = some ob := by
          unfold Heap.obj? at ho ⊢
          rw [hso, hps.1.1.objs, hbg.objs]; exact ho
        simp only [Res.bind, msteps, mstep]
        cases hfin : finalize D E orc s with
        | none => exact .inl rfl
        | some s1 =>
          simp only
          obtain ⟨k1, k2, k3, k4, k5⟩ := finalize_leaves hcomp hob (fun h => by
            have h1 : ob.ty = some t := by rw [← hbg.oldTy, ← hps.1.1.oldTy, h, hsty]
            exact ⟨by rw [h1, hsty], by rw [hps.1.1.data, hbg.same h1]⟩) hfin
          simp only [Bool.false_eq_true, if_false]
          unfold unwindWith Sess.dtor
          rw [k4, hps.1.1.movedOut, hbg.movedOut]
          simp only [Bool.false_eq_true, if_false, if_true]
          cases hrb : rollback D E s1 with
          | none => exact .inl rfl
          | some s2 =>
            simp only [Res.bind]
            cases hda : s.data with
            | none =>
              have := allocate_data hd hal
              rw [← hps.1.1.data] at this
              exact absurd hda this
            | some a =>
              obtain ⟨r1, r2⟩ := rollback_frees k1 (k3.trans hda) hrb
              refine .inr ⟨_, rfl, a, { ob with ty := some s.ty, data := s.data }, ?_, by simp only; rw [hsty], hda, r2⟩
              rw [← hso]
              unfold Heap.obj? at k5 ⊢
              rw [r1]; exact k5

/-- Destroying such an object is undefined behaviour. -/
theorem destroy_dangling {h : Heap} {o : Nat} {ob : Obj} {t : TypeId} {a : Nat} (ho : h.obj? o = some ob) (ht : ob.ty = some t) (hd : ob.data = some a) (hb : h.blk a = none) (hne : E.mixins t ≠ []) :
    destroyObject D E h o = .ub := by
  have hn : h.blk a ≠ some (.unified t ob.alloc) := by rw [hb]; simp
  have hnone : clearMixinData D E h o = none := by
    unfold clearMixinData
    rw [ho]
    simp only [hd, ht]
    unfold rollback
    simp only [reduceCtorEq, if_false]
    cases hx : (destroyLoop D E ⟨h, o, ob.alloc, none, none, t, some a, (E.mixins t).length, (E.mixins t).length, false, false⟩ (E.mixins t).length h).bind
        (deallocLoop D E ⟨h, o, ob.alloc, none, none, t, some a, (E.mixins t).length, (E.mixins t).length, false, false⟩ (E.mixins t).length) with
    | none => rfl
    | some h1 =>
      exfalso
      obtain ⟨h2, h3, -⟩ := Option.bind_eq_some_iff.1 hx
      have hpos := List.length_pos_iff.2 hne
      obtain ⟨n, hn⟩ : ∃ n, (E.mixins t).length = n + 1 := ⟨_, (Nat.succ_pred_eq_of_pos hpos).symm⟩
      rw [hn] at h3
      unfold destroyLoop at h3
      simp only at h3
      rw [List.getElem?_eq_getElem (by omega)] at h3
      simp only [Sess.oldIndex] at h3
      rw [show h.slot? a n = none by unfold Heap.slot?; rw [hb]; rfl] at h3
      simp at h3
  unfold destroyObject
  rw [hnone]

/-! ## Moving from the object itself -/

theorem self_move_ub {t : TypeId} {a : Option Nat} (hidx : ∀ i m, (E.mixins t)[i]? = some m → E.indexOf t m = some i) : ∀ (ms : List Mix) (i : Nat) (h : Heap),
    (∀ (j : Nat) (m : Mix), ms[j]? = some m → (E.mixins t)[i + j]? = some m) → (∃ m ∈ ms, (D.mix m).hasMoveAsgn = false) → moveMatchingLoop D E orc t a a i ms h = .ub
  | [], i, h, hm, hex => by obtain ⟨m, hm, -⟩ := hex; simp at hm
  | m :: ms, i, h, hm, hex => by
    have h0 := hm 0 m rfl
    rw [Nat.add_zero] at h0
    have hrest : ∀ h', (∃ m ∈ ms, (D.mix m).hasMoveAsgn = false) → moveMatchingLoop D E orc t a a (i + 1) ms h' = .ub := fun h' hx =>
      self_move_ub hidx ms (i + 1) h' (fun j m' hj => by rw [show i + 1 + j = i + (j + 1) by omega]; exact hm (j + 1) m' (by simpa using hj)) hx
    unfold moveMatchingLoop
    rw [hidx i m h0]
    simp only
    cases hx : a.bind (fun a => mixinAt h a i) with
    | none => rfl
    | some x =>
      obtain ⟨l, m', v⟩ := x
      simp only
      by_cases hmm : m' ≠ m ∨ m' ≠ m
      · rw [if_pos hmm]
      · rw [if_neg hmm]
        by_cases hma : (D.mix m).hasMoveAsgn = true
        · rw [if_pos hma]
          apply hrest
          obtain ⟨m1, h1, h2⟩ := hex
          rcases List.mem_cons.1 h1 with rfl | h1
          · rw [hma] at h2; simp at h2
          · exact ⟨m1, h1, h2⟩
        · rw [if_neg hma]
          cases hd : h.destroy D l m with
          | none => rfl
          | some h1 =>
            simp only
            have : h1.live l = none := by
              unfold Heap.destroy at hd
              split at hd
              · split at hd
                · simp only [Option.some.injEq] at hd
                  subst hd
                  by_cases hh : (D.mix m).hasDestroy = true
                  · rw [if_pos hh]; simp
                  · rw [if_neg hh]; simp
                · simp at hd
              · simp at hd
            rw [this]

end Dnmx
