import Verif.Proofs.PieceLemmas

/-!
# Lemmas: mutations ended by hand
-/

set_option linter.unusedSimpArgs false
set_option linter.unusedVariables false
set_option linter.unusedSectionVars false

namespace Dnmx
open Spec

variable {D : Decls} {E : TyEnv} {orc : Orc}

/-- All states that a result contains. -/
def RSess (P : Sess → Prop) : Res Sess → Prop
  | .ok s => P s
  | .throw s _ => P s
  | .ub => True

theorem RSess.bind {P : Sess → Prop} {r : Res Sess} (h : RSess P r) {f : Sess → Res Sess} {k : Sess → XErr → Res Sess}
    (h1 : ∀ s, P s → RSess P (f s)) (h2 : ∀ s e, P s → RSess P (k s e)) : RSess P (r.bind f k) := by
  cases r with
  | ok s => exact h1 s h
  | throw s e => exact h2 s e h
  | ub => trivial

/-- Parts of a mutation that plain steps do not change. -/
structure Still (s0 s : Sess) : Prop where
  o : s.o = s0.o
  data : s.data = s0.data
  ty : s.ty = s0.ty
  oldTy : s.oldTy = s0.oldTy
  oldData : s.oldData = s0.oldData
  movedOut : s.movedOut = s0.movedOut
  objs : s.h.objs = s0.h.objs

theorem Still.heap {s0 s : Sess} (h : Still s0 s) {h' : Heap} (ho : h'.objs = s.h.objs) : Still s0 { s with h := h' } :=
  ⟨h.o, h.data, h.ty, h.oldTy, h.oldData, h.movedOut, ho.trans h.objs⟩

theorem construct_objs {h h' : Heap} {l : Loc} {m : Mix} {v : Nat} {w : How} (hr : h.construct l m v w = some h') : h'.objs = h.objs := by
  unfold Heap.construct at hr
  split at hr
  · simp at hr; subst hr; rfl
  · simp at hr

theorem construct_objs' {h h' : Heap} {l : Loc} {m : Mix} {v : Nat} {w : How} (hr : h.ticked.construct l m v w = some h') : h'.objs = h.objs := by
  have := construct_objs hr
  exact this

theorem still_constructNew {s0 s : Sess} (hs : Still s0 s) (f : NewFn) (m : Mix) (ti : Nat) (l : Loc) :
    RSess (fun s' => Still s0 s' ∧ s'.updated = s.updated ∧ s'.complete = s.complete) (constructNew D orc f s m ti l) := by
  unfold constructNew
  cases f with
  | dflt =>
    simp only
    split
    · exact ⟨hs, rfl, rfl⟩
    · split
      · exact ⟨hs.heap rfl, rfl, rfl⟩
      · split
        · trivial
        · rename_i h' heq; exact ⟨hs.heap (construct_objs' heq), rfl, rfl⟩
  | custom k =>
    simp only
    split
    · exact ⟨hs.heap rfl, rfl, rfl⟩
    · split
      · trivial
      · rename_i h' heq; exact ⟨hs.heap (construct_objs' heq), rfl, rfl⟩
  | copy src c =>
    simp only
    split
    · trivial
    · split
      · trivial
      · split
        · split
          · exact ⟨hs, rfl, rfl⟩
          · trivial
        · split
          · exact ⟨hs.heap rfl, rfl, rfl⟩
          · split
            · trivial
            · rename_i h' heq; exact ⟨hs.heap (construct_objs' heq), rfl, rfl⟩

theorem still_updateCommon {s0 s : Sess} (hs : Still s0 s) (g : UpdFn) (m : Mix) (ti : Nat) (l : Loc) :
    RSess (fun s' => Still s0 s' ∧ s'.updated = s.updated ∧ s'.complete = s.complete) (updateCommon D orc g s m ti l) := by
  unfold updateCommon
  cases g with
  | noop => exact ⟨hs, rfl, rfl⟩
  | custom k =>
    simp only
    split
    · trivial
    · split
      · trivial
      · split <;> exact ⟨hs.heap rfl, rfl, rfl⟩
  | assign src =>
    simp only
    split
    · split
      · trivial
      · split <;> exact ⟨hs.heap rfl, rfl, rfl⟩
    · trivial

/-- The invariant. -/
def StillAt (E : TyEnv) (s0 s : Sess) : Prop := Still s0 s ∧ AtEnd E s

theorem still_updateNext {s0 s : Sess} (hs : StillAt E s0 s) (f : NewFn) (g : UpdFn) : RSess (StillAt E s0) (updateNext D E orc f g s) := by
  unfold updateNext
  have hadv : ∀ s', Still s0 s' → StillAt E s0 (s'.advanced E) := fun s' h =>
    ⟨⟨h.o, h.data, h.ty, h.oldTy, h.oldData, h.movedOut, h.objs⟩, (advanced_pos (E := E) (s := s')).2.2⟩
  cases hc : s.complete with
  | true => simp [RSess, hs]
  | false =>
    simp only [hc, Bool.false_eq_true, if_false]
    have key : ∀ {r : Res Sess}, RSess (fun s' => Still s0 s' ∧ s'.updated = s.updated ∧ s'.complete = s.complete) r →
        RSess (StillAt E s0) (r.bind (fun s => .ok (s.advanced E)) .throw) := by
      intro r h
      cases r with
      | ok s' => exact hadv s' h.1
      | throw s' e => exact ⟨h.1, fun hh => by rw [h.2.2, hc] at hh; simp at hh⟩
      | ub => trivial
    split
    · trivial
    · split
      · split
        · trivial
        · exact key (still_updateCommon hs.1 g _ _ _)
      · split
        · trivial
        · split
          · trivial
          · exact key (still_constructNew hs.1 f _ _ _)

theorem still_updateLoop {s0 : Sess} (f : NewFn) (g : UpdFn) : ∀ (n : Nat) (s : Sess), StillAt E s0 s → RSess (StillAt E s0) (updateLoop D E orc f g n s)
  | 0, s, hs => hs
  | n + 1, s, hs => by
    unfold updateLoop
    exact (still_updateNext hs f g).bind (fun s' h => still_updateLoop f g n s' h) (fun s' e h => h)

theorem still_mstep {s0 s : Sess} (hs : StillAt E s0 s) {st : MStep} (hst : properStep st = true) : RSess (StillAt E s0) (mstep D E orc s st) := by
  cases st with
  | next f g => exact still_updateNext hs f g
  | each f g upto => exact still_updateLoop f g _ s hs
  | «at» i f g =>
    unfold mstep updateAt
    simp only
    split
    · exact hs
    · exact (still_updateLoop .dflt .noop _ s hs).bind (fun s' h => still_updateNext h f g) (fun s' e h => h)
  | finalize => simp [properStep] at hst
  | rollback => simp [properStep] at hst
  | throw => exact hs

theorem still_msteps {s0 : Sess} : ∀ (steps : List (MStep × Bool)) (s : Sess), StillAt E s0 s → (∀ st ∈ steps, properStep st.1 = true) →
    RSess (StillAt E s0) (msteps D E orc steps s)
  | [], s, hs, _ => hs
  | (st, caught) :: rest, s, hs, hst => by
    unfold msteps
    refine (still_mstep hs (hst (st, caught) (by simp))).bind (fun s' h => still_msteps rest s' h (fun x hx => hst x (by simp [hx]))) ?_
    intro s' e h
    cases caught with
    | true => exact still_msteps rest s' h (fun x hx => hst x (by simp [hx]))
    | false => exact h

theorem msteps_append : ∀ (l1 l2 : List (MStep × Bool)) (s : Sess), msteps D E orc (l1 ++ l2) s = (msteps D E orc l1 s).bind (msteps D E orc l2) .throw
  | [], l2, s => rfl
  | (st, caught) :: rest, l2, s => by
    rw [List.cons_append]
    unfold msteps
    cases mstep D E orc s st with
    | ok s' => exact msteps_append rest l2 s'
    | throw s' e =>
      cases caught with
      | true => exact msteps_append rest l2 s'
      | false => rfl
    | ub => rfl

/-- Two lists of steps with the same end. -/
theorem withMutation_append {h : Heap} {o : Nat} {t : TypeId} {u u' : Bool} {l1 l2 : List (MStep × Bool)}
    (hl : ∀ st ∈ l1, properStep st.1 = true)
    (hs : ∀ (ob : Obj) (s0 s : Sess), h.obj? o = some ob → (allocateMixinData D E orc (Sess.begin h o ob t) = .ok s0) → StillAt E s0 s →
      (msteps D E orc l2 s).bind (Sess.dtor D E orc u) (unwindWith D E orc) = s.dtor D E orc u')
    (hb : ∀ (ob : Obj) (s0 : Sess), h.obj? o = some ob → allocateMixinData D E orc (Sess.begin h o ob t) = .ok s0 → AtEnd E s0) :
    withMutation D E orc u h o t (l1 ++ l2) = withMutation D E orc u' h o t l1 := by
  unfold withMutation
  cases ho : h.obj? o with
  | none => rfl
  | some ob =>
    simp only
    split
    · rfl
    · cases hal : allocateMixinData D E orc (Sess.begin h o ob t) with
      | ub => rfl
      | throw s e => rfl
      | ok s0 =>
        simp only
        rw [msteps_append]
        have := still_msteps (D := D) (orc := orc) l1 s0 ⟨⟨rfl, rfl, rfl, rfl, rfl, rfl, rfl⟩, hb ob s0 ho hal⟩ hl
        cases hm : msteps D E orc l1 s0 with
        | ub => rfl
        | throw s e => rfl
        | ok s =>
          rw [hm] at this
          exact hs ob s0 s ho hal this

theorem allocLoop_still {s0 : Sess} : ∀ (n : Nat) (s : Sess), Still s0 s → ∀ s', allocLoop D E orc n s = .ok s' → Still s0 s'
  | 0, s, hs, s', hr => by
    simp only [allocLoop] at hr
    injection hr with hr; subst hr; exact hs
  | n + 1, s, hs, s', hr => by
    unfold allocLoop at hr
    obtain ⟨s1, h1, h2⟩ := Res.bind_is_ok (by simp) hr
    refine allocLoop_still n s1 ?_ s' h2
    unfold allocOne at h1
    repeat' split at h1
    all_goals first | (simp at h1; done) | (simp at h1; subst h1; exact ⟨hs.o, hs.data, hs.ty, hs.oldTy, hs.oldData, hs.movedOut, hs.objs⟩)

/-- A mutation that has just begun. -/
structure Begun (h : Heap) (o : Nat) (ob : Obj) (t : TypeId) (s : Sess) : Prop where
  o : s.o = o
  ty : s.ty = t
  oldTy : s.oldTy = ob.ty
  oldData : s.oldData = ob.data
  movedOut : s.movedOut = false
  complete : s.complete = false
  objs : s.h.objs = h.objs
  same : ob.ty = some t → s.data = ob.data

theorem allocate_begun {h : Heap} {o : Nat} {ob : Obj} {t : TypeId} {s : Sess} (hr : allocateMixinData D E orc (Sess.begin h o ob t) = .ok s) : Begun h o ob t s := by
  unfold allocateMixinData at hr
  by_cases hty : ob.ty = some t
  · rw [if_pos (show (Sess.begin h o ob t).oldTy = some (Sess.begin h o ob t).ty from hty)] at hr
    injection hr with hr; subst hr
    exact ⟨rfl, rfl, rfl, rfl, rfl, rfl, rfl, fun _ => rfl⟩
  · rw [if_neg (show ¬ (Sess.begin h o ob t).oldTy = some (Sess.begin h o ob t).ty from hty)] at hr
    split at hr
    · simp at hr
    · have h1 := allocLoop_still _ _ ⟨rfl, rfl, rfl, rfl, rfl, rfl, rfl⟩ s hr
      have h2 := allocLoop_pos _ hr
      exact ⟨h1.o, h1.ty, h1.oldTy, h1.oldData, h1.movedOut, h2.2.2, h1.objs, fun h => absurd h hty⟩

/-- A call of `rollback` at the end. -/
theorem rollback_last {h : Heap} {o : Nat} {t : TypeId} (u c : Bool) {steps : List (MStep × Bool)} (hl : ∀ st ∈ steps, properStep st.1 = true) :
    withMutation D E orc u h o t (steps ++ [(.rollback, c)]) = withMutation D E orc true h o t steps := by
  refine withMutation_append hl ?_ ?_
  · intro ob s0 s ho hal hs
    have hmo : s.movedOut = false := hs.1.movedOut.trans (allocate_begun hal).movedOut
    unfold msteps mstep
    simp only
    unfold Sess.dtor
    simp only [hmo, Bool.false_eq_true, if_false, if_true]
    cases hr : rollback D E s with
    | none => rfl
    | some s1 =>
      have h1 : s1.movedOut = true := by
        unfold rollback at hr
        split at hr
        · simp at hr; subst hr; rfl
        · split at hr
          · simp at hr
          · split at hr
            · simp at hr; subst hr; rfl
            · obtain ⟨h', -, h2⟩ := Option.map_eq_some_iff.1 hr
              subst h2; rfl
      simp only [Res.bind, msteps, h1, if_true]
  · intro ob s0 ho hal hc
    rw [(allocate_begun hal).complete] at hc; simp at hc

theorem updateEach_end {s : Sess} (hup : (E.mixins s.ty).length ≤ s.updated) : updateEach D E orc .dflt .noop none s = .ok s := by
  unfold updateEach
  rw [show min ((none : Option Nat).getD (E.mixins s.ty).length) (E.mixins s.ty).length - s.updated = 0 by simp; omega]
  rfl

theorem list_set_same {α : Type} {l : List α} {i : Nat} {a : α} (h : l[i]? = some a) : l.set i a = l := by
  apply List.ext_getElem?
  intro j
  by_cases hj : i = j
  · subst hj
    obtain ⟨h1, h2⟩ := List.getElem?_eq_some_iff.1 h
    simp [h1, h2]
  · simp [hj]

theorem attach_same {s : Sess} {ob : Obj} (ho : s.h.obj? s.o = some ob) (ht : ob.ty = some s.ty) (hd : ob.data = s.data) : (attach s s.h).h = s.h := by
  unfold attach
  rw [ho]
  simp only
  have : ({ ob with ty := some s.ty, data := s.data } : Obj) = ob := by rw [← ht, ← hd]
  rw [this]
  unfold Heap.obj? at ho
  cases hh : s.h.objs[s.o]? with
  | none => rw [hh] at ho; simp at ho
  | some x =>
    rw [hh] at ho
    simp at ho; subst ho
    show ({ s.h with objs := s.h.objs.set s.o (some ob) } : Heap) = s.h
    rw [list_set_same hh]

theorem attach_parts (s : Sess) (hx : Heap) : (attach s hx).movedOut = s.movedOut ∧ (attach s hx).complete = s.complete ∧ (attach s hx).ty = s.ty ∧
    (attach s hx).updated = s.updated ∧ (attach s hx).o = s.o ∧ (attach s hx).data = s.data ∧ (attach s hx).oldTy = s.oldTy ∧ (attach s hx).oldData = s.oldData := by
  unfold attach
  split <;> exact ⟨rfl, rfl, rfl, rfl, rfl, rfl, rfl, rfl⟩

theorem attach_twice {s s' : Sess} {hx : Heap} (h1 : s'.h = (attach s hx).h) (h2 : s'.o = s.o) (h3 : s'.ty = s.ty) (h4 : s'.data = s.data) : (attach s' s'.h).h = s'.h := by
  cases hob : hx.obj? s.o with
  | none =>
    have : s'.h = hx := by rw [h1]; unfold attach; rw [hob]
    have h5 : s'.h.obj? s'.o = none := by rw [this, h2]; exact hob
    unfold attach
    rw [h5]
  | some ob =>
    have h6 : s'.h = hx.setObj s.o (some { ob with ty := some s.ty, data := s.data }) := by rw [h1]; unfold attach; rw [hob]
    refine attach_same (ob := { ob with ty := some s.ty, data := s.data }) ?_ (by rw [h3]) (by rw [h4])
    rw [h6, h2]
    exact obj?_setObj_same hob _

/-- A call of `finalize` at the end. -/
theorem finalize_last {h : Heap} {o : Nat} {t : TypeId} (c : Bool) {steps : List (MStep × Bool)} (hl : ∀ st ∈ steps, properStep st.1 = true) :
    withMutation D E orc false h o t (steps ++ [(.finalize, c)]) = withMutation D E orc false h o t steps := by
  refine withMutation_append hl ?_ ?_
  · intro ob s0 s ho hal hs
    have hbg := allocate_begun hal
    have hmo : s.movedOut = false := hs.1.movedOut.trans hbg.movedOut
    unfold msteps mstep
    simp only
    cases hc : s.complete with
    | false =>
      have : finalize D E orc s = some s := by unfold finalize; simp [hc]
      rw [this]; rfl
    | true =>
      have hup := hs.2 hc
      have hfin : ∀ s1, finalize D E orc s = some s1 → s1.movedOut = false ∧ s1.complete = true ∧ s1.ty = s.ty ∧ s1.updated = s.updated ∧
          ∃ s2, finalize D E orc s1 = some s2 ∧ s2.h = s1.h := by
        intro s1 h1
        unfold finalize at h1
        simp only [hc, Bool.not_true, Bool.false_eq_true, if_false] at h1
        by_cases hty : s.oldTy = some s.ty
        · rw [if_pos hty] at h1
          injection h1 with h1; subst h1
          refine ⟨hmo, rfl, rfl, rfl, ?_⟩
          unfold finalize
          simp only [hc, Bool.not_true, Bool.false_eq_true, if_false, reduceCtorEq]
          refine ⟨_, rfl, ?_⟩
          refine attach_same (ob := ob) ?_ ?_ ?_
          · show s.h.obj? s.o = _
            unfold Heap.obj? at ho ⊢
            rw [hs.1.o, hbg.o, hs.1.objs, hbg.objs]; exact ho
          · show ob.ty = some s.ty
            rw [← hty, hs.1.oldTy, hbg.oldTy]
          · show ob.data = s.data
            rw [hs.1.data, hbg.same]
            rw [← hbg.oldTy, ← hs.1.oldTy, hty, hs.1.ty, hbg.ty]
        · rw [if_neg hty] at h1
          cases hod : s.oldData with
          | none =>
            rw [hod] at h1
            simp only at h1
            injection h1 with h1
            have hp := attach_parts s s.h
            rw [h1] at hp
            obtain ⟨p1, p2, p3, p4, p5, p6, p7, p8⟩ := hp
            refine ⟨p1.trans hmo, p2.trans hc, p3, p4, ?_⟩
            unfold finalize
            rw [p2, hc, if_neg (by simp), if_neg (by rw [p7, p3]; exact hty), p8, hod]
            exact ⟨_, rfl, attach_twice (s := s) (by rw [← h1]) p5 p3 p6⟩
          | some b =>
            cases hot : s.oldTy with
            | none => rw [hod, hot] at h1; simp at h1
            | some t1 =>
              rw [hod, hot] at h1
              simp only at h1
              cases hda : s.data with
              | none => rw [hda] at h1; simp at h1
              | some a =>
                rw [hda] at h1
                simp only at h1
                split at h1
                · simp at h1
                · rename_i hx hxe
                  injection h1 with h1
                  obtain ⟨p1, p2, p3, p4, p5, p6, p7, p8⟩ := attach_parts s hx
                  subst h1
                  refine ⟨p1.trans hmo, p2.trans hc, p3, p4, ?_⟩
                  unfold finalize
                  simp only [p2, hc, Bool.not_true, Bool.false_eq_true, if_false, reduceCtorEq]
                  refine ⟨_, rfl, ?_⟩
                  exact attach_twice (s := s) (hx := hx) rfl p5 p3 p6
      unfold Sess.dtor
      simp only [hmo, Bool.false_eq_true, if_false, updateEach_end hup, hc, if_true]
      cases hf : finalize D E orc s with
      | none => rfl
      | some s1 =>
        obtain ⟨a1, a2, a3, a4, s2, a5, a6⟩ := hfin s1 hf
        simp only [Res.bind, msteps, a1, Bool.false_eq_true, if_false, updateEach_end (show (E.mixins s1.ty).length ≤ s1.updated by rw [a3, a4]; exact hup), a2, if_true, a5, a6]
  · intro ob s0 ho hal hc
    rw [(allocate_begun hal).complete] at hc; simp at hc

end Dnmx
