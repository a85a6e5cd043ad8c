import Verif.Proofs.PlanLemmas
import Verif.Proofs.HandLemmas
import Verif.Spec.ObjMessages

/-!
# Texts of exceptions of mutations: one mixin at a time
-/

set_option linter.unusedSimpArgs false
set_option linter.unusedVariables false
set_option linter.unusedSectionVars false

namespace Dnmx
open Spec

variable {D : Decls} {E : TyEnv} {orc : Orc} {T : Telling}

/-! ## The functions for one mixin -/

theorem construct_tick {h h' : Heap} {l : Loc} {m : Mix} {v : Nat} {w : How} (hr : h.construct l m v w = some h') : h'.tick = h.tick := by
  unfold Heap.construct at hr
  split at hr
  · injection hr with hr; subst hr; rfl
  · cases hr

/-- Sessions that differ in the heap only. -/
def SameSess (s s' : Sess) : Prop := s' = { s with h := s'.h }

theorem constructNew_ok {f : NewFn} {s s' : Sess} {m : Mix} {ti : Nat} {l : Loc} (hr : constructNew D orc f s m ti l = .ok s') :
    SameSess s s' ∧ s'.h.tick = s.h.tick + 1 ∧ orc.fail s.h.tick = false ∧ HasFn D f m := by
  cases f with
  | dflt =>
    simp only [constructNew] at hr
    cases hi : (D.mix m).hasInit with
    | false => simp [hi] at hr
    | true =>
      cases hf : orc.fail s.h.tick with
      | true => simp [hi, hf] at hr
      | false =>
        simp only [hi, hf, Bool.not_true, Bool.false_eq_true, if_false] at hr
        split at hr
        · cases hr
        · next h1 hc =>
          injection hr with hr; subst hr
          exact ⟨rfl, by simpa using construct_tick hc, rfl, hi⟩
  | custom k =>
    simp only [constructNew] at hr
    cases hf : orc.fail s.h.tick with
    | true => simp [hf] at hr
    | false =>
      simp only [hf, Bool.false_eq_true, if_false] at hr
      split at hr
      · cases hr
      · next h1 hc =>
        injection hr with hr; subst hr
        exact ⟨rfl, by simpa using construct_tick hc, rfl, trivial⟩
  | copy src c =>
    simp only [constructNew] at hr
    split at hr
    · cases hr
    · split at hr
      · cases hr
      · cases hi : (D.mix m).hasCopyInit with
        | false => cases c <;> simp [hi] at hr
        | true =>
          cases hf : orc.fail s.h.tick with
          | true => simp [hi, hf] at hr
          | false =>
            simp only [hi, hf, Bool.not_true, Bool.false_eq_true, if_false] at hr
            split at hr
            · cases hr
            · next h1 hc =>
              injection hr with hr; subst hr
              exact ⟨rfl, by simpa using construct_tick hc, rfl, hi⟩

theorem constructNew_throw {f : NewFn} {s s' : Sess} {m : Mix} {ti : Nat} {l : Loc} {e : XErr} (hr : constructNew D orc f s m ti l = .throw s' e) (g : UpdFn) :
    ∃ x, constructThrows D E orc T f s m = some x ∧ x.err = e ∧ FnSays D E orc T s.ty m s.h.tick false f g x := by
  cases f with
  | dflt =>
    simp only [constructNew] at hr
    simp only [constructThrows]
    cases hi : (D.mix m).hasInit with
    | false =>
      simp [hi] at hr
      exact ⟨_, by simp; rfl, hr.2, .noInit g hi⟩
    | true =>
      cases hf : orc.fail s.h.tick with
      | true =>
        simp [hi, hf] at hr
        exact ⟨_, by simp; rfl, hr.2, .initFails g hi hf⟩
      | false =>
        simp only [hi, hf, Bool.not_true, Bool.false_eq_true, if_false] at hr
        split at hr <;> cases hr
  | custom k =>
    simp only [constructNew] at hr
    simp only [constructThrows]
    cases hf : orc.fail s.h.tick with
    | true =>
      simp [hf] at hr
      exact ⟨_, by simp, hr.2, .ownNew k g hf⟩
    | false =>
      simp only [hf, Bool.false_eq_true, if_false] at hr
      split at hr <;> cases hr
  | copy src c =>
    simp only [constructNew] at hr
    simp only [constructThrows]
    split at hr
    · cases hr
    · split at hr
      · cases hr
      · cases hi : (D.mix m).hasCopyInit with
        | false =>
          cases c with
          | false => simp [hi] at hr
          | true =>
            simp [hi] at hr
            exact ⟨_, by simp; rfl, hr.2, .noCopy src g hi⟩
        | true =>
          cases hf : orc.fail s.h.tick with
          | true =>
            simp [hi, hf] at hr
            cases c with
            | true => exact ⟨_, by simp; rfl, hr.2, .copyFails src g hi hf⟩
            | false => exact ⟨_, by simp; rfl, hr.2, .copyFromFails src g hi hf⟩
          | false =>
            simp only [hi, hf, Bool.not_true, Bool.false_eq_true, if_false] at hr
            split at hr <;> cases hr

theorem updateCommon_ok {g : UpdFn} {s s' : Sess} {m : Mix} {ti : Nat} {l : Loc} (hr : updateCommon D orc g s m ti l = .ok s') :
    SameSess s s' ∧ s'.h.tick = s.h.tick + (if g != .noop then 1 else 0) ∧ (g ≠ .noop → orc.fail s.h.tick = false) := by
  cases g with
  | noop => simp only [updateCommon] at hr; injection hr with hr; subst hr; exact ⟨rfl, by simp, by simp⟩
  | custom k =>
    simp only [updateCommon] at hr
    split at hr
    · cases hr
    · split at hr
      · cases hr
      · cases hf : orc.fail s.h.tick with
        | true => simp [hf] at hr
        | false =>
          simp only [hf, Bool.false_eq_true, if_false] at hr
          injection hr with hr; subst hr; exact ⟨rfl, by simp, fun _ => rfl⟩
  | assign src =>
    simp only [updateCommon] at hr
    split at hr
    · split at hr
      · cases hr
      · cases hf : orc.fail s.h.tick with
        | true => simp [hf] at hr
        | false =>
          simp only [hf, Bool.false_eq_true, if_false] at hr
          injection hr with hr; subst hr; exact ⟨rfl, by simp, fun _ => rfl⟩
    · cases hr

theorem updateCommon_throw {g : UpdFn} {s s' : Sess} {m : Mix} {ti : Nat} {l : Loc} {e : XErr} (hr : updateCommon D orc g s m ti l = .throw s' e) (f : NewFn) :
    ∃ x, updateThrows E orc T g s m = some x ∧ x.err = e ∧ FnSays D E orc T s.ty m s.h.tick true f g x := by
  cases g with
  | noop => simp [updateCommon] at hr
  | custom k =>
    simp only [updateCommon] at hr
    split at hr
    · cases hr
    · split at hr
      · cases hr
      · cases hf : orc.fail s.h.tick with
        | true =>
          simp [hf] at hr
          exact ⟨_, by simp [updateThrows, hf], hr.2, .ownUpdate f k hf⟩
        | false => simp [hf] at hr
  | assign src =>
    simp only [updateCommon] at hr
    split at hr
    · split at hr
      · cases hr
      · cases hf : orc.fail s.h.tick with
        | true =>
          simp [hf] at hr
          exact ⟨_, by simp [updateThrows, hf]; rfl, hr.2, .assignFails f src hf⟩
        | false => simp [hf] at hr
    · cases hr

/-! ## `update_next_mixin` -/

/-- What `update_next_mixin` does when it ends without an exception. -/
theorem updateNext_ok_facts {f : NewFn} {g : UpdFn} {s s' : Sess} (hr : updateNext D E orc f g s = .ok s') (hc : s.complete = false) :
    ∃ m, (E.mixins s.ty)[s.updated]? = some m ∧
      s' = ({ s with h := s'.h } : Sess).advanced E ∧
      ((s.oldIndex E m).isSome = true → s'.h.tick = s.h.tick + (if g != .noop then 1 else 0) ∧ (g ≠ .noop → orc.fail s.h.tick = false)) ∧
      ((s.oldIndex E m).isSome = false → s'.h.tick = s.h.tick + 1 ∧ orc.fail s.h.tick = false ∧ HasFn D f m) := by
  unfold updateNext at hr
  simp only [hc, Bool.false_eq_true, if_false] at hr
  cases hm : (E.mixins s.ty)[s.updated]? with
  | none => simp [hm] at hr
  | some m =>
    refine ⟨m, rfl, ?_⟩
    simp only [hm] at hr
    cases ho : s.oldIndex E m with
    | some bi =>
      obtain ⟨b, oi⟩ := bi
      simp only [ho] at hr
      split at hr
      · cases hr
      · next sl hsl =>
        cases hu : updateCommon D orc g s m s.updated sl.loc with
        | ub => simp [hu, Res.bind] at hr
        | throw s1 e => simp [hu, Res.bind] at hr
        | ok s1 =>
          simp only [hu, Res.bind] at hr
          injection hr with hr
          obtain ⟨h1, h2, h3⟩ := updateCommon_ok hu
          subst hr
          refine ⟨?_, fun _ => ⟨h2, h3⟩, by simp⟩
          unfold SameSess at h1
          show s1.advanced E = _
          conv => lhs; rw [h1]
          rfl
    | none =>
      simp only [ho] at hr
      split at hr
      · cases hr
      · split at hr
        · cases hr
        · next sl hsl =>
          cases hu : constructNew D orc f s m s.updated sl.loc with
          | ub => simp [hu, Res.bind] at hr
          | throw s1 e => simp [hu, Res.bind] at hr
          | ok s1 =>
            simp only [hu, Res.bind] at hr
            injection hr with hr
            obtain ⟨h1, h2⟩ := constructNew_ok hu
            subst hr
            refine ⟨?_, by simp, fun _ => h2⟩
            unfold SameSess at h1
            show s1.advanced E = _
            conv => lhs; rw [h1]
            rfl

theorem updateNext_complete {f : NewFn} {g : UpdFn} {s : Sess} (hc : s.complete = true) : updateNext D E orc f g s = .ok s := by
  unfold updateNext; simp [hc]

/-- What `update_next_mixin` throws. -/
theorem updateNext_throw_facts {f : NewFn} {g : UpdFn} {s s' : Sess} {e : XErr} (hr : updateNext D E orc f g s = .throw s' e) :
    ∃ m x, (E.mixins s.ty)[s.updated]? = some m ∧ nextThrows D E orc T f g s = some x ∧ x.err = e ∧
      FnSays D E orc T s.ty m s.h.tick (s.oldIndex E m).isSome f g x := by
  have h0 := hr
  unfold updateNext at hr
  cases hc : s.complete with
  | true => simp [hc] at hr
  | false =>
    simp only [hc, Bool.false_eq_true, if_false] at hr
    cases hm : (E.mixins s.ty)[s.updated]? with
    | none => simp [hm] at hr
    | some m =>
      simp only [hm] at hr
      cases ho : s.oldIndex E m with
      | some bi =>
        obtain ⟨b, oi⟩ := bi
        simp only [ho] at hr
        split at hr
        · cases hr
        · next sl hsl =>
          cases hu : updateCommon D orc g s m s.updated sl.loc with
          | ub => simp [hu, Res.bind] at hr
          | ok s1 => simp [hu, Res.bind] at hr
          | throw s1 e1 =>
            simp only [hu, Res.bind] at hr
            injection hr with _ hr
            subst hr
            obtain ⟨x, h1, h2, h3⟩ := updateCommon_throw (E := E) (T := T) hu f
            refine ⟨m, x, rfl, ?_, h2, by simpa [ho] using h3⟩
            unfold nextThrows
            simp [h0, hm, ho, h1]
      | none =>
        simp only [ho] at hr
        split at hr
        · cases hr
        · split at hr
          · cases hr
          · next sl hsl =>
            cases hu : constructNew D orc f s m s.updated sl.loc with
            | ub => simp [hu, Res.bind] at hr
            | ok s1 => simp [hu, Res.bind] at hr
            | throw s1 e1 =>
              simp only [hu, Res.bind] at hr
              injection hr with _ hr
              subst hr
              obtain ⟨x, h1, h2, h3⟩ := constructNew_throw (E := E) (T := T) hu g
              refine ⟨m, x, rfl, ?_, h2, by simpa [ho] using h3⟩
              unfold nextThrows
              simp [h0, hm, ho, h1]

theorem nextThrows_ok {f : NewFn} {g : UpdFn} {s s' : Sess} (hr : updateNext D E orc f g s = .ok s') : nextThrows D E orc T f g s = none := by
  unfold nextThrows; rw [hr]

/-- Sessions keep their type. -/
theorem updateNext_ty {f : NewFn} {g : UpdFn} {s : Sess} : RSess (fun s' => s'.ty = s.ty) (updateNext D E orc f g s) := by
  have hs : Still s s := ⟨rfl, rfl, rfl, rfl, rfl, rfl, rfl⟩
  unfold updateNext
  cases hc : s.complete with
  | true => simp [RSess]
  | false =>
    simp only [Bool.false_eq_true, if_false]
    cases hm : (E.mixins s.ty)[s.updated]? with
    | none => trivial
    | some m =>
      cases ho : s.oldIndex E m with
      | some bi =>
        obtain ⟨b, oi⟩ := bi
        simp only [ho]
        cases hl : s.h.slot? b oi with
        | none => trivial
        | some sl =>
          have := still_updateCommon (D := D) (orc := orc) hs g m s.updated sl.loc
          revert this
          simp only
          cases updateCommon D orc g s m s.updated sl.loc <;> intro this
          · exact this.1.ty
          · exact this.1.ty
          · trivial
      | none =>
        simp only [ho]
        cases s.data with
        | none => trivial
        | some a =>
          simp only
          cases hl : s.h.slot? a s.updated with
          | none => trivial
          | some sl =>
            have := still_constructNew (D := D) (orc := orc) hs f m s.updated sl.loc
            revert this
            simp only
            cases constructNew D orc f s m s.updated sl.loc <;> intro this
            · exact this.1.ty
            · exact this.1.ty
            · trivial

end Dnmx
