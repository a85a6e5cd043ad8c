import Verif.Proofs.CopyLemmas

/-!
# Lemmas: how far a failed `copy_from` got
-/

set_option linter.unusedSimpArgs false
set_option linter.unusedVariables false
set_option linter.unusedSectionVars false

namespace Dnmx
open Spec

variable {D : Decls} {E : TyEnv} {orc : Orc}

/-- The mixins before `k` were assigned, those after `k` were not touched. -/
def Stopped (D : Decls) (E : TyEnv) (h0 : Heap) (ob : Obj) (t : TypeId) (src k : Nat) (h : Heap) : Prop :=
  Failed D E h0 ob t (fun j => decide (j ≤ k)) h ∧
  ∀ (j : Nat) (m : Mix) (b i : Nat) (sl : Slot), j < k → (E.mixins t)[j]? = some m → mixinIndex E ob m = some (b, i) → h0.slot b i = some sl →
    ∃ x v, sourceAt h0 src j = some (x, m, v) ∧ h.live sl.loc = some (m, v)

section
variable (hE : EnvOk D E) {h0 : Heap} (hk : HeapOk D E h0) {o : Nat} {ob : Obj} (ho : h0.obj? o = some ob) {t : TypeId} (hne : E.mixins t ≠ [])
include hE hk ho hne

/-- The loop of a mutation with copy functions: touched are those before the one that failed, and this one. -/
theorem stop_loop {f : NewFn} {src : Nat} (hf : NewFnOk D E h0 o ob t f) (hu : UpdFnOk D E h0 o ob t (.assign src)) : ∀ (n : Nat) (s : Sess),
    SessOk D E h0 o ob t ⟨fun _ => f, fun _ => .assign src, fun j => decide (j < s.updated)⟩ s → s.alloced = (E.mixins t).length → s.updated + n ≤ (E.mixins t).length →
    StepOk (updateLoop D E orc f (.assign src) n s)
      (fun s' => SessOk D E h0 o ob t ⟨fun _ => f, fun _ => .assign src, fun j => decide (j < s'.updated)⟩ s' ∧ s'.alloced = (E.mixins t).length ∧ s'.updated = s.updated + n)
      (fun s' _ => SessOk D E h0 o ob t ⟨fun _ => f, fun _ => .assign src, fun j => decide (j ≤ s'.updated)⟩ s')
  | 0, s, hs, hal, hle => ⟨hs, hal, rfl⟩
  | n + 1, s, hs, hal, hle => by
    have hc : s.complete = false := by
      cases hx : s.complete with
      | false => rfl
      | true => have := (hs.complete.1 hx).2; omega
    have h1 : SessOk D E h0 o ob t ⟨fun _ => f, fun _ => .assign src, fun j => decide (j ≤ s.updated)⟩ s :=
      hs.replan (fun _ _ => rfl) (fun _ _ => rfl) (fun i hi => by simp at hi ⊢; omega)
    unfold updateLoop
    refine (updateNext_ok (orc := orc) hE hk ho h1 hal hne (f := f) (u := .assign src) (fun _ => rfl) (fun _ => rfl) (fun _ => by simp) hf hu).bind ?_ ?_
    · rintro s' ⟨k1, k2, k3⟩
      rw [hc] at k3; simp at k3
      have k4 : SessOk D E h0 o ob t ⟨fun _ => f, fun _ => .assign src, fun j => decide (j < s'.updated)⟩ s' :=
        k1.replan (fun _ _ => rfl) (fun _ _ => rfl) (fun i hi => by simp at hi ⊢; omega)
      refine (stop_loop hf hu n s' k4 (by omega) (by omega)).mono ?_ (fun s'' _ h => h)
      rintro s'' ⟨j1, j2, j3⟩
      exact ⟨j1, j2, by omega⟩
    · rintro s' e ⟨k1, -, k3, -⟩
      exact k1.replan (fun _ _ => rfl) (fun _ _ => rfl) (fun i hi => by simp at hi ⊢; omega)

/-- The loop of a mutation to the same type. -/
theorem stop_loop_same (hty : ob.ty = some t) (f : NewFn) {src : Nat} (hu : UpdFnOkSame D E h0 t (.assign src)) : ∀ (n : Nat) (s : Sess),
    SameOk E h0 o ob t ⟨fun _ => .dflt, fun _ => .assign src, fun j => decide (j < s.updated)⟩ s → s.updated + n ≤ (E.mixins t).length →
    StepOk (updateLoop D E orc f (.assign src) n s) (fun s' => s'.updated = s.updated + n ∧ s'.ty = t)
      (fun s' _ => SameOk E h0 o ob t ⟨fun _ => .dflt, fun _ => .assign src, fun j => decide (j ≤ s'.updated)⟩ s')
  | 0, s, hs, hle => ⟨rfl, hs.ty⟩
  | n + 1, s, hs, hle => by
    have hc : s.complete = false := by
      cases hx : s.complete with
      | false => rfl
      | true => have := (hs.complete.1 hx).2; omega
    have hT : ∀ i, setAt (fun j => decide (j < s.updated)) s.updated true i = true → i ≤ s.updated := by
      intro i hi
      unfold setAt at hi
      split at hi
      · omega
      · simp at hi; omega
    unfold updateLoop
    refine (same_updateNext_ok (orc := orc) hE hk ho hty hs hne f (u := .assign src) hu (fun _ src' h => by simp at h; subst h; exact ⟨rfl, .inr (by simp)⟩)).bind ?_ ?_
    · rintro s' ⟨k1, k3⟩
      rw [hc] at k3; simp at k3
      simp only [reduceCtorEq, if_false] at k1
      have k4 : SameOk E h0 o ob t ⟨fun _ => .dflt, fun _ => .assign src, fun j => decide (j < s'.updated)⟩ s' :=
        k1.replan (fun _ _ => .inl rfl) (fun i hi => by have := hT i hi; simp; omega)
      exact (stop_loop_same hty f hu n s' k4 (by omega)).mono (fun s'' h => ⟨by omega, h.2⟩) (fun _ _ h => h)
    · rintro s' e ⟨k1, k3, -⟩
      simp only [reduceCtorEq, if_false] at k1
      exact k1.replan (fun _ _ => .inl rfl) (fun i hi => by have := hT i hi; simp; omega)

omit hE hk ho hne in
/-- A mutation that has updated everything does not fail in its destructor. -/
theorem dtor_no_throw {s : Sess} (hup : (E.mixins s.ty).length ≤ s.updated) (u : Bool) (h' : Heap) (e : XErr) : s.dtor D E orc u ≠ .throw h' e := by
  unfold Sess.dtor
  split
  · simp
  · split
    · split <;> simp
    · have : updateEach D E orc .dflt .noop none s = .ok s := by
        unfold updateEach
        rw [show min ((none : Option Nat).getD (E.mixins s.ty).length) (E.mixins s.ty).length - s.updated = 0 by simp; omega]
        rfl
      rw [this]
      simp only
      split <;> simp

theorem perform_stopped (hsl : ob.isSealed = false) (u : Bool) {f : NewFn} {src : Nat} (hf : ob.ty ≠ some t → NewFnOk D E h0 o ob t f) (hu : ob.ty ≠ some t → UpdFnOk D E h0 o ob t (.assign src))
    (hu' : ob.ty = some t → UpdFnOkSame D E h0 t (.assign src)) {h' : Heap} {e : XErr} (hr : perform D E orc u h0 o t f (.assign src) = .throw h' e) :
    ∃ k, Stopped D E h0 ob t src k h' := by
  unfold perform withMutation at hr
  rw [ho] at hr
  simp only [hsl, Bool.false_eq_true, if_false] at hr
  unfold allocateMixinData at hr
  by_cases hty : ob.ty = some t
  · rw [if_pos (show (Sess.begin h0 o ob t).oldTy = some (Sess.begin h0 o ob t).ty from hty)] at hr
    simp only at hr
    have hstart : SameOk E h0 o ob t ⟨fun _ => .dflt, fun _ => .assign src, fun j => decide (j < 0)⟩ { Sess.begin h0 o ob t with data := ob.data } := by
      refine ⟨rfl, rfl, rfl, rfl, Undone.refl E h0 ob t _, Nat.zero_le _, ?_, rfl, rfl, ?_⟩
      · simp [Sess.begin]
      · intro j m b i sl src hj; simp [Sess.begin] at hj
    have h1 := stop_loop_same (orc := orc) hE hk ho hne hty f (hu' hty) (min (((none : Option Nat)).getD (E.mixins t).length) (E.mixins t).length - 0)
      { Sess.begin h0 o ob t with data := ob.data } hstart (by simp [Sess.begin])
    unfold msteps mstep updateEach at hr
    simp only at hr
    cases hm : updateLoop D E orc f (.assign src) (min ((none : Option Nat).getD (E.mixins t).length) (E.mixins t).length - 0) { Sess.begin h0 o ob t with data := ob.data } with
    | ub => rw [hm] at h1; exact h1.elim
    | throw s' e' =>
      rw [hm] at h1 hr
      obtain ⟨k1, k2⟩ := sameUnwind (D := D) (orc := orc) hty h1 e'
      simp only [Res.bind, Bool.false_eq_true, if_false, k1] at hr
      injection hr with hr1 hr2
      subst hr1
      refine ⟨s'.updated, kept_failed k2, ?_⟩
      intro j m b i sl hj q1 q2 q3
      exact h1.assigned j m b i sl src hj q1 q2 q3 rfl
    | ok s' =>
      rw [hm] at h1 hr
      simp only [Res.bind, msteps] at hr
      exact absurd hr (dtor_no_throw (by rw [h1.2, h1.1]; simp) u h' e)
  · rw [if_neg (show ¬ (Sess.begin h0 o ob t).oldTy = some (Sess.begin h0 o ob t).ty from hty)] at hr
    by_cases hfail : orc.fail h0.tick = true
    · simp only [hfail, if_true] at hr
      rw [show h0.ticked = { h0 with tick := h0.tick + 1 } from rfl, unwind_begin] at hr
      injection hr with hr1 hr2
      subst hr1
      exact ⟨0, ⟨(Undone.refl E h0 ob t _).ticked, .same rfl rfl⟩, fun j _ _ _ _ hj => by omega⟩
    · simp only [hfail, Bool.false_eq_true, if_false] at hr
      have hstart := start_ok (D := D) (E := E) (o := o) (ob := ob) (t := t) hk ⟨fun _ => f, fun _ => .assign src, fun j => decide (j < 0)⟩
      have hal := allocLoop_ok (orc := orc) hE hk ho (E.mixins t).length _ hstart rfl (by simp [Sess.begin])
      cases hra : allocLoop D E orc (E.mixins t).length
        { Sess.begin h0 o ob t with h := (h0.ticked.allocate (.unified t ob.alloc)).countUp t 1, data := some h0.next } with
      | ub => rw [hra] at hal; exact hal.elim
      | throw s e' =>
        rw [hra] at hal
        obtain ⟨h1, -⟩ := hal
        obtain ⟨h2, k1, k2, k3⟩ := unwindWith_ok (orc := orc) hE hk hty h1 e'
        simp only [hra, k1] at hr
        injection hr with hr1 hr2
        subst hr1
        exact ⟨0, ⟨k2.mono (fun i hi => by simp at hi), k3⟩, fun j _ _ _ _ hj => by omega⟩
      | ok s =>
        rw [hra] at hal
        obtain ⟨h1, h2, h3⟩ := hal
        simp only [hra] at hr
        have h4 := stop_loop (orc := orc) hE hk ho hne (hf hty) (hu hty) (min ((none : Option Nat).getD (E.mixins s.ty).length) (E.mixins s.ty).length - s.updated) s
          (h1.replan (fun _ _ => rfl) (fun _ _ => rfl) (fun i hi => by simp at hi)) h3 (by rw [h1.ty, h2]; simp)
        unfold msteps mstep updateEach at hr
        simp only at hr
        cases hm : updateLoop D E orc f (.assign src) (min ((none : Option Nat).getD (E.mixins s.ty).length) (E.mixins s.ty).length - s.updated) s with
        | ub => rw [hm] at h4; exact h4.elim
        | throw s' e' =>
          rw [hm] at h4 hr
          obtain ⟨s2, j1, j2, j3, j4, j5, j6⟩ := rollback_ok (D := D) hE hk hty h4
          have : unwindWith D E orc s' e' = .throw s2.h e' := by unfold unwindWith Sess.dtor; rw [h4.movedOut]; simp [j1, Res.bind]
          simp only [Res.bind, Bool.false_eq_true, if_false, this] at hr
          injection hr with hr1 hr2
          subst hr1
          refine ⟨s'.updated, ⟨j3, newInits E ob t (fun _ => f) (s'.h.slot h0.next) s'.updated, by rw [j4, h4.inits], by rw [j5, h4.destroys, undo_matches]⟩, ?_⟩
          intro j m b i sl hj q1 q2 q3
          obtain ⟨x, v, r1, r2⟩ := h4.assigned j m b i sl src hj q1 q2 q3 rfl
          refine ⟨x, v, r1, ?_⟩
          rw [j6 sl.loc, r2]
          obtain ⟨sl', t1, t2, -⟩ := common_slot hE hk ho (mem_of_at q1) q2
          rw [q3] at t2; simp at t2; subst t2
          exact slot_lt hk t1
        | ok s' =>
          rw [hm] at h4 hr
          simp only [Res.bind, msteps] at hr
          exact absurd hr (dtor_no_throw (by rw [h4.1.ty, h4.2.2, h1.ty, h2]; simp) u h' e)

end

/-- A failed `copy_from` in terms of what the object holds. -/
theorem stopped_holds (hE : EnvOk D E) {h0 : Heap} (hk : HeapOk D E h0) {o src : Nat} {ob sb : Obj} (ho : h0.obj? o = some ob) (hs : h0.obj? src = some sb) {t : TypeId}
    (hty : sb.ty = some t) {k : Nat} {h : Heap} (hst : Stopped D E h0 ob t src k h) {m : Mix} {l : Loc} {v : Nat} (hh : Holds E h0 o m l v) :
    (∀ j : Nat, (E.mixins t)[j]? = some m → j < k → ∃ x v', Holds E h0 src m x v' ∧ Holds E h o m l v') ∧
    ((∀ j : Nat, (E.mixins t)[j]? = some m → k < j) → Holds E h o m l v) := by
  obtain ⟨hf, ha⟩ := hst
  obtain ⟨i, sl, hsl, rfl, hv⟩ := hh
  have hsl' := (undone_slots hE hk ho hf.1).2 hsl
  obtain ⟨ob', told, a, g1, g2, g3, g4, g5⟩ := hsl
  rw [ho] at g1; simp at g1; subst g1
  have hix : ∀ (j : Nat), (E.mixins t)[j]? = some m → mixinIndex E ob m = some (a, i) := by
    intro j hj
    unfold mixinIndex
    simp only [g3, g2]
    rw [(hE.index told told m i (mem_of_at g4)).2 g4]
    rfl
  constructor
  · intro j hj hlt
    obtain ⟨x, v', h1, h2⟩ := ha j m a i sl hlt hj (hix j hj) g5
    exact ⟨x, v', source_holds hs hty hj h1, i, sl, hsl', rfl, h2⟩
  · intro hgt
    refine ⟨i, sl, hsl', rfl, ?_⟩
    rcases hf.1.live sl.loc with h1 | ⟨j, m', b, i', sl', v', q1, q2, q3, q4, q5, -⟩
    · rw [h1]; exact hv
    · exfalso
      obtain ⟨sl2, t1, t2, -⟩ := common_slot hE hk ho (mem_of_at q2) q3
      rw [q4] at t2; simp at t2; subst t2
      obtain ⟨-, -, rfl⟩ := t1.same hE hk ⟨ob, told, a, ho, g2, g3, g4, g5⟩ q5
      have := hgt j q2
      simp at q1
      omega

end Dnmx
