import Verif.Proofs.ObjMessageLemmas

/-!
# Texts of exceptions of whole mutations
-/

set_option linter.unusedSimpArgs false
set_option linter.unusedVariables false
set_option linter.unusedSectionVars false

namespace Dnmx
open Spec

variable {D : Decls} {E : TyEnv} {orc : Orc} {T : Telling}

/-- The exception is the one that is thrown, and `Q` holds for it; there is none if there is a result, and `P` holds for that. -/
def ToldBy {σ : Type} (r : Res σ) (tx : Option ObjThrown) (P : σ → Prop) (Q : ObjThrown → Prop) : Prop :=
  match r with
  | .ok s => tx = none ∧ P s
  | .throw _ e => ∃ x, tx = some x ∧ x.err = e ∧ Q x
  | .ub => True

theorem ToldBy.mono {σ : Type} {r : Res σ} {tx : Option ObjThrown} {P P' : σ → Prop} {Q Q' : ObjThrown → Prop} (h : ToldBy r tx P Q) (hP : ∀ s, P s → P' s)
    (hQ : ∀ x, Q x → Q' x) : ToldBy r tx P' Q' := by
  cases r with
  | ok s => exact ⟨h.1, hP _ h.2⟩
  | throw s e => obtain ⟨x, h1, h2, h3⟩ := h; exact ⟨x, h1, h2, hQ x h3⟩
  | ub => trivial

/-! ## Mixins in order -/

/-- Up to the next mixin all went well, and the number of calls is known. -/
structure Told (D : Decls) (E : TyEnv) (orc : Orc) (h : Heap) (ob : Obj) (t : TypeId) (c : Bool) (fs : Mix → NewFn → Prop) (s : Sess) : Prop where
  ty : s.ty = t
  oldTy : s.oldTy = ob.ty
  oldData : s.oldData = ob.data
  movedOut : s.movedOut = false
  le : s.updated ≤ (E.mixins t).length
  tick : s.h.tick = callNumber D E h ob t c s.updated
  done : s.complete = true → s.updated = (E.mixins t).length
  well : WellBefore D E orc h ob t c fs s.updated

section
variable (hE : EnvOk D E) {h : Heap} {ob : Obj} {t : TypeId} {c : Bool} {fs : Mix → NewFn → Prop}
include hE

theorem already_index {s : Sess} (h1 : s.oldTy = ob.ty) (h2 : s.oldData = ob.data) {m : Mix} (hm : m ∈ E.mixins t) : (s.oldIndex E m).isSome = hasAlready E ob m := by
  unfold Sess.oldIndex hasAlready
  rw [h1, h2]
  cases ob.data with
  | none => simp
  | some b =>
    cases ob.ty with
    | none => simp
    | some u =>
      simp only [Option.isSome_map, Option.isSome_some, Bool.true_and, Option.elim_some]
      rw [Bool.eq_iff_iff, List.contains_iff_mem]
      constructor
      · intro h
        obtain ⟨i, hi⟩ := Option.isSome_iff_exists.1 h
        exact mem_of_at ((hE.index u t m i hm).1 hi)
      · intro h
        obtain ⟨i, hi⟩ := List.mem_iff_getElem?.1 h
        rw [(hE.index u t m i hm).2 hi]; rfl

theorem callsBefore_succ {i : Nat} {m : Mix} (hm : (E.mixins t)[i]? = some m) :
    callsBefore E ob t c (i + 1) = callsBefore E ob t c i + (if callsFor E ob c m then 1 else 0) := by
  unfold callsBefore
  rw [List.take_add_one, hm]
  simp [List.countP_append, List.countP_cons]

theorem told_next {f : NewFn} {g : UpdFn} {s : Sess} (hs : Told D E orc h ob t c fs s) (hg : (g != .noop) = c) (hf : ∀ m, (E.mixins t)[s.updated]? = some m → fs m f) :
    ToldBy (updateNext D E orc f g s) (nextThrows D E orc T f g s)
      (fun s' => Told D E orc h ob t c fs s' ∧ s'.updated = s.updated + (if s.complete then 0 else 1))
      (FirstFailed D E orc T h ob t fs g) := by
  cases hr : updateNext D E orc f g s with
  | ub => trivial
  | throw s' e =>
    obtain ⟨m, x, h1, h2, h3, h4⟩ := updateNext_throw_facts (T := T) hr
    rw [hs.ty] at h1
    refine ⟨x, h2, h3, s.updated, m, h1, ⟨f, hf m h1, ?_⟩, by rw [hg]; exact hs.well⟩
    rw [hs.ty, already_index hE hs.oldTy hs.oldData (mem_of_at h1), hs.tick] at h4
    rw [hg]; exact h4
  | ok s' =>
    refine ⟨nextThrows_ok hr, ?_⟩
    cases hc : s.complete with
    | true =>
      rw [updateNext_complete hc] at hr
      injection hr with hr; subst hr
      exact ⟨hs, by simp⟩
    | false =>
      obtain ⟨m, h1, h2, h3, h4⟩ := updateNext_ok_facts hr hc
      rw [hs.ty] at h1
      have hlt : s.updated < (E.mixins t).length := by
        obtain ⟨h, _⟩ := List.getElem?_eq_some_iff.1 h1; exact h
      rw [already_index hE hs.oldTy hs.oldData (mem_of_at h1)] at h3 h4
      have e1 : s'.updated = s.updated + 1 := by rw [h2]; rfl
      have hcalls : s'.h.tick = s.h.tick + (if callsFor E ob c m then 1 else 0) ∧
          (callsFor E ob c m = true → orc.fail s.h.tick = false ∧ (hasAlready E ob m = false → HasFn D f m)) := by
        cases ha : hasAlready E ob m with
        | true =>
          obtain ⟨h5, h6⟩ := h3 ha
          have : callsFor E ob c m = (g != .noop) := by simp [callsFor, ha, hg]
          rw [this]
          refine ⟨h5, fun h7 => ⟨h6 (by simpa using h7), by simp⟩⟩
        | false =>
          obtain ⟨h5, h6, h7⟩ := h4 ha
          have : callsFor E ob c m = true := by simp [callsFor, ha]
          rw [this]
          exact ⟨h5, fun _ => ⟨h6, fun _ => h7⟩⟩
      refine ⟨⟨by rw [h2]; exact hs.ty, by rw [h2]; exact hs.oldTy, by rw [h2]; exact hs.oldData, by rw [h2]; exact hs.movedOut, by rw [e1]; exact hlt, ?_, ?_, ?_⟩, by simpa [hc] using e1⟩
      · rw [e1, hcalls.1, hs.tick]
        unfold callNumber
        rw [callsBefore_succ hE h1]
        omega
      · intro h5
        rw [h2] at h5
        simp only [Sess.advanced, beq_iff_eq] at h5
        rw [e1, h5, hs.ty]
      · intro j m' hj hm' hcf
        rw [e1] at hj
        by_cases hjs : j = s.updated
        · subst hjs
          rw [h1] at hm'
          injection hm' with hm'; subst hm'
          obtain ⟨h5, h6⟩ := hcalls.2 hcf
          rw [hs.tick] at h5
          exact ⟨h5, fun h7 => ⟨f, hf m h1, h6 h7⟩⟩
        · exact hs.well j m' (by omega) hm' hcf

theorem told_loop {f : NewFn} {g : UpdFn} (hg : (g != .noop) = c) : ∀ (n : Nat) (s : Sess), Told D E orc h ob t c fs s →
    (∀ (j : Nat) (m : Mix), s.updated ≤ j → j < s.updated + n → (E.mixins t)[j]? = some m → fs m f) →
    ToldBy (updateLoop D E orc f g n s) (loopThrows D E orc T f g n s)
      (fun s' => Told D E orc h ob t c fs s' ∧ (s.updated + n ≤ (E.mixins t).length → s'.updated = s.updated + n))
      (FirstFailed D E orc T h ob t fs g)
  | 0, s, hs, _ => ⟨rfl, hs, fun _ => rfl⟩
  | n + 1, s, hs, hf => by
    unfold updateLoop loopThrows
    have h1 := told_next (T := T) hE hs hg (f := f) (fun m hm => hf s.updated m (Nat.le_refl _) (by omega) hm)
    cases hr : updateNext D E orc f g s with
    | ub => trivial
    | throw s' e =>
      rw [hr] at h1
      obtain ⟨x, h2, h3, h4⟩ := h1
      exact ⟨x, h2, h3, h4⟩
    | ok s' =>
      rw [hr] at h1
      obtain ⟨_, h2, h3⟩ := h1
      have h4 := told_loop hg n s' h2 (fun j m h5 h6 h7 => hf j m (by split at h3 <;> omega) (by split at h3 <;> omega) h7)
      refine h4.mono ?_ (fun x hx => hx)
      intro s2 ⟨h5, h6⟩
      refine ⟨h5, fun h7 => ?_⟩
      cases hc : s.complete with
      | true =>
        have := hs.done hc
        omega
      | false =>
        rw [hc] at h3
        simp only [Bool.false_eq_true, if_false] at h3
        have := h6 (by omega)
        omega

theorem told_each {f : NewFn} {g : UpdFn} (hg : (g != .noop) = c) (upto : Option Nat) {s : Sess} (hs : Told D E orc h ob t c fs s)
    (hf : ∀ (j : Nat) (m : Mix), s.updated ≤ j → j < upto.getD (E.mixins t).length → (E.mixins t)[j]? = some m → fs m f) :
    ToldBy (updateEach D E orc f g upto s) (eachThrows D E orc T f g upto s)
      (fun s' => Told D E orc h ob t c fs s' ∧ s'.updated = max s.updated (min (upto.getD (E.mixins t).length) (E.mixins t).length))
      (FirstFailed D E orc T h ob t fs g) := by
  unfold updateEach eachThrows
  rw [hs.ty]
  have hle := hs.le
  refine (told_loop hE hg _ s hs (fun j m h1 h2 h3 => hf j m h1 (by omega) h3)).mono ?_ (fun x hx => hx)
  intro s' ⟨h1, h2⟩
  refine ⟨h1, ?_⟩
  rw [h2 (by omega)]
  omega

/-! ## The destructor -/

theorem told_dtor {g : UpdFn} (u : Bool) {s : Sess} (hs : Told D E orc h ob t c fs s)
    (hf : ∀ (j : Nat) (m : Mix), s.updated ≤ j → (E.mixins t)[j]? = some m → fs m .dflt ∧ g = .noop) (hg : (g != .noop) = c) :
    ToldBy (s.dtor D E orc u) (dtorThrows D E orc T u s) (fun _ => u = false → WellBefore D E orc h ob t c fs (E.mixins t).length) (FirstFailed D E orc T h ob t fs g) := by
  unfold Sess.dtor dtorThrows
  rw [hs.movedOut]
  · simp only [Bool.false_eq_true, if_false]
    cases u with
    | true =>
      simp only [if_true]
      cases rollback D E s with
      | none => trivial
      | some s1 => exact ⟨rfl, by simp⟩
    | false =>
      simp only [Bool.false_eq_true, if_false]
      have hmain : ToldBy (updateEach D E orc .dflt .noop none s) (eachThrows D E orc T .dflt .noop none s) (fun _ => WellBefore D E orc h ob t c fs (E.mixins t).length) (FirstFailed D E orc T h ob t fs g) := by
        by_cases hlt : s.updated < (E.mixins t).length
        · obtain ⟨m, hm⟩ : ∃ m, (E.mixins t)[s.updated]? = some m := ⟨_, List.getElem?_eq_getElem hlt⟩
          have hgn := (hf s.updated m (Nat.le_refl _) hm).2
          subst hgn
          have := told_each (T := T) hE (f := .dflt) (g := .noop) hg none hs (fun j m h1 _ h2 => (hf j m h1 h2).1)
          refine this.mono (fun s' hs' => ?_) (fun _ hx => hx)
          have h1 := hs'.1.well
          rw [hs'.2] at h1
          simp only [Option.getD_none, Nat.min_self] at h1
          rw [Nat.max_eq_right hs.le] at h1
          exact h1
        · have h0 : min ((none : Option Nat).getD (E.mixins t).length) (E.mixins t).length - s.updated = 0 := by simp; omega
          unfold updateEach eachThrows
          rw [hs.ty, h0]
          have h1 := hs.well
          rw [show s.updated = (E.mixins t).length from by have := hs.le; omega] at h1
          exact ⟨rfl, h1⟩
      revert hmain
      cases updateEach D E orc .dflt .noop none s with
      | ub => intro _; trivial
      | throw s1 e =>
        intro hmain
        simp only
        cases rollback D E s1 with
        | none => trivial
        | some s2 => exact hmain
      | ok s1 =>
        intro hmain
        simp only
        split
        · trivial
        · exact ⟨hmain.1, fun _ => hmain.2⟩

/-! ## Allocation -/

/-- Calls of allocators for the first mixins. -/
def extCalls (D : Decls) (E : TyEnv) (ob : Obj) (t : TypeId) (i : Nat) : Nat := ((E.mixins t).take i).countP (fun m => (D.mix m).external && !hasAlready E ob m)

structure Alloced (D : Decls) (E : TyEnv) (orc : Orc) (h : Heap) (ob : Obj) (t : TypeId) (s : Sess) : Prop where
  ty : s.ty = t
  oldTy : s.oldTy = ob.ty
  oldData : s.oldData = ob.data
  movedOut : s.movedOut = false
  updated : s.updated = 0
  complete : s.complete = false
  tick : s.h.tick = h.tick + (1 + extCalls D E ob t s.alloced)
  well : ∀ k, k < 1 + extCalls D E ob t s.alloced → orc.fail (h.tick + k) = false

theorem alloced_one {s : Sess} (hs : Alloced D E orc h ob t s) (ht : ob.ty ≠ some t) :
    match allocOne D E orc s with
    | .ok s' => Alloced D E orc h ob t s' ∧ s'.alloced = s.alloced + 1
    | .throw _ e => AllocFailed D E orc h ob t ⟨e, none⟩
    | .ub => True := by
  unfold allocOne
  cases s.data with
  | none => simp
  | some a =>
    rw [hs.ty]
    cases hm : (E.mixins t)[s.alloced]? with
    | none => simp
    | some m =>
      simp only
      have hint := hE.internal t s.alloced m hm
      have hsucc : extCalls D E ob t (s.alloced + 1) = extCalls D E ob t s.alloced + (if (D.mix m).external && !hasAlready E ob m then 1 else 0) := by
        unfold extCalls
        rw [List.take_add_one, hm]
        simp [List.countP_append, List.countP_cons]
      have hix := already_index hE (ob := ob) (t := t) hs.oldTy hs.oldData (mem_of_at hm)
      cases he : (D.mix m).external with
      | false =>
        rw [he] at hint hsucc
        simp only [Bool.false_and, Bool.false_eq_true, if_false, Nat.add_zero] at hsucc
        simp only [hint, Bool.not_false, if_true]
        refine ⟨⟨rfl, hs.oldTy, hs.oldData, hs.movedOut, hs.updated, hs.complete, ?_, ?_⟩, trivial⟩
        · simp only [hsucc]; exact hs.tick
        · simp only [hsucc]; exact hs.well
      | true =>
        rw [he] at hint hsucc
        simp only [hint, Bool.not_true, Bool.false_eq_true, if_false]
        cases ho : s.oldIndex E m with
        | some bi =>
          obtain ⟨b, i⟩ := bi
          rw [ho] at hix
          have hha : hasAlready E ob m = true := by simpa using hix.symm
          simp only [hha, Bool.not_true, Bool.and_false, Bool.false_eq_true, if_false, Nat.add_zero] at hsucc
          simp only
          cases s.h.slot? b i with
          | none => trivial
          | some sl =>
            refine ⟨⟨rfl, hs.oldTy, hs.oldData, hs.movedOut, hs.updated, hs.complete, ?_, ?_⟩, rfl⟩
            · simp only [hsucc]; exact hs.tick
            · simp only [hsucc]; exact hs.well
        | none =>
          rw [ho] at hix
          have hha : hasAlready E ob m = false := by simpa using hix.symm
          simp only [hha, Bool.not_false, Bool.and_true, if_true] at hsucc
          simp only
          cases hf : orc.fail s.h.tick with
          | true =>
            simp only [if_true]
            refine ⟨rfl, 1 + extCalls D E ob t s.alloced, ?_, by rw [← hs.tick]; exact hf, hs.well⟩
            unfold allocCalls
            rw [if_neg ht]
            have : extCalls D E ob t (s.alloced + 1) ≤ (E.mixins t).countP (fun m => (D.mix m).external && !hasAlready E ob m) := by
              unfold extCalls
              exact (List.take_sublist _ _).countP_le
            omega
          | false =>
            simp only [Bool.false_eq_true, if_false]
            refine ⟨⟨rfl, hs.oldTy, hs.oldData, hs.movedOut, hs.updated, hs.complete, ?_, ?_⟩, trivial⟩
            · simp only [hsucc]; have := hs.tick; omega
            · simp only [hsucc]
              intro k hk
              by_cases hlast : k = 1 + extCalls D E ob t s.alloced
              · subst hlast; rw [← hs.tick]; exact hf
              · exact hs.well k (by omega)

theorem alloced_loop (ht : ob.ty ≠ some t) : ∀ (k : Nat) (s : Sess), Alloced D E orc h ob t s → s.alloced + k = (E.mixins t).length →
    match allocLoop D E orc k s with
    | .ok s' => Alloced D E orc h ob t s' ∧ s'.alloced = (E.mixins t).length
    | .throw _ e => AllocFailed D E orc h ob t ⟨e, none⟩
    | .ub => True
  | 0, s, hs, hk => ⟨hs, by omega⟩
  | k + 1, s, hs, hk => by
    unfold allocLoop
    have h1 := alloced_one hE hs ht
    revert h1
    cases allocOne D E orc s with
    | ub => intro _; trivial
    | throw s1 e => intro h1; exact h1
    | ok s1 =>
      intro h1
      obtain ⟨h2, h3⟩ := h1
      exact alloced_loop ht k s1 h2 (by omega)

theorem told_allocate (o : Nat) :
    match allocateMixinData D E orc (Sess.begin h o ob t) with
    | .ok s => Told D E orc h ob t c fs s ∧ s.updated = 0 ∧ ∀ k, k < allocCalls D E ob t → orc.fail (h.tick + k) = false
    | .throw _ e => AllocFailed D E orc h ob t ⟨e, none⟩
    | .ub => True := by
  have hwell : WellBefore D E orc h ob t c fs 0 := fun j m hj => absurd hj (Nat.not_lt_zero j)
  have hcb : callsBefore E ob t c 0 = 0 := by simp [callsBefore]
  unfold allocateMixinData
  by_cases ht : ob.ty = some t
  · have hac : allocCalls D E ob t = 0 := by simp [allocCalls, ht]
    simp only [ht, if_true]
    exact ⟨⟨rfl, ht.symm, rfl, rfl, Nat.zero_le _, by simp [callNumber, hac, hcb], by simp, hwell⟩, trivial, fun k hk => by omega⟩
  · have hac : allocCalls D E ob t = 1 + extCalls D E ob t (E.mixins t).length := by simp [allocCalls, ht, extCalls]
    simp only [ht, if_false]
    cases hf : orc.fail h.tick with
    | true =>
      simp only [if_true]
      exact ⟨rfl, 0, by omega, hf, fun j hj => absurd hj (Nat.not_lt_zero j)⟩
    | false =>
      simp only [Bool.false_eq_true, if_false]
      have h0 : extCalls D E ob t 0 = 0 := by simp [extCalls]
      have hs : Alloced D E orc h ob t { Sess.begin h o ob t with
          h := (h.ticked.allocate (.unified t ob.alloc)).countUp t 1, data := some h.next } :=
        ⟨rfl, rfl, rfl, rfl, rfl, rfl, by simp [h0], by
          simp only [h0]
          intro k hk
          have : k = 0 := by omega
          subst this; exact hf⟩
      have := alloced_loop hE ht (E.mixins t).length _ hs (by simp)
      revert this
      cases allocLoop D E orc (E.mixins t).length _ with
      | ub => intro _; trivial
      | throw s1 e => intro h1; exact h1
      | ok s1 =>
        intro ⟨h1, h2⟩
        have h3 := h1.tick
        have h4 := h1.well
        rw [h2, ← hac] at h3 h4
        refine ⟨⟨h1.ty, h1.oldTy, h1.oldData, h1.movedOut, by rw [h1.updated]; omega, ?_, by rw [h1.complete]; simp, by rw [h1.updated]; exact hwell⟩, h1.updated, h4⟩
        rw [h1.updated, h3, callNumber, hcb]; rfl

/-! ## Whole mutations -/

omit hE in
/-- Nothing failed. -/
def WentWell (D : Decls) (E : TyEnv) (orc : Orc) (h : Heap) (ob : Obj) (t : TypeId) (c : Bool) (fs : Mix → NewFn → Prop) : Prop :=
  ob.isSealed = false ∧ (∀ k, k < allocCalls D E ob t → orc.fail (h.tick + k) = false) ∧ WellBefore D E orc h ob t c fs (E.mixins t).length

theorem unwindWith_cases (s : Sess) (e : XErr) : unwindWith D E orc s e = .ub ∨ ∃ h', unwindWith D E orc s e = .throw h' e := by
  unfold unwindWith Sess.dtor
  cases s.movedOut with
  | true => exact .inr ⟨_, rfl⟩
  | false =>
    simp only [Bool.false_eq_true, if_false, if_true]
    cases rollback D E s with
    | none => exact .inl rfl
    | some s1 => exact .inr ⟨_, rfl⟩

omit hE in
theorem told_of_unwind {r : Res Heap} {tx : Option ObjThrown} {e : XErr} {P : Heap → Prop} {Q : ObjThrown → Prop} (hr : r = .ub ∨ ∃ h', r = .throw h' e)
    (hx : ∃ x, tx = some x ∧ x.err = e ∧ Q x) : ToldBy r tx P Q := by
  rcases hr with hr | ⟨h', hr⟩
  · rw [hr]; trivial
  · rw [hr]; exact hx

theorem told_mutation {g : UpdFn} (hg : (g != .noop) = c) (u : Bool) {o : Nat} (ho : h.obj? o = some ob) {steps : List (MStep × Bool)}
    (hsteps : ∀ s, Told D E orc h ob t c fs s → s.updated = 0 →
      ToldBy (msteps D E orc steps s) (mstepsThrows D E orc T steps s)
        (fun s' => Told D E orc h ob t c fs s' ∧ ∀ (j : Nat) (m : Mix), s'.updated ≤ j → (E.mixins t)[j]? = some m → fs m .dflt ∧ g = .noop)
        (FirstFailed D E orc T h ob t fs g)) :
    ToldBy (withMutation D E orc u h o t steps) (mutationThrows D E orc T u h o t steps) (fun _ => u = false → WentWell D E orc h ob t c fs) (MutSays D E orc T h ob t fs g) := by
  unfold withMutation mutationThrows
  rw [ho]
  simp only
  cases hsl : ob.isSealed with
  | true =>
    simp only [if_true]
    exact told_of_unwind (unwindWith_cases hE _ _) ⟨_, rfl, rfl, .sealed ⟨hsl, rfl⟩⟩
  | false =>
    simp only [Bool.false_eq_true, if_false]
    have hal := told_allocate (orc := orc) (c := c) (fs := fs) hE (h := h) (ob := ob) (t := t) o
    revert hal
    cases allocateMixinData D E orc (Sess.begin h o ob t) with
    | ub => intro _; trivial
    | throw s1 e =>
      intro hal
      exact told_of_unwind (unwindWith_cases hE _ _) ⟨_, rfl, rfl, .alloc hsl hal⟩
    | ok s1 =>
      intro ⟨h1, h2, h3⟩
      simp only
      have h4 := hsteps s1 h1 h2
      revert h4
      cases msteps D E orc steps s1 with
      | ub => intro _; trivial
      | throw s2 e =>
        intro ⟨x, h5, h6, h7⟩
        exact told_of_unwind (unwindWith_cases hE _ _) ⟨x, h5, h6, .mixin hsl h3 h7⟩
      | ok s2 =>
        intro ⟨h5, h6, h7⟩
        exact (told_dtor (T := T) hE u h6 h7 hg).mono (fun _ hw hu => ⟨hsl, h3, hw hu⟩) (fun x hx => .mixin hsl h3 hx)

/-- `perform_object_mutation`. -/
theorem told_perform (u : Bool) {o : Nat} (ho : h.obj? o = some ob) (t : TypeId) (f : NewFn) (g : UpdFn) :
    ToldBy (perform D E orc u h o t f g) (performThrows D E orc T u h o t f g) (fun _ => u = false → WentWell D E orc h ob t (g != .noop) (always f)) (MutSays D E orc T h ob t (always f) g) := by
  unfold perform performThrows
  refine told_mutation hE (c := (g != .noop)) rfl u ho ?_
  intro s hs h0
  have := told_each (T := T) hE (f := f) (g := g) rfl none hs (fun _ _ _ _ _ => rfl)
  unfold msteps mstepsThrows mstep
  simp only
  revert this
  unfold mstepThrows
  cases updateEach D E orc f g none s with
  | ub => intro _; trivial
  | throw s1 e => intro h1; exact h1
  | ok s1 =>
    intro ⟨h1, h2, h3⟩
    refine ⟨rfl, h2, ?_⟩
    intro j m hj hm
    rw [h3, h0] at hj
    simp only [Option.getD_none, Nat.min_self, Nat.zero_max] at hj
    rw [List.getElem?_eq_none (by omega)] at hm
    cases hm

/-- The steps of `mutate_to`. -/
theorem told_mutateToSteps : ∀ (l : List (Nat × Nat)) (s : Sess), l.Pairwise (fun a b => a.1 < b.1) → (∀ x ∈ l, x.1 < (E.mixins t).length) →
    (∀ x ∈ l, s.updated ≤ x.1) → Told D E orc h ob t false fs s → (∀ (j : Nat) (m : Mix), s.updated ≤ j → (E.mixins t)[j]? = some m → fs m (planOf l j)) →
    ToldBy (msteps D E orc (mutateToSteps l) s) (mstepsThrows D E orc T (mutateToSteps l) s)
      (fun s' => Told D E orc h ob t false fs s' ∧ ∀ (j : Nat) (m : Mix), s'.updated ≤ j → (E.mixins t)[j]? = some m → fs m .dflt)
      (FirstFailed D E orc T h ob t fs .noop)
  | [], s, _, _, _, hs, hf => ⟨rfl, hs, hf⟩
  | (i, k) :: l, s, hl, hlt, hup, hs, hf => by
    have hl1 := List.pairwise_cons.1 hl
    have hi := hlt (i, k) (by simp)
    have hui := hup (i, k) (by simp)
    simp only at hi hui
    have hstep : mutateToSteps ((i, k) :: l) = (.each .dflt .noop (some i), false) :: (.next (.custom k) .noop, false) :: mutateToSteps l := by simp [mutateToSteps]
    rw [hstep]
    have h1 := told_each (T := T) hE (f := .dflt) (g := .noop) (c := false) rfl (some i) hs (fun j m h1 h2 h3 => by
      have := hf j m h1 h3
      simp only [Option.getD_some] at h2
      rw [planOf_none (by
        intro x hx
        rcases List.mem_cons.1 hx with hx | hx
        · rw [hx]; simp only; omega
        · have := hl1.1 x hx
          simp only at this; omega)] at this
      exact this)
    rw [msteps, mstepsThrows]
    simp only [mstep, mstepThrows]
    revert h1
    cases hr1 : updateEach D E orc .dflt .noop (some i) s with
    | ub => intro _; trivial
    | throw s1 e => intro h1; exact h1
    | ok s1 =>
      intro ⟨_, h2, h3⟩
      simp only [Option.getD_some] at h3
      have hs1 : s1.updated = i := by omega
      have h4 := told_next (T := T) hE (f := .custom k) (g := .noop) (c := false) h2 rfl (fun m hm => by
        have := hf s1.updated m (by omega) hm
        rw [hs1, planOf_head] at this
        exact this)
      simp only [Res.bind]
      rw [msteps, mstepsThrows]
      simp only [mstep, mstepThrows]
      revert h4
      cases hr2 : updateNext D E orc (.custom k) .noop s1 with
      | ub => intro _; trivial
      | throw s2 e => intro h4; exact h4
      | ok s2 =>
        intro ⟨_, h5, h6⟩
        have hnc : s1.complete = false := by
          cases hc : s1.complete with
          | false => rfl
          | true => have := h2.done hc; omega
        rw [hnc, hs1] at h6
        simp only [Bool.false_eq_true, if_false] at h6
        simp only [Res.bind]
        refine told_mutateToSteps l s2 hl1.2 (fun x hx => hlt x (by simp [hx])) (fun x hx => ?_) h5 ?_
        · have := hl1.1 x hx
          simp only at this; omega
        · intro j m hj hm
          have := hf j m (by omega) hm
          rwa [planOf_tail l (by omega)] at this

theorem told_mutateTo (u : Bool) {o : Nat} (ho : h.obj? o = some ob) (t : TypeId) (ops : List InitOp) (hd : (ops.map Prod.fst).Nodup)
    (hin : ∀ x ∈ ops, ∃ u, x.1 ∈ E.mixins u) :
    ToldBy (withMutation D E orc u h o t (mutateToSteps (sortedOps E t ops))) (mutationThrows D E orc T u h o t (mutateToSteps (sortedOps E t ops))) (fun _ => u = false → WentWell D E orc h ob t false (chosenBy ops))
      (MutSays D E orc T h ob t (chosenBy ops) .noop) := by
  have hm : ∀ x ∈ ops, IndexFits E t x.1 := by
    intro x hx i hi
    obtain ⟨v, hv⟩ := hin x hx
    exact (hE.index t v x.1 i hv).1 hi
  have hsort := sortedOps_sorted hE (t := t) hd hm
  have hlt : ∀ x ∈ sortedOps E t ops, x.1 < (E.mixins t).length := by
    intro x hx
    obtain ⟨i, k⟩ := x
    obtain ⟨m, h4, h5⟩ := (sortedOps_mem hE).1 hx
    obtain ⟨h6, _⟩ := List.getElem?_eq_some_iff.1 (hm (m, k) h4 i h5)
    exact h6
  refine told_mutation hE (c := false) rfl u ho ?_
  intro s hs h0
  refine (told_mutateToSteps hE (sortedOps E t ops) s hsort hlt (fun x hx => by omega) hs ?_).mono (fun s' hs' => ⟨hs'.1, fun j m hj hm => ⟨hs'.2 j m hj hm, rfl⟩⟩)
    (fun _ hx => hx)
  intro j m _ hj
  have hix := (hE.index t t m j (mem_of_at hj)).2 hj
  cases hp : (sortedOps E t ops).find? (fun x => x.1 == j) with
  | some x =>
    obtain ⟨j', k⟩ := x
    have h1 := List.mem_of_find?_eq_some hp
    have h2 := List.find?_some hp
    simp only [beq_iff_eq] at h2
    subst h2
    rw [planOf_some hsort h1]
    obtain ⟨m', h3, h4⟩ := (sortedOps_mem hE).1 h1
    have h5 := hm (m', k) h3 j' h4
    simp only at h5
    rw [hj] at h5
    injection h5 with h5
    subst h5
    exact .inl ⟨k, h3, rfl⟩
  | none =>
    have h1 := List.find?_eq_none.1 hp
    rw [planOf_none (fun x hx => by simpa using h1 x hx)]
    refine .inr ⟨fun k hk => ?_, rfl⟩
    have := h1 (j, k) ((sortedOps_mem hE).2 ⟨m, hk, hix⟩)
    simp at this

end

end Dnmx
