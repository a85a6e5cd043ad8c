import Verif.Model.ObjectV1
import Verif.Proofs.HeapLemmas

/-! A mutation of an object without a type and of one with an empty type does the same. -/

set_option linter.unusedSimpArgs false
set_option linter.unusedVariables false
set_option linter.unusedSectionVars false

namespace Dnmx

/-- two outcomes that correspond -/
def RelR {σ τ : Type} (P : σ → τ → Prop) : Res σ → Res τ → Prop
  | .ok s, .ok s' => P s s'
  | .throw s e, .throw s' e' => P s s' ∧ e = e'
  | .ub, .ub => True
  | _, _ => False

theorem RelR.bind {σ τ σ' τ' : Type} {P : σ → τ → Prop} {Q : σ' → τ' → Prop} {r : Res σ} {r' : Res τ}
    (h : RelR P r r') {f : σ → Res σ'} {g : σ → XErr → Res σ'} {f' : τ → Res τ'} {g' : τ → XErr → Res τ'}
    (hf : ∀ s s', P s s' → RelR Q (f s) (f' s')) (hg : ∀ s s' e, P s s' → RelR Q (g s e) (g' s' e)) :
    RelR Q (r.bind f g) (r'.bind f' g') := by
  cases r <;> cases r' <;> first | exact h.elim | skip
  · exact hf _ _ h
  · obtain ⟨h1, rfl⟩ := h; exact hg _ _ _ h1
  · trivial

section
variable {D : Decls} {E : TyEnv} {orc : Orc} {o : Nat} {x0 x1 : Obj} {e t : TypeId}

theorem deallocate_setObj (h : Heap) (x : Option Obj) (a : Nat) (b : Blk) :
    (h.setObj o x).deallocate a b = (h.deallocate a b).map (fun h => h.setObj o x) := by
  unfold Heap.deallocate
  by_cases hb : h.blk a = some b
  · rw [if_pos hb, if_pos hb]; rfl
  · rw [if_neg hb, if_neg hb]; rfl

theorem construct_setObj (h : Heap) (x : Option Obj) (l : Loc) (m : Mix) (v : Nat) (how : How) :
    (h.setObj o x).construct l m v how = (h.construct l m v how).map (fun h => h.setObj o x) := by
  unfold Heap.construct
  by_cases hb : (h.blk l.1).isSome ∧ h.live l = none
  · rw [if_pos hb, if_pos hb]; rfl
  · rw [if_neg hb, if_neg hb]; rfl

theorem destroy_setObj (h : Heap) (x : Option Obj) (l : Loc) (m : Mix) :
    (h.setObj o x).destroy D l m = (h.destroy D l m).map (fun h => h.setObj o x) := by
  unfold Heap.destroy
  show (match h.live l with | some (m', _) => _ | none => _) = _
  cases hl : h.live l with
  | none => rfl
  | some p =>
    obtain ⟨m', v⟩ := p
    simp only
    by_cases hb : m' = m ∧ (h.blk l.1).isSome
    · rw [if_pos hb, if_pos hb]
      by_cases hd : (D.mix m).hasDestroy = true
      · rw [if_pos hd, if_pos hd]; rfl
      · rw [if_neg hd, if_neg hd]; rfl
    · rw [if_neg hb, if_neg hb]; rfl

theorem deallocate_objs_same {h h' : Heap} {a : Nat} {b : Blk} (hr : h.deallocate a b = some h') : h'.objs = h.objs := by
  unfold Heap.deallocate at hr
  by_cases hb : h.blk a = some b
  · rw [if_pos hb] at hr; simp only [Option.some.injEq] at hr; subst hr; rfl
  · rw [if_neg hb] at hr; simp at hr

theorem construct_objs_same {h h' : Heap} {l : Loc} {m : Mix} {v : Nat} {how : How} (hr : h.construct l m v how = some h') :
    h'.objs = h.objs := by
  unfold Heap.construct at hr
  by_cases hb : (h.blk l.1).isSome ∧ h.live l = none
  · rw [if_pos hb] at hr; simp only [Option.some.injEq] at hr; subst hr; rfl
  · rw [if_neg hb] at hr; simp at hr

theorem destroy_objs_same {h h' : Heap} {l : Loc} {m : Mix} (hr : h.destroy D l m = some h') : h'.objs = h.objs := by
  unfold Heap.destroy at hr
  cases hl : h.live l with
  | none => rw [hl] at hr; simp at hr
  | some p =>
    obtain ⟨m', v⟩ := p
    rw [hl] at hr
    simp only at hr
    by_cases hb : m' = m ∧ (h.blk l.1).isSome
    · rw [if_pos hb] at hr
      by_cases hd : (D.mix m).hasDestroy = true
      · rw [if_pos hd] at hr; simp only [Option.some.injEq] at hr; subst hr; rfl
      · rw [if_neg hd] at hr; simp only [Option.some.injEq] at hr; subst hr; rfl
    · rw [if_neg hb] at hr; simp at hr

/-- The same session of an object without type and data, and of one with the empty type `e`. -/
structure Lift (o : Nat) (x0 x1 : Obj) (e t : TypeId) (s s' : Sess) : Prop where
  oldTy : s.oldTy = none
  oldData : s.oldData = none
  obj : s.o = o
  ty : s.ty = t
  there : s.h.objs[o]? = some (some x0)
  eq : s' = { s with h := s.h.setObj o (some x1), oldTy := some e }

/-- the same heap but for the object -/
def LiftH (o : Nat) (x0 x1 : Obj) (h h' : Heap) : Prop := h.objs[o]? = some (some x0) ∧ h' = h.setObj o (some x1)

def RelO (P : Heap → Heap → Prop) : Option Heap → Option Heap → Prop
  | some h, some h' => P h h'
  | none, none => True
  | _, _ => False

theorem oldIndex_lift {s s' : Sess} (hl : Lift o x0 x1 e t s s') (m : Mix) : s.oldIndex E m = none ∧ s'.oldIndex E m = none := by
  have h1 : s.oldIndex E m = none := by unfold Sess.oldIndex; rw [hl.oldData]
  refine ⟨h1, ?_⟩
  rw [hl.eq]
  unfold Sess.oldIndex
  simp only [hl.oldData]

theorem allocOne_lift {s s' : Sess} (hl : Lift o x0 x1 e t s s') :
    RelR (Lift o x0 x1 e t) (allocOne D E orc s) (allocOne D E orc s') := by
  have hi := fun m => oldIndex_lift (E := E) hl m
  have hd : s'.data = s.data := by rw [hl.eq]
  have ha : s'.alloced = s.alloced := by rw [hl.eq]
  have hty : s'.ty = s.ty := by rw [hl.eq]
  have htick : s'.h.tick = s.h.tick := by rw [hl.eq]
  unfold allocOne
  rw [hd, ha, hty, htick]
  cases h1 : s.data with
  | none => trivial
  | some a =>
    cases h2 : (E.mixins s.ty)[s.alloced]? with
    | none => trivial
    | some m =>
      simp only
      rw [(hi m).1, (hi m).2]
      have h3 : s'.h = s.h.setObj o (some x1) := by rw [hl.eq]
      by_cases h4 : E.internal s.ty s.alloced = true
      · rw [if_pos h4, if_pos h4]
        exact ⟨hl.oldTy, hl.oldData, hl.obj, hl.ty, hl.there, by rw [hl.eq]⟩
      · rw [if_neg h4, if_neg h4]
        simp only
        by_cases h5 : orc.fail s.h.tick = true
        · rw [if_pos h5, if_pos h5]
          exact ⟨⟨hl.oldTy, hl.oldData, hl.obj, hl.ty, hl.there, by rw [hl.eq]⟩, rfl⟩
        · rw [if_neg h5, if_neg h5]
          exact ⟨hl.oldTy, hl.oldData, hl.obj, hl.ty, hl.there, by rw [hl.eq]⟩

theorem allocLoop_lift : ∀ (n : Nat) {s s' : Sess}, Lift o x0 x1 e t s s' →
    RelR (Lift o x0 x1 e t) (allocLoop D E orc n s) (allocLoop D E orc n s')
  | 0, _, _, hl => hl
  | n + 1, _, _, hl => by
    unfold allocLoop
    exact (allocOne_lift hl).bind (fun s s' h => allocLoop_lift n h) (fun s s' e h => ⟨h, rfl⟩)

theorem allocateMixinData_lift (hne : e ≠ t) {s s' : Sess} (hl : Lift o x0 x1 e t s s') :
    RelR (Lift o x0 x1 e t) (allocateMixinData D E orc s) (allocateMixinData D E orc s') := by
  have hty : s'.ty = s.ty := by rw [hl.eq]
  have htick : s'.h.tick = s.h.tick := by rw [hl.eq]
  have hn1 : ¬ (s.oldTy = some s.ty) := by rw [hl.oldTy]; simp
  have hn2 : ¬ (s'.oldTy = some s.ty) := by rw [hl.eq, hl.ty]; simpa using hne
  unfold allocateMixinData
  rw [hty, htick, if_neg hn1, if_neg hn2]
  by_cases h5 : orc.fail s.h.tick = true
  · rw [if_pos h5, if_pos h5]
    exact ⟨⟨hl.oldTy, hl.oldData, hl.obj, hl.ty, hl.there, by rw [hl.eq]⟩, rfl⟩
  · rw [if_neg h5, if_neg h5]
    simp only
    apply allocLoop_lift
    exact ⟨hl.oldTy, hl.oldData, hl.obj, hl.ty, hl.there, by rw [hl.eq]⟩

theorem destroyLoop_lift {s s' : Sess} (hl : Lift o x0 x1 e t s s') : ∀ (n : Nat) {h h' : Heap}, LiftH o x0 x1 h h' →
    RelO (LiftH o x0 x1) (destroyLoop D E s n h) (destroyLoop D E s' n h')
  | 0, _, _, hh => hh
  | n + 1, h, h', hh => by
    have hi := fun m => oldIndex_lift (E := E) hl m
    have hd : s'.data = s.data := by rw [hl.eq]
    have hty : s'.ty = s.ty := by rw [hl.eq]
    unfold destroyLoop
    rw [hd, hty]
    cases h1 : s.data with
    | none => trivial
    | some a =>
      cases h2 : (E.mixins s.ty)[n]? with
      | none => trivial
      | some m =>
        simp only
        rw [(hi m).1, (hi m).2]
        simp only
        have h3 : h'.slot? a n = h.slot? a n := by rw [hh.2]; rfl
        rw [h3]
        cases h4 : h.slot? a n with
        | none => trivial
        | some sl =>
          simp only
          rw [hh.2, destroy_setObj]
          cases h5 : h.destroy D sl.loc m with
          | none => trivial
          | some h6 => exact destroyLoop_lift hl n ⟨by rw [destroy_objs_same h5]; exact hh.1, rfl⟩

theorem deallocLoop_lift {s s' : Sess} (hl : Lift o x0 x1 e t s s') : ∀ (n : Nat) {h h' : Heap}, LiftH o x0 x1 h h' →
    RelO (LiftH o x0 x1) (deallocLoop D E s n h) (deallocLoop D E s' n h')
  | 0, _, _, hh => hh
  | n + 1, h, h', hh => by
    have hi := fun m => oldIndex_lift (E := E) hl m
    have hd : s'.data = s.data := by rw [hl.eq]
    have hty : s'.ty = s.ty := by rw [hl.eq]
    have hal : s'.al = s.al := by rw [hl.eq]
    unfold deallocLoop
    rw [hd, hty, hal]
    cases h1 : s.data with
    | none => trivial
    | some a =>
      cases h2 : (E.mixins s.ty)[n]? with
      | none => trivial
      | some m =>
        simp only
        have h3 : h'.slot? a n = h.slot? a n := by rw [hh.2]; rfl
        rw [h3]
        cases h4 : h.slot? a n with
        | none => trivial
        | some sl =>
          simp only
          cases h5 : sl.buf with
          | none => exact deallocLoop_lift hl n hh
          | some b =>
            simp only
            rw [(hi m).1, (hi m).2]
            simp only
            rw [hh.2, deallocate_setObj]
            cases h5 : h.deallocate b (provenance D m s.al) with
            | none => trivial
            | some h6 => exact deallocLoop_lift hl n ⟨by rw [deallocate_objs_same h5]; exact hh.1, rfl⟩

theorem rollback_lift (hne : e ≠ t) {s s' : Sess} (hl : Lift o x0 x1 e t s s') :
    match rollback D E s, rollback D E s' with
    | some s1, some s2 => LiftH o x0 x1 s1.h s2.h
    | none, none => True
    | _, _ => False := by
  have hd : s'.data = s.data := by rw [hl.eq]
  have hu : s'.updated = s.updated := by rw [hl.eq]
  have ha : s'.alloced = s.alloced := by rw [hl.eq]
  have hal : s'.al = s.al := by rw [hl.eq]
  have hty : s'.ty = s.ty := by rw [hl.eq]
  have hh : LiftH o x0 x1 s.h s'.h := ⟨hl.there, by rw [hl.eq]⟩
  unfold rollback
  rw [if_neg (by rw [hl.oldTy]; simp), if_neg (by rw [hl.eq, hl.ty]; simpa using hne), hd, hu, ha, hal, hty]
  have h1 := destroyLoop_lift (D := D) (E := E) hl s.updated hh
  cases h2 : destroyLoop D E s s.updated s.h with
  | none =>
    rw [h2] at h1
    cases h3 : destroyLoop D E s' s.updated s'.h with
    | none => trivial
    | some h4 => rw [h3] at h1; exact h1.elim
  | some h4 =>
    rw [h2] at h1
    cases h3 : destroyLoop D E s' s.updated s'.h with
    | none => rw [h3] at h1; exact h1.elim
    | some h5 =>
      rw [h3] at h1
      have h6 := deallocLoop_lift (D := D) (E := E) hl s.alloced h1
      simp only [Option.bind_some]
      cases h7 : deallocLoop D E s s.alloced h4 with
      | none =>
        rw [h7] at h6
        cases h8 : deallocLoop D E s' s.alloced h5 with
        | none => trivial
        | some h9 => rw [h8] at h6; exact h6.elim
      | some h9 =>
        rw [h7] at h6
        cases h8 : deallocLoop D E s' s.alloced h5 with
        | none => rw [h8] at h6; exact h6.elim
        | some h10 =>
          rw [h8] at h6
          simp only
          cases h11 : s.data with
          | none => exact h6
          | some a =>
            simp only
            unfold deallocBuffer
            rw [h6.2, deallocate_setObj]
            cases h12 : h9.deallocate a (.unified s.ty s.al) with
            | none => trivial
            | some h13 => exact ⟨by show h13.objs[o]? = _; rw [deallocate_objs_same h12]; exact h6.1, rfl⟩

theorem sourceAt_setObj {h : Heap} {src i : Nat} (x : Option Obj) (hs : src ≠ o) : sourceAt (h.setObj o x) src i = sourceAt h src i := by
  have : (h.setObj o x).obj? src = h.obj? src := by
    unfold Heap.obj?
    rw [List.getElem?_set_ne (fun e => hs e.symm)]
  unfold sourceAt
  rw [this]
  rfl

theorem constructNew_lift {src : Nat} (hs : src ≠ o) {s s' : Sess} (hl : Lift o x0 x1 e t s s') (m : Mix) (ti : Nat) (l : Loc)
    (hm : (D.mix m).hasCopyInit = true) :
    RelR (Lift o x0 x1 e t) (constructNew D orc (.copy src true) s m ti l) (constructNew D orc (.copy src false) s' m ti l) := by
  have htick : s'.h.tick = s.h.tick := by rw [hl.eq]
  unfold constructNew
  simp only
  have h1 : sourceAt s'.h src ti = sourceAt s.h src ti := by rw [hl.eq]; exact sourceAt_setObj _ hs
  rw [h1, htick]
  cases h2 : sourceAt s.h src ti with
  | none => trivial
  | some p =>
    obtain ⟨sl, m', v⟩ := p
    simp only
    by_cases h3 : m' ≠ m
    · rw [if_pos h3, if_pos h3]; trivial
    · have hn : ¬ ((!(D.mix m).hasCopyInit) = true) := by simp [hm]
      rw [if_neg h3, if_neg h3, if_neg hn, if_neg hn]
      by_cases h5 : orc.fail s.h.tick = true
      · rw [if_pos h5, if_pos h5]
        exact ⟨⟨hl.oldTy, hl.oldData, hl.obj, hl.ty, hl.there, by rw [hl.eq]⟩, rfl⟩
      · rw [if_neg h5, if_neg h5]
        have h6 : s'.h.ticked = (s.h.ticked).setObj o (some x1) := by rw [hl.eq]
        rw [h6, construct_setObj]
        cases h7 : s.h.ticked.construct l m v (.copied sl) with
        | none => trivial
        | some h8 =>
          exact ⟨hl.oldTy, hl.oldData, hl.obj, hl.ty, by show h8.objs[o]? = _; rw [construct_objs_same h7]; exact hl.there, by rw [hl.eq]⟩

theorem constructNew_dflt_lift {s s' : Sess} (hl : Lift o x0 x1 e t s s') (m : Mix) (ti : Nat) (l : Loc) :
    RelR (Lift o x0 x1 e t) (constructNew D orc .dflt s m ti l) (constructNew D orc .dflt s' m ti l) := by
  have htick : s'.h.tick = s.h.tick := by rw [hl.eq]
  unfold constructNew
  simp only
  rw [htick]
  by_cases h4 : (!(D.mix m).hasInit) = true
  · rw [if_pos h4, if_pos h4]; exact ⟨hl, rfl⟩
  · rw [if_neg h4, if_neg h4]
    by_cases h5 : orc.fail s.h.tick = true
    · rw [if_pos h5, if_pos h5]
      exact ⟨⟨hl.oldTy, hl.oldData, hl.obj, hl.ty, hl.there, by rw [hl.eq]⟩, rfl⟩
    · rw [if_neg h5, if_neg h5]
      have h6 : s'.h.ticked = (s.h.ticked).setObj o (some x1) := by rw [hl.eq]
      rw [h6, construct_setObj]
      cases h7 : s.h.ticked.construct l m (orc.val s.h.tick) .dflt with
      | none => trivial
      | some h8 =>
        exact ⟨hl.oldTy, hl.oldData, hl.obj, hl.ty, by show h8.objs[o]? = _; rw [construct_objs_same h7]; exact hl.there, by rw [hl.eq]⟩

theorem advanced_lift {s s' : Sess} (hl : Lift o x0 x1 e t s s') : Lift o x0 x1 e t (s.advanced E) (s'.advanced E) :=
  ⟨hl.oldTy, hl.oldData, hl.obj, hl.ty, hl.there, by rw [hl.eq]; rfl⟩

/-- what `f` and `f'` do for new mixins of the type `t` corresponds -/
def NewLift (D : Decls) (E : TyEnv) (orc : Orc) (o : Nat) (x0 x1 : Obj) (e t : TypeId) (f f' : NewFn) : Prop :=
  ∀ s s' m ti l, Lift o x0 x1 e t s s' → m ∈ E.mixins t → RelR (Lift o x0 x1 e t) (constructNew D orc f s m ti l) (constructNew D orc f' s' m ti l)

theorem updateNext_lift {f f' : NewFn} {g g' : UpdFn} (hf : NewLift D E orc o x0 x1 e t f f') {s s' : Sess}
    (hl : Lift o x0 x1 e t s s') : RelR (Lift o x0 x1 e t) (updateNext D E orc f g s) (updateNext D E orc f' g' s') := by
  have hd : s'.data = s.data := by rw [hl.eq]
  have hu : s'.updated = s.updated := by rw [hl.eq]
  have hcp : s'.complete = s.complete := by rw [hl.eq]
  have hty : s'.ty = s.ty := by rw [hl.eq]
  have hi := fun m => oldIndex_lift (E := E) hl m
  unfold updateNext
  rw [hd, hu, hcp, hty]
  by_cases h1 : s.complete = true
  · rw [if_pos h1, if_pos h1]; exact hl
  · rw [if_neg h1, if_neg h1]
    cases h2 : (E.mixins s.ty)[s.updated]? with
    | none => trivial
    | some m =>
      simp only
      rw [(hi m).1, (hi m).2]
      simp only
      cases h3 : s.data with
      | none => trivial
      | some a =>
        simp only
        have h4 : s'.h.slot? a s.updated = s.h.slot? a s.updated := by rw [hl.eq]; rfl
        rw [h4]
        cases h5 : s.h.slot? a s.updated with
        | none => trivial
        | some sl =>
          simp only
          have hm : m ∈ E.mixins t := by rw [← hl.ty]; exact List.mem_of_getElem? h2
          exact (hf _ _ m _ _ hl hm).bind (fun s s' h => advanced_lift h) (fun s s' e h => ⟨h, rfl⟩)

theorem updateLoop_lift {f f' : NewFn} {g g' : UpdFn} (hf : NewLift D E orc o x0 x1 e t f f') : ∀ (n : Nat) {s s' : Sess},
    Lift o x0 x1 e t s s' → RelR (Lift o x0 x1 e t) (updateLoop D E orc f g n s) (updateLoop D E orc f' g' n s')
  | 0, _, _, hl => hl
  | n + 1, _, _, hl => by
    unfold updateLoop
    exact (updateNext_lift hf hl).bind (fun s s' h => updateLoop_lift hf n h) (fun s s' e h => ⟨h, rfl⟩)

theorem updateEach_lift {f f' : NewFn} {g g' : UpdFn} (hf : NewLift D E orc o x0 x1 e t f f') {s s' : Sess}
    (hl : Lift o x0 x1 e t s s') : RelR (Lift o x0 x1 e t) (updateEach D E orc f g none s) (updateEach D E orc f' g' none s') := by
  have hu : s'.updated = s.updated := by rw [hl.eq]
  have hty : s'.ty = s.ty := by rw [hl.eq]
  unfold updateEach
  rw [hu, hty]
  exact updateLoop_lift hf _ hl

theorem dflt_newLift : NewLift D E orc o x0 x1 e t .dflt .dflt := fun _ _ m ti l hl _ => constructNew_dflt_lift hl m ti l

theorem copy_newLift {src : Nat} (hs : src ≠ o) (hc : ∀ m ∈ E.mixins t, (D.mix m).hasCopyInit = true) :
    NewLift D E orc o x0 x1 e t (.copy src true) (.copy src false) := fun _ _ m ti l hl hm => constructNew_lift hs hl m ti l (hc m hm)

/-- the end: either the same, or the same but for the object -/
def EndsLift (o : Nat) (x0 x1 : Obj) (h h' : Heap) : Prop := h' = h ∨ LiftH o x0 x1 h h'

theorem dtor_unwind_lift (hne : e ≠ t) {s s' : Sess} (hl : Lift o x0 x1 e t s s') :
    RelR (LiftH o x0 x1) (s.dtor D E orc true) (s'.dtor D E orc true) := by
  have hm : s'.movedOut = s.movedOut := by rw [hl.eq]
  have hr := rollback_lift (D := D) (E := E) hne hl
  unfold Sess.dtor
  rw [hm]
  by_cases h0 : s.movedOut = true
  · rw [if_pos h0, if_pos h0]; exact ⟨hl.there, by rw [hl.eq]⟩
  · rw [if_neg h0, if_neg h0, if_pos rfl, if_pos rfl]
    cases h1 : rollback D E s with
    | none =>
      rw [h1] at hr
      cases h2 : rollback D E s' with
      | none => trivial
      | some s2 => rw [h2] at hr; exact hr.elim
    | some s1 =>
      rw [h1] at hr
      cases h2 : rollback D E s' with
      | none => rw [h2] at hr; exact hr.elim
      | some s2 => rw [h2] at hr; exact hr

theorem unwindWith_lift (hne : e ≠ t) {s s' : Sess} (hl : Lift o x0 x1 e t s s') (err : XErr) :
    RelR (LiftH o x0 x1) (unwindWith D E orc s err) (unwindWith D E orc s' err) := by
  unfold unwindWith
  exact (dtor_unwind_lift hne hl).bind (fun s s' h => ⟨h, rfl⟩) (fun s s' e h => trivial)

theorem finalize_lift (hne : e ≠ t) (hx : x1 = { x0 with ty := some e }) {s s' : Sess} (hl : Lift o x0 x1 e t s s') :
    match finalize D E orc s, finalize D E orc s' with
    | some s1, some s2 => EndsLift o x0 x1 s1.h s2.h
    | none, none => True
    | _, _ => False := by
  have hn1 : ¬ (s.oldTy = some s.ty) := by rw [hl.oldTy]; simp
  have hn2 : ¬ (s'.oldTy = some s'.ty) := by rw [hl.eq]; simp only [hl.ty]; simpa using hne
  have hcp : s'.complete = s.complete := by rw [hl.eq]
  unfold finalize
  rw [hcp]
  by_cases h0 : (!s.complete) = true
  · rw [if_pos h0, if_pos h0]
    exact .inr ⟨hl.there, by rw [hl.eq]⟩
  · rw [if_neg h0, if_neg h0, if_neg hn1, if_neg hn2]
    have h1 : s'.oldData = none := by rw [hl.eq]; exact hl.oldData
    rw [h1, hl.oldData]
    simp only
    left
    have h2 : s.h.obj? s.o = some x0 := by unfold Heap.obj?; rw [hl.obj, hl.there]; rfl
    have h3 : s'.h.obj? s'.o = some x1 := by
      have : s'.h = s.h.setObj o (some x1) := by rw [hl.eq]
      rw [this, show s'.o = o by rw [hl.eq]; exact hl.obj]
      exact obj?_setObj_same (by rw [← hl.obj]; exact h2) _
    unfold attach
    rw [h2, h3]
    simp only
    rw [hl.eq, hx]
    simp only [hl.obj, Heap.setObj, List.set_set]

theorem dtor_lift (hne : e ≠ t) (hx : x1 = { x0 with ty := some e }) {s s' : Sess} (hl : Lift o x0 x1 e t s s') :
    RelR (EndsLift o x0 x1) (s.dtor D E orc false) (s'.dtor D E orc false) := by
  have hm : s'.movedOut = s.movedOut := by rw [hl.eq]
  unfold Sess.dtor
  rw [hm]
  by_cases h0 : s.movedOut = true
  · rw [if_pos h0, if_pos h0]; exact .inr ⟨hl.there, by rw [hl.eq]⟩
  · rw [if_neg h0, if_neg h0, if_neg (by simp), if_neg (by simp)]
    have hu := updateEach_lift (g := .noop) (g' := .noop) (dflt_newLift (D := D) (E := E) (orc := orc)) hl
    cases h1 : updateEach D E orc .dflt .noop none s with
    | ub =>
      rw [h1] at hu
      cases h2 : updateEach D E orc .dflt .noop none s' with
      | ub => trivial
      | ok s2 => rw [h2] at hu; exact hu.elim
      | throw s2 e2 => rw [h2] at hu; exact hu.elim
    | throw s1 e1 =>
      rw [h1] at hu
      cases h2 : updateEach D E orc .dflt .noop none s' with
      | ub => rw [h2] at hu; exact hu.elim
      | ok s2 => rw [h2] at hu; exact hu.elim
      | throw s2 e2 =>
        rw [h2] at hu
        obtain ⟨h3, rfl⟩ := hu
        have hr := rollback_lift (D := D) (E := E) hne h3
        simp only
        cases h4 : rollback D E s1 with
        | none =>
          rw [h4] at hr
          cases h5 : rollback D E s2 with
          | none => trivial
          | some s5 => rw [h5] at hr; exact hr.elim
        | some s4 =>
          rw [h4] at hr
          cases h5 : rollback D E s2 with
          | none => rw [h5] at hr; exact hr.elim
          | some s5 => rw [h5] at hr; exact ⟨.inr hr, rfl⟩
    | ok s1 =>
      rw [h1] at hu
      cases h2 : updateEach D E orc .dflt .noop none s' with
      | ub => rw [h2] at hu; exact hu.elim
      | throw s2 e2 => rw [h2] at hu; exact hu.elim
      | ok s2 =>
        rw [h2] at hu
        have hu : Lift o x0 x1 e t s1 s2 := hu
        have hcp : s2.complete = s1.complete := by rw [hu.eq]
        have h3 : Lift o x0 x1 e t (if s1.complete then s1 else { s1 with h := s1.h.logged .assertFailed })
            (if s2.complete then s2 else { s2 with h := s2.h.logged .assertFailed }) := by
          rw [hcp]
          by_cases h4 : s1.complete = true
          · rw [if_pos h4, if_pos h4]; exact hu
          · rw [if_neg h4, if_neg h4]
            exact ⟨hu.oldTy, hu.oldData, hu.obj, hu.ty, hu.there, by rw [hu.eq]⟩
        have hr := finalize_lift (D := D) (E := E) (orc := orc) hne hx h3
        simp only
        generalize hg1 : (if s1.complete = true then s1 else { s1 with h := s1.h.logged .assertFailed }) = y1 at h3 hr ⊢
        generalize hg2 : (if s2.complete = true then s2 else { s2 with h := s2.h.logged .assertFailed }) = y2 at h3 hr ⊢
        cases h4 : finalize D E orc y1 with
        | none =>
          rw [h4] at hr
          cases h5 : finalize D E orc y2 with
          | none => trivial
          | some s5 => rw [h5] at hr; exact hr.elim
        | some s4 =>
          rw [h4] at hr
          cases h5 : finalize D E orc y2 with
          | none => rw [h5] at hr; exact hr.elim
          | some s5 => rw [h5] at hr; exact hr

/-- how a mutation of the object ends -/
def MutLift (u : Bool) (o : Nat) (x0 x1 : Obj) (h h' : Heap) : Prop := if u then LiftH o x0 x1 h h' else EndsLift o x0 x1 h h'

theorem mutLift_of {u : Bool} {h h' : Heap} (hl : LiftH o x0 x1 h h') : MutLift u o x0 x1 h h' := by
  unfold MutLift; cases u
  · exact .inr hl
  · exact hl

theorem RelR.mono {σ τ : Type} {P Q : σ → τ → Prop} (hPQ : ∀ s s', P s s' → Q s s') {r : Res σ} {r' : Res τ} (h : RelR P r r') : RelR Q r r' := by
  cases r <;> cases r' <;> first | exact h.elim | skip
  · exact hPQ _ _ h
  · exact ⟨hPQ _ _ h.1, h.2⟩
  · trivial

/-- A copy into an object without type, and into one of an empty type. -/
theorem perform_lift (hne : e ≠ t) (hx : x1 = { x0 with ty := some e }) (h0t : x0.ty = none) (h0d : x0.data = none) (h0s : x0.isSealed = false)
    {src : Nat} (hs : src ≠ o) (hc : ∀ m ∈ E.mixins t, (D.mix m).hasCopyInit = true) {h : Heap} (hh : h.objs[o]? = some (some x0)) (u : Bool) :
    RelR (MutLift u o x0 x1) (perform D E orc u h o t (.copy src true) .noop)
      (perform D E orc u (h.setObj o (some x1)) o t (.copy src false) (.assign src)) := by
  have h1 : h.obj? o = some x0 := by unfold Heap.obj?; rw [hh]; rfl
  unfold perform withMutation
  rw [h1, obj?_setObj_same h1]
  have hs1 : x1.isSealed = false := by rw [hx]; exact h0s
  simp only [h0s, hs1, Bool.false_eq_true, if_false]
  have hl : Lift o x0 x1 e t (Sess.begin h o x0 t) (Sess.begin (h.setObj o (some x1)) o x1 t) := by
    refine ⟨h0t, h0d, rfl, rfl, hh, ?_⟩
    subst hx
    simp only [Sess.begin, h0t, h0d]
  have ha := allocateMixinData_lift (D := D) (E := E) (orc := orc) hne hl
  cases h2 : allocateMixinData D E orc (Sess.begin h o x0 t) with
  | ub =>
    rw [h2] at ha
    cases h3 : allocateMixinData D E orc (Sess.begin (h.setObj o (some x1)) o x1 t) with
    | ub => trivial
    | ok s2 => rw [h3] at ha; exact ha.elim
    | throw s2 e2 => rw [h3] at ha; exact ha.elim
  | throw s1 e1 =>
    rw [h2] at ha
    cases h3 : allocateMixinData D E orc (Sess.begin (h.setObj o (some x1)) o x1 t) with
    | ub => rw [h3] at ha; exact ha.elim
    | ok s2 => rw [h3] at ha; exact ha.elim
    | throw s2 e2 =>
      rw [h3] at ha
      obtain ⟨h4, rfl⟩ := ha
      exact (unwindWith_lift hne h4 _).mono (fun _ _ => mutLift_of)
  | ok s1 =>
    rw [h2] at ha
    cases h3 : allocateMixinData D E orc (Sess.begin (h.setObj o (some x1)) o x1 t) with
    | ub => rw [h3] at ha; exact ha.elim
    | throw s2 e2 => rw [h3] at ha; exact ha.elim
    | ok s2 =>
      rw [h3] at ha
      have ha : Lift o x0 x1 e t s1 s2 := ha
      simp only [msteps, mstep]
      have hu := updateEach_lift (g := .noop) (g' := .assign src) (copy_newLift (D := D) (E := E) (orc := orc) hs hc) ha
      have hu' : RelR (Lift o x0 x1 e t)
          ((updateEach D E orc (.copy src true) .noop none s1).bind Res.ok (fun s e => if false then Res.ok s else Res.throw s e))
          ((updateEach D E orc (.copy src false) (.assign src) none s2).bind Res.ok (fun s e => if false then Res.ok s else Res.throw s e)) :=
        hu.bind (fun s s' h => h) (fun s s' e h => ⟨h, rfl⟩)
      refine hu'.bind (fun s s' h => ?_) (fun s s' e h => (unwindWith_lift hne h _).mono (fun _ _ => mutLift_of))
      unfold MutLift
      cases u
      · exact dtor_lift hne hx h
      · exact dtor_unwind_lift hne h

theorem unwindObject_lift (hd : x0.data = none) (hd1 : x1.data = none) {h h' : Heap} (hl : EndsLift o x0 x1 h h') (err : XErr) :
    unwindObject D E o h err = unwindObject D E o h' err := by
  rcases hl with rfl | ⟨h1, rfl⟩
  · rfl
  · have h2 : h.obj? o = some x0 := by unfold Heap.obj?; rw [h1]; rfl
    unfold unwindObject destroyObject clearMixinData
    rw [h2, obj?_setObj_same h2]
    simp only [hd, hd1, Res.bind, Heap.setObj, List.set_set]

end

end Dnmx
