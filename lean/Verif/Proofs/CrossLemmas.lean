import Verif.Spec.ObjectDomains
import Verif.Proofs.EnvLemmas
import Verif.Proofs.ObjMessageOps

/-!
# Objects of several domains: lookups by id and by identity
-/

set_option linter.unusedSimpArgs false
set_option linter.unusedVariables false
set_option linter.unusedSectionVars false

namespace Dnmx
open Spec

/-- The mixins `l` are found in type `t` exactly if it has them. -/
def Finds (E : TyEnv) (t : TypeId) (l : List Mix) : Prop := ∀ m ∈ l, E.indexOf t m = (E.mixins t).idxOf? m

/-- The types find each other's mixins. -/
def FindsBoth (E : TyEnv) (t t' : TypeId) : Prop := Finds E t (E.mixins t') ∧ Finds E t' (E.mixins t)

/-- What mutations need. -/
def SFind (E : TyEnv) (s : Sess) : Prop := ∀ told, s.oldTy = some told → FindsBoth E told s.ty

/-- Later states of a mutation. -/
def After (s s' : Sess) : Prop := s'.ty = s.ty ∧ (s'.oldTy = s.oldTy ∨ s'.oldTy = none)

theorem After.find {E : TyEnv} {s s' : Sess} (h : After s s') (hf : SFind E s) : SFind E s' := by
  intro told h1
  obtain ⟨h2, h3 | h3⟩ := h
  · rw [h2]; rw [h3] at h1; exact hf told h1
  · rw [h3] at h1; cases h1

theorem After.refl (s : Sess) : After s s := ⟨rfl, .inl rfl⟩

theorem After.trans {s s' s'' : Sess} (h : After s s') (h' : After s' s'') : After s s'' := by
  refine ⟨h'.1.trans h.1, ?_⟩
  rcases h'.2 with h2 | h2
  · rcases h.2 with h3 | h3
    · exact .inl (h2.trans h3)
    · exact .inr (h2.trans h3)
  · exact .inr h2

theorem still_after {s s' : Sess} (h : Still s s') : After s s' := ⟨h.ty, .inl h.oldTy⟩

section
variable {D : Decls} {E : TyEnv} {orc : Orc}

theorem RSess.mono {P Q : Sess → Prop} {r : Res Sess} (h : RSess P r) (hpq : ∀ s, P s → Q s) : RSess Q r := by
  cases r with
  | ok s => exact hpq s h
  | throw s e => exact hpq s h
  | ub => trivial

theorem oldIndex_same {s : Sess} (hf : SFind E s) {m : Mix} (hm : m ∈ E.mixins s.ty) : s.oldIndex E.byIdentity m = s.oldIndex E m := by
  unfold Sess.oldIndex
  cases hd : s.oldData with
  | none => rfl
  | some b =>
    cases ht : s.oldTy with
    | none => rfl
    | some t =>
      show (E.byIdentity.indexOf t m).map _ = (E.indexOf t m).map _
      rw [(hf t ht).1 m hm]; rfl

theorem allocOne_same {s : Sess} (hf : SFind E s) : allocOne D E.byIdentity orc s = allocOne D E orc s := by
  unfold allocOne
  show (match s.data, (E.mixins s.ty)[s.alloced]? with | some a, some m => _ | _, _ => _) = _
  cases hd : s.data with
  | none => rfl
  | some a =>
    cases hm : (E.mixins s.ty)[s.alloced]? with
    | none => rfl
    | some m =>
      simp only
      rw [oldIndex_same hf (List.mem_of_getElem? hm)]
      rfl

theorem allocOne_after {s : Sess} : RSess (After s) (allocOne D E orc s) := by
  unfold allocOne
  split
  · split
    · exact ⟨rfl, .inl rfl⟩
    · split
      · split
        · trivial
        · exact ⟨rfl, .inl rfl⟩
      · split
        · exact ⟨rfl, .inl rfl⟩
        · exact ⟨rfl, .inl rfl⟩
  · trivial

theorem allocLoop_same : ∀ (n : Nat) (s : Sess), SFind E s → allocLoop D E.byIdentity orc n s = allocLoop D E orc n s ∧ RSess (After s) (allocLoop D E orc n s)
  | 0, s, _ => ⟨rfl, After.refl s⟩
  | n + 1, s, hf => by
    unfold allocLoop
    rw [allocOne_same hf]
    have h1 := allocOne_after (D := D) (E := E) (orc := orc) (s := s)
    cases hr : allocOne D E orc s with
    | ub => exact ⟨rfl, trivial⟩
    | throw s' e => rw [hr] at h1; exact ⟨rfl, h1⟩
    | ok s' =>
      rw [hr] at h1
      have h2 : After s s' := h1
      have h3 := allocLoop_same n s' (h2.find hf)
      exact ⟨h3.1, h3.2.mono (fun _ h => h2.trans h)⟩

theorem allocateMixinData_same {s : Sess} (hf : SFind E s) :
    allocateMixinData D E.byIdentity orc s = allocateMixinData D E orc s ∧ RSess (After s) (allocateMixinData D E orc s) := by
  unfold allocateMixinData
  by_cases h1 : s.oldTy = some s.ty
  · rw [if_pos h1, if_pos h1]; exact ⟨rfl, ⟨rfl, .inl rfl⟩⟩
  · rw [if_neg h1, if_neg h1]
    by_cases h2 : orc.fail s.h.tick = true
    · rw [if_pos h2, if_pos h2]; exact ⟨rfl, ⟨rfl, .inl rfl⟩⟩
    · rw [if_neg h2, if_neg h2]
      have := allocLoop_same (D := D) (orc := orc) (E.mixins s.ty).length { s with h := (s.h.ticked.allocate (.unified s.ty s.al)).countUp s.ty 1, data := some s.h.next } hf
      exact this

theorem destroyLoop_same {s : Sess} (hf : SFind E s) : ∀ (n : Nat) (h : Heap), destroyLoop D E.byIdentity s n h = destroyLoop D E s n h
  | 0, h => rfl
  | n + 1, h => by
    unfold destroyLoop
    show (match s.data, (E.mixins s.ty)[n]? with | some a, some m => _ | _, _ => _) = _
    cases hd : s.data with
    | none => rfl
    | some a =>
      cases hm : (E.mixins s.ty)[n]? with
      | none => rfl
      | some m =>
        simp only
        rw [oldIndex_same hf (List.mem_of_getElem? hm)]
        have ih := destroyLoop_same hf n
        have : destroyLoop D E.byIdentity s n = destroyLoop D E s n := funext ih
        rw [this]

theorem deallocLoop_same {s : Sess} (hf : SFind E s) : ∀ (n : Nat) (h : Heap), deallocLoop D E.byIdentity s n h = deallocLoop D E s n h
  | 0, h => rfl
  | n + 1, h => by
    unfold deallocLoop
    show (match s.data, (E.mixins s.ty)[n]? with | some a, some m => _ | _, _ => _) = _
    cases hd : s.data with
    | none => rfl
    | some a =>
      cases hm : (E.mixins s.ty)[n]? with
      | none => rfl
      | some m =>
        simp only
        rw [oldIndex_same hf (List.mem_of_getElem? hm)]
        have ih := deallocLoop_same hf n
        have : deallocLoop D E.byIdentity s n = deallocLoop D E s n := funext ih
        rw [this]

theorem rollback_same {s : Sess} (hf : SFind E s) : rollback D E.byIdentity s = rollback D E s := by
  unfold rollback
  rw [destroyLoop_same hf]
  have : deallocLoop D E.byIdentity s s.alloced = deallocLoop D E s s.alloced := funext (deallocLoop_same hf _)
  rw [this]

theorem rollback_after {s s' : Sess} (hr : rollback D E s = some s') : After s s' := by
  unfold rollback at hr
  split at hr
  · injection hr with hr; subst hr; exact ⟨rfl, .inl rfl⟩
  · split at hr
    · cases hr
    · split at hr
      · injection hr with hr; subst hr; exact ⟨rfl, .inl rfl⟩
      · obtain ⟨h1, _, h2⟩ := Option.map_eq_some_iff.1 hr
        subst h2; exact ⟨rfl, .inl rfl⟩

theorem finalizeOne_same {s : Sess} {b a oi : Nat} {m : Mix} {h : Heap} (hm : E.indexOf s.ty m = (E.mixins s.ty).idxOf? m) :
    finalizeOne D E.byIdentity orc s b a oi m h = finalizeOne D E orc s b a oi m h := by
  unfold finalizeOne
  rw [show E.byIdentity.indexOf s.ty m = E.indexOf s.ty m from hm.symm]

theorem finalizeLoop_same {s : Sess} {b a : Nat} : ∀ (ms : List Mix) (oi : Nat) (h : Heap), Finds E s.ty ms →
    finalizeLoop D E.byIdentity orc s b a oi ms h = finalizeLoop D E orc s b a oi ms h
  | [], _, _, _ => rfl
  | m :: ms, oi, h, hf => by
    unfold finalizeLoop
    rw [finalizeOne_same (hf m (by simp))]
    have : finalizeLoop D E.byIdentity orc s b a (oi + 1) ms = finalizeLoop D E orc s b a (oi + 1) ms :=
      funext (fun h => finalizeLoop_same ms (oi + 1) h (fun m hm => hf m (by simp [hm])))
    rw [this]

theorem finalize_same {s : Sess} (hf : SFind E s) : finalize D E.byIdentity orc s = finalize D E orc s := by
  unfold finalize
  by_cases h1 : (!s.complete) = true
  · rw [if_pos h1, if_pos h1]
  rw [if_neg h1, if_neg h1]
  by_cases h2 : s.oldTy = some s.ty
  · rw [if_pos h2, if_pos h2]
  rw [if_neg h2, if_neg h2]
  cases hd : s.oldData with
  | none => rfl
  | some b =>
    cases ht : s.oldTy with
    | none => rfl
    | some t =>
      simp only
      cases s.data with
      | none => rfl
      | some a =>
        simp only
        rw [show E.byIdentity.mixins t = E.mixins t from rfl, finalizeLoop_same _ _ _ (hf t ht).2]

theorem finalize_after {s s' : Sess} (hr : finalize D E orc s = some s') : After s s' := by
  unfold finalize at hr
  split at hr
  · injection hr with hr; subst hr; exact ⟨rfl, .inl rfl⟩
  · split at hr
    · injection hr with hr; subst hr; exact ⟨rfl, .inr rfl⟩
    · split at hr
      · injection hr with hr; subst hr; exact ⟨(attach_parts _ _).2.2.1, .inl (attach_parts _ _).2.2.2.2.2.2.1⟩
      · split at hr
        · cases hr
        · split at hr
          · cases hr
          · injection hr with hr; subst hr; exact ⟨(attach_parts _ _).2.2.1, .inr rfl⟩
      · cases hr

theorem updateNext_same {f : NewFn} {g : UpdFn} {s : Sess} (hf : SFind E s) : updateNext D E.byIdentity orc f g s = updateNext D E orc f g s := by
  unfold updateNext
  by_cases h1 : s.complete = true
  · rw [if_pos h1, if_pos h1]
  rw [if_neg h1, if_neg h1]
  show (match (E.mixins s.ty)[s.updated]? with | none => _ | some m => _) = _
  cases hm : (E.mixins s.ty)[s.updated]? with
  | none => rfl
  | some m =>
    simp only
    rw [oldIndex_same hf (List.mem_of_getElem? hm)]
    rfl

theorem updateNext_after {f : NewFn} {g : UpdFn} {s : Sess} : RSess (After s) (updateNext D E orc f g s) := by
  have hs : Still s s := ⟨rfl, rfl, rfl, rfl, rfl, rfl, rfl⟩
  unfold updateNext
  by_cases h1 : s.complete = true
  · rw [if_pos h1]; exact After.refl s
  rw [if_neg h1]
  cases hm : (E.mixins s.ty)[s.updated]? with
  | none => trivial
  | some m =>
    simp only
    cases ho : s.oldIndex E m with
    | some p =>
      obtain ⟨b, oi⟩ := p
      simp only
      cases hl : s.h.slot? b oi with
      | none => trivial
      | some sl =>
        simp only
        have := still_updateCommon (D := D) (orc := orc) hs g m s.updated sl.loc
        cases hr : updateCommon D orc g s m s.updated sl.loc with
        | ub => trivial
        | ok s' => rw [hr] at this; exact ⟨this.1.ty, .inl this.1.oldTy⟩
        | throw s' e => rw [hr] at this; exact ⟨this.1.ty, .inl this.1.oldTy⟩
    | none =>
      simp only
      cases hd : s.data with
      | none => trivial
      | some a =>
        simp only
        cases hl : s.h.slot? a s.updated with
        | none => trivial
        | some sl =>
          simp only
          have := still_constructNew (D := D) (orc := orc) hs f m s.updated sl.loc
          cases hr : constructNew D orc f s m s.updated sl.loc with
          | ub => trivial
          | ok s' => rw [hr] at this; exact ⟨this.1.ty, .inl this.1.oldTy⟩
          | throw s' e => rw [hr] at this; exact ⟨this.1.ty, .inl this.1.oldTy⟩

/-- Results agree and lead to later states. -/
def Same (s : Sess) (r' r : Res Sess) : Prop := r' = r ∧ RSess (After s) r

theorem Same.bind {s : Sess} {r' r : Res Sess} (h : Same s r' r) (hf : SFind E s) {f f' : Sess → Res Sess} {k k' : Sess → XErr → Res Sess}
    (h1 : ∀ s', SFind E s' → Same s' (f' s') (f s')) (h2 : ∀ s' e, SFind E s' → Same s' (k' s' e) (k s' e)) : Same s (r'.bind f' k') (r.bind f k) := by
  obtain ⟨rfl, h4⟩ := h
  cases r' with
  | ub => exact ⟨rfl, trivial⟩
  | ok s' =>
    have h5 : After s s' := h4
    obtain ⟨h6, h7⟩ := h1 s' (h5.find hf)
    exact ⟨h6, h7.mono (fun _ h => h5.trans h)⟩
  | throw s' e =>
    have h5 : After s s' := h4
    obtain ⟨h6, h7⟩ := h2 s' e (h5.find hf)
    exact ⟨h6, h7.mono (fun _ h => h5.trans h)⟩

theorem throw_same (s : Sess) (e : XErr) : Same s (.throw s e) (.throw s e) := ⟨rfl, After.refl s⟩

theorem next_same (f : NewFn) (g : UpdFn) (s : Sess) (hf : SFind E s) : Same s (updateNext D E.byIdentity orc f g s) (updateNext D E orc f g s) :=
  ⟨updateNext_same hf, updateNext_after⟩

theorem updateLoop_same (f : NewFn) (g : UpdFn) : ∀ (n : Nat) (s : Sess), SFind E s → Same s (updateLoop D E.byIdentity orc f g n s) (updateLoop D E orc f g n s)
  | 0, s, _ => ⟨rfl, After.refl s⟩
  | n + 1, s, hf => (next_same f g s hf).bind hf (updateLoop_same f g n) (fun s' e _ => throw_same s' e)

theorem updateEach_same (f : NewFn) (g : UpdFn) (upto : Option Nat) (s : Sess) (hf : SFind E s) :
    Same s (updateEach D E.byIdentity orc f g upto s) (updateEach D E orc f g upto s) := updateLoop_same f g _ s hf

theorem mstep_same (s : Sess) (hf : SFind E s) (st : MStep) : Same s (mstep D E.byIdentity orc s st) (mstep D E orc s st) := by
  cases st with
  | next f g => exact next_same f g s hf
  | each f g upto => exact updateEach_same f g upto s hf
  | «at» i f g =>
    show Same s (updateAt D E.byIdentity orc i f g s) (updateAt D E orc i f g s)
    unfold updateAt
    show Same s (if i < s.updated ∨ i > (E.mixins s.ty).length then _ else _) _
    by_cases h1 : i < s.updated ∨ i > (E.mixins s.ty).length
    · rw [if_pos h1, if_pos h1]; exact throw_same s _
    · rw [if_neg h1, if_neg h1]
      exact (updateEach_same .dflt .noop (some i) s hf).bind hf (next_same f g) (fun s' e _ => throw_same s' e)
  | finalize =>
    show Same s (match finalize D E.byIdentity orc s with | none => .ub | some s => .ok s) (match finalize D E orc s with | none => .ub | some s => .ok s)
    rw [finalize_same hf]
    cases hr : finalize D E orc s with
    | none => exact ⟨rfl, trivial⟩
    | some s' => exact ⟨rfl, finalize_after hr⟩
  | rollback =>
    show Same s (match rollback D E.byIdentity s with | none => .ub | some s => .ok s) (match rollback D E s with | none => .ub | some s => .ok s)
    rw [rollback_same hf]
    cases hr : rollback D E s with
    | none => exact ⟨rfl, trivial⟩
    | some s' => exact ⟨rfl, rollback_after hr⟩
  | throw => exact throw_same s _

theorem msteps_same : ∀ (steps : List (MStep × Bool)) (s : Sess), SFind E s → Same s (msteps D E.byIdentity orc steps s) (msteps D E orc steps s)
  | [], s, _ => ⟨rfl, After.refl s⟩
  | (st, c) :: rest, s, hf =>
    (mstep_same s hf st).bind hf (msteps_same rest) (fun s' e hf' => by
      cases c with
      | true => exact msteps_same rest s' hf'
      | false => exact throw_same s' e)

theorem dtor_same (u : Bool) (s : Sess) (hf : SFind E s) : s.dtor D E.byIdentity orc u = s.dtor D E orc u := by
  unfold Sess.dtor
  by_cases h1 : s.movedOut = true
  · rw [if_pos h1, if_pos h1]
  rw [if_neg h1, if_neg h1]
  by_cases h2 : u = true
  · rw [if_pos h2, if_pos h2, rollback_same hf]
  rw [if_neg h2, if_neg h2]
  obtain ⟨h3, h4⟩ := updateEach_same (D := D) (orc := orc) .dflt .noop none s hf
  rw [h3]
  cases hr : updateEach D E orc .dflt .noop none s with
  | ub => rfl
  | throw s' e =>
    rw [hr] at h4
    have h5 : After s s' := h4
    simp only
    rw [rollback_same (h5.find hf)]
  | ok s' =>
    rw [hr] at h4
    have h5 : After s s' := h4
    simp only
    have h6 : SFind E (if s'.complete then s' else { s' with h := s'.h.logged .assertFailed }) := by
      split
      · exact h5.find hf
      · exact h5.find hf
    rw [finalize_same h6]

theorem unwindWith_same (s : Sess) (e : XErr) (hf : SFind E s) : unwindWith D E.byIdentity orc s e = unwindWith D E orc s e := by
  unfold unwindWith; rw [dtor_same true s hf]

theorem withMutation_same (u : Bool) (h : Heap) (o : Nat) (t : TypeId) (steps : List (MStep × Bool))
    (hf : ∀ ob told, h.obj? o = some ob → ob.ty = some told → FindsBoth E told t) :
    withMutation D E.byIdentity orc u h o t steps = withMutation D E orc u h o t steps := by
  unfold withMutation
  cases ho : h.obj? o with
  | none => rfl
  | some ob =>
    simp only
    have hs : SFind E (Sess.begin h o ob t) := fun told h1 => hf ob told ho h1
    by_cases h1 : ob.isSealed = true
    · rw [if_pos h1, if_pos h1, unwindWith_same _ _ hs]
    rw [if_neg h1, if_neg h1]
    obtain ⟨h2, h3⟩ := allocateMixinData_same (D := D) (orc := orc) hs
    rw [h2]
    cases hr : allocateMixinData D E orc (Sess.begin h o ob t) with
    | ub => rfl
    | throw s e =>
      rw [hr] at h3
      exact unwindWith_same s e (After.find h3 hs)
    | ok s =>
      rw [hr] at h3
      have h4 : SFind E s := After.find h3 hs
      simp only
      obtain ⟨h5, h6⟩ := msteps_same (D := D) (orc := orc) steps s h4
      rw [h5]
      cases hm : msteps D E orc steps s with
      | ub => rfl
      | ok s' => rw [hm] at h6; exact dtor_same u s' (After.find h6 h4)
      | throw s' e => rw [hm] at h6; exact unwindWith_same s' e (After.find h6 h4)

theorem clearMixinData_same (h : Heap) (o : Nat) : clearMixinData D E.byIdentity h o = clearMixinData D E h o := by
  unfold clearMixinData
  cases h.obj? o with
  | none => rfl
  | some ob =>
    simp only
    cases ob.data with
    | none => rfl
    | some a =>
      cases ob.ty with
      | none => rfl
      | some t =>
        simp only
        rw [show E.byIdentity.mixins t = E.mixins t from rfl, rollback_same (by intro told h1; cases h1)]

theorem destroyObject_same (h : Heap) (o : Nat) : destroyObject D E.byIdentity h o = destroyObject D E h o := by
  unfold destroyObject; rw [clearMixinData_same]

theorem unwindObject_same (h : Heap) (o : Nat) (e : XErr) : unwindObject D E.byIdentity o h e = unwindObject D E o h e := by
  unfold unwindObject; rw [destroyObject_same]

theorem resetType_same (u : Bool) (h : Heap) (o : Nat) (t : TypeId) (hf : ∀ ob told, h.obj? o = some ob → ob.ty = some told → FindsBoth E told t) :
    resetType D E.byIdentity orc u h o t = resetType D E orc u h o t := by
  unfold resetType perform
  rw [withMutation_same u h o t _ hf, clearMixinData_same]
  rfl

theorem usurp_same (h : Heap) (o src : Nat) : usurp E.byIdentity h o src = usurp E h o src := rfl

theorem copyFromCheck_same (own : TypeId) : ∀ (ms : List Mix), Finds E own ms → copyFromCheck D E.byIdentity own ms = copyFromCheck D E own ms
  | [], _ => rfl
  | m :: ms, hf => by
    unfold copyFromCheck
    rw [copyFromCheck_same own ms (fun m hm => hf m (by simp [hm])), show E.byIdentity.indexOf own m = E.indexOf own m from (hf m (by simp)).symm]

theorem copyMatchingCheck_same (own : TypeId) : ∀ (ms : List Mix), Finds E own ms → copyMatchingCheck D E.byIdentity own ms = copyMatchingCheck D E own ms
  | [], _ => rfl
  | m :: ms, hf => by
    unfold copyMatchingCheck
    rw [copyMatchingCheck_same own ms (fun m hm => hf m (by simp [hm])), show E.byIdentity.indexOf own m = E.indexOf own m from (hf m (by simp)).symm]

theorem moveMatchingCheck_same (own : TypeId) (fb : Bool) : ∀ (ms : List Mix), Finds E own ms → moveMatchingCheck D E.byIdentity own fb ms = moveMatchingCheck D E own fb ms
  | [], _ => rfl
  | m :: ms, hf => by
    unfold moveMatchingCheck
    rw [moveMatchingCheck_same own fb ms (fun m hm => hf m (by simp [hm])), show E.byIdentity.indexOf own m = E.indexOf own m from (hf m (by simp)).symm]

theorem copyMatchingLoop_same (own : TypeId) (a b : Option Nat) : ∀ (ms : List Mix) (i : Nat) (h : Heap), Finds E own ms →
    copyMatchingLoop D E.byIdentity orc own a b i ms h = copyMatchingLoop D E orc own a b i ms h
  | [], _, _, _ => rfl
  | m :: ms, i, h, hf => by
    have ih : copyMatchingLoop D E.byIdentity orc own a b (i + 1) ms = copyMatchingLoop D E orc own a b (i + 1) ms :=
      funext (fun h => copyMatchingLoop_same own a b ms (i + 1) h (fun m hm => hf m (by simp [hm])))
    unfold copyMatchingLoop
    rw [ih, show E.byIdentity.indexOf own m = E.indexOf own m from (hf m (by simp)).symm]

theorem moveMatchingLoop_same (own : TypeId) (a b : Option Nat) : ∀ (ms : List Mix) (i : Nat) (h : Heap), Finds E own ms →
    moveMatchingLoop D E.byIdentity orc own a b i ms h = moveMatchingLoop D E orc own a b i ms h
  | [], _, _, _ => rfl
  | m :: ms, i, h, hf => by
    have ih : moveMatchingLoop D E.byIdentity orc own a b (i + 1) ms = moveMatchingLoop D E orc own a b (i + 1) ms :=
      funext (fun h => moveMatchingLoop_same own a b ms (i + 1) h (fun m hm => hf m (by simp [hm])))
    unfold moveMatchingLoop
    rw [ih, show E.byIdentity.indexOf own m = E.indexOf own m from (hf m (by simp)).symm]

/-- What an operation needs: lookups that agree. -/
def FindsFor (E : TyEnv) (h : Heap) : OOp → Prop
  | .copyFrom o src => ∀ ob sb own t, h.obj? o = some ob → h.obj? src = some sb → ob.ty = some own → sb.ty = some t → FindsBoth E own t
  | .copyMatching o src => ∀ ob sb own t, h.obj? o = some ob → h.obj? src = some sb → ob.ty = some own → sb.ty = some t → FindsBoth E own t
  | .moveMatching o src _ => ∀ ob sb own t, h.obj? o = some ob → h.obj? src = some sb → ob.ty = some own → sb.ty = some t → FindsBoth E own t
  | .reset o t => ∀ ob told, h.obj? o = some ob → ob.ty = some told → FindsBoth E told t
  | .mutation o t _ => ∀ ob told, h.obj? o = some ob → ob.ty = some told → FindsBoth E told t
  | .mutateTo o t ops => (∀ ob told, h.obj? o = some ob → ob.ty = some told → FindsBoth E told t) ∧ Finds E t (ops.map Prod.fst)
  | _ => True

theorem sortedOps_same (t : TypeId) (ops : List InitOp) (hf : Finds E t (ops.map Prod.fst)) : sortedOps E.byIdentity t ops = sortedOps E t ops := by
  unfold sortedOps
  congr 1
  induction ops with
  | nil => rfl
  | cons p ops ih =>
    obtain ⟨m, k⟩ := p
    have h1 : E.byIdentity.indexOf t m = E.indexOf t m := (hf m (by simp)).symm
    have h2 := ih (fun m hm => hf m (by simp only [List.map_cons, List.mem_cons]; exact .inr hm))
    rw [List.filterMap_cons, List.filterMap_cons, h2]
    simp only [h1]

/-- An object without type is found by every type. -/
theorem newNull_find {h : Heap} {al : Nat} (t : TypeId) : ∀ ob told, (newNull h al).obj? h.objs.length = some ob → ob.ty = some told → FindsBoth E told t := by
  intro ob told h1 h2
  have : (newNull h al).obj? h.objs.length = some ⟨none, none, false, al⟩ := by
    simp [newNull, Heap.obj?]
  rw [this] at h1
  injection h1 with h1
  subst h1
  cases h2

theorem ostep_same (u : Bool) (h : Heap) (op : OOp) (hf : FindsFor E h op) : ostep D E.byIdentity orc u h op = ostep D E orc u h op := by
  cases op with
  | newEmpty t al => rfl
  | newOfType t al sd =>
    show newOfType D E.byIdentity orc u h t al sd = newOfType D E orc u h t al sd
    unfold newOfType
    have h1 : unwindObject D E.byIdentity h.objs.length = unwindObject D E h.objs.length := by
      funext x e; exact unwindObject_same x _ e
    simp only
    rw [h1, resetType_same u _ _ t (newNull_find t)]
  | moveNew src => rfl
  | destroy o => exact destroyObject_same h o
  | moveAssign o src =>
    show moveAssign D E.byIdentity h o src = moveAssign D E h o src
    unfold moveAssign
    rw [clearMixinData_same]
    rfl
  | copy src al =>
    show copyObject D E.byIdentity orc u h src al = copyObject D E orc u h src al
    unfold copyObject
    have h1 : unwindObject D E.byIdentity h.objs.length = unwindObject D E h.objs.length := by
      funext x e; exact unwindObject_same x _ e
    cases h.obj? src with
    | none => rfl
    | some sb =>
      simp only
      cases sb.data with
      | none => rfl
      | some a =>
        cases sb.ty with
        | none => rfl
        | some t =>
          simp only
          unfold perform
          rw [h1, withMutation_same u _ _ t _ (newNull_find t)]
  | copyFrom o src =>
    show copyFrom D E.byIdentity orc u h o src = copyFrom D E orc u h o src
    unfold copyFrom
    cases ho : h.obj? o with
    | none => rfl
    | some ob =>
      cases hs : h.obj? src with
      | none => rfl
      | some sb =>
        simp only
        cases hd : sb.data with
        | none => simp only; rw [clearMixinData_same]
        | some a =>
          cases ht : sb.ty with
          | none => rfl
          | some t =>
            cases hw : ob.ty with
            | none => rfl
            | some own =>
              have hb := hf ob sb own t ho hs hw ht
              simp only
              rw [show E.byIdentity.mixins t = E.mixins t from rfl, copyFromCheck_same own _ hb.1]
              unfold perform
              rw [withMutation_same u h o t _ (by
                intro ob' told h1 h2
                rw [ho] at h1; injection h1 with h1; subst h1
                rw [hw] at h2; injection h2 with h2; subst h2
                exact hb)]
  | copyMatching o src =>
    show copyMatchingFrom D E.byIdentity orc h o src = copyMatchingFrom D E orc h o src
    unfold copyMatchingFrom
    cases ho : h.obj? o with
    | none => rfl
    | some ob =>
      cases hs : h.obj? src with
      | none => rfl
      | some sb =>
        simp only
        cases hw : ob.ty with
        | none => rfl
        | some own =>
          cases ht : sb.ty with
          | none => rfl
          | some t =>
            have hb := hf ob sb own t ho hs hw ht
            simp only
            rw [show E.byIdentity.mixins t = E.mixins t from rfl, copyMatchingCheck_same own _ hb.1, copyMatchingLoop_same own _ _ _ _ _ hb.1]
  | moveMatching o src fb =>
    show moveMatchingFrom D E.byIdentity orc h o src fb = moveMatchingFrom D E orc h o src fb
    unfold moveMatchingFrom
    cases ho : h.obj? o with
    | none => rfl
    | some ob =>
      cases hs : h.obj? src with
      | none => rfl
      | some sb =>
        simp only
        cases hw : ob.ty with
        | none => rfl
        | some own =>
          cases ht : sb.ty with
          | none => rfl
          | some t =>
            have hb := hf ob sb own t ho hs hw ht
            simp only
            rw [show E.byIdentity.mixins t = E.mixins t from rfl, moveMatchingCheck_same own fb _ hb.1, moveMatchingLoop_same own _ _ _ _ _ hb.1]
  | clear o =>
    show clearObject D E.byIdentity h o = clearObject D E h o
    unfold clearObject
    rw [clearMixinData_same]
    rfl
  | reset o t => exact resetType_same u h o t hf
  | «seal» o => rfl
  | mutation o t steps => exact withMutation_same u h o t steps hf
  | mutateTo o t ops =>
    show mutateTo D E.byIdentity orc u h o t ops = mutateTo D E orc u h o t ops
    unfold mutateTo
    rw [sortedOps_same t ops hf.2, withMutation_same u h o t _ hf.1]

end

end Dnmx
