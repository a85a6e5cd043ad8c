import Verif.Proofs.TransferLemmas

/-!
# Lemmas: operations leave other objects alone
-/

set_option linter.unusedSimpArgs false
set_option linter.unusedVariables false
set_option linter.unusedSectionVars false

namespace Dnmx
open Spec

variable {D : Decls} {E : TyEnv} {orc : Orc}

theorem holds_setObj_ne {h : Heap} {o o' : Nat} (x : Option Obj) (hne : o' ≠ o) {m : Mix} {l : Loc} {v : Nat} : Holds E (h.setObj o x) o' m l v ↔ Holds E h o' m l v := by
  unfold Holds SlotOf
  simp only [obj?_setObj_ne x hne]

/-- The holdings of an object are as they were. -/
def SameHolds (E : TyEnv) (o : Nat) (h h' : Heap) : Prop := ∀ m l v, Holds E h' o m l v ↔ Holds E h o m l v

theorem SameHolds.refl (o : Nat) (h : Heap) : SameHolds E o h h := fun _ _ _ => Iff.rfl

/-- Changes of values elsewhere. -/
theorem revalued_holds {h h' : Heap} (hr : Revalued h h') {o : Nat} (hl : ∀ i m sl, SlotOf E h o i m sl → h'.live sl.loc = h.live sl.loc) : SameHolds E o h h' := by
  intro m l v
  constructor
  · rintro ⟨i, sl, hs, rfl, h1⟩
    have hs' := hr.slots.1 hs
    exact ⟨i, sl, hs', rfl, by rw [← hl i m sl hs']; exact h1⟩
  · rintro ⟨i, sl, hs, rfl, h1⟩
    exact ⟨i, sl, hr.slots.2 hs, rfl, by rw [hl i m sl hs]; exact h1⟩

theorem frame (hE : EnvOk D E) {h : Heap} (hg : Good D E h) (u : Bool) {op : OOp} (hp : Proper E h op) {o : Nat} (ha : Alive h o) (hn : o ∉ affected op) :
    HStepOk (ostep D E orc u h op) (SameHolds E o h) (fun h' _ => SameHolds E o h h') := by
  obtain ⟨x, hx⟩ := alive_obj hE ha
  have hlen := length_not_obj hx
  have hnull : ∀ al, SameHolds E o h (newNull h al) := by intro al m l v; rw [newNull_addObj, addObj_holds (bare_null al)]
  have hund : ∀ {o' ob t T h'}, o ≠ o' → h.obj? o' = some ob → Undone E h ob t T h' → SameHolds E o h h' :=
    fun hoo ho hu m l v => undone_holds hE hg.1 ho hu (.inl hoo)
  have hmut : ∀ {o' t steps}, o ≠ o' → Alive h o' → E.mixins t ≠ [] → (∀ st ∈ steps, properStep st.1 = true) →
      HStepOk (withMutation D E orc u h o' t steps) (SameHolds E o h) (fun h' _ => SameHolds E o h h') := by
    intro o' t steps hoo hal hne hst
    obtain ⟨ob, ho⟩ := alive_obj hE hal
    cases hsl : ob.isSealed with
    | true => rw [withMutation_sealed ho hsl]; exact .refl _ _
    | false =>
      by_cases hty : ob.ty = some t
      · exact (withMutation_same_ok (orc := orc) hE hg.1 ho hsl hty hne u steps true (fitsSame_of_proper hst (by simp))).mono
          (fun h' hx => hund hoo ho hx.1) (fun h' _ hx => hund hoo ho hx.1)
      · refine (withMutation_ok (orc := orc) hE hg.1 ho hsl hty hne u steps true (fits_of_proper hst (by simp))).mono ?_ (fun h' _ hx => hund hoo ho hx.1)
        intro h'
        cases u with
        | true => intro hx; exact hund hoo ho hx.1
        | false => rintro ⟨F, G, hx⟩ m l v; exact completed_other hE hg.1 ho hne hx hoo
  cases op with
  | newEmpty t al =>
    intro m l v
    exact addObj_holds (h := h) (x := some (⟨some (E.emptyOf t), none, false, al⟩ : Obj)) (by intro y hy; simp at hy; subst hy; exact ⟨rfl, fun t' ht' => by simp at ht'; subst ht'; exact hE.empty t⟩)
  | newOfType t al sd =>
    have hk1 : HeapOk D E (newNull h al) := addObj_ok hg.1 (bare_null al)
    have ho1 : (newNull h al).obj? h.objs.length = some ⟨none, none, false, al⟩ := by rw [newNull_addObj, addObj_obj, if_pos rfl]
    unfold ostep newOfType
    refine (resetType_ok (orc := orc) hE hk1 ho1 rfl u t).bind ?_ (fun h1 e1 hf => (untouched_new hE hg.1 hf e1).mono (fun _ hf => hf.elim) (fun _ _ hx => hx.holds o))
    intro h1 hP
    have : SameHolds E o h h1 ∧ ∃ y, h1.obj? h.objs.length = some y := by
      rcases hP with (⟨h2, -⟩ | ⟨-, hne, h2, hc2, rfl⟩ | ⟨-, hne, -, F, G, hc2, -⟩ | ⟨-, -, -, hf⟩)
      · simp at h2
      · refine ⟨fun m l v => ?_, _, by rw [hc2.objs' ho1, if_pos rfl]⟩
        rw [hc2.holds hE hk1 ho1 ?_ hlen]; exact hnull al m l v
        intro y hy; simp at hy; subst hy; exact ⟨rfl, fun t' ht' => by simp at ht'; subst ht'; exact hne⟩
      · refine ⟨fun m l v => ?_, _, by rw [completed_obj hE hk1 ho1 hne hc2, if_pos rfl]⟩
        rw [completed_other hE hk1 ho1 hne hc2 hlen]; exact hnull al m l v
      · refine ⟨fun m l v => ?_, _, by rw [undone_obj hE hk1 ho1 hf.1]; exact ho1⟩
        rw [undone_holds hE hk1 ho1 hf.1 (.inl hlen)]; exact hnull al m l v
    obtain ⟨h2, y, h3⟩ := this
    simp only [h3]
    intro m l v
    rw [holds_setObj_ne _ hlen]; exact h2 m l v
  | moveNew src =>
    obtain ⟨sb, hs⟩ := alive_obj hE hp
    obtain ⟨h', k1, k2, -⟩ := moveConstruct_moved hE hg hs
    unfold ostep; simp only; rw [k1]
    exact fun m l v => k2.others o m l v hlen (by simpa [affected, subjects] using hn)
  | destroy o' =>
    obtain ⟨ob, ho⟩ := alive_obj hE hp
    obtain ⟨h', k1, k2⟩ := destroyObject_ok (D := D) hE hg.1 ho
    unfold ostep; simp only; rw [k1]
    exact fun m l v => k2.holds hE hg.1 ho bare_none (by simpa [affected, subjects] using hn)
  | moveAssign o' src =>
    obtain ⟨ob, ho⟩ := alive_obj hE hp.1
    obtain ⟨sb, hs⟩ := alive_obj hE hp.2
    have hn1 : o ≠ o' ∧ o ≠ src := by simpa [affected, subjects] using hn
    by_cases hos : o' = src
    · unfold ostep moveAssign; simp only; rw [if_pos hos]; exact .refl _ _
    · by_cases hal : ob.alloc = sb.alloc
      · cases hsl : ob.isSealed with
        | true => unfold ostep moveAssign; simp only [ho, hs]; rw [if_neg hos, if_pos hal, hsl]; exact .refl _ _
        | false =>
          obtain ⟨h', k1, k2, -⟩ := moveAssign_moved hE hg ho hs hos hal hsl
          unfold ostep; simp only; rw [k1]
          exact fun m l v => k2.others o m l v hn1.1 hn1.2
      · unfold ostep moveAssign; simp only [ho, hs]; rw [if_neg hos, if_neg hal]; exact .refl _ _
  | copy src al =>
    obtain ⟨sb, hs⟩ := alive_obj hE hp
    obtain ⟨t, hty⟩ := typed_obj hE hg hs
    have hne := length_not_obj hs
    have hk1 : HeapOk D E (newNull h al) := addObj_ok hg.1 (bare_null al)
    have ho1 : (newNull h al).obj? h.objs.length = some ⟨none, none, false, al⟩ := by rw [newNull_addObj, addObj_obj, if_pos rfl]
    have hs1 : (newNull h al).obj? src = some sb := by rw [newNull_addObj, addObj_obj, if_neg hne]; exact hs
    have hob := hg.1.objs src sb hs
    unfold ObjOk at hob
    unfold ostep copyObject
    simp only [hs]
    cases hd : sb.data with
    | none =>
      simp only
      intro m l v
      rw [holds_setObj_ne _ hlen]; exact hnull al m l v
    | some a =>
      rw [hd] at hob
      obtain ⟨t', p1, hnet, -, -⟩ := hob
      rw [hty] at p1; simp at p1; subst p1
      simp only [hty]
      have hnf : NewFnOk D E (newNull h al) h.objs.length ⟨none, none, false, al⟩ t (.copy src true) :=
        ⟨hne, ⟨sb, hs1, hty, by rw [hd]; simp⟩, fun h => by simp at h⟩
      refine (perform_ok (orc := orc) hE hk1 ho1 rfl (by simp) hnet u hnf (g := .noop) trivial).bind ?_
        (fun h1 e1 hf => (untouched_new hE hg.1 hf e1).mono (fun _ hf => hf.elim) (fun _ _ hx => hx.holds o))
      intro h1 hP
      show SameHolds E o h h1
      intro m l v
      cases u with
      | true => rw [undone_holds hE hk1 ho1 hP.1 (.inl hlen)]; exact hnull al m l v
      | false =>
        obtain ⟨F, G, hc, -⟩ := hP
        rw [completed_other hE hk1 ho1 hnet hc hlen]; exact hnull al m l v
  | copyFrom o' src =>
    obtain ⟨ob, ho⟩ := alive_obj hE hp.1
    obtain ⟨sb, hs⟩ := alive_obj hE hp.2
    obtain ⟨own, hty⟩ := typed_obj hE hg ho
    obtain ⟨t, hsty⟩ := typed_obj hE hg hs
    have hoo : o ≠ o' := by simpa [affected, subjects] using hn
    have hob := hg.1.objs src sb hs
    unfold ObjOk at hob
    unfold ostep copyFrom
    simp only [ho, hs]
    cases hd : sb.data with
    | none =>
      rw [hd] at hob
      simp only
      cases hsl : ob.isSealed with
      | true => simp only [if_true]; exact .refl _ _
      | false =>
        simp only [Bool.false_eq_true, if_false]
        obtain ⟨h1, k1, k2⟩ := clear_ok (D := D) hE hg.1 ho
        simp only [k1, k2.obj ho]
        exact fun m l v => k2.holds hE hg.1 ho (by intro y hy; simp at hy; subst hy; exact ⟨rfl, fun t' ht' => hob t' ht'⟩) hoo
    | some a =>
      rw [hd] at hob
      obtain ⟨t', p1, hnet, -, -⟩ := hob
      rw [hsty] at p1; simp at p1; subst p1
      simp only [hsty, hty]
      cases hck : copyFromCheck D E own (E.mixins t) with
      | some m => exact .refl _ _
      | none =>
        simp only
        obtain ⟨f1, f2⟩ := copyFrom_fns hE hg.1 ho hs hty hsty (by rw [hd]; simp) hck
        cases hsl : ob.isSealed with
        | true => unfold perform; rw [withMutation_sealed ho hsl]; exact .refl _ _
        | false =>
          by_cases heq : own = t
          · subst heq
            refine (perform_same_ok (orc := orc) hE hg.1 ho hsl hty hnet u (.copy src false) (f2 rfl)).mono (fun h' hx => hund hoo ho hx.1.1) (fun h' _ hx => hund hoo ho hx.1)
          · have hne : ob.ty ≠ some t := by rw [hty]; simpa using heq
            refine (perform_ok (orc := orc) hE hg.1 ho hsl hne hnet u (f1 heq).1 (f1 heq).2).mono ?_ (fun h' _ hx => hund hoo ho hx.1)
            intro h'
            cases u with
            | true => intro hx; exact hund hoo ho hx.1
            | false => rintro ⟨F, G, hx, -⟩ m l v; exact completed_other hE hg.1 ho hnet hx hoo
  | copyMatching o' src =>
    obtain ⟨ob, ho⟩ := alive_obj hE hp.1
    obtain ⟨sb, hs⟩ := alive_obj hE hp.2
    obtain ⟨own, hty⟩ := typed_obj hE hg ho
    obtain ⟨t, hsty⟩ := typed_obj hE hg hs
    have hoo : o ≠ o' := by simpa [affected, subjects] using hn
    unfold ostep copyMatchingFrom
    simp only [ho, hs, hty, hsty]
    cases hck : copyMatchingCheck D E own (E.mixins t) with
    | some m => exact .refl _ _
    | none =>
      simp only
      have hch := copyMatchingCheck_none hE (own := own) (t := t) (E.mixins t) (fun m hm => hm) hck
      have hdiff : ∀ {j m sl sl' i m1 sl1}, Match E h o' src j m sl sl' → SlotOf E h o i m1 sl1 → sl.loc ≠ sl1.loc := by
        rintro j m sl sl' i m1 sl1 ⟨-, oi, h1⟩ h2 h3
        exact hoo (h1.same hE hg.1 h2 h3).1.symm
      refine (copyMatchingLoop_ok (orc := orc) hE hg.1 ho hs hty hsty hch (E.mixins t) 0 h rfl (Nat.zero_le _)
        ⟨Revalued.refl h, fun j _ _ _ hj => by omega, fun _ _ => rfl, rfl, rfl⟩).mono
          (fun h' hx => revalued_holds hx.rev (fun i m1 sl1 hs1 => hx.rest _ (fun j m sl sl' _ hm => hdiff hm hs1))) ?_
      rintro h' e ⟨k, h1, m, sl, sl', v, tk, L, k1, k2, rfl, -⟩
      obtain ⟨v0, hv⟩ : ∃ v0, h.live sl.loc = some (m, v0) := by
        obtain ⟨-, oi, h2⟩ := k2
        obtain ⟨_, _, _, v0, -, -, -, -, -, -, f7, -⟩ := h2.facts hg.1
        exact ⟨v0, f7⟩
      refine revalued_holds (k1.rev.set hv v tk L) (fun i m1 sl1 hs1 => ?_)
      show (if sl1.loc = sl.loc then _ else h1.live sl1.loc) = _
      rw [if_neg (fun hh => hdiff k2 hs1 hh.symm)]
      exact k1.rest _ (fun j m sl sl' _ hm => hdiff hm hs1)
  | moveMatching o' src fb =>
    obtain ⟨ob, ho⟩ := alive_obj hE hp.1
    obtain ⟨sb, hs⟩ := alive_obj hE hp.2.1
    obtain ⟨own, hty⟩ := typed_obj hE hg ho
    obtain ⟨t, hsty⟩ := typed_obj hE hg hs
    have hoo : o ≠ o' ∧ o ≠ src := by simpa [affected, subjects] using hn
    unfold ostep moveMatchingFrom
    simp only [ho, hs, hty, hsty]
    cases hck : moveMatchingCheck D E own fb (E.mixins t) with
    | some m => exact .refl _ _
    | none =>
      simp only
      have hch := moveMatchingCheck_none hE (own := own) (t := t) (E.mixins t) (fun m hm => hm) hck
      refine (moveMatchingLoop_ok (orc := orc) hE hg.1 ho hs hty hsty fb hp.2.2 hch (E.mixins t) 0 h rfl (Nat.zero_le _)
        ⟨Revalued.refl h, fun _ j _ _ _ hj => by omega, fun _ _ => rfl⟩).mono (fun h' hx => revalued_holds hx.rev (fun i m1 sl1 hs1 => hx.rest _ ?_)) (fun _ _ hx => hx.elim)
      rintro j m sl sl' - ⟨h1, oi, h2⟩
      exact ⟨fun hh => hoo.1 (h2.same hE hg.1 hs1 hh).1.symm, fun hh => hoo.2 (h1.same hE hg.1 hs1 hh).1.symm⟩
  | clear o' =>
    obtain ⟨ob, ho⟩ := alive_obj hE hp
    obtain ⟨own, hty⟩ := typed_obj hE hg ho
    unfold ostep clearObject
    simp only [ho]
    cases hsl : ob.isSealed with
    | true => simp only [if_true]; exact .refl _ _
    | false =>
      simp only [Bool.false_eq_true, if_false]
      obtain ⟨h1, k1, k2⟩ := clear_ok (D := D) hE hg.1 ho
      simp only [k1, hty, k2.obj ho]
      exact fun m l v => k2.holds hE hg.1 ho (by intro y hy; simp at hy; subst hy; exact ⟨rfl, fun t' ht' => by simp at ht'; subst ht'; exact hE.empty _⟩) (by simpa [affected, subjects] using hn)
  | reset o' t =>
    obtain ⟨ob, ho⟩ := alive_obj hE hp
    have hoo : o ≠ o' := by simpa [affected, subjects] using hn
    unfold ostep
    simp only
    cases hsl : ob.isSealed with
    | true => rw [resetType_sealed ho hsl]; exact .refl _ _
    | false =>
      refine (resetType_ok (orc := orc) hE hg.1 ho hsl u t).mono ?_ (fun h' _ hx => hund hoo ho hx.1)
      rintro h' (⟨-, rfl⟩ | ⟨-, hne, h1, hc, rfl⟩ | ⟨-, hne, -, F, G, hc, -⟩ | ⟨-, -, -, hf⟩)
      · exact .refl _ _
      · exact fun m l v => hc.holds hE hg.1 ho (by intro y hy; simp at hy; subst hy; exact ⟨rfl, fun t' ht' => by simp at ht'; subst ht'; exact hne⟩) hoo
      · exact fun m l v => completed_other hE hg.1 ho hne hc hoo
      · exact hund hoo ho hf.1
  | «seal» o' =>
    obtain ⟨ob, ho⟩ := alive_obj hE hp
    unfold ostep sealObject
    simp only [ho]
    exact fun m l v => holds_setObj_ne _ (by simpa [affected, subjects] using hn)
  | mutation o' t steps => exact hmut (by simpa [affected, subjects] using hn) hp.1 hp.2.1 hp.2.2
  | mutateTo o' t ops =>
    obtain ⟨ob, ho, hp⟩ := hp
    unfold ostep mutateTo
    simp only [ho]
    by_cases hty : ob.ty = some t
    · rw [if_pos hty]; exact .refl _ _
    · rw [if_neg hty]
      exact hmut (by simpa [affected, subjects] using hn) (by unfold Alive; rw [ho]; simp) (hp.resolve_left hty) (mutateToSteps_proper _)

theorem affected_subjects {op : OOp} {o : Nat} (h : o ∉ affected op) : o ∉ subjects op := by
  cases op <;> simp_all [affected, subjects]

end Dnmx
