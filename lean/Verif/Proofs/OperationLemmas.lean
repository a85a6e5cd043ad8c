import Verif.Proofs.MatchingLemmas
import Verif.Spec.Programs

/-!
# Operations on objects
-/

set_option linter.unusedSimpArgs false
set_option linter.unusedVariables false
set_option linter.unusedSectionVars false

namespace Dnmx
open Spec

variable {D : Decls} {E : TyEnv} {orc : Orc}

theorem destroyObject_ok (hE : EnvOk D E) {h : Heap} (hk : HeapOk D E h) {o : Nat} {ob : Obj} (ho : h.obj? o = some ob) :
    ∃ h', destroyObject D E h o = .ok (h'.setObj o none) ∧ Cleared D E h o ob h' := by
  obtain ⟨h', h1, h2⟩ := clear_ok (D := D) hE hk ho
  exact ⟨h', by unfold destroyObject; rw [h1], h2⟩

theorem unwindObject_ok (hE : EnvOk D E) {h : Heap} (hk : HeapOk D E h) {o : Nat} {ob : Obj} (ho : h.obj? o = some ob) (e : XErr) :
    ∃ h', unwindObject D E o h e = .throw (h'.setObj o none) e ∧ Cleared D E h o ob h' := by
  obtain ⟨h', h1, h2⟩ := destroyObject_ok (D := D) hE hk ho
  exact ⟨h', by unfold unwindObject; rw [h1]; rfl, h2⟩

/-- The outcomes of `reset_type` for an object that may be changed. -/
theorem resetType_ok (hE : EnvOk D E) {h : Heap} (hk : HeapOk D E h) {o : Nat} {ob : Obj} (ho : h.obj? o = some ob) (hsl : ob.isSealed = false) (u : Bool) (t : TypeId) :
    HStepOk (resetType D E orc u h o t)
      (fun h' => (ob.ty = some t ∧ h' = h) ∨
        (ob.ty ≠ some t ∧ E.mixins t = [] ∧ ∃ h1, Cleared D E h o ob h1 ∧ h' = h1.setObj o (some { ob with ty := some t, data := none })) ∨
        (ob.ty ≠ some t ∧ E.mixins t ≠ [] ∧ u = false ∧ ∃ F G, Completed D E h o ob t ⟨F, G, fun _ => false⟩ h' ∧ ∀ i, F i = .dflt ∧ G i = .noop) ∨
        (ob.ty ≠ some t ∧ E.mixins t ≠ [] ∧ u = true ∧ Failed D E h ob t (fun _ => false) h'))
      (fun h' _ => Failed D E h ob t (fun _ => false) h') := by
  unfold resetType
  rw [ho]
  simp only [hsl, Bool.false_eq_true, if_false]
  by_cases hty : ob.ty = some t
  · rw [if_pos hty]; exact .inl ⟨hty, rfl⟩
  · rw [if_neg hty]
    by_cases hne : E.mixins t = []
    · rw [if_pos (by rw [hne]; rfl)]
      obtain ⟨h1, k1, k2⟩ := clear_ok (D := D) hE hk ho
      simp only [k1, k2.obj ho]
      exact .inr (.inl ⟨hty, hne, h1, k2, by rw [hsl]⟩)
    · rw [if_neg (fun h => hne (List.length_eq_zero_iff.1 h))]
      have := perform_ok (orc := orc) hE hk ho hsl hty hne u (f := .dflt) (g := .noop) trivial trivial
      simp only [ne_eq, not_true_eq_false, decide_false] at this
      refine this.mono ?_ (fun _ _ h => h)
      intro h'
      cases u with
      | true => intro h; exact .inr (.inr (.inr ⟨hty, hne, rfl, h⟩))
      | false => intro h; exact .inr (.inr (.inl ⟨hty, hne, rfl, h⟩))

theorem resetType_sealed {h : Heap} {o : Nat} {ob : Obj} (ho : h.obj? o = some ob) (hsl : ob.isSealed = true) (u : Bool) (t : TypeId) :
    resetType D E orc u h o t = .throw h .isSealed := by
  unfold resetType; rw [ho]; simp [hsl]

/-! ## Health after each operation -/

/-- A healthy heap in which all objects have types. -/
def Good (D : Decls) (E : TyEnv) (h : Heap) : Prop := HeapOk D E h ∧ AllTyped h

section
variable (hE : EnvOk D E)
include hE

theorem good_failed {h0 : Heap} (hg : Good D E h0) {o : Nat} {ob : Obj} (ho : h0.obj? o = some ob) {t : TypeId} {T : Nat → Bool} {h : Heap} (hf : Undone E h0 ob t T h) :
    Good D E h := by
  refine ⟨hf.heapOk hE hg.1 ho, ?_⟩
  intro o' ob' h1
  rw [undone_obj hE hg.1 ho hf] at h1
  exact hg.2 o' ob' h1

theorem good_completed {h0 : Heap} (hg : Good D E h0) {o : Nat} {ob : Obj} (ho : h0.obj? o = some ob) {t : TypeId} (hne : E.mixins t ≠ []) {g : Ghost} {h : Heap}
    (hc : Completed D E h0 o ob t g h) : Good D E h := by
  refine ⟨completed_heapOk hE hg.1 ho hne hc, ?_⟩
  intro o' ob' h1
  rw [completed_obj hE hg.1 ho hne hc] at h1
  split at h1
  · simp at h1; subst h1; simp [mutatedObj]
  · exact hg.2 o' ob' h1

theorem good_cleared {h0 : Heap} (hg : Good D E h0) {o : Nat} {ob : Obj} (ho : h0.obj? o = some ob) {h : Heap} (hc : Cleared D E h0 o ob h) {x : Option Obj} (hx : Bare E x)
    (hxt : ∀ y, x = some y → y.ty ≠ none) : Good D E (h.setObj o x) := by
  refine ⟨hc.heapOk hE hg.1 ho hx, ?_⟩
  intro o' ob' h1
  rw [hc.objs' ho] at h1
  split at h1
  · exact hxt ob' h1
  · exact hg.2 o' ob' h1

theorem good_revalued {h0 h : Heap} (hg : Good D E h0) (hr : Revalued h0 h) : Good D E h := by
  refine ⟨hr.heapOk hg.1, ?_⟩
  intro o' ob' h1
  have : h.obj? o' = h0.obj? o' := by unfold Heap.obj?; rw [hr.objs]
  rw [this] at h1
  exact hg.2 o' ob' h1

theorem alive_obj {h : Heap} {o : Nat} (ha : Alive h o) : ∃ ob, h.obj? o = some ob := by
  unfold Alive at ha
  cases hx : h.obj? o with
  | none => exact absurd hx ha
  | some ob => exact ⟨ob, rfl⟩

theorem typed_obj {h : Heap} (hg : Good D E h) {o : Nat} {ob : Obj} (ho : h.obj? o = some ob) : ∃ t, ob.ty = some t := by
  cases hx : ob.ty with
  | none => exact absurd hx (hg.2 o ob ho)
  | some t => exact ⟨t, rfl⟩

/-- Mutations. -/
theorem good_mutation {h : Heap} (hg : Good D E h) (u : Bool) {o : Nat} (ha : Alive h o) {t : TypeId} (hne : E.mixins t ≠ []) {steps : List (MStep × Bool)}
    (hst : ∀ st ∈ steps, properStep st.1 = true) : HStepOk (withMutation D E orc u h o t steps) (Good D E) (fun h' _ => Good D E h') := by
  obtain ⟨ob, ho⟩ := alive_obj hE ha
  cases hsl : ob.isSealed with
  | true => rw [withMutation_sealed ho hsl]; exact hg
  | false =>
    by_cases hty : ob.ty = some t
    · refine (withMutation_same_ok (orc := orc) hE hg.1 ho hsl hty hne u steps true ?_).mono (fun h' hx => good_failed hE hg ho hx.1) (fun h' _ hx => good_failed hE hg ho hx.1)
      intro st hs
      have hp := hst st hs
      obtain ⟨st, c⟩ := st
      simp only at hp
      refine ⟨by cases st <;> simp_all [MStep.plain, properStep], ?_, fun _ _ _ => rfl⟩
      intro g hu
      cases st <;> simp [MStep.updFn] at hu <;> (subst hu; unfold UpdFnOkSame; split <;> first | trivial | (simp [properStep, ownUpd] at hp))
    · refine (withMutation_ok (orc := orc) hE hg.1 ho hsl hty hne u steps true ?_).mono ?_ (fun h' _ hx => good_failed hE hg ho hx.1)
      · intro st hs
        have hp := hst st hs
        obtain ⟨st, c⟩ := st
        simp only at hp
        refine ⟨by cases st <;> simp_all [MStep.plain, properStep], ?_, ?_, fun _ _ _ => rfl⟩
        · intro g hu
          cases st <;> simp [MStep.newFn] at hu <;> (subst hu; unfold NewFnOk; split <;> first | trivial | (simp [properStep, ownNew] at hp))
        · intro g hu
          cases st <;> simp [MStep.updFn] at hu <;> (subst hu; unfold UpdFnOk; split <;> first | trivial | (simp [properStep, ownUpd] at hp))
      · intro h'
        cases u with
        | true => intro hx; exact good_failed hE hg ho hx.1
        | false => rintro ⟨F, G, hx⟩; exact good_completed hE hg ho hne hx

omit hE in
theorem mutateToSteps_proper (l : List (Nat × Nat)) : ∀ st ∈ mutateToSteps l, properStep st.1 = true := by
  intro st hst
  unfold mutateToSteps at hst
  rw [List.mem_flatMap] at hst
  obtain ⟨⟨i, k⟩, -, h2⟩ := hst
  simp at h2
  rcases h2 with rfl | rfl <;> rfl

/-- `reset_type`. -/
theorem good_reset {h : Heap} (hg : Good D E h) (u : Bool) {o : Nat} (ha : Alive h o) (t : TypeId) :
    HStepOk (resetType D E orc u h o t) (Good D E) (fun h' _ => Good D E h') := by
  obtain ⟨ob, ho⟩ := alive_obj hE ha
  cases hsl : ob.isSealed with
  | true => rw [resetType_sealed ho hsl]; exact hg
  | false =>
    refine (resetType_ok (orc := orc) hE hg.1 ho hsl u t).mono ?_ (fun h' _ hx => good_failed hE hg ho hx.1)
    rintro h' (⟨-, rfl⟩ | ⟨-, hne, h1, hc, rfl⟩ | ⟨-, hne, -, F, G, hc, -⟩ | ⟨-, -, -, hf⟩)
    · exact hg
    · refine good_cleared hE hg ho hc ?_ ?_
      · intro y hy; simp at hy; subst hy; exact ⟨rfl, fun t' ht' => by simp at ht'; subst ht'; exact hne⟩
      · intro y hy; simp at hy; subst hy; simp
    · exact good_completed hE hg ho hne hc
    · exact good_failed hE hg ho hf.1

/-- `object(type)`. The object without type that exists during construction is gone again if there is an error. -/
theorem good_newOfType {h : Heap} (hg : Good D E h) (t : TypeId) (al : Nat) (sd : Bool) :
    HStepOk (newOfType D E orc false h t al sd) (Good D E) (fun h' _ => Good D E h') := by
  unfold newOfType
  have hk1 : HeapOk D E (newNull h al) := addObj_ok hg.1 (bare_null al)
  have ho1 : (newNull h al).obj? h.objs.length = some ⟨none, none, false, al⟩ := by rw [newNull_addObj, addObj_obj, if_pos rfl]
  have hty1 : ∀ o' ob', o' ≠ h.objs.length → (newNull h al).obj? o' = some ob' → ob'.ty ≠ none := by
    intro o' ob' hne hx
    rw [newNull_addObj, addObj_obj, if_neg hne] at hx
    exact hg.2 o' ob' hx
  refine (resetType_ok (orc := orc) hE hk1 ho1 rfl false t).bind ?_ ?_
  · intro h'
    -- the object has its type now
    have fin : HeapOk D E h' → (∃ ob, h'.obj? h.objs.length = some ob ∧ ob.ty ≠ none) → (∀ o' ob', o' ≠ h.objs.length → h'.obj? o' = some ob' → ob'.ty ≠ none) →
        HStepOk (match h'.obj? h.objs.length with
          | none => .ub
          | some ob => .ok (h'.setObj h.objs.length (some { ob with isSealed := sd }))) (Good D E) (fun h' _ => Good D E h') := by
      rintro h1 ⟨ob, h2, h3⟩ h4
      simp only [h2]
      refine ⟨(setObj_sealed h1 h2 sd).1, ?_⟩
      intro o' ob' h5
      rw [obj?_set (h := h'.setObj _ _) (l := h'.objs) rfl h2] at h5
      split at h5
      · simp at h5; subst h5; exact h3
      · rename_i hne; exact h4 o' ob' hne h5
    rintro (⟨h1, -⟩ | ⟨-, hne, h1, hc, rfl⟩ | ⟨-, hne, -, F, G, hc, -⟩ | ⟨-, -, h1, -⟩)
    · simp at h1
    · have hb : Bare E (some (⟨some t, none, false, al⟩ : Obj)) := by
        intro y hy; simp at hy; subst hy; exact ⟨rfl, fun t' ht' => by simp at ht'; subst ht'; exact hne⟩
      refine fin (hc.heapOk hE hk1 ho1 hb) ⟨⟨some t, none, false, al⟩, by rw [hc.objs' ho1, if_pos rfl], by simp⟩ ?_
      intro o' ob' hn h5
      rw [hc.objs' ho1, if_neg hn] at h5
      exact hty1 o' ob' hn h5
    · refine fin (completed_heapOk hE hk1 ho1 hne hc) ⟨_, by rw [completed_obj hE hk1 ho1 hne hc, if_pos rfl], by simp [mutatedObj]⟩ ?_
      intro o' ob' hn h5
      rw [completed_obj hE hk1 ho1 hne hc, if_neg hn] at h5
      exact hty1 o' ob' hn h5
    · simp at h1
  · intro h' e hf
    have hk2 := hf.1.heapOk hE hk1 ho1
    have ho2 : h'.obj? h.objs.length = some ⟨none, none, false, al⟩ := by rw [undone_obj hE hk1 ho1 hf.1]; exact ho1
    obtain ⟨h2, k1, k2⟩ := unwindObject_ok (D := D) hE hk2 ho2 e
    rw [k1]
    refine ⟨k2.heapOk hE hk2 ho2 bare_none, ?_⟩
    intro o' ob' h5
    rw [k2.objs' ho2] at h5
    split at h5
    · simp at h5
    · rename_i hn
      rw [undone_obj hE hk1 ho1 hf.1] at h5
      exact hty1 o' ob' hn h5

/-- Moves. -/
theorem good_moveNew {h : Heap} (hg : Good D E h) {src : Nat} (ha : Alive h src) : HStepOk (moveConstruct E h src) (Good D E) (fun h' _ => Good D E h') := by
  obtain ⟨sb, hs⟩ := alive_obj hE ha
  obtain ⟨t, hty⟩ := typed_obj hE hg hs
  unfold moveConstruct
  rw [hs]
  simp only
  have hne := length_not_obj hs
  have ho1 : (newNull h sb.alloc).obj? h.objs.length = some ⟨none, none, false, sb.alloc⟩ := by rw [newNull_addObj, addObj_obj, if_pos rfl]
  have hs1 : (newNull h sb.alloc).obj? src = some sb := by rw [newNull_addObj, addObj_obj, if_neg hne]; exact hs
  have hk1 : HeapOk D E ((newNull h sb.alloc).setObj h.objs.length none) := setObj_bare hE (addObj_ok hg.1 (bare_null _)) ho1 rfl bare_none
  obtain ⟨h', k1, k2⟩ := usurp_ok hE ho1 hs1 (fun h => hne h.symm) hk1 hty
  rw [k1]
  refine ⟨usurped_heapOk hE ho1 hs1 (fun h => hne h.symm) hk1 hty k2 rfl, ?_⟩
  intro o' ob' h5
  rw [usurped_obj hE ho1 hs1 (fun h => hne h.symm) hk1 hty k2] at h5
  split at h5
  · simp at h5; subst h5; simp
  · split at h5
    · simp at h5; subst h5; simp [hty]
    · rename_i hn
      rw [newNull_addObj, addObj_obj, if_neg hn] at h5
      exact hg.2 o' ob' h5

theorem good_moveAssign {h : Heap} (hg : Good D E h) {o src : Nat} (ha : Alive h o) (hb : Alive h src) : HStepOk (moveAssign D E h o src) (Good D E) (fun h' _ => Good D E h') := by
  obtain ⟨ob, ho⟩ := alive_obj hE ha
  obtain ⟨sb, hs⟩ := alive_obj hE hb
  obtain ⟨t, hty⟩ := typed_obj hE hg hs
  unfold moveAssign
  by_cases hos : o = src
  · rw [if_pos hos]; exact hg
  · rw [if_neg hos, ho, hs]
    simp only
    by_cases hal : ob.alloc = sb.alloc
    · rw [if_pos hal]
      cases hsl : ob.isSealed with
      | true => simp only [if_true]; exact hg
      | false =>
        simp only [Bool.false_eq_true, if_false]
        obtain ⟨h1, k1, k2⟩ := clear_ok (D := D) hE hg.1 ho
        have ho1 := k2.obj ho
        have hs1 : h1.obj? src = some sb := by
          have := obj?_set (h := h1) (l := h.objs) k2.objs ho src
          rw [if_neg (fun h => hos h.symm)] at this
          rw [this]; exact hs
        have hk1 := k2.heapOk hE hg.1 ho bare_none
        obtain ⟨h', k3, k4⟩ := usurp_ok hE ho1 hs1 hos hk1 hty
        simp only [k1, Option.bind, k3]
        refine ⟨usurped_heapOk hE ho1 hs1 hos hk1 hty k4 hal, ?_⟩
        intro o' ob' h5
        rw [usurped_obj hE ho1 hs1 hos hk1 hty k4] at h5
        split at h5
        · simp at h5; subst h5; simp
        · split at h5
          · simp at h5; subst h5; simp [hty]
          · rename_i hn
            have := obj?_set (h := h1) (l := h.objs) k2.objs ho o'
            rw [if_neg hn] at this
            rw [this] at h5
            exact hg.2 o' ob' h5
    · rw [if_neg hal]; exact hg

theorem good_copy {h : Heap} (hg : Good D E h) {src : Nat} (ha : Alive h src) (al : Nat) : HStepOk (copyObject D E orc false h src al) (Good D E) (fun h' _ => Good D E h') := by
  obtain ⟨sb, hs⟩ := alive_obj hE ha
  obtain ⟨t, hty⟩ := typed_obj hE hg hs
  have hne := length_not_obj hs
  have hk1 : HeapOk D E (newNull h al) := addObj_ok hg.1 (bare_null al)
  have ho1 : (newNull h al).obj? h.objs.length = some ⟨none, none, false, al⟩ := by rw [newNull_addObj, addObj_obj, if_pos rfl]
  have hs1 : (newNull h al).obj? src = some sb := by rw [newNull_addObj, addObj_obj, if_neg hne]; exact hs
  have hty1 : ∀ o' ob', o' ≠ h.objs.length → (newNull h al).obj? o' = some ob' → ob'.ty ≠ none := by
    intro o' ob' hne hx
    rw [newNull_addObj, addObj_obj, if_neg hne] at hx
    exact hg.2 o' ob' hx
  have hob := hg.1.objs src sb hs
  unfold ObjOk at hob
  unfold copyObject
  rw [hs]
  simp only
  cases hd : sb.data with
  | none =>
    rw [hd] at hob
    simp only [hty]
    have hb : Bare E (some (⟨some t, none, false, al⟩ : Obj)) := by
      intro y hy; simp at hy; subst hy; exact ⟨rfl, fun t' ht' => by simp at ht'; subst ht'; exact hob t hty⟩
    refine ⟨setObj_bare hE hk1 ho1 rfl hb, ?_⟩
    intro o' ob' h5
    rw [obj?_set (h := (newNull h al).setObj _ _) (l := (newNull h al).objs) rfl ho1] at h5
    split at h5
    · simp at h5; subst h5; simp
    · rename_i hn; exact hty1 o' ob' hn h5
  | some a =>
    rw [hd] at hob
    obtain ⟨t', p1, hnet, -, -⟩ := hob
    rw [hty] at p1; simp at p1; subst p1
    simp only [hty]
    have hnf : NewFnOk D E (newNull h al) h.objs.length ⟨none, none, false, al⟩ t (.copy src true) :=
      ⟨hne, ⟨sb, hs1, hty, by rw [hd]; simp⟩, fun h => by simp at h⟩
    refine (perform_ok (orc := orc) hE hk1 ho1 rfl (by simp) hnet false hnf (g := .noop) trivial).bind ?_ ?_
    · rintro h' ⟨F, G, hc, -⟩
      refine ⟨completed_heapOk hE hk1 ho1 hnet hc, ?_⟩
      intro o' ob' h5
      rw [completed_obj hE hk1 ho1 hnet hc] at h5
      split at h5
      · simp at h5; subst h5; simp [mutatedObj]
      · rename_i hn; exact hty1 o' ob' hn h5
    · intro h' e hf
      have hk2 := hf.1.heapOk hE hk1 ho1
      have ho2 : h'.obj? h.objs.length = some ⟨none, none, false, al⟩ := by rw [undone_obj hE hk1 ho1 hf.1]; exact ho1
      obtain ⟨h2, k1, k2⟩ := unwindObject_ok (D := D) hE hk2 ho2 e
      rw [k1]
      refine ⟨k2.heapOk hE hk2 ho2 bare_none, ?_⟩
      intro o' ob' h5
      rw [k2.objs' ho2] at h5
      split at h5
      · simp at h5
      · rename_i hn
        rw [undone_obj hE hk1 ho1 hf.1] at h5
        exact hty1 o' ob' hn h5

/-- What `copy_from` needs and does, when the source has mixins. -/
theorem copyFrom_fns {h : Heap} (hk : HeapOk D E h) {o src : Nat} {ob sb : Obj} (ho : h.obj? o = some ob) (hs : h.obj? src = some sb) {own t : TypeId} (hty : ob.ty = some own)
    (hsty : sb.ty = some t) (hd : sb.data ≠ none) (hck : copyFromCheck D E own (E.mixins t) = none) :
    (own ≠ t → NewFnOk D E h o ob t (.copy src false) ∧ UpdFnOk D E h o ob t (.assign src)) ∧ (own = t → UpdFnOkSame D E h t (.assign src)) := by
  have hch := copyFromCheck_none hE (own := own) (t := t) (E.mixins t) (fun m hm => hm) hck
  have hmo : ownMixins E ob = E.mixins own := by unfold ownMixins; rw [hty]; rfl
  constructor
  · intro hne
    have hso : src ≠ o := by
      rintro rfl
      rw [ho] at hs; simp at hs; subst hs
      rw [hty] at hsty; simp at hsty; exact hne hsty
    refine ⟨⟨hso, ⟨sb, hs, hsty, hd⟩, fun _ m hm hi => (hch m hm).2 ?_⟩, ⟨hso, ⟨sb, hs, hsty, hd⟩, fun m hm hi => (hch m hm).1 ?_⟩⟩
    · rw [← hmo]; exact (mixinIndex_none hE hk ho hm).1 hi
    · apply Classical.byContradiction
      intro hn
      rw [← hmo] at hn
      exact hi ((mixinIndex_none hE hk ho hm).2 hn)
  · rintro rfl
    exact ⟨⟨sb, hs, hsty, hd⟩, fun m hm => (hch m hm).1 hm⟩

theorem good_copyFrom {h : Heap} (hg : Good D E h) (u : Bool) {o src : Nat} (ha : Alive h o) (hb : Alive h src) :
    HStepOk (copyFrom D E orc u h o src) (Good D E) (fun h' _ => Good D E h') := by
  obtain ⟨ob, ho⟩ := alive_obj hE ha
  obtain ⟨sb, hs⟩ := alive_obj hE hb
  obtain ⟨own, hty⟩ := typed_obj hE hg ho
  obtain ⟨t, hsty⟩ := typed_obj hE hg hs
  have hob := hg.1.objs src sb hs
  unfold ObjOk at hob
  unfold copyFrom
  rw [ho, hs]
  simp only
  cases hd : sb.data with
  | none =>
    rw [hd] at hob
    simp only
    cases hsl : ob.isSealed with
    | true => simp only [if_true]; exact hg
    | false =>
      simp only [Bool.false_eq_true, if_false]
      obtain ⟨h1, k1, k2⟩ := clear_ok (D := D) hE hg.1 ho
      simp only [k1, k2.obj ho]
      refine good_cleared hE hg ho k2 ?_ ?_
      · intro y hy; simp at hy; subst hy; exact ⟨rfl, fun t' ht' => hob t' ht'⟩
      · intro y hy; simp at hy; subst hy; simp [hsty]
  | some a =>
    rw [hd] at hob
    obtain ⟨t', p1, hnet, -, -⟩ := hob
    rw [hsty] at p1; simp at p1; subst p1
    simp only [hsty, hty]
    cases hck : copyFromCheck D E own (E.mixins t) with
    | some m => exact hg
    | none =>
      simp only
      obtain ⟨f1, f2⟩ := copyFrom_fns hE hg.1 ho hs hty hsty (by rw [hd]; simp) hck
      cases hsl : ob.isSealed with
      | true => unfold perform; rw [withMutation_sealed ho hsl]; exact hg
      | false =>
        by_cases heq : own = t
        · subst heq
          refine (perform_same_ok (orc := orc) hE hg.1 ho hsl hty hnet u (.copy src false) (f2 rfl)).mono (fun h' hx => good_failed hE hg ho hx.1.1) (fun h' _ hx => good_failed hE hg ho hx.1)
        · have hne : ob.ty ≠ some t := by rw [hty]; simpa using heq
          refine (perform_ok (orc := orc) hE hg.1 ho hsl hne hnet u (f1 heq).1 (f1 heq).2).mono ?_ (fun h' _ hx => good_failed hE hg ho hx.1)
          intro h'
          cases u with
          | true => intro hx; exact good_failed hE hg ho hx.1
          | false => rintro ⟨F, G, hx, -⟩; exact good_completed hE hg ho hnet hx

theorem good_copyMatching {h : Heap} (hg : Good D E h) {o src : Nat} (ha : Alive h o) (hb : Alive h src) :
    HStepOk (copyMatchingFrom D E orc h o src) (Good D E) (fun h' _ => Good D E h') := by
  obtain ⟨ob, ho⟩ := alive_obj hE ha
  obtain ⟨sb, hs⟩ := alive_obj hE hb
  obtain ⟨own, hty⟩ := typed_obj hE hg ho
  obtain ⟨t, hsty⟩ := typed_obj hE hg hs
  unfold copyMatchingFrom
  rw [ho, hs]
  simp only [hty, hsty]
  cases hck : copyMatchingCheck D E own (E.mixins t) with
  | some m => exact hg
  | none =>
    simp only
    have hch := copyMatchingCheck_none hE (own := own) (t := t) (E.mixins t) (fun m hm => hm) hck
    refine (copyMatchingLoop_ok (orc := orc) hE hg.1 ho hs hty hsty hch (E.mixins t) 0 h rfl (Nat.zero_le _)
      ⟨Revalued.refl h, fun j _ _ _ hj => by omega, fun _ _ => rfl, rfl, rfl⟩).mono (fun h' hx => good_revalued hE hg hx.rev) ?_
    rintro h' e ⟨k, h1, m, sl, sl', v, tk, L, k1, k2, rfl, -⟩
    obtain ⟨-, oi, hsl⟩ := k2
    obtain ⟨_, _, _, v0, -, -, -, -, -, -, f7, -⟩ := hsl.facts hg.1
    exact good_revalued hE hg (k1.rev.set f7 v tk L)

theorem good_moveMatching {h : Heap} (hg : Good D E h) {o src : Nat} (ha : Alive h o) (hb : Alive h src) {fb : Bool} (hself : o = src → fb = false) :
    HStepOk (moveMatchingFrom D E orc h o src fb) (Good D E) (fun h' _ => Good D E h') := by
  obtain ⟨ob, ho⟩ := alive_obj hE ha
  obtain ⟨sb, hs⟩ := alive_obj hE hb
  obtain ⟨own, hty⟩ := typed_obj hE hg ho
  obtain ⟨t, hsty⟩ := typed_obj hE hg hs
  unfold moveMatchingFrom
  rw [ho, hs]
  simp only [hty, hsty]
  cases hck : moveMatchingCheck D E own fb (E.mixins t) with
  | some m => exact hg
  | none =>
    simp only
    have hch := moveMatchingCheck_none hE (own := own) (t := t) (E.mixins t) (fun m hm => hm) hck
    exact (moveMatchingLoop_ok (orc := orc) hE hg.1 ho hs hty hsty fb hself hch (E.mixins t) 0 h rfl (Nat.zero_le _)
      ⟨Revalued.refl h, fun _ j _ _ _ hj => by omega, fun _ _ => rfl⟩).mono (fun h' hx => good_revalued hE hg hx.rev) (fun _ _ hx => hx.elim)

theorem good_clear {h : Heap} (hg : Good D E h) {o : Nat} (ha : Alive h o) : HStepOk (clearObject D E h o) (Good D E) (fun h' _ => Good D E h') := by
  obtain ⟨ob, ho⟩ := alive_obj hE ha
  obtain ⟨own, hty⟩ := typed_obj hE hg ho
  unfold clearObject
  rw [ho]
  simp only
  cases hsl : ob.isSealed with
  | true => simp only [if_true]; exact hg
  | false =>
    simp only [Bool.false_eq_true, if_false]
    obtain ⟨h1, k1, k2⟩ := clear_ok (D := D) hE hg.1 ho
    simp only [k1, hty, k2.obj ho]
    refine good_cleared hE hg ho k2 ?_ ?_
    · intro y hy; simp at hy; subst hy; exact ⟨rfl, fun t' ht' => by simp at ht'; subst ht'; exact hE.empty own⟩
    · intro y hy; simp at hy; subst hy; simp

/-- Each proper operation is defined and leaves a healthy heap, whether it succeeds or not. -/
theorem good_step {h : Heap} (hg : Good D E h) {u : Bool} {op : OOp} (hp : Proper E h op) (hu : (u && makesObject op) = false) : HStepOk (ostep D E orc u h op) (Good D E) (fun h' _ => Good D E h') := by
  cases op with
  | newEmpty t al =>
    have hb : Bare E (some (⟨some (E.emptyOf t), none, false, al⟩ : Obj)) := by
      intro y hy; simp at hy; subst hy; exact ⟨rfl, fun t' ht' => by simp at ht'; subst ht'; exact hE.empty t⟩
    refine ⟨addObj_ok hg.1 hb, ?_⟩
    intro o' ob' h5
    have h5 : (h.addObj (some (⟨some (E.emptyOf t), none, false, al⟩ : Obj))).obj? o' = some ob' := h5
    rw [addObj_obj] at h5
    split at h5
    · simp at h5; subst h5; simp
    · exact hg.2 o' ob' h5
  | newOfType t al sd =>
    have hu : u = false := by simpa [makesObject] using hu
    subst hu
    exact good_newOfType hE hg t al sd
  | moveNew src => exact good_moveNew hE hg hp
  | destroy o =>
    obtain ⟨ob, ho⟩ := alive_obj hE hp
    obtain ⟨h', k1, k2⟩ := destroyObject_ok (D := D) hE hg.1 ho
    unfold ostep; simp only
    rw [k1]
    exact good_cleared hE hg ho k2 bare_none (fun y hy => by simp at hy)
  | moveAssign o src => exact good_moveAssign hE hg hp.1 hp.2
  | copy src al =>
    have hu : u = false := by simpa [makesObject] using hu
    subst hu
    exact good_copy hE hg hp al
  | copyFrom o src => exact good_copyFrom hE hg u hp.1 hp.2
  | copyMatching o src => exact good_copyMatching hE hg hp.1 hp.2
  | moveMatching o src fb => exact good_moveMatching hE hg hp.1 hp.2.1 hp.2.2
  | clear o => exact good_clear hE hg hp
  | reset o t => exact good_reset hE hg u hp t
  | «seal» o =>
    obtain ⟨ob, ho⟩ := alive_obj hE hp
    unfold ostep sealObject
    simp only [ho]
    refine ⟨(setObj_sealed hg.1 ho true).1, ?_⟩
    intro o' ob' h5
    rw [obj?_set (h := h.setObj _ _) (l := h.objs) rfl ho] at h5
    split at h5
    · simp at h5; subst h5; exact hg.2 o ob ho
    · exact hg.2 o' ob' h5
  | mutation o t steps => exact good_mutation hE hg u hp.1 hp.2.1 hp.2.2
  | mutateTo o t ops =>
    obtain ⟨ob, ho, hp⟩ := hp
    unfold ostep mutateTo
    simp only [ho]
    by_cases hty : ob.ty = some t
    · rw [if_pos hty]; exact hg
    · rw [if_neg hty]
      exact good_mutation hE hg u (by unfold Alive; rw [ho]; simp) (hp.resolve_left hty) (mutateToSteps_proper _)

/-- Programs that use objects properly have no undefined behaviour and leave healthy heaps. -/
theorem good_run : ∀ (ops : List (Bool × OOp)) (h : Heap), Good D E h → ProperRun D E orc ops h →
    ∃ h', orun D E orc ops h = some h' ∧ Good D E h'
  | [], h, hg, _ => ⟨h, rfl, hg⟩
  | (u, op) :: ops, h, hg, hp => by
    obtain ⟨⟨hp, hu⟩, hrest⟩ := hp
    have := good_step (orc := orc) hE hg hp hu
    unfold orun
    cases hr : ostep D E orc u h op with
    | ok h' =>
      rw [hr] at this
      exact good_run ops h' this (hrest h' (.inl hr))
    | throw h' e =>
      rw [hr] at this
      exact good_run ops h' this (hrest h' (.inr ⟨e, hr⟩))
    | ub => rw [hr] at this; exact this.elim

end

/-- The heap before any object is made. -/
theorem good_start : Good D E {} := by
  refine ⟨⟨?_, ?_, ?_, ?_, ?_⟩, ?_⟩
  · intro o ob h; simp [Heap.obj?] at h
  · intro a b h; simp at h
  · intro l x h; simp at h
  · intro a b h; simp at h
  · intro t; rfl
  · intro o ob h; simp [Heap.obj?] at h

end Dnmx
