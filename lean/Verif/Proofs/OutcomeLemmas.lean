import Verif.Proofs.OperationLemmas
import Verif.Proofs.PlanLemmas

/-!
# Outcomes of operations in terms of what can be observed
-/

set_option linter.unusedSimpArgs false
set_option linter.unusedVariables false
set_option linter.unusedSectionVars false

namespace Dnmx
open Spec

variable {D : Decls} {E : TyEnv} {orc : Orc}

theorem untouched_refl (h : Heap) : Untouched D E h h :=
  ⟨fun _ => rfl, fun _ _ _ _ => Iff.rfl, fun _ => rfl, fun _ => rfl, [], by simp, by simp⟩

theorem untouched_but {h h' : Heap} (hu : Untouched D E h h') (o : Nat) : UntouchedBut D E o h h' :=
  ⟨hu.objs, fun m l => ⟨fun ⟨v, hv⟩ => ⟨v, (hu.holds o m l v).1 hv⟩, fun ⟨v, hv⟩ => ⟨v, (hu.holds o m l v).2 hv⟩⟩, fun o' m l v _ => hu.holds o' m l v, hu.blocks, hu.counts, hu.log⟩

theorem untouched_failed (hE : EnvOk D E) {h0 : Heap} (hk : HeapOk D E h0) {o : Nat} {ob : Obj} (ho : h0.obj? o = some ob) {t : TypeId} {T : Nat → Bool}
    (hT : ∀ j, T j = false) {h : Heap} (hf : Failed D E h0 ob t T h) : Untouched D E h0 h :=
  ⟨undone_obj hE hk ho hf.1, fun o' m l v => undone_holds hE hk ho hf.1 (.inr hT), hf.1.blk, hf.1.count, hf.2⟩

theorem untouchedBut_failed (hE : EnvOk D E) {h0 : Heap} (hk : HeapOk D E h0) {o : Nat} {ob : Obj} (ho : h0.obj? o = some ob) {t : TypeId} {T : Nat → Bool}
    {h : Heap} (hf : Failed D E h0 ob t T h) : UntouchedBut D E o h0 h :=
  ⟨undone_obj hE hk ho hf.1, fun m l => undone_places hE hk ho hf.1, fun o' m l v hoo => undone_holds hE hk ho hf.1 (.inl hoo), hf.1.blk, hf.1.count, hf.2⟩

theorem kept_failed {h0 : Heap} {ob : Obj} {t : TypeId} {T : Nat → Bool} {h : Heap} (hf : Kept E h0 ob t T h) : Failed D E h0 ob t T h :=
  ⟨hf.1, UndoneLog.same hf.2.1 hf.2.2⟩

/-- A new object that could not be completed disappears without a trace. -/
theorem untouched_new (hE : EnvOk D E) {h : Heap} (hk : HeapOk D E h) {al : Nat} {t : TypeId} {T : Nat → Bool} {h1 : Heap}
    (hf : Failed D E (newNull h al) ⟨none, none, false, al⟩ t T h1) (e : XErr) :
    HStepOk (unwindObject D E h.objs.length h1 e) (fun _ => False) (fun h' _ => Untouched D E h h') := by
  have hb : Bare E (some ⟨none, none, false, al⟩) := bare_null al
  have hk1 : HeapOk D E (newNull h al) := by rw [newNull_addObj]; exact addObj_ok hk hb
  have ho1 : (newNull h al).obj? h.objs.length = some ⟨none, none, false, al⟩ := by rw [newNull_addObj, addObj_obj, if_pos rfl]
  have hk2 : HeapOk D E h1 := hf.1.heapOk hE hk1 ho1
  have ho2 : h1.obj? h.objs.length = some ⟨none, none, false, al⟩ := by rw [undone_obj hE hk1 ho1 hf.1]; exact ho1
  obtain ⟨h2, hr, hc⟩ := unwindObject_ok hE hk2 ho2 e
  rw [hr]
  have hn : h.obj? h.objs.length = none := by unfold Heap.obj?; simp
  have hbare : ∀ i m sl, ¬ SlotOf E h1 h.objs.length i m sl := by
    rintro i m sl ⟨ob', t', a, h3, h4, h5, -⟩
    rw [ho2] at h3; simp at h3; subst h3; simp at h5
  show Untouched D E h (h2.setObj h.objs.length none)
  refine ⟨?_, ?_, ?_, ?_, ?_⟩
  · intro o'
    rw [hc.objs' ho2 none o', undone_obj hE hk1 ho1 hf.1, newNull_addObj, addObj_obj]
    by_cases hoo : o' = h.objs.length
    · rw [if_pos hoo, hoo, hn]
    · rw [if_neg hoo, if_neg hoo]
  · intro o' m l v
    by_cases hoo : o' = h.objs.length
    · subst hoo
      constructor
      · rintro ⟨i, sl, hs, -, -⟩
        exact absurd rfl ((hc.slots ho2 (bare_none)).1 hs).1
      · rintro ⟨i, sl, ⟨ob', t', a, h3, -⟩, -, -⟩
        rw [hn] at h3; simp at h3
    · rw [hc.holds hE hk2 ho2 bare_none hoo, undone_holds hE hk1 ho1 hf.1 (.inl hoo), newNull_addObj, addObj_holds hb]
  · intro a
    show h2.blk a = _
    rw [hc.blkKeep a (by simp) (fun i m sl hs => absurd hs (hbare i m sl)), hf.1.blk]; rfl
  · intro x
    show h2.count x = _
    rw [hc.count x, hf.1.count]
    simp [countsFor, newNull]
  · obtain ⟨l, h3, h4⟩ := hf.2
    refine ⟨l, ?_, ?_⟩
    · show initsOf h2.log = _
      rw [hc.inits, h3]; rfl
    · show destroysOf h2.log = _
      rw [hc.destroys, h4]; simp [newNull]

theorem fits_of_proper {h0 : Heap} {o : Nat} {ob : Obj} {t : TypeId} {b : Bool} {steps : List (MStep × Bool)} (hst : ∀ st ∈ steps, properStep st.1 = true)
    (hb : b = false → ∀ st ∈ steps, noUpdate st.1 = true) : ∀ st ∈ steps, StepFits D E h0 o ob t b st.1 := by
  intro st hs
  have hp := hst st hs
  have hb := fun h => hb h st hs
  obtain ⟨st, c⟩ := st
  simp only at hp hb
  refine ⟨by cases st <;> simp_all [MStep.plain, properStep], ?_, ?_, ?_⟩
  · intro g hu
    cases st <;> simp [MStep.newFn] at hu <;> (subst hu; unfold NewFnOk; split <;> first | trivial | (simp [properStep, ownNew] at hp))
  · intro g hu
    cases st <;> simp [MStep.updFn] at hu <;> (subst hu; unfold UpdFnOk; split <;> first | trivial | (simp [properStep, ownUpd] at hp))
  · intro g hu hg
    cases b with
    | true => rfl
    | false => cases st <;> simp [MStep.updFn] at hu <;> (subst hu; exact absurd (by simpa [noUpdate] using hb rfl) hg)

theorem fitsSame_of_proper {h0 : Heap} {t : TypeId} {b : Bool} {steps : List (MStep × Bool)} (hst : ∀ st ∈ steps, properStep st.1 = true)
    (hb : b = false → ∀ st ∈ steps, noUpdate st.1 = true) : ∀ st ∈ steps, StepFitsSame D E h0 t b st.1 := by
  intro st hs
  have hp := hst st hs
  have hb := fun h => hb h st hs
  obtain ⟨st, c⟩ := st
  simp only at hp hb
  refine ⟨by cases st <;> simp_all [MStep.plain, properStep], ?_, ?_⟩
  · intro g hu
    cases st <;> simp [MStep.updFn] at hu <;> (subst hu; unfold UpdFnOkSame; split <;> first | trivial | (simp [properStep, ownUpd] at hp))
  · intro g hu hg
    cases b with
    | true => rfl
    | false => cases st <;> simp [MStep.updFn] at hu <;> (subst hu; exact absurd (by simpa [noUpdate] using hb rfl) hg)

/-- The end of a mutation by an exception. -/
theorem mutation_throw (hE : EnvOk D E) {h : Heap} (hk : HeapOk D E h) (u : Bool) {o : Nat} {ob : Obj} (ho : h.obj? o = some ob) {t : TypeId} (hne : E.mixins t ≠ [])
    {steps : List (MStep × Bool)} (hst : ∀ st ∈ steps, properStep st.1 = true) (b : Bool) (hb : b = false → ∀ st ∈ steps, noUpdate st.1 = true) :
    HStepOk (withMutation D E orc u h o t steps) (fun _ => True) (fun h' _ => Failed D E h ob t (fun _ => b) h') := by
  cases hsl : ob.isSealed with
  | true => rw [withMutation_sealed ho hsl]; exact ⟨Undone.refl E h ob t _, UndoneLog.same rfl rfl⟩
  | false =>
    by_cases hty : ob.ty = some t
    · exact (withMutation_same_ok (orc := orc) hE hk ho hsl hty hne u steps b (fitsSame_of_proper hst hb)).mono (fun _ _ => trivial) (fun h' _ hx => kept_failed hx)
    · exact (withMutation_ok (orc := orc) hE hk ho hsl hty hne u steps b (fits_of_proper hst hb)).mono (fun _ _ => trivial) (fun h' _ hx => hx)

theorem mutateToSteps_noUpdate (l : List (Nat × Nat)) : ∀ st ∈ mutateToSteps l, noUpdate st.1 = true := by
  intro st hst
  unfold mutateToSteps at hst
  rw [List.mem_flatMap] at hst
  obtain ⟨⟨i, k⟩, -, h2⟩ := hst
  simp at h2
  rcases h2 with rfl | rfl <;> rfl

theorem cMutateSteps_proper (ovs : List COverride) : ∀ (ms : List Mix) (i : Nat), ∀ st ∈ cMutateSteps ovs i ms, properStep st.1 = true
  | [], i => by simp [cMutateSteps]
  | m :: ms, i => by
    intro st hst
    unfold cMutateSteps at hst
    cases hf : ovs.find? (fun ov => ov.mixin = m) with
    | none => rw [hf] at hst; exact cMutateSteps_proper ovs ms (i + 1) st hst
    | some ov =>
      rw [hf] at hst
      simp only [List.mem_cons] at hst
      rcases hst with rfl | hst
      · cases ov.initNew <;> cases ov.updateCommon <;> rfl
      · exact cMutateSteps_proper ovs ms (i + 1) st hst

/-- A careful operation that fails changes nothing. -/
theorem careful_throw (hE : EnvOk D E) {h : Heap} (hg : Good D E h) (u : Bool) {op : OOp} (hp : Proper E h op) (hc : Careful op) {h' : Heap} {e : XErr}
    (hr : ostep D E orc u h op = .throw h' e) : Untouched D E h h' := by
  have use : ∀ {r : Res Heap} {P : Heap → Prop}, HStepOk r P (fun h' _ => Untouched D E h h') → r = .throw h' e → Untouched D E h h' := by
    intro r P h1 h2; rw [h2] at h1; exact h1
  cases op with
  | newEmpty t al => simp [ostep] at hr
  | newOfType t al sd =>
    have hk1 : HeapOk D E (newNull h al) := addObj_ok hg.1 (bare_null al)
    have ho1 : (newNull h al).obj? h.objs.length = some ⟨none, none, false, al⟩ := by rw [newNull_addObj, addObj_obj, if_pos rfl]
    refine use (P := fun _ => True) ?_ hr
    unfold ostep newOfType
    refine (resetType_ok (orc := orc) hE hk1 ho1 rfl u t).bind ?_ (fun h1 e1 hf => (untouched_new hE hg.1 hf e1).mono (fun _ _ => trivial) (fun _ _ hx => hx))
    intro h1 hP
    cases hx : h1.obj? h.objs.length with
    | some ob => trivial
    | none =>
      exfalso
      rcases hP with (⟨h2, -⟩ | ⟨-, hne, h2, hc2, rfl⟩ | ⟨-, hne, -, F, G, hc2, -⟩ | ⟨-, -, -, hf⟩)
      · simp at h2
      · rw [hc2.objs' ho1, if_pos rfl] at hx; simp at hx
      · rw [completed_obj hE hk1 ho1 hne hc2, if_pos rfl] at hx; simp at hx
      · rw [undone_obj hE hk1 ho1 hf.1, ho1] at hx; simp at hx
  | moveNew src =>
    unfold ostep moveConstruct at hr
    simp only at hr
    split at hr
    · simp at hr
    · split at hr <;> simp at hr
  | destroy o =>
    unfold ostep destroyObject at hr
    simp only at hr
    split at hr <;> simp at hr
  | moveAssign o src =>
    unfold ostep moveAssign at hr
    simp only at hr
    split at hr
    · simp at hr
    · split at hr
      · split at hr
        · split at hr
          · simp at hr; rw [← hr.1]; exact untouched_refl h
          · split at hr <;> simp at hr
        · simp at hr; rw [← hr.1]; exact untouched_refl h
      · simp at hr
  | copy src al =>
    obtain ⟨sb, hs⟩ := alive_obj hE hp
    obtain ⟨t, hty⟩ := typed_obj hE hg hs
    have hne := length_not_obj hs
    have hk1 : HeapOk D E (newNull h al) := addObj_ok hg.1 (bare_null al)
    have ho1 : (newNull h al).obj? h.objs.length = some ⟨none, none, false, al⟩ := by rw [newNull_addObj, addObj_obj, if_pos rfl]
    have hs1 : (newNull h al).obj? src = some sb := by rw [newNull_addObj, addObj_obj, if_neg hne]; exact hs
    have hob := hg.1.objs src sb hs
    unfold ObjOk at hob
    unfold ostep copyObject at hr
    simp only [hs] at hr
    cases hd : sb.data with
    | none => simp only [hd] at hr; simp at hr
    | some a =>
      rw [hd] at hob
      obtain ⟨t', p1, hnet, -, -⟩ := hob
      rw [hty] at p1; simp at p1; subst p1
      simp only [hd, hty] at hr
      have hnf : NewFnOk D E (newNull h al) h.objs.length ⟨none, none, false, al⟩ t (.copy src true) :=
        ⟨hne, ⟨sb, hs1, hty, by rw [hd]; simp⟩, fun h => by simp at h⟩
      refine use (P := fun _ => True) ?_ hr
      refine (perform_ok (orc := orc) hE hk1 ho1 rfl (by simp) hnet u hnf (g := .noop) trivial).bind (fun _ _ => trivial)
        (fun h1 e1 hf => (untouched_new hE hg.1 hf e1).mono (fun _ _ => trivial) (fun _ _ hx => hx))
  | copyFrom o src => exact hc.elim
  | copyMatching o src => exact hc.elim
  | moveMatching o src fb =>
    obtain ⟨ob, ho⟩ := alive_obj hE hp.1
    obtain ⟨sb, hs⟩ := alive_obj hE hp.2.1
    obtain ⟨own, hty⟩ := typed_obj hE hg ho
    obtain ⟨t, hsty⟩ := typed_obj hE hg hs
    unfold ostep moveMatchingFrom at hr
    simp only [ho, hs, hty, hsty] at hr
    cases hck : moveMatchingCheck D E own fb (E.mixins t) with
    | some m => simp only [hck] at hr; simp at hr; rw [← hr.1]; exact untouched_refl h
    | none =>
      simp only [hck] at hr
      have hch := moveMatchingCheck_none hE (own := own) (t := t) (E.mixins t) (fun m hm => hm) hck
      have := moveMatchingLoop_ok (orc := orc) hE hg.1 ho hs hty hsty fb hp.2.2 hch (E.mixins t) 0 h rfl (Nat.zero_le _)
        ⟨Revalued.refl h, fun _ j _ _ _ hj => by omega, fun _ _ => rfl⟩
      rw [hr] at this
      exact this.elim
  | clear o =>
    unfold ostep clearObject at hr
    simp only at hr
    split at hr
    · simp at hr
    · split at hr
      · simp at hr; rw [← hr.1]; exact untouched_refl h
      · split at hr
        · split at hr <;> simp at hr
        · simp at hr
  | reset o t =>
    obtain ⟨ob, ho⟩ := alive_obj hE hp
    unfold ostep at hr
    simp only at hr
    cases hsl : ob.isSealed with
    | true => rw [resetType_sealed ho hsl] at hr; simp at hr; rw [← hr.1]; exact untouched_refl h
    | false => exact use ((resetType_ok (orc := orc) hE hg.1 ho hsl u t).mono (fun _ hx => hx) (fun h' _ hx => untouched_failed hE hg.1 ho (fun _ => rfl) hx)) hr
  | «seal» o =>
    unfold ostep sealObject at hr
    simp only at hr
    split at hr <;> simp at hr
  | mutation o t steps =>
    obtain ⟨ob, ho⟩ := alive_obj hE hp.1
    exact use ((mutation_throw (orc := orc) hE hg.1 u ho hp.2.1 hp.2.2 false (fun _ => hc)).mono (fun _ hx => hx) (fun h' _ hx => untouched_failed hE hg.1 ho (fun _ => rfl) hx)) hr
  | mutateTo o t ops =>
    obtain ⟨ob, ho, hp⟩ := hp
    unfold ostep mutateTo at hr
    simp only [ho] at hr
    by_cases hty : ob.ty = some t
    · rw [if_pos hty] at hr; simp at hr
    · rw [if_neg hty] at hr
      exact use ((mutation_throw (orc := orc) hE hg.1 u ho (hp.resolve_left hty) (mutateToSteps_proper _) false (fun _ => mutateToSteps_noUpdate _)).mono
        (fun _ hx => hx) (fun h' _ hx => untouched_failed hE hg.1 ho (fun _ => rfl) hx)) hr

/-- What a completed mutation did. -/
theorem completed_mutated (hE : EnvOk D E) {h0 : Heap} (hk : HeapOk D E h0) {o : Nat} {ob : Obj} (ho : h0.obj? o = some ob) {t : TypeId} (hne : E.mixins t ≠ [])
    {g : Ghost} {h' : Heap} (hc : Completed D E h0 o ob t g h') {kind : Mix → Kind → Prop} (hkind : ∀ (i : Nat) (m : Mix), (E.mixins t)[i]? = some m → kind m (kindOf (g.F i)))
    {keeps : Mix → Prop} (hkeeps : ∀ (i : Nat) (m : Mix), (E.mixins t)[i]? = some m → keeps m → g.T i = false) : Mutated D E h0 o ob t kind keeps h' := by
  have hob := completed_obj hE hk ho hne hc
  have hk' := completed_heapOk hE hk ho hne hc
  refine ⟨⟨h0.next, ?_, by rw [hob, if_pos rfl]; rfl⟩, fun o' hoo => by rw [hob, if_neg hoo], fun o' m l v hoo => completed_other hE hk ho hne hc hoo, ?_, ?_, ?_, ?_, hk'.counts, hk'⟩
  · cases hx : h0.blk h0.next with
    | none => rfl
    | some b => exact absurd (hk.fresh _ _ hx) (by omega)
  · intro m
    have := holds_iff (m := m) hE hk' (o := o) (ob := mutatedObj h0 ob t) (by rw [hob, if_pos rfl])
    rw [this]; rfl
  · intro m l v hm hh
    obtain ⟨i, hi⟩ := List.getElem?_of_mem hm
    obtain ⟨l', v', h1, h2, -, h3, -⟩ := completed_common hE hk ho hne hc hi hh
    exact ⟨l', v', h1, h2, fun hx => h3 (hkeeps i m hi hx)⟩
  · obtain ⟨l, h1, h2, h3⟩ := completed_inits hE hk ho hne hc
    refine ⟨l, h1, h2, fun m p k hx => ?_⟩
    obtain ⟨h4, i, h5, h6⟩ := h3 m p k hx
    exact ⟨h4, h6 ▸ hkind i m h5⟩
  · exact completed_destroys hE hk ho hne hc

theorem mutateTo_inits (hE : EnvOk D E) {h0 : Heap} (hk : HeapOk D E h0) {o : Nat} {ob : Obj} (ho : h0.obj? o = some ob) (hsl : ob.isSealed = false) {t : TypeId}
    (hty : ob.ty ≠ some t) (hne : E.mixins t ≠ []) (ops : List InitOp) (hd : (ops.map Prod.fst).Nodup) (hm : ∀ x ∈ ops, IndexFits E t x.1) :
    HStepOk (mutateTo D E orc false h0 o t ops)
      (Mutated D E h0 o ob t (fun m k => (∀ c, (m, c) ∈ ops → k = .custom c) ∧ ((∀ c, (m, c) ∉ ops) → k = .dflt)) (fun _ => True))
      (fun h' _ => Failed D E h0 ob t (fun _ => false) h') := by
  refine (mutateTo_ok (orc := orc) hE hk ho hsl hty hne ops hd hm).mono ?_ (fun _ _ h => h)
  intro h' this
  refine completed_mutated hE hk ho hne this ?_ (fun _ _ _ _ => rfl)
  intro i m hi
  have hsort := sortedOps_sorted hE (t := t) hd hm
  constructor
  · intro c hc
    show kindOf (planOf (sortedOps E t ops) i) = _
    rw [planOf_some hsort (i := i) (k := c) ((sortedOps_mem hE).2 ⟨m, hc, (hE.index t t m i (mem_of_at hi)).2 hi⟩)]
    rfl
  · intro hn
    show kindOf (planOf (sortedOps E t ops) i) = _
    rw [planOf_none]
    · rfl
    · rintro ⟨j, c⟩ hx hj
      obtain ⟨m', h1, h2⟩ := (sortedOps_mem hE).1 hx
      simp only at hj; subst hj
      have h3 := hm _ h1 j h2
      rw [hi] at h3; simp at h3; subst h3
      exact hn c h1

end Dnmx
