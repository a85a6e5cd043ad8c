import Verif.Proofs.CallLemmas

/-!
# What functions of mixins see in whole operations
-/

set_option linter.unusedSimpArgs false
set_option linter.unusedVariables false
set_option linter.unusedSectionVars false

namespace Dnmx
open Spec

variable {D : Decls} {E : TyEnv} {orc : Orc}

theorem fits_proper {h : Heap} {o : Nat} {ob : Obj} {t : TypeId} {steps : List (MStep × Bool)} (hst : ∀ st ∈ steps, properStep st.1 = true) :
    ∀ st ∈ steps, StepFits D E h o ob t true st.1 := by
  intro st hs
  have hp := hst st hs
  obtain ⟨st, c⟩ := st
  simp only at hp
  refine ⟨by cases st <;> simp_all [MStep.plain, properStep], ?_, ?_, fun _ _ _ => rfl⟩
  · intro g hu
    cases st <;> simp [MStep.newFn] at hu <;> (subst hu; unfold NewFnOk; split <;> first | trivial | (simp [properStep, ownNew] at hp))
  · intro g hu
    cases st <;> simp [MStep.updFn] at hu <;> (subst hu; unfold UpdFnOk; split <;> first | trivial | (simp [properStep, ownUpd] at hp))

theorem fitsSame_proper {h : Heap} {t : TypeId} {steps : List (MStep × Bool)} (hst : ∀ st ∈ steps, properStep st.1 = true) :
    ∀ st ∈ steps, StepFitsSame D E h t true st.1 := by
  intro st hs
  have hp := hst st hs
  obtain ⟨st, c⟩ := st
  simp only at hp
  refine ⟨by cases st <;> simp_all [MStep.plain, properStep], ?_, fun _ _ _ => rfl⟩
  intro g hu
  cases st <;> simp [MStep.updFn] at hu <;> (subst hu; unfold UpdFnOkSame; split <;> first | trivial | (simp [properStep, ownUpd] at hp))

theorem fits_each {h : Heap} {o : Nat} {ob : Obj} {t : TypeId} {f : NewFn} {u : UpdFn} (hf : NewFnOk D E h o ob t f) (hu : UpdFnOk D E h o ob t u) :
    ∀ st ∈ [((.each f u none : MStep), false)], StepFits D E h o ob t true st.1 := by
  intro st hst
  simp at hst; subst hst
  refine ⟨rfl, ?_, ?_, fun _ _ _ => rfl⟩
  · intro g hg; simp [MStep.newFn] at hg; subst hg; exact hf
  · intro g hg; simp [MStep.updFn] at hg; subst hg; exact hu

theorem fitsSame_each {h : Heap} {t : TypeId} {f : NewFn} {u : UpdFn} (hu : UpdFnOkSame D E h t u) :
    ∀ st ∈ [((.each f u none : MStep), false)], StepFitsSame D E h t true st.1 := by
  intro st hst
  simp at hst; subst hst
  refine ⟨rfl, ?_, fun _ _ _ => rfl⟩
  intro g hg; simp [MStep.updFn] at hg; subst hg; exact hu

section
variable (hE : EnvOk D E)
include hE

theorem calls_mutation {h : Heap} (hk : HeapOk D E h) (u : Bool) {o : Nat} {ob : Obj} (ho : h.obj? o = some ob) {t : TypeId} (hne : E.mixins t ≠ [])
    {steps : List (MStep × Bool)} (hst : ∀ st ∈ steps, properStep st.1 = true) :
    ∀ x ∈ callsMutation D E orc u h o t steps, CallHere h o (InMutation D E h o t) x := by
  by_cases hty : ob.ty = some t
  · rw [callsMutation_same hE hk ho hty hne u steps true (fitsSame_proper hst)]; simp
  · exact callsMutation_ok hE hk ho hty hne u steps true (fits_proper hst)

theorem calls_reset {h : Heap} (hk : HeapOk D E h) (u : Bool) (o : Nat) (t : TypeId) :
    ∀ x ∈ callsReset D E orc u h o t, CallHere h o (fun c h' => if E.mixins t = [] then InClear E h o c h' else InMutation D E h o t c h') x := by
  intro x hx
  unfold callsReset at hx
  cases ho : h.obj? o with
  | none => rw [ho] at hx; simp at hx
  | some ob =>
    rw [ho] at hx
    simp only at hx
    by_cases hsl : ob.isSealed = true
    · simp [hsl] at hx
    · simp only [hsl, Bool.false_eq_true, if_false] at hx
      by_cases hty : ob.ty = some t
      · simp [hty] at hx
      · rw [if_neg hty] at hx
        by_cases hne : E.mixins t = []
        · rw [if_pos (by rw [hne]; rfl)] at hx
          have := callsClear_ok hE hk x hx
          unfold CallHere at this ⊢
          simp only [hne, if_true]; exact this
        · rw [if_neg (fun h => hne (List.length_eq_zero_iff.1 h))] at hx
          have := callsMutation_ok hE hk ho hty hne u _ true (fits_each (f := .dflt) (u := .noop) trivial trivial) x hx
          unfold CallHere at this ⊢
          simp only [hne, if_false]; exact this

/-! ## Matching mixins -/

theorem revalued_view {h0 h : Heap} (hk : HeapOk D E h0) (hr : Revalued h0 h) (o : Nat) : View E h0 h o (fun _ _ => True) :=
  (View.start hk o _ (fun _ _ _ _ => trivial)).alter hk hr.objs (fun a i _ => by rw [hr.slot]) (fun a _ => by rw [hr.blk]) (fun l _ => hr.live l)

theorem calls_matching_loop {h0 : Heap} (hk : HeapOk D E h0) {o src : Nat} {ob sb : Obj} (ho : h0.obj? o = some ob) (hs : h0.obj? src = some sb) {own t : TypeId}
    (hty : ob.ty = some own) (hsty : sb.ty = some t) (hne : o = src → ∀ m ∈ E.mixins t, (D.mix m).hasMoveAsgn = true) :
    ∀ (ms : List Mix) (k : Nat) (h : Heap), (E.mixins t).drop k = ms → Revalued h0 h →
    ∀ x ∈ callsMoveMatching D E orc own ob.data sb.data k ms h, CallHere h0 o (InMatching E h0 o) x
  | [], k, h, _, _ => by simp [callsMoveMatching]
  | m :: ms, k, h, hd, hr => by
    have hm : (E.mixins t)[k]? = some m := by
      have := congrArg (fun l => l[0]?) hd
      simpa using this
    have hd' : (E.mixins t).drop (k + 1) = ms := by
      rw [← List.drop_drop, hd]; rfl
    intro x hx
    unfold callsMoveMatching at hx
    cases hi : E.indexOf own m with
    | none => simp only [hi] at hx; exact calls_matching_loop hk ho hs hty hsty hne ms (k + 1) h hd' hr x hx
    | some oi =>
      simp only [hi] at hx
      have hoi := (hE.index own t m oi (mem_of_at hm)).1 hi
      obtain ⟨a, sl, v1, hda, hsl, hslot, hlive⟩ := typed_slot hE hk ho hty hoi
      obtain ⟨b, sl', v2, hdb, hsl', hslot', hlive'⟩ := typed_slot hE hk hs hsty hm
      have hv := revalued_view hE hk hr o
      obtain ⟨hu1, v3, hu2⟩ := (hv.usable o oi m sl hsl).2 (fun _ => trivial)
      have hv' := revalued_view hE hk hr src
      obtain ⟨hu3, v4, hu4⟩ := (hv'.usable src k m sl' hsl').2 (fun _ => trivial)
      have e1 : mixinAt h a oi = some (sl.loc, m, v3) := by
        unfold mixinAt
        rw [show h.slot? a oi = some sl by unfold Heap.slot?; rw [if_pos (hv.data o ob a ho hda), hr.slot]; exact hslot]
        simp [hu2]
      have e2 : mixinAt h b k = some (sl'.loc, m, v4) := by
        unfold mixinAt
        rw [show h.slot? b k = some sl' by unfold Heap.slot?; rw [if_pos (hv.data src sb b hs hdb), hr.slot]; exact hslot']
        simp [hu4]
      simp only [hda, hdb, Option.bind, e1, e2] at hx
      by_cases hasg : (D.mix m).hasMoveAsgn = true
      · simp only [hasg, if_true] at hx
        rw [← hda, ← hdb] at hx
        refine calls_matching_loop hk ho hs hty hsty hne ms (k + 1) _ hd' ?_ x hx
        exact (hr.set hlive v4 h.tick h.log).set hlive' (orc.val h.tick) (h.tick + 1) _
      · simp only [hasg, Bool.false_eq_true, if_false] at hx
        have hos : o ≠ src := fun heq => hasg (hne heq m (mem_of_at hm))
        have hll : sl.loc ≠ sl'.loc := fun heq => hos (hsl.same hE hk hsl' heq).1
        have hre : ReachedAt E h0 o oi m sl.loc := (reached_old hk).2 ⟨sl, hsl, rfl⟩
        obtain ⟨g, d1, d2⟩ := destroy_spec (D := D) hu2 hu1
        have hown : h.owner sl.loc = some o := by
          rw [hr.owner]
          obtain ⟨_, _, _, _, _, _, _, _, _, _, _, k8, _⟩ := hsl.facts hk
          exact k8
        rw [List.mem_append] at hx
        rcases hx with hx | hx
        · split at hx
          · simp at hx; subst hx
            exact ⟨hown, oi, m, sl.loc, hre, .inl ⟨rfl, hv.sees hk⟩⟩
          · simp at hx
        · simp only [d1] at hx
          rw [List.mem_cons] at hx
          rcases hx with rfl | hx
          · refine ⟨hown, oi, m, sl.loc, hre, .inr ⟨sl'.loc, rfl, ?_⟩⟩
            refine View.sees hk (hv.kill hE hk hsl rfl rfl rfl ?_ ?_ ?_)
            · intro l hl; simp [Heap.setLive, hl]
            · simp [Heap.setLive]
            · intro i m'; simp
          · have e3 : ((h.setLive sl.loc none).live sl'.loc) = some (m, v4) := by
              rw [← hu4]; exact if_neg (fun h => hll h.symm)
            have e4 : ∀ (L : List Ev), Heap.construct { h with live := (h.setLive sl.loc none).live, log := L } sl.loc m v4 (.moved sl'.loc) =
                some ((({ h with live := (h.setLive sl.loc none).live, log := L } : Heap).setLive sl.loc (some (m, v4))).logged (.init m sl.loc (.moved sl'.loc))) := by
              intro L
              unfold Heap.construct
              rw [if_pos ⟨hu1, by simp [Heap.setLive]⟩]
            rw [if_neg (fun h => hll h.symm), hu4] at hx
            simp only at hx
            rw [show Heap.construct _ _ _ _ _ = _ from e4 (h.log ++ g)] at hx
            simp only at hx
            rw [← hda, ← hdb] at hx
            refine calls_matching_loop hk ho hs hty hsty hne ms (k + 1) _ hd' ?_ x hx
            refine ⟨hr.objs, hr.next, hr.blk, hr.slot, hr.owner, hr.count, ?_⟩
            intro l
            simp only
            split
            · rename_i h5; subst h5; rw [hlive']; rfl
            · split
              · rename_i h6; subst h6; rw [hlive]; rfl
              · exact hr.live l

/-! ## All operations -/

theorem calls_op {h : Heap} (hg : Good D E h) {u : Bool} {op : OOp} (hp : Proper E h op) :
    ∀ x ∈ callsOp D E orc u h op, x.2.owner x.1.this = some (handled h op) ∧ InOp D E h op x.1 x.2 := by
  have hk := hg.1
  intro x hx
  cases op with
  | newEmpty t al => simp [callsOp] at hx
  | newOfType t al sd =>
    have hk1 : HeapOk D E (newNull h al) := addObj_ok hg.1 (bare_null al)
    have ho1 : (newNull h al).obj? h.objs.length = some ⟨none, none, false, al⟩ := by rw [newNull_addObj, addObj_obj, if_pos rfl]
    simp only [callsOp] at hx
    rw [List.mem_append] at hx
    rcases hx with hx | hx
    · by_cases hne : E.mixins t = []
      · unfold callsReset at hx
        rw [ho1] at hx
        simp [hne, callsClear_nil ho1 rfl] at hx
      · have := calls_reset hE hk1 u _ t x hx
        unfold CallHere at this
        simp only [hne, if_false] at this
        exact this
    · have := resetType_ok (orc := orc) hE hk1 ho1 rfl u t
      cases hr : resetType D E orc u (newNull h al) h.objs.length t with
      | ok h' => rw [hr] at hx; simp at hx
      | ub => rw [hr] at hx; simp at hx
      | throw h' e =>
        rw [hr] at hx this
        have ho2 : h'.obj? h.objs.length = some ⟨none, none, false, al⟩ := by rw [undone_obj hE hk1 ho1 this.1]; exact ho1
        simp [callsClear_nil ho2 rfl] at hx
  | moveNew src => simp [callsOp] at hx
  | destroy o => exact callsClear_ok hE hk x hx
  | moveAssign o src =>
    simp only [callsOp] at hx
    split at hx
    · split at hx
      · simp at hx
      · exact callsClear_ok hE hk x hx
    · simp at hx
  | copy src al =>
    obtain ⟨sb, hs⟩ := alive_obj hE hp
    obtain ⟨t, hty⟩ := typed_obj hE hg hs
    have hne := length_not_obj hs
    have hk1 : HeapOk D E (newNull h al) := addObj_ok hg.1 (bare_null al)
    have ho1 : (newNull h al).obj? h.objs.length = some ⟨none, none, false, al⟩ := by rw [newNull_addObj, addObj_obj, if_pos rfl]
    have hs1 : (newNull h al).obj? src = some sb := by rw [newNull_addObj, addObj_obj, if_neg hne]; exact hs
    have hob := hg.1.objs src sb hs
    unfold ObjOk at hob
    simp only [callsOp, hs, hty] at hx
    cases hd : sb.data with
    | none => simp [hd] at hx
    | some a =>
      rw [hd] at hob
      obtain ⟨t', p1, hnet, -, -⟩ := hob
      rw [hty] at p1; simp at p1; subst p1
      have hnf : NewFnOk D E (newNull h al) h.objs.length ⟨none, none, false, al⟩ t (.copy src true) :=
        ⟨hne, ⟨sb, hs1, hty, by rw [hd]; simp⟩, fun h => by simp at h⟩
      simp only [hd] at hx
      rw [List.mem_append] at hx
      rcases hx with hx | hx
      · have := callsMutation_ok hE hk1 ho1 (t := t) (by simp) hnet u _ true (fits_each hnf (u := .noop) trivial) x hx
        exact ⟨this.1, sb, t, hs, hty, this.2⟩
      · have := perform_ok (orc := orc) hE hk1 ho1 rfl (t := t) (by simp) hnet u hnf (g := .noop) trivial
        cases hr : perform D E orc u (newNull h al) h.objs.length t (.copy src true) .noop with
        | ok h' => rw [hr] at hx; simp at hx
        | ub => rw [hr] at hx; simp at hx
        | throw h' e =>
          rw [hr] at hx this
          have ho2 : h'.obj? h.objs.length = some ⟨none, none, false, al⟩ := by rw [undone_obj hE hk1 ho1 this.1]; exact ho1
          simp [callsClear_nil ho2 rfl] at hx
  | copyFrom o src =>
    obtain ⟨ob, ho⟩ := alive_obj hE hp.1
    obtain ⟨sb, hs⟩ := alive_obj hE hp.2
    obtain ⟨own, hty⟩ := typed_obj hE hg ho
    obtain ⟨t, hsty⟩ := typed_obj hE hg hs
    have hob := hg.1.objs src sb hs
    unfold ObjOk at hob
    simp only [callsOp, ho, hs, hty, hsty] at hx
    cases hd : sb.data with
    | none =>
      rw [hd] at hob
      simp only [hd] at hx
      split at hx
      · simp at hx
      · have := callsClear_ok hE hk x hx
        refine ⟨this.1, sb, t, hs, hsty, ?_⟩
        rw [if_pos (hob t hsty)]; exact this.2
    | some a =>
      rw [hd] at hob
      obtain ⟨t', p1, hnet, -, -⟩ := hob
      rw [hsty] at p1; simp at p1; subst p1
      simp only [hd] at hx
      cases hck : copyFromCheck D E own (E.mixins t) with
      | some m => simp [hck] at hx
      | none =>
        simp only [hck] at hx
        obtain ⟨f1, f2⟩ := copyFrom_fns hE hg.1 ho hs hty hsty (by rw [hd]; simp) hck
        by_cases heq : own = t
        · subst heq
          rw [callsMutation_same hE hk ho hty hnet u _ true (fitsSame_each (f2 rfl))] at hx
          simp at hx
        · have := callsMutation_ok hE hk ho (t := t) (by rw [hty]; simpa using heq) hnet u _ true (fits_each (f1 heq).1 (f1 heq).2) x hx
          refine ⟨this.1, sb, t, hs, hsty, ?_⟩
          rw [if_neg hnet]; exact this.2
  | copyMatching o src => simp [callsOp] at hx
  | moveMatching o src fb =>
    obtain ⟨ob, ho⟩ := alive_obj hE hp.1
    obtain ⟨sb, hs⟩ := alive_obj hE hp.2.1
    obtain ⟨own, hty⟩ := typed_obj hE hg ho
    obtain ⟨t, hsty⟩ := typed_obj hE hg hs
    simp only [callsOp, ho, hs, hty, hsty] at hx
    cases hck : moveMatchingCheck D E own fb (E.mixins t) with
    | some m => simp [hck] at hx
    | none =>
      simp only [hck] at hx
      refine calls_matching_loop hE hk ho hs hty hsty ?_ _ 0 h rfl (Revalued.refl h) x hx
      intro heq m hm
      subst heq
      have hfb := hp.2.2 rfl
      rw [ho] at hs; simp at hs; subst hs
      rw [hty] at hsty; simp at hsty; subst hsty
      subst hfb
      have : ∀ (ms : List Mix), (∀ m ∈ ms, m ∈ E.mixins own) → moveMatchingCheck D E own false ms = none → ∀ m ∈ ms, (D.mix m).hasMoveAsgn = true := by
        intro ms
        induction ms with
        | nil => simp
        | cons y ys ih =>
          intro hmem h1 m' hm'
          unfold moveMatchingCheck at h1
          split at h1
          · simp at h1
          · rename_i hno
            rw [List.mem_cons] at hm'
            rcases hm' with rfl | hm'
            · obtain ⟨i, hi⟩ := List.mem_iff_getElem?.1 (hmem m' (by simp))
              have := (hE.index own own m' i (hmem m' (by simp))).2 hi
              rw [this] at hno
              simpa using hno
            · exact ih (fun z hz => hmem z (by simp [hz])) h1 m' hm'
      exact this _ (fun _ h => h) hck m hm
  | clear o =>
    simp only [callsOp] at hx
    split at hx
    · simp at hx
    · split at hx
      · simp at hx
      · exact callsClear_ok hE hk x hx
  | reset o t => exact calls_reset hE hk u o t x hx
  | «seal» o => simp [callsOp] at hx
  | mutation o t steps =>
    obtain ⟨ob, ho⟩ := alive_obj hE hp.1
    exact calls_mutation hE hk u ho hp.2.1 hp.2.2 x hx
  | mutateTo o t ops =>
    obtain ⟨ob, ho, hp⟩ := hp
    simp only [callsOp, ho] at hx
    by_cases hty : ob.ty = some t
    · simp [hty] at hx
    · rw [if_neg hty] at hx
      exact calls_mutation hE hk u ho (hp.resolve_left hty) (mutateToSteps_proper _) x hx

end

end Dnmx
