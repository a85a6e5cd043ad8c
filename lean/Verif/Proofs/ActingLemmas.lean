import Verif.Proofs.FrameLemmas
import Verif.Proofs.SystemLemmas
import Verif.Proofs.DispatchLemmas
import Verif.Spec.Acting

/-! # Lemmas about implementations that act on objects -/

set_option linter.unusedSimpArgs false
set_option linter.unusedVariables false
set_option linter.unusedSectionVars false

namespace Dnmx
open Spec

variable {D : Decls} {E : TyEnv} {orc : Orc}

/-! ## Operations: who stays alive, and external mixins -/

theorem completed_alive (hE : EnvOk D E) {h : Heap} (hk : HeapOk D E h) {o : Nat} {ob : Obj} (ho : h.obj? o = some ob) {t : TypeId} (hne : E.mixins t ≠ []) {g : Ghost} {h' : Heap}
    (hc : Completed D E h o ob t g h') : Alive h' o := by
  unfold Alive; rw [completed_obj hE hk ho hne hc, if_pos rfl]; simp

theorem undone_alive (hE : EnvOk D E) {h : Heap} (hk : HeapOk D E h) {o : Nat} {ob : Obj} (ho : h.obj? o = some ob) {t : TypeId} {T : Nat → Bool} {h' : Heap} (hu : Undone E h ob t T h') : Alive h' o := by
  unfold Alive; rw [undone_obj hE hk ho hu, ho]; simp

theorem obj_alive {h : Heap} {o : Nat} {ob : Obj} (ho : h.obj? o = some ob) : Alive h o := by unfold Alive; rw [ho]; simp

theorem mutation_alive (hE : EnvOk D E) {h : Heap} (hg : Good D E h) {o : Nat} (ha : Alive h o) {t : TypeId} {steps : List (MStep × Bool)} (hne : E.mixins t ≠ [])
    (hst : ∀ st ∈ steps, properStep st.1 = true) : HStepOk (withMutation D E orc false h o t steps) (fun h' => Alive h' o) (fun h' _ => Alive h' o) := by
  obtain ⟨ob, ho⟩ := alive_obj hE ha
  cases hsl : ob.isSealed with
  | true => rw [withMutation_sealed ho hsl]; exact ha
  | false =>
    by_cases hty : ob.ty = some t
    · exact (withMutation_same_ok (orc := orc) hE hg.1 ho hsl hty hne false steps true (fitsSame_of_proper hst (by simp))).mono
        (fun h' hx => undone_alive hE hg.1 ho hx.1) (fun h' _ hx => undone_alive hE hg.1 ho hx.1)
    · refine (withMutation_ok (orc := orc) hE hg.1 ho hsl hty hne false steps true (fits_of_proper hst (by simp))).mono ?_ (fun h' _ hx => undone_alive hE hg.1 ho hx.1)
      rintro h' ⟨F, G, hx⟩
      exact completed_alive hE hg.1 ho hne hx

/-- Only `destroy` ends the life of an object. -/
theorem alive_step (hE : EnvOk D E) {h : Heap} (hg : Good D E h) {op : OOp} (hp : Proper E h op) (hd : ∀ x, op ≠ .destroy x) {o : Nat} (ha : Alive h o) :
    HStepOk (ostep D E orc false h op) (fun h' => Alive h' o) (fun h' _ => Alive h' o) := by
  by_cases hn : o ∉ subjects op
  · exact (bystander (orc := orc) hE hg false hp ha hn).mono (fun h' hx => by unfold Alive; rw [hx]; exact ha) (fun h' _ hx => by unfold Alive; rw [hx]; exact ha)
  · have hn := Classical.not_not.1 hn
    cases op with
    | newEmpty t al => simp [subjects] at hn
    | newOfType t al sd => simp [subjects] at hn
    | copy src al => simp [subjects] at hn
    | copyMatching a b => simp [subjects] at hn
    | moveMatching a b c => simp [subjects] at hn
    | destroy x => exact absurd rfl (hd x)
    | moveNew src =>
      simp [subjects] at hn; subst hn
      obtain ⟨sb, hs⟩ := alive_obj hE hp
      obtain ⟨h', k1, k2, -⟩ := moveConstruct_moved hE hg hs
      unfold ostep; simp only; rw [k1]
      obtain ⟨e, -, k3⟩ := k2.source
      exact obj_alive k3
    | moveAssign o' src =>
      obtain ⟨ob, ho⟩ := alive_obj hE hp.1
      obtain ⟨sb, hs⟩ := alive_obj hE hp.2
      by_cases hos : o' = src
      · unfold ostep moveAssign; simp only; rw [if_pos hos]; exact ha
      · by_cases hal : ob.alloc = sb.alloc
        · cases hsl : ob.isSealed with
          | true => unfold ostep moveAssign; simp only [ho, hs]; rw [if_neg hos, if_pos hal, hsl]; exact ha
          | false =>
            obtain ⟨h', k1, k2, -⟩ := moveAssign_moved hE hg ho hs hos hal hsl
            unfold ostep; simp only; rw [k1]
            simp [subjects] at hn
            rcases hn with rfl | rfl
            · exact obj_alive k2.target
            · obtain ⟨e, -, k3⟩ := k2.source
              exact obj_alive k3
        · unfold ostep moveAssign; simp only [ho, hs]; rw [if_neg hos, if_neg hal]; exact ha
    | copyFrom o' src =>
      simp [subjects] at hn; subst hn
      obtain ⟨ob, ho⟩ := alive_obj hE hp.1
      obtain ⟨sb, hs⟩ := alive_obj hE hp.2
      obtain ⟨own, hty⟩ := typed_obj hE hg ho
      obtain ⟨t, hsty⟩ := typed_obj hE hg hs
      have hob := hg.1.objs src sb hs
      unfold ObjOk at hob
      unfold ostep copyFrom
      simp only [ho, hs]
      cases hd : sb.data with
      | none =>
        simp only
        cases hsl : ob.isSealed with
        | true => simp only [if_true]; exact ha
        | false =>
          simp only [Bool.false_eq_true, if_false]
          obtain ⟨h1, k1, k2⟩ := clear_ok (D := D) hE hg.1 ho
          simp only [k1, k2.obj ho]
          show Alive (h1.setObj _ _) o
          unfold Alive
          rw [k2.objs' ho, if_pos rfl]; simp
      | some a =>
        rw [hd] at hob
        obtain ⟨t', p1, hnet, -, -⟩ := hob
        rw [hsty] at p1; simp at p1; subst p1
        simp only [hsty, hty]
        cases hck : copyFromCheck D E own (E.mixins t) with
        | some m => exact ha
        | none =>
          simp only
          obtain ⟨f1, f2⟩ := copyFrom_fns hE hg.1 ho hs hty hsty (by rw [hd]; simp) hck
          cases hsl : ob.isSealed with
          | true => unfold perform; rw [withMutation_sealed ho hsl]; exact ha
          | false =>
            by_cases heq : own = t
            · subst heq
              exact (perform_same_ok (orc := orc) hE hg.1 ho hsl hty hnet false (.copy src false) (f2 rfl)).mono (fun h' hx => undone_alive hE hg.1 ho hx.1.1) (fun h' _ hx => undone_alive hE hg.1 ho hx.1)
            · have hne : ob.ty ≠ some t := by rw [hty]; simpa using heq
              refine (perform_ok (orc := orc) hE hg.1 ho hsl hne hnet false (f1 heq).1 (f1 heq).2).mono ?_ (fun h' _ hx => undone_alive hE hg.1 ho hx.1)
              rintro h' ⟨F, G, hx, -⟩
              exact completed_alive hE hg.1 ho hnet hx
    | clear o' =>
      simp [subjects] at hn; subst hn
      obtain ⟨ob, ho⟩ := alive_obj hE hp
      obtain ⟨own, hty⟩ := typed_obj hE hg ho
      unfold ostep clearObject
      simp only [ho]
      cases hsl : ob.isSealed with
      | true => simp only [if_true]; exact ha
      | false =>
        simp only [Bool.false_eq_true, if_false]
        obtain ⟨h1, k1, k2⟩ := clear_ok (D := D) hE hg.1 ho
        simp only [k1, hty, k2.obj ho]
        show Alive (h1.setObj _ _) o
        unfold Alive
        rw [k2.objs' ho, if_pos rfl]; simp
    | reset o' t =>
      simp [subjects] at hn; subst hn
      obtain ⟨ob, ho⟩ := alive_obj hE hp
      unfold ostep
      simp only
      cases hsl : ob.isSealed with
      | true => rw [resetType_sealed ho hsl]; exact ha
      | false =>
        refine (resetType_ok (orc := orc) hE hg.1 ho hsl false t).mono ?_ (fun h' _ hx => undone_alive hE hg.1 ho hx.1)
        rintro h' (⟨-, rfl⟩ | ⟨-, hne, h1, hc, rfl⟩ | ⟨-, hne, -, F, G, hc, -⟩ | ⟨-, -, -, hf⟩)
        · exact ha
        · unfold Alive; rw [hc.objs' ho, if_pos rfl]; simp
        · exact completed_alive hE hg.1 ho hne hc
        · exact undone_alive hE hg.1 ho hf.1
    | «seal» o' =>
      simp [subjects] at hn; subst hn
      obtain ⟨ob, ho⟩ := alive_obj hE hp
      unfold ostep sealObject
      simp only [ho]
      show Alive (h.setObj _ _) o
      unfold Alive
      rw [obj?_set (h := h.setObj o _) (l := h.objs) rfl ho, if_pos rfl]; simp
    | mutation o' t steps =>
      simp [subjects] at hn; subst hn
      exact mutation_alive hE hg ha hp.2.1 hp.2.2
    | mutateTo o' t ops =>
      simp [subjects] at hn; subst hn
      obtain ⟨ob, ho, hp⟩ := hp
      unfold ostep mutateTo
      simp only [ho]
      by_cases hty : ob.ty = some t
      · rw [if_pos hty]; exact ha
      · rw [if_neg hty]
        exact mutation_alive hE hg ha (hp.resolve_left hty) (mutateToSteps_proper _)

theorem mutation_external (hE : EnvOk D E) {h : Heap} (hg : Good D E h) {o : Nat} (ha : Alive h o) {t : TypeId} {steps : List (MStep × Bool)} (hne : E.mixins t ≠ [])
    (hst : ∀ st ∈ steps, properStep st.1 = true) {m : Mix} {l : Loc} {v : Nat} (hx : (D.mix m).external = true) (hm : m ∈ E.mixins t) (hh : Holds E h o m l v) :
    HStepOk (withMutation D E orc false h o t steps) (fun h' => ∃ v', Holds E h' o m l v') (fun h' _ => ∃ v', Holds E h' o m l v') := by
  obtain ⟨ob, ho⟩ := alive_obj hE ha
  cases hsl : ob.isSealed with
  | true => rw [withMutation_sealed ho hsl]; exact ⟨v, hh⟩
  | false =>
    by_cases hty : ob.ty = some t
    · exact (withMutation_same_ok (orc := orc) hE hg.1 ho hsl hty hne false steps true (fitsSame_of_proper hst (by simp))).mono
        (fun h' hx => ((untouchedBut_failed hE hg.1 ho (kept_failed hx)).places m l).2 ⟨v, hh⟩) (fun h' _ hx => ((untouchedBut_failed hE hg.1 ho (kept_failed hx)).places m l).2 ⟨v, hh⟩)
    · refine (withMutation_ok (orc := orc) hE hg.1 ho hsl hty hne false steps true (fits_of_proper hst (by simp))).mono ?_
        (fun h' _ hx => ((untouchedBut_failed hE hg.1 ho hx).places m l).2 ⟨v, hh⟩)
      rintro h' ⟨F, G, hc⟩
      obtain ⟨l', v', k1, k2, -⟩ := (completed_mutated hE hg.1 ho hne hc (kind := fun _ _ => True) (keeps := fun _ => False) (fun _ _ _ => trivial) (fun _ _ _ h => h.elim)).common m l v hm hh
      rw [k2 hx] at k1
      exact ⟨v', k1⟩

/-- An external mixin that is not removed by a mutation stays where it is, whether or not the mutation fails. -/
theorem external_kept (hE : EnvOk D E) {h : Heap} (hg : Good D E h) {op : OOp} (hp : Proper E h op) {o : Nat} {m : Mix} {l : Loc} {v : Nat} (hx : (D.mix m).external = true)
    (hm : MutatesKeeping E m o op) (hh : Holds E h o m l v) :
    HStepOk (ostep D E orc false h op) (fun h' => ∃ v', Holds E h' o m l v') (fun h' _ => ∃ v', Holds E h' o m l v') := by
  cases op with
  | reset o' t =>
    obtain ⟨rfl, hmt⟩ := hm
    obtain ⟨ob, ho⟩ := alive_obj hE hp
    unfold ostep
    simp only
    cases hsl : ob.isSealed with
    | true => rw [resetType_sealed ho hsl]; exact ⟨v, hh⟩
    | false =>
      refine (resetType_ok (orc := orc) hE hg.1 ho hsl false t).mono ?_ (fun h' _ hx => ((untouchedBut_failed hE hg.1 ho hx).places m l).2 ⟨v, hh⟩)
      rintro h' (⟨-, rfl⟩ | ⟨-, hne, -⟩ | ⟨-, hne, -, F, G, hc, -⟩ | ⟨-, -, hf, -⟩)
      · exact ⟨v, hh⟩
      · rw [hne] at hmt; simp at hmt
      · obtain ⟨l', v', k1, k2, -⟩ := (completed_mutated hE hg.1 ho hne hc (kind := fun _ _ => True) (keeps := fun _ => False) (fun _ _ _ => trivial) (fun _ _ _ h => h.elim)).common m l v hmt hh
        rw [k2 hx] at k1
        exact ⟨v', k1⟩
      · simp at hf
  | mutation o' t steps =>
    obtain ⟨rfl, hmt⟩ := hm
    exact mutation_external hE hg hp.1 hp.2.1 hp.2.2 hx hmt hh
  | mutateTo o' t ops =>
    obtain ⟨rfl, hmt⟩ := hm
    obtain ⟨ob, ho, hp⟩ := hp
    unfold ostep mutateTo
    simp only [ho]
    by_cases hty : ob.ty = some t
    · rw [if_pos hty]; exact ⟨v, hh⟩
    · rw [if_neg hty]
      exact mutation_external hE hg (obj_alive ho) (hp.resolve_left hty) (mutateToSteps_proper _) hx hmt hh
  | newEmpty _ _ => exact hm.elim
  | newOfType _ _ _ => exact hm.elim
  | moveNew _ => exact hm.elim
  | destroy _ => exact hm.elim
  | moveAssign _ _ => exact hm.elim
  | copy _ _ => exact hm.elim
  | copyFrom _ _ => exact hm.elim
  | copyMatching _ _ => exact hm.elim
  | moveMatching _ _ _ => exact hm.elim
  | clear _ => exact hm.elim
  | «seal» _ => exact hm.elim

/-! ## Actions -/

/-- The invariant between actions. -/
structure Fine (D : Decls) (E : TyEnv) (P : Agreed) (h : Heap) : Prop where
  good : Good D E h
  known : ∀ k, P.known k → Alive h k

/-- What an implementation is called for is there. -/
def SelfOk (E : TyEnv) (h : Heap) : Self → Prop
  | .mixin m l => ∃ o v, Holds E h o m l v
  | .object o => Alive h o

/-- Outcomes with a property of the states. -/
def OutOk (r : Out) (P : Heap → Prop) : Prop :=
  match r with
  | .done h => P h
  | .thrown h _ => P h
  | .ub => False
  | .more => True

theorem OutOk.mono {r : Out} {P Q : Heap → Prop} (h : OutOk r P) (hpq : ∀ x, P x → Q x) : OutOk r Q := by
  cases r with
  | done x => exact hpq x h
  | thrown x e => exact hpq x h
  | ub => exact h
  | more => trivial

theorem OutOk.both {r : Out} {P Q : Heap → Prop} (h : OutOk r P) (h' : OutOk r Q) : OutOk r (fun x => P x ∧ Q x) := by
  cases r with
  | done x => exact ⟨h, h'⟩
  | thrown x e => exact ⟨h, h'⟩
  | ub => exact h
  | more => trivial

theorem OutOk.caught {r : Out} {P : Heap → Prop} (h : OutOk r P) (c : Bool) : OutOk (if c then r.caught else r) P := by
  cases c with
  | false => exact h
  | true => cases r <;> first | exact h | trivial

theorem outOf_ok {r : Res Heap} {P : Heap → Prop} (h : HStepOk r P (fun x _ => P x)) : OutOk (outOf r) P := by
  cases r <;> exact h

/-- Living objects live on. -/
def LivesOn (h h' : Heap) : Prop := ∀ o, Alive h o → Alive h' o

theorem StillThere.lives {h h' : Heap} (hs : StillThere E h h') : LivesOn h h' := by
  intro o ha
  cases hx : h.obj? o with
  | none => exact absurd hx ha
  | some ob => exact obj_alive (hs o ob hx).1

theorem StillThere.refl (h : Heap) : StillThere E h h := fun o ob ho => ⟨ho, fun m l v hh => ⟨v, hh⟩⟩

theorem StillThere.trans {h h' h'' : Heap} (h1 : StillThere E h h') (h2 : StillThere E h' h'') : StillThere E h h'' := by
  intro o ob ho
  obtain ⟨k1, k2⟩ := h1 o ob ho
  obtain ⟨k3, k4⟩ := h2 o ob k1
  refine ⟨k3, fun m l v hh => ?_⟩
  obtain ⟨v', hh'⟩ := k2 m l v hh
  exact k4 m l v' hh'

theorem holds_obj {h : Heap} {o : Nat} {m : Mix} {l : Loc} {v : Nat} (hh : Holds E h o m l v) : ∃ ob, h.obj? o = some ob := by
  obtain ⟨i, sl, ⟨ob, t, a, h1, -⟩, -⟩ := hh
  exact ⟨ob, h1⟩

theorem StillThere.self {h h' : Heap} (hs : StillThere E h h') {w : Self} (hw : SelfOk E h w) : SelfOk E h' w := by
  cases w with
  | object o => exact StillThere.lives hs o hw
  | mixin m l =>
    obtain ⟨o, v, hh⟩ := hw
    obtain ⟨ob, ho⟩ := holds_obj hh
    obtain ⟨v', hh'⟩ := (hs o ob ho).2 m l v hh
    exact ⟨o, v', hh'⟩

theorem Fine.next {P : Agreed} {h h' : Heap} (hf : Fine D E P h) (hg : Good D E h') (hl : LivesOn h h') : Fine D E P h' :=
  ⟨hg, fun k hk => hl k (hf.known k hk)⟩

section
variable (hE : EnvOk D E) {P : Agreed} {M : MsgEnv}
include hE

/-- The place of a mixin of an object is in memory, and the pointer before it designates the object. -/
theorem holds_facts {h : Heap} (hk : HeapOk D E h) {o : Nat} {m : Mix} {l : Loc} {v : Nat} (hh : Holds E h o m l v) : (h.blk l.1).isSome = true ∧ h.owner l = some o := by
  obtain ⟨i, sl, hs, rfl, -⟩ := hh
  obtain ⟨ob, t, a, v0, f1, f2, f3, f4, f5, f6, f7, f8, f9⟩ := hs.facts hk
  obtain ⟨b, hb⟩ := hs.allocated hk
  exact ⟨by rw [hb]; rfl, f8⟩

theorem self_obj {h : Heap} (hg : Good D E h) {w : Self} (hw : SelfOk E h w) : ∃ o, w.obj? h = some o ∧ Alive h o ∧ ∀ m l, w = .mixin m l → ∃ v, Holds E h o m l v := by
  cases w with
  | object o =>
    obtain ⟨ob, ho⟩ := alive_obj hE hw
    exact ⟨o, by simp [Self.obj?, ho], hw, fun m l h => by simp at h⟩
  | mixin m l =>
    obtain ⟨o, v, hh⟩ := hw
    obtain ⟨h1, h2⟩ := holds_facts hE hg.1 hh
    obtain ⟨ob, ho⟩ := holds_obj hh
    refine ⟨o, by simp [Self.obj?, h1, h2], obj_alive ho, ?_⟩
    intro m' l' h; simp at h; obtain ⟨rfl, rfl⟩ := h
    exact ⟨v, hh⟩

theorem useSelf_ok {h : Heap} (hf : Fine D E P h) {w : Self} (hw : SelfOk E h w) : OutOk (useSelf orc h w) (fun h' => Fine D E P h' ∧ StillThere E h h') := by
  cases w with
  | object o =>
    obtain ⟨ob, ho⟩ := alive_obj hE hw
    have : useSelf orc h (.object o) = .done h := by simp [useSelf, ho]
    rw [this]
    exact ⟨hf, StillThere.refl h⟩
  | mixin m l =>
    obtain ⟨o, v, hh⟩ := hw
    obtain ⟨h1, h2⟩ := holds_facts hE hf.good.1 hh
    obtain ⟨i, sl, hs, rfl, hl⟩ := hh
    have : useSelf orc h (.mixin m sl.loc) = .done (h.setLive sl.loc (some (m, orc.val h.tick))).ticked := by simp [useSelf, hl, h1]
    rw [this]
    have hr : Revalued h (h.setLive sl.loc (some (m, orc.val h.tick))).ticked := (Revalued.refl h).set hl (orc.val h.tick) (h.tick + 1) h.log
    have hst : StillThere E h (h.setLive sl.loc (some (m, orc.val h.tick))).ticked := by
      intro o' ob' ho'
      refine ⟨ho', ?_⟩
      rintro m' l' v' ⟨i', sl', hs', rfl, hl'⟩
      have := hr.live sl'.loc
      rw [hl'] at this
      cases hx : (h.setLive sl.loc (some (m, orc.val h.tick))).ticked.live sl'.loc with
      | none => rw [hx] at this; simp at this
      | some y =>
        rw [hx] at this; simp at this
        exact ⟨y.2, i', sl', hr.slots.2 hs', rfl, by rw [hx, ← this]⟩
    refine ⟨hf.next ⟨hr.heapOk hf.good.1, fun o' ob' ho' => ?_⟩ (StillThere.lives hst), hst⟩
    exact hf.good.2 o' ob' ho'

/-- What is needed of calls of implementations: they are fine whenever the rules are followed, and quiet ones leave everything there. -/
structure RunOk (D : Decls) (E : TyEnv) (P : Agreed) (M : MsgEnv) (run : Self → List (Action × Bool) → Heap → Out) : Prop where
  any : ∀ h, Fine D E P h → (∀ m l p, SelfOk E h (.mixin m l) → OutOk (run (.mixin m l) (M.body m p) h) (fun h' => Fine D E P h' ∧ LivesOn h h')) ∧
    ∀ o p, Alive h o → OutOk (run (.object o) (M.dflt p) h) (fun h' => Fine D E P h' ∧ LivesOn h h')
  quiet : ∀ h w as, Fine D E P h → SelfOk E h w → (∀ a ∈ as, QuietAct E P a.1 ∧ (∀ o, w = .object o → isNext a.1 = false)) → OutOk (run w as h) (fun h' => Fine D E P h' ∧ StillThere E h h')


variable {run : Self → List (Action × Bool) → Heap → Out} (hrun : RunOk D E P M run) (hT : EntriesOk E M)
include hrun

/-- The mixin at an index of the type of the object is there. -/
theorem callAt_eq {h : Heap} (hg : Good D E h) {o : Nat} {ob : Obj} (ho : h.obj? o = some ob) {t : TypeId} (hty : ob.ty = some t) {p : Payload} {m : Mix}
    (hm : (E.mixins t)[p.mixinIndex]? = some m) : ∃ l, SelfOk E h (.mixin m l) ∧ callAt E M run o t p h = run (.mixin m l) (M.body m p.data.payload) h := by
  have hob := hg.1.objs o ob ho
  unfold ObjOk at hob
  cases hd : ob.data with
  | none =>
    rw [hd] at hob
    have := hob t hty
    rw [this] at hm; simp at hm
  | some a =>
    rw [hd] at hob
    obtain ⟨t', k1, k2, k3, k4⟩ := hob
    rw [hty] at k1; simp at k1; subst k1
    obtain ⟨sl, v, q1, q2, q3, q4⟩ := k4 _ m hm
    refine ⟨sl.loc, ⟨o, v, p.mixinIndex, sl, ⟨ob, t, a, ho, hty, hd, hm, q1⟩, rfl, q3⟩, ?_⟩
    unfold callAt
    have : h.slot? a p.mixinIndex = some sl := by simp [Heap.slot?, k3, q1]
    simp only [ho, hd, this, hm]

/-- The functions of these payloads of `t` are quiet. -/
def QuietAt (E : TyEnv) (P : Agreed) (M : MsgEnv) (t : TypeId) (q : Payload) : Prop :=
  ∀ m, (E.mixins t)[q.mixinIndex]? = some m → ∀ a ∈ M.body m q.data.payload, QuietAct E P a.1

theorem callEach_quiet {o : Nat} {t : TypeId} : ∀ (qs : List Payload) (h : Heap) (ob : Obj), Fine D E P h → h.obj? o = some ob → ob.ty = some t →
    (∀ q ∈ qs, (∃ m, (E.mixins t)[q.mixinIndex]? = some m) ∧ QuietAt E P M t q) → OutOk (callEach E M run o t qs h) (fun h' => Fine D E P h' ∧ StillThere E h h')
  | [], h, ob, hf, ho, hty, hq => ⟨hf, StillThere.refl h⟩
  | q :: qs, h, ob, hf, ho, hty, hq => by
    obtain ⟨⟨m, hm⟩, hqm⟩ := hq q (by simp)
    obtain ⟨l, h1, h2⟩ := callAt_eq hE hrun hf.good ho hty hm
    have h3 := hrun.quiet h (.mixin m l) (M.body m q.data.payload) hf h1 (fun a ha => ⟨hqm m hm a ha, fun o h => by simp at h⟩)
    unfold callEach
    rw [h2]
    cases hr : run (.mixin m l) (M.body m q.data.payload) h with
    | done h' =>
      rw [hr] at h3
      simp only
      exact (callEach_quiet qs h' ob h3.1 (h3.2 o ob ho).1 hty (fun q hq' => hq q (by simp [hq']))).mono (fun x hx => ⟨hx.1, StillThere.trans h3.2 hx.2⟩)
    | thrown h' e => rw [hr] at h3; exact h3
    | ub => rw [hr] at h3; exact h3
    | more => trivial

theorem callEach_last {o : Nat} {t : TypeId} {p : Payload} (hp : ∃ m, (E.mixins t)[p.mixinIndex]? = some m) : ∀ (qs : List Payload) (h : Heap) (ob : Obj), Fine D E P h → h.obj? o = some ob → ob.ty = some t →
    (∀ q ∈ qs, (∃ m, (E.mixins t)[q.mixinIndex]? = some m) ∧ QuietAt E P M t q) → OutOk (callEach E M run o t (qs ++ [p]) h) (fun h' => Fine D E P h' ∧ LivesOn h h')
  | [], h, ob, hf, ho, hty, hq => by
    obtain ⟨m, hm⟩ := hp
    obtain ⟨l, h1, h2⟩ := callAt_eq hE hrun hf.good ho hty hm
    have h3 := (hrun.any h hf).1 m l p.data.payload h1
    unfold callEach
    rw [List.nil_append] at *
    simp only [h2]
    cases hr : run (.mixin m l) (M.body m p.data.payload) h with
    | done h' => rw [hr] at h3; exact h3
    | thrown h' e => rw [hr] at h3; exact h3
    | ub => rw [hr] at h3; exact h3
    | more => trivial
  | q :: qs, h, ob, hf, ho, hty, hq => by
    obtain ⟨⟨m, hm⟩, hqm⟩ := hq q (by simp)
    obtain ⟨l, h1, h2⟩ := callAt_eq hE hrun hf.good ho hty hm
    have h3 := hrun.quiet h (.mixin m l) (M.body m q.data.payload) hf h1 (fun a ha => ⟨hqm m hm a ha, fun o h => by simp at h⟩)
    rw [List.cons_append]
    unfold callEach
    rw [h2]
    cases hr : run (.mixin m l) (M.body m q.data.payload) h with
    | done h' =>
      rw [hr] at h3
      simp only
      exact (callEach_last hp qs h' ob h3.1 (h3.2 o ob ho).1 hty (fun q hq' => hq q (by simp [hq']))).mono (fun x hx => ⟨hx.1, fun o ha => hx.2 o (StillThere.lives h3.2 o ha)⟩)
    | thrown h' e => rw [hr] at h3; exact ⟨h3.1, StillThere.lives h3.2⟩
    | ub => rw [hr] at h3; exact h3
    | more => trivial

include hT
variable (hF : KeepsRules D E M P)
include hF

theorem quietAt_top {t : TypeId} {f : Feat} {e : FEntry} (he : M.table t f = some e) (hmu : P.multi f) {i j : Nat} {p q : Payload} (hij : i < j) (hi : e.pls[i]? = some p) (hj : e.pls[j]? = some q)
    (hb : p.data.bid = q.data.bid) : QuietAt E P M t q := fun m hm => hF.multicasts f hmu t e i j p q m he hij hi hj hb hm

theorem sendTo_ok {h : Heap} (hf : Fine D E P h) {o : Nat} (ha : Alive h o) (f : Feat) (multi : Bool) (hmu : multi = true → P.multi f) :
    OutOk (sendTo D E M run o f multi h) (fun h' => Fine D E P h' ∧ LivesOn h h') := by
  obtain ⟨ob, ho⟩ := alive_obj hE ha
  obtain ⟨t, hty⟩ := typed_obj hE hf.good ho
  unfold sendTo
  simp only [ho, hty]
  cases he : M.table t f with
  | none =>
    simp only
    cases hd : (D.feat f).defaultPayload with
    | none => exact ⟨hf, fun _ h => h⟩
    | some p => exact (hrun.any h hf).2 o p ha
  | some e =>
    obtain ⟨⟨p, ps, h1, h2⟩, h3⟩ := hT t f e he
    simp only [h1]
    have hpm : ∃ m, (E.mixins t)[p.mixinIndex]? = some m := h3 p (by rw [h1]; simp)
    cases multi with
    | false => exact callEach_last hE hrun hpm [] h ob hf ho hty (by simp)
    | true =>
      refine callEach_last hE hrun hpm _ h ob hf ho hty ?_
      intro q hq
      rw [List.mem_reverse] at hq
      have hqp : q ∈ ps := List.mem_of_mem_take hq
      refine ⟨h3 q (by rw [h1]; simp [hqp]), ?_⟩
      obtain ⟨j, hj⟩ := List.mem_iff_getElem?.1 hqp
      exact quietAt_top hE hrun hT hF he (hmu rfl) (i := 0) (j := j + 1) (by omega) (by rw [h1]; rfl) (by rw [h1]; exact hj) (h2 q hq).symm

theorem sendTo_quiet {h : Heap} (hf : Fine D E P h) {o : Nat} (ha : Alive h o) (f : Feat) (multi : Bool) (hq : P.quiet f) :
    OutOk (sendTo D E M run o f multi h) (fun h' => Fine D E P h' ∧ StillThere E h h') := by
  obtain ⟨ob, ho⟩ := alive_obj hE ha
  obtain ⟨t, hty⟩ := typed_obj hE hf.good ho
  unfold sendTo
  simp only [ho, hty]
  cases he : M.table t f with
  | none =>
    simp only
    cases hd : (D.feat f).defaultPayload with
    | none => exact ⟨hf, StillThere.refl h⟩
    | some p => exact hrun.quiet h (.object o) (M.dflt p) hf ha (fun a haa => ⟨(hF.quiet f hq).2 p hd a haa, fun _ _ => (hF.defaults p a haa).2⟩)
  | some e =>
    obtain ⟨⟨p, ps, h1, h2⟩, h3⟩ := hT t f e he
    simp only [h1]
    refine callEach_quiet hE hrun _ h ob hf ho hty ?_
    intro q hq'
    have hqe : q ∈ e.pls := by
      rw [h1]
      cases multi with
      | false => simp at hq'; simp [hq']
      | true =>
        simp at hq'
        rcases hq' with hq' | rfl
        · simp [List.mem_of_mem_take hq']
        · simp
    exact ⟨h3 q hqe, fun m hm => (hF.quiet f hq).1 t e q m he hqe hm⟩

end

theorem skipBid_drop (b : Int) : ∀ (l : List Payload), ∃ n, skipBid b l = l.drop n
  | [] => ⟨0, rfl⟩
  | p :: ps => by
    unfold skipBid
    by_cases h : p.data.bid = b
    · rw [if_pos h]
      obtain ⟨n, hn⟩ := skipBid_drop b ps
      exact ⟨n + 1, by rw [hn]; rfl⟩
    · rw [if_neg h]; exact ⟨0, rfl⟩

theorem takeBid_mem (b : Int) : ∀ (l : List Payload) (q : Payload), q ∈ takeBid b l → q ∈ l ∧ q.data.bid = b
  | [], q, h => by simp [takeBid] at h
  | p :: ps, q, h => by
    unfold takeBid at h
    by_cases hp : p.data.bid = b
    · rw [if_pos hp] at h
      rcases List.mem_cons.1 h with rfl | h
      · exact ⟨by simp, hp⟩
      · obtain ⟨h1, h2⟩ := takeBid_mem b ps q h
        exact ⟨by simp [h1], h2⟩
    · rw [if_neg hp] at h; simp at h

/-- A next set of bidders: the first of it and those after it with the same bid. -/
theorem nextSetIn_facts (e : FEntry) (i : Nat) : nextSetIn e i = [] ∨ ∃ (k : Nat) (b : Payload) (bs : List Payload), nextSetIn e i = b :: bs ∧ e.pls[k]? = some b ∧
    ∀ q ∈ bs, ∃ j, k < j ∧ e.pls[j]? = some q ∧ b.data.bid = q.data.bid := by
  unfold nextSetIn
  cases hk : findImplementer i 0 e.pls with
  | none => exact .inl rfl
  | some k =>
    simp only
    cases hd : e.pls.drop k with
    | nil => exact .inl rfl
    | cons f rest =>
      simp only
      obtain ⟨n, hn⟩ := skipBid_drop f.data.bid (f :: rest)
      cases hs : skipBid f.data.bid (f :: rest) with
      | nil => exact .inl rfl
      | cons b bs =>
        right
        rw [hs, ← hd, List.drop_drop] at hn
        have hat : ∀ j : Nat, e.pls[k + n + j]? = (b :: bs)[j]? := by
          intro j
          rw [hn, List.getElem?_drop]
        refine ⟨k + n, b, _, rfl, by have := hat 0; simpa using this, ?_⟩
        intro q hq
        obtain ⟨h1, h2⟩ := takeBid_mem _ _ _ hq
        obtain ⟨j, hj⟩ := List.mem_iff_getElem?.1 h1
        exact ⟨k + n + (j + 1), by omega, by rw [hat]; simpa using hj, h2.symm⟩

section
variable (hE : EnvOk D E) {P : Agreed} {M : MsgEnv}
variable {run : Self → List (Action × Bool) → Heap → Out} (hrun : RunOk D E P M run) (hT : EntriesOk E M) (hF : KeepsRules D E M P)
include hE hrun hT hF

/-- What follows is in the entry; it is one implementation, or a set of bidders. -/
theorem payloads_facts (w : Following) (e : FEntry) (i : Nat) : w.payloads e i = [] ∨ ∃ (k : Nat) (b : Payload) (bs : List Payload), w.payloads e i = bs ++ [b] ∧ e.pls[k]? = some b ∧
    ∀ q ∈ bs, w = .set ∧ ∃ j, k < j ∧ e.pls[j]? = some q ∧ b.data.bid = q.data.bid := by
  cases w with
  | impl =>
    unfold Following.payloads nextIn
    simp only
    cases findImplementer i 0 e.pls with
    | none => exact .inl rfl
    | some k =>
      simp only
      cases hx : e.pls[k + 1]? with
      | none => exact .inl rfl
      | some b => exact .inr ⟨k + 1, b, [], rfl, hx, by simp⟩
  | set =>
    unfold Following.payloads
    rcases nextSetIn_facts e i with h | ⟨k, b, bs, h1, h2, h3⟩
    · left; simp only [h, List.reverse_nil]
    · right
      refine ⟨k, b, bs.reverse, by simp only [h1, List.reverse_cons], h2, ?_⟩
      intro q hq
      rw [List.mem_reverse] at hq
      exact ⟨rfl, h3 q hq⟩
  | top =>
    unfold Following.payloads
    rcases nextSetIn_facts e i with h | ⟨k, b, bs, h1, h2, h3⟩
    · left; simp only [h, List.take_nil]
    · right
      exact ⟨k, b, [], by simp only [h1]; rfl, h2, by simp⟩

theorem following_ok {h : Heap} (hf : Fine D E P h) {w : Self} (hw : SelfOk E h w) (hn : ∀ o, w ≠ .object o) (k : Following) (f : Feat) (hmu : k = .set → P.multi f) :
    OutOk (following E M run k f h w) (fun h' => Fine D E P h' ∧ LivesOn h h') := by
  obtain ⟨o, h1, h2, -⟩ := self_obj hE hf.good hw
  cases w with
  | object o => exact absurd rfl (hn o)
  | mixin m l =>
    obtain ⟨ob, ho⟩ := alive_obj hE h2
    obtain ⟨t, hty⟩ := typed_obj hE hf.good ho
    unfold following callFollowing
    simp only [h1, ho, hty]
    cases he : M.table t f with
    | none => exact ⟨hf, fun _ h => h⟩
    | some e =>
      cases hi : E.indexOf t m with
      | none => exact ⟨hf, fun _ h => h⟩
      | some i =>
        simp only
        rcases payloads_facts hE hrun hT hF k e i with hx | ⟨n, b, bs, hx, hb, hq⟩
        · rw [hx]; exact ⟨hf, fun _ h => h⟩
        · rw [hx]
          have h3 := (hT t f e he).2
          have : OutOk (callEach E M run o t (bs ++ [b]) h) (fun h' => Fine D E P h' ∧ LivesOn h h') := by
            refine callEach_last hE hrun (h3 b (List.mem_of_getElem? hb)) bs h ob hf ho hty ?_
            intro q hqs
            obtain ⟨hk, j, k1, k2, k3⟩ := hq q hqs
            exact ⟨h3 q (List.mem_of_getElem? k2), quietAt_top hE hrun hT hF he (hmu hk) k1 hb k2 k3⟩
          cases hl : bs ++ [b] with
          | nil => simp at hl
          | cons x xs => rw [hl] at this; exact this

theorem following_quiet {h : Heap} (hf : Fine D E P h) {w : Self} (hw : SelfOk E h w) (hn : ∀ o, w ≠ .object o) (k : Following) (f : Feat) (hqf : P.quiet f) :
    OutOk (following E M run k f h w) (fun h' => Fine D E P h' ∧ StillThere E h h') := by
  obtain ⟨o, h1, h2, -⟩ := self_obj hE hf.good hw
  cases w with
  | object o => exact absurd rfl (hn o)
  | mixin m l =>
    obtain ⟨ob, ho⟩ := alive_obj hE h2
    obtain ⟨t, hty⟩ := typed_obj hE hf.good ho
    unfold following callFollowing
    simp only [h1, ho, hty]
    cases he : M.table t f with
    | none => exact ⟨hf, StillThere.refl h⟩
    | some e =>
      cases hi : E.indexOf t m with
      | none => exact ⟨hf, StillThere.refl h⟩
      | some i =>
        simp only
        rcases payloads_facts hE hrun hT hF k e i with hx | ⟨n, b, bs, hx, hb, hq⟩
        · rw [hx]; exact ⟨hf, StillThere.refl h⟩
        · rw [hx]
          have h3 := (hT t f e he).2
          have : OutOk (callEach E M run o t (bs ++ [b]) h) (fun h' => Fine D E P h' ∧ StillThere E h h') := by
            refine callEach_quiet hE hrun _ h ob hf ho hty ?_
            intro q hqs
            have hqe : q ∈ e.pls := by
              rcases List.mem_append.1 hqs with hqs | hqs
              · obtain ⟨hk, j, k1, k2, k3⟩ := hq q hqs
                exact List.mem_of_getElem? k2
              · simp at hqs; subst hqs; exact List.mem_of_getElem? hb
            exact ⟨h3 q hqe, fun m hm => (hF.quiet f hqf).1 t e q m he hqe hm⟩
          cases hl : bs ++ [b] with
          | nil => simp at hl
          | cons x xs => rw [hl] at this; exact this

theorem op_ok {h : Heap} (hf : Fine D E P h) {o : Nat} (ha : Alive h o) {f : Nat → OOp} (hp : ProperFor E P f) :
    OutOk (outOf (ostep D E orc false h (f o))) (fun h' => Fine D E P h' ∧ LivesOn h h') := by
  have hpr := hp.1 h o ha hf.known
  refine outOf_ok ?_
  have h1 := good_step (orc := orc) hE hf.good (u := false) hpr (by simp)
  have h2 : ∀ o', Alive h o' → HStepOk (ostep D E orc false h (f o)) (fun h' => Alive h' o') (fun h' _ => Alive h' o') := fun o' ha' => alive_step hE hf.good hpr (hp.2 o) ha'
  cases hr : ostep D E orc false h (f o) with
  | ok x =>
    rw [hr] at h1 h2
    exact ⟨hf.next h1 h2, h2⟩
  | throw x e =>
    rw [hr] at h1 h2
    exact ⟨hf.next h1 h2, h2⟩
  | ub => rw [hr] at h1; exact h1

theorem op_quiet {h : Heap} (hf : Fine D E P h) {o : Nat} (ha : Alive h o) {f : Nat → OOp} (hp : ProperFor E P f) (hq : affected (f o) = []) :
    OutOk (outOf (ostep D E orc false h (f o))) (fun h' => Fine D E P h' ∧ StillThere E h h') := by
  have hpr := hp.1 h o ha hf.known
  have h0 := op_ok (orc := orc) hE hrun hT hF hf ha hp
  have h1 : ∀ o', Alive h o' → _ := fun o' ha' => frame (orc := orc) hE hf.good false hpr ha' (by rw [hq]; simp)
  have h2 : ∀ o', Alive h o' → _ := fun o' ha' => bystander (orc := orc) hE hf.good false hpr ha' (affected_subjects (by rw [hq]; simp))
  have key : ∀ x, (∀ o', Alive h o' → SameHolds E o' h x) → (∀ o', Alive h o' → x.obj? o' = h.obj? o') → StillThere E h x := by
    intro x k1 k2 o' ob' ho'
    exact ⟨by rw [k2 o' (obj_alive ho')]; exact ho', fun m l v hh => ⟨v, (k1 o' (obj_alive ho') m l v).2 hh⟩⟩
  cases hr : ostep D E orc false h (f o) with
  | ok x => rw [hr] at h0 h1 h2; exact ⟨h0.1, key x h1 h2⟩
  | throw x e => rw [hr] at h0 h1 h2; exact ⟨h0.1, key x h1 h2⟩
  | ub => rw [hr] at h0; exact h0

theorem act_ok {h : Heap} (hf : Fine D E P h) {w : Self} (hw : SelfOk E h w) {a : Action} (ha : MayDo E P a) (hn : ∀ o, w = .object o → isNext a = false) :
    OutOk (act D E orc M run w h a) (fun h' => Fine D E P h' ∧ LivesOn h h') := by
  obtain ⟨o, h1, h2, -⟩ := self_obj hE hf.good hw
  cases a with
  | use => exact (useSelf_ok hE hf hw).mono (fun x hx => ⟨hx.1, StillThere.lives hx.2⟩)
  | op f => simp only [act, h1]; exact op_ok hE hrun hT hF hf h2 ha
  | send to f multi =>
    simp only [act, h1]
    refine sendTo_ok hE hrun hT hF hf ?_ f multi ha.2
    rcases ha.1 o with h3 | h3
    · rw [h3]; exact h2
    · exact hf.known _ h3
  | next f => exact following_ok hE hrun hT hF hf hw (fun o ho => by have := hn o ho; simp [isNext] at this) .impl f (by simp)
  | nextSet f => exact following_ok hE hrun hT hF hf hw (fun o ho => by have := hn o ho; simp [isNext] at this) .set f (fun _ => ha)
  | nextTop f => exact following_ok hE hrun hT hF hf hw (fun o ho => by have := hn o ho; simp [isNext] at this) .top f (by simp)
  | raise n => exact ⟨hf, fun _ h => h⟩

theorem act_quiet {h : Heap} (hf : Fine D E P h) {w : Self} (hw : SelfOk E h w) {a : Action} (ha : QuietAct E P a) (hn : ∀ o, w = .object o → isNext a = false) :
    OutOk (act D E orc M run w h a) (fun h' => Fine D E P h' ∧ StillThere E h h') := by
  obtain ⟨o, h1, h2, -⟩ := self_obj hE hf.good hw
  cases a with
  | use => exact useSelf_ok hE hf hw
  | op f => simp only [act, h1]; exact op_quiet hE hrun hT hF hf h2 ha.1 (ha.2 o)
  | send to f multi =>
    simp only [act, h1]
    refine sendTo_quiet hE hrun hT hF hf ?_ f multi ha.2
    rcases ha.1.1 o with h3 | h3
    · rw [h3]; exact h2
    · exact hf.known _ h3
  | next f => exact following_quiet hE hrun hT hF hf hw (fun o ho => by have := hn o ho; simp [isNext] at this) .impl f ha
  | nextSet f => exact following_quiet hE hrun hT hF hf hw (fun o ho => by have := hn o ho; simp [isNext] at this) .set f ha.2
  | nextTop f => exact following_quiet hE hrun hT hF hf hw (fun o ho => by have := hn o ho; simp [isNext] at this) .top f ha
  | raise n => exact ⟨hf, StillThere.refl h⟩

/-- After an action with which a mixin may go on, it is still there. -/
theorem act_goOn {h : Heap} (hf : Fine D E P h) {m : Mix} {l : Loc} (hw : SelfOk E h (.mixin m l)) {a : Action} (ha : MayDo E P a) (hg : MayGoOn D E P m a) :
    OutOk (act D E orc M run (.mixin m l) h a) (fun h' => SelfOk E h' (.mixin m l)) := by
  rcases hg with hq | ⟨f, rfl, hfo⟩
  · exact (act_quiet hE hrun hT hF hf hw hq (fun o h => by simp at h)).mono (fun x hx => StillThere.self hx.2 hw)
  · obtain ⟨o, h1, h2, h3⟩ := self_obj hE hf.good hw
    obtain ⟨v, hh⟩ := h3 m l rfl
    have hpr := ha.1 h o h2 hf.known
    simp only [act, h1]
    refine outOf_ok ?_
    rcases hfo o with hna | ⟨hx, hmk⟩
    · exact (frame (orc := orc) hE hf.good false hpr h2 hna).mono (fun x hx => ⟨o, v, (hx m l v).2 hh⟩) (fun x _ hx => ⟨o, v, (hx m l v).2 hh⟩)
    · exact (external_kept (orc := orc) hE hf.good hpr hx hmk hh).mono (fun x hx => ⟨o, hx⟩) (fun x _ hx => ⟨o, hx⟩)

end

section
variable (hE : EnvOk D E) {P : Agreed} {M : MsgEnv} (hT : EntriesOk E M) (hF : KeepsRules D E M P)
include hE hT hF

theorem runActs_all : ∀ (n : Nat),
    (∀ h m l p pre as, Fine D E P h → (as ≠ [] → SelfOk E h (.mixin m l)) → M.body m p = pre ++ as → OutOk (runActs D E orc M n (.mixin m l) as h) (fun h' => Fine D E P h' ∧ LivesOn h h')) ∧
    (∀ h o p as, Fine D E P h → Alive h o → (∀ a ∈ as, a ∈ M.dflt p) → OutOk (runActs D E orc M n (.object o) as h) (fun h' => Fine D E P h' ∧ LivesOn h h')) ∧
    (∀ h w as, Fine D E P h → SelfOk E h w → (∀ a ∈ as, QuietAct E P a.1 ∧ (∀ o, w = .object o → isNext a.1 = false)) →
      OutOk (runActs D E orc M n w as h) (fun h' => Fine D E P h' ∧ StillThere E h h'))
  | 0 => ⟨fun _ _ _ _ _ _ _ _ _ => trivial, fun _ _ _ _ _ _ _ => trivial, fun _ _ _ _ _ _ => trivial⟩
  | n + 1 => by
    obtain ⟨i1, i2, i3⟩ := runActs_all n
    have hrun : RunOk D E P M (runActs D E orc M n) := by
      refine ⟨fun h hf => ⟨fun m l p hw => i1 h m l p [] _ hf (fun _ => hw) rfl, fun o p ha => i2 h o p _ hf ha (fun a h => h)⟩, i3⟩
    refine ⟨?_, ?_, ?_⟩
    · intro h m l p pre as hf hw hb
      cases as with
      | nil => exact ⟨hf, fun _ h => h⟩
      | cons ac as =>
        obtain ⟨a, c⟩ := ac
        obtain ⟨r1, r2⟩ := hF.mixins m p pre a c as hb
        have hw := hw (by simp)
        have h1 := (act_ok (orc := orc) hE hrun hT hF hf hw r1 (fun o h => by simp at h)).caught c
        have h2 : as ≠ [] → OutOk (if c then (act D E orc M (runActs D E orc M n) (.mixin m l) h a).caught else act D E orc M (runActs D E orc M n) (.mixin m l) h a) (fun h' => SelfOk E h' (.mixin m l)) :=
          fun hne => (act_goOn (orc := orc) hE hrun hT hF hf hw r1 (r2 hne)).caught c
        simp only [runActs]
        cases hr : (if c then (act D E orc M (runActs D E orc M n) (.mixin m l) h a).caught else act D E orc M (runActs D E orc M n) (.mixin m l) h a) with
        | done h' =>
          rw [hr] at h1 h2
          simp only
          exact (i1 h' m l p (pre ++ [(a, c)]) as h1.1 h2 (by rw [hb]; simp)).mono (fun x hx => ⟨hx.1, fun o ho => hx.2 o (h1.2 o ho)⟩)
        | thrown h' e => rw [hr] at h1; exact h1
        | ub => rw [hr] at h1; exact h1
        | more => trivial
    · intro h o p as hf ha hsub
      cases as with
      | nil => exact ⟨hf, fun _ h => h⟩
      | cons ac as =>
        obtain ⟨a, c⟩ := ac
        obtain ⟨r1, r2⟩ := hF.defaults p (a, c) (hsub (a, c) (by simp))
        have h1 := (act_ok (orc := orc) hE hrun hT hF hf (w := .object o) ha r1 (fun _ _ => r2)).caught c
        simp only [runActs]
        cases hr : (if c then (act D E orc M (runActs D E orc M n) (.object o) h a).caught else act D E orc M (runActs D E orc M n) (.object o) h a) with
        | done h' =>
          rw [hr] at h1
          simp only
          exact (i2 h' o p as h1.1 (h1.2 o ha) (fun a ha => hsub a (by simp [ha]))).mono (fun x hx => ⟨hx.1, fun o ho => hx.2 o (h1.2 o ho)⟩)
        | thrown h' e => rw [hr] at h1; exact h1
        | ub => rw [hr] at h1; exact h1
        | more => trivial
    · intro h w as hf hw hq
      cases as with
      | nil => exact ⟨hf, StillThere.refl h⟩
      | cons ac as =>
        obtain ⟨a, c⟩ := ac
        obtain ⟨r1, r2⟩ := hq (a, c) (by simp)
        have h1 := (act_quiet (orc := orc) hE hrun hT hF hf hw r1 r2).caught c
        simp only [runActs]
        cases hr : (if c then (act D E orc M (runActs D E orc M n) w h a).caught else act D E orc M (runActs D E orc M n) w h a) with
        | done h' =>
          rw [hr] at h1
          simp only
          exact (i3 h' w as h1.1 (StillThere.self h1.2 hw) (fun a ha => hq a (by simp [ha]))).mono (fun x hx => ⟨hx.1, StillThere.trans h1.2 hx.2⟩)
        | thrown h' e => rw [hr] at h1; exact h1
        | ub => rw [hr] at h1; exact h1
        | more => trivial

theorem runActs_ok (n : Nat) : RunOk D E P M (runActs D E orc M n) := by
  obtain ⟨i1, i2, i3⟩ := runActs_all (orc := orc) hE hT hF n
  exact ⟨fun h hf => ⟨fun m l p hw => i1 h m l p [] _ hf (fun _ => hw) rfl, fun o p ha => i2 h o p _ hf ha (fun a h => h)⟩, i3⟩

end

end Dnmx
