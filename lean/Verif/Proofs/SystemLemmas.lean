import Verif.Proofs.TypesInLemmas
import Verif.Proofs.EnvLemmas
import Verif.Proofs.QueryLemmas
import Verif.Proofs.LogLemmas
import Verif.Proofs.PlanLemmas
import Verif.Proofs.TypeMutationLemmas

/-!
# Domains and objects together
-/

set_option linter.unusedSimpArgs false
set_option linter.unusedVariables false
set_option linter.unusedSectionVars false

namespace Dnmx
open Spec

variable {D : Decls} {orc : Orc} {d : DomId}

/-! ## environments that agree on the types of objects -/

theorem slotOf_congr {E E' : TyEnv} {h : Heap} (hc : TyIn (fun t => E'.mixins t = E.mixins t ∧ E'.internal t = E.internal t) h) {o i : Nat} {m : Mix} {sl : Slot} :
    SlotOf E' h o i m sl ↔ SlotOf E h o i m sl := by
  unfold SlotOf
  constructor
  · rintro ⟨ob, t, a, h1, h2, h3, h4, h5⟩
    exact ⟨ob, t, a, h1, h2, h3, by rw [← (hc o ob t h1 h2).1]; exact h4, h5⟩
  · rintro ⟨ob, t, a, h1, h2, h3, h4, h5⟩
    exact ⟨ob, t, a, h1, h2, h3, by rw [(hc o ob t h1 h2).1]; exact h4, h5⟩

theorem holds_congr {E E' : TyEnv} {h : Heap} (hc : TyIn (fun t => E'.mixins t = E.mixins t ∧ E'.internal t = E.internal t) h) {o : Nat} {m : Mix} {l : Loc} {v : Nat} :
    Holds E' h o m l v ↔ Holds E h o m l v := by
  unfold Holds
  simp only [slotOf_congr hc]

theorem heapOk_congr {E E' : TyEnv} {h : Heap} (hc : TyIn (fun t => E'.mixins t = E.mixins t ∧ E'.internal t = E.internal t) h) (hk : HeapOk D E h) : HeapOk D E' h := by
  refine ⟨?_, ?_, ?_, hk.fresh, hk.counts⟩
  · intro o ob ho
    have h1 := hk.objs o ob ho
    unfold ObjOk at h1 ⊢
    cases hd : ob.data with
    | none =>
      rw [hd] at h1
      intro t ht
      rw [(hc o ob t ho ht).1]; exact h1 t ht
    | some a =>
      rw [hd] at h1
      obtain ⟨t, h2, h3, h4, h5⟩ := h1
      obtain ⟨e1, e2⟩ := hc o ob t ho h2
      refine ⟨t, h2, by rw [e1]; exact h3, h4, ?_⟩
      intro i m hm
      rw [e1] at hm
      obtain ⟨sl, v, k1, k2, k3⟩ := h5 i m hm
      refine ⟨sl, v, k1, ?_, k3⟩
      unfold PlaceOk at k2 ⊢
      rw [e2]; exact k2
  · intro a b hb
    simp only [slotOf_congr hc]
    exact hk.blocks a b hb
  · intro l x hl
    simp only [slotOf_congr hc]
    exact hk.lives l x hl

/-! ## types that stay -/

/-- `t` is in the domain and is the same afterwards. -/
def Stays (W W' : World) (d : DomId) (t : TypeId) : Prop := ∃ r, (W.doms d).typeAt d t = some r ∧ (W'.doms d).typeAt d t = some r

theorem Stays.env {W W' : World} {t : TypeId} (h : Stays W W' d t) :
    (TyEnv.ofWorld W' d).mixins t = (TyEnv.ofWorld W d).mixins t ∧ (TyEnv.ofWorld W' d).internal t = (TyEnv.ofWorld W d).internal t := by
  obtain ⟨r, h1, h2⟩ := h
  constructor
  · simp [TyEnv.ofWorld, h1, h2]
  · funext i; simp [TyEnv.ofWorld, h1, h2]

theorem stays_append {W W' : World} (h : ∃ l, (W'.doms d).types = (W.doms d).types ++ l) {t : TypeId} {r : TypeRec} (hr : (W.doms d).typeAt d t = some r) :
    (W'.doms d).typeAt d t = some r := by
  obtain ⟨l, hl⟩ := h
  unfold Dom.typeAt at hr ⊢
  split
  · rename_i he; rw [if_pos he] at hr; exact hr
  · rename_i he
    rw [if_neg he] at hr
    rw [hl, List.find?_append, hr]; rfl

theorem getCase_grow {W : World} {d' : DomId} {q : List Mix} {res : Except Err TypeId × World} (hc : GetCase D W d' q res) :
    ∃ l, (res.2.doms d).types = (W.doms d).types ++ l := by
  by_cases hd : d = d'
  · subst hd
    cases hc with
    | hit => exact ⟨[], by simp⟩
    | ruleError => exact ⟨[], by simp⟩
    | empty => exact ⟨[], by simp⟩
    | found => exact ⟨[], by simp⟩
    | buildError => exact ⟨[], by simp⟩
    | built r => exact ⟨[r], by simp⟩
  · rw [(getCase_other hc hd).1]; exact ⟨[], by simp⟩

theorem getTypeMut_grow (W : World) (d' md : DomId) (q : List Mix) : ∃ l, ((getTypeMut D W d' md q).2.doms d).types = (W.doms d).types ++ l := by
  by_cases hmd : md = d'
  · subst hmd; exact getCase_grow (getTypeMut_cases D W md q)
  · unfold getTypeMut; rw [if_pos hmd]; exact ⟨[], by simp⟩

/-- Operations on domains other than unregistering mixins and collecting types only add types. -/
theorem step_grow {W : World} (hr : RegInv W) {op : Op} (h1 : ∀ num, op ≠ .gc d num) (h2 : ∀ m, op ≠ .unregMixin d m) :
    ∃ l, ((step D W op).2.doms d).types = (W.doms d).types ++ l := by
  have same : ∀ {W' : World}, (W'.doms d).types = (W.doms d).types → ∃ l, (W'.doms d).types = (W.doms d).types ++ l := fun h => ⟨[], by simp [h]⟩
  have grown : ∀ fs d' W', FeatsGrown D W d' fs W' → (W'.doms d).types = (W.doms d).types := by
    intro fs d' W' g
    by_cases hd : d = d'
    · subst hd; rw [g.dom]
    · rw [g.other d hd]
  cases op with
  | regFeature d' g =>
    apply same
    show ((registerFeature D W d' g).2.doms d).types = _
    cases hres : (registerFeature D W d' g).1 with
    | error e => rw [registerFeature_error D W d' g e hres]
    | ok u =>
      cases u
      obtain ⟨id, hi⟩ := registerFeature_ok D W d' g hres
      exact grown [g] d' _ ((FeatsGrown.refl D _ d' []).step hi)
  | unregFeature d' g =>
    apply same
    show ((unregisterFeature W d' g).2.doms d).types = _
    rcases unregisterFeature_cases W d' g with ⟨h1, -⟩ | ⟨j, h1, h2, h3⟩
    · rw [h1]
    · rw [h3]
      by_cases hd : d = d'
      · subst hd; simp
      · rw [show ∀ a b, ({ W.setDom d' a with featId := b } : World).doms d = (W.setDom d' a).doms d from fun _ _ => rfl, setDom_ne _ _ hd]
  | regMixin d' m' =>
    apply same
    show ((registerMixin D W d' m').2.doms d).types = _
    cases hres : (registerMixin D W d' m').1 with
    | error e => exact grown _ d' _ (registerMixin_error D W d' m' hr e hres).1
    | ok u =>
      cases u
      obtain ⟨id, hi⟩ := registerMixin_ok D W d' m' hr hres
      by_cases hd : d = d'
      · subst hd; rw [hi.dom]
      · rw [hi.other d hd]
  | unregMixin d' m' =>
    apply same
    have hd : d ≠ d' := fun e => h2 m' (by rw [e])
    show ((unregisterMixin W d' m').2.doms d).types = _
    rw [step_typeStep.unreg_other W d' m' d hd]
  | regClass d' c =>
    apply same
    show ((registerTypeClass D W d' c).2.doms d).types = _
    rcases registerTypeClass_cases D W d' c with h1 | h1 | h1 | h1 | ⟨h1, -⟩
    · rw [h1.1]
    · rw [h1.1]
    · rw [h1.1]
    · rw [h1.1]
    · rw [h1]
      by_cases hd : d = d'
      · subst hd; simp
      · rw [setDom_ne _ _ hd]
  | unregClass d' c =>
    apply same
    show ((unregisterTypeClass W d' c).2.doms d).types = _
    unfold unregisterTypeClass
    by_cases hd : d = d'
    · subst hd; simp
    · simp only; rw [setDom_ne _ _ hd]
  | addRule d' r =>
    apply same
    show ((addRule D W d' r).2.doms d).types = _
    unfold addRule
    split
    · rfl
    · simp only
      by_cases hd : d = d'
      · subst hd; split <;> simp
      · split <;> (simp only; rw [setDom_ne _ _ hd])
  | removeRule d' r =>
    apply same
    show ((removeRule D W d' r).2.doms d).types = _
    unfold removeRule
    simp only
    split
    · rfl
    · by_cases hd : d = d'
      · subst hd; split <;> simp
      · split <;> (simp only; rw [setDom_ne _ _ hd])
  | getTypeMut d' md q => exact getTypeMut_grow W d' md q
  | getType d' q => exact getCase_grow (getType_cases D W d' q)
  | gc d' num =>
    apply same
    have hd : d ≠ d' := fun e => h1 num (by rw [e])
    show ((garbageCollect W d' num).2.doms d).types = _
    unfold garbageCollect
    simp only
    rw [setDom_ne _ _ hd]

/-- Unregistering a mixin of this domain, or one that is not registered, removes only types with this mixin. -/
theorem unregister_keeps {W : World} (hr : RegInv W) (hi : TypesInv D W d) {m : Mix} (hm : W.mixDom m = none ∨ W.mixDom m = some d) {t : TypeId} {r : TypeRec}
    (h : (W.doms d).typeAt d t = some r) (hn : m ∉ r.mixins) : ((unregisterMixin W d m).2.doms d).typeAt d t = some r := by
  obtain ⟨e1, -⟩ := unregisterMixin_effect hi m
  refine typeAt_filter hi _ e1 t r h ?_
  intro hr'
  have hok := hi.ok r hr'
  have : ¬ r.hasId (W.mixId m) = true := by
    cases hid : W.mixId m with
    | none => rw [hok.hasId hr]; simp
    | some x =>
      obtain ⟨d', k1, k2⟩ := hr.mixReg m x hid
      have : d' = d := by
        rcases hm with hm | hm
        · rw [hm] at k1; simp at k1
        · rw [hm] at k1; simp at k1; exact k1.symm
      subst this
      rw [← hid, hok.hasId_own hr m x k2]; exact hn
  simpa using this

theorem gc_types (W : World) (num : TypeId → Nat) : ((garbageCollect W d num).2.doms d).types = (W.doms d).types.filter (fun t => decide (num t.tid > 0)) := by
  unfold garbageCollect
  simp only [collectTypes_eq]
  simp

theorem gc_keeps {W : World} (hi : TypesInv D W d) (num : TypeId → Nat) {t : TypeId} {r : TypeRec} (h : (W.doms d).typeAt d t = some r) (hn : r.mixins ≠ [] → 0 < num t) :
    ((garbageCollect W d num).2.doms d).typeAt d t = some r := by
  refine typeAt_filter hi _ (gc_types W num) t r h ?_
  intro hr'
  rw [typeAt_tid h]
  have := hn (hi.ok r hr').nonempty
  simpa using this

/-! ## the invariant -/

structure SysInv (D : Decls) (d : DomId) (S : Sys) : Prop where
  reg : RegInv S.W
  types : TypesInv D S.W d
  good : Good D (TyEnv.ofWorld S.W d) S.h
  there : TyIn (fun t => ∃ r, (S.W.doms d).typeAt d t = some r) S.h
  log : LogOk D S.h

/-- The objects with data are counted. -/
theorem users_pos {h : Heap} {o : Nat} {ob : Obj} (ho : h.obj? o = some ob) {t : TypeId} (ht : ob.ty = some t) (hd : ob.data ≠ none) : 0 < usersOf h t := by
  unfold usersOf
  rw [List.countP_pos_iff]
  unfold Heap.obj? at ho
  cases hx : h.objs[o]? with
  | none => rw [hx] at ho; simp at ho
  | some x =>
    rw [hx] at ho; simp at ho; subst ho
    refine ⟨_, List.mem_of_getElem? hx, ?_⟩
    simp [ht, Option.isSome_iff_ne_none, hd]

theorem SysInv.counted {S : Sys} (hi : SysInv D d S) {o : Nat} {ob : Obj} (ho : S.h.obj? o = some ob) {t : TypeId} (ht : ob.ty = some t) (hne : (TyEnv.ofWorld S.W d).mixins t ≠ []) :
    0 < (S.h.count t).toNat := by
  have hob := hi.good.1.objs o ob ho
  unfold ObjOk at hob
  cases hd : ob.data with
  | none => rw [hd] at hob; exact absurd (hob t ht) hne
  | some a =>
    have := users_pos ho ht (by rw [hd]; simp)
    rw [hi.good.1.counts]; omega

/-- The invariant is kept when the world changes but the types of objects stay. -/
theorem SysInv.change {S : Sys} (hi : SysInv D d S) {W' : World} (hr : RegInv W') (ht : TypesInv D W' d)
    (hs : TyIn (Stays S.W W' d) S.h) : SysInv D d ⟨W', S.h⟩ := by
  refine ⟨hr, ht, ⟨heapOk_congr (E := TyEnv.ofWorld S.W d) (fun o ob t h1 h2 => (hs o ob t h1 h2).env) hi.good.1, hi.good.2⟩, ?_, hi.log⟩
  intro o ob t h1 h2
  obtain ⟨r, -, h3⟩ := hs o ob t h1 h2
  exact ⟨r, h3⟩

theorem dom_stays {S : Sys} (hi : SysInv D d S) {op : Op} (hp : ProperDom D d S op) : TyIn (Stays S.W (step D S.W op).2 d) S.h := by
  intro o ob t h1 h2
  obtain ⟨r, h3⟩ := hi.there o ob t h1 h2
  refine ⟨r, h3, ?_⟩
  have gen : (∀ num, op ≠ .gc d num) → (∀ m, op ≠ .unregMixin d m) → ((step D S.W op).2.doms d).typeAt d t = some r :=
    fun k1 k2 => stays_append (step_grow hi.reg k1 k2) h3
  cases op with
  | gc d' num => exact gen (fun num' e => by simp only [Op.gc.injEq] at e; exact hp.2 e.1) (fun m => by simp)
  | unregMixin d' m =>
    by_cases hd : d' = d
    · subst hd
      obtain ⟨k1, k2⟩ := hp.2 rfl
      refine unregister_keeps hi.reg hi.types k1 h3 ?_
      intro hm
      apply k2
      unfold mixinsInUse
      rw [List.mem_flatMap]
      unfold Heap.obj? at h1
      cases hx : S.h.objs[o]? with
      | none => rw [hx] at h1; simp at h1
      | some x =>
        rw [hx] at h1; simp at h1; subst h1
        refine ⟨_, List.mem_of_getElem? hx, ?_⟩
        simp [ownMixins, h2, TyEnv.ofWorld, h3, hm]
    · exact gen (fun num => by simp) (fun m' e => by simp only [Op.unregMixin.injEq] at e; exact hd e.1)
  | regFeature d' g => exact gen (fun _ => by simp) (fun _ => by simp)
  | unregFeature d' g => exact gen (fun _ => by simp) (fun _ => by simp)
  | regMixin d' g => exact gen (fun _ => by simp) (fun _ => by simp)
  | regClass d' g => exact gen (fun _ => by simp) (fun _ => by simp)
  | unregClass d' g => exact gen (fun _ => by simp) (fun _ => by simp)
  | addRule d' g => exact gen (fun _ => by simp) (fun _ => by simp)
  | removeRule d' g => exact gen (fun _ => by simp) (fun _ => by simp)
  | getTypeMut d' md g => exact gen (fun _ => by simp) (fun _ => by simp)
  | getType d' g => exact gen (fun _ => by simp) (fun _ => by simp)

theorem gc_stays {S : Sys} (hi : SysInv D d S) : TyIn (Stays S.W (garbageCollect S.W d (fun t => (S.h.count t).toNat)).2 d) S.h := by
  intro o ob t h1 h2
  obtain ⟨r, h3⟩ := hi.there o ob t h1 h2
  refine ⟨r, h3, gc_keeps hi.types _ h3 ?_⟩
  intro hne
  exact hi.counted h1 h2 (by simpa [TyEnv.ofWorld, h3] using hne)

/-- What is known of an end of an operation. -/
def SStepOk (r : SRes) (ok : Sys → Prop) (bad : Sys → SErr → Prop) : Prop :=
  match r with
  | .ok S => ok S
  | .throw S e => bad S e
  | .ub => False

theorem SStepOk.mono {r : SRes} {ok ok' : Sys → Prop} {bad bad' : Sys → SErr → Prop} (h : SStepOk r ok bad) (h1 : ∀ S, ok S → ok' S) (h2 : ∀ S e, bad S e → bad' S e) :
    SStepOk r ok' bad' := by
  cases r with
  | ok S => exact h1 S h
  | throw S e => exact h2 S e h
  | ub => exact h

theorem SStepOk.ofDom {h : Heap} {r : Except Err Unit × World} (hn : r.1 ≠ .error .ub) {P : Sys → Prop} (hp : P ⟨r.2, h⟩) : SStepOk (.ofDom h r) P (fun S _ => P S) := by
  unfold SRes.ofDom
  obtain ⟨x, W⟩ := r
  cases x with
  | ok u => exact hp
  | error e => cases e <;> first | exact hp | exact absurd rfl hn

theorem SStepOk.ofObj {W : World} {r : Res Heap} {P : Sys → Prop} {Q : Sys → SErr → Prop} (h : HStepOk r (fun h => P ⟨W, h⟩) (fun h e => Q ⟨W, h⟩ (.obj e))) : SStepOk (.ofObj W r) P Q := by
  cases r with
  | ok h' => exact h
  | throw h' e => exact h
  | ub => exact h

theorem HStepOk.both {r : Res Heap} {P P' : Heap → Prop} {Q Q' : Heap → XErr → Prop} (h : HStepOk r P Q) (h' : HStepOk r P' Q') : HStepOk r (fun x => P x ∧ P' x) (fun x e => Q x e ∧ Q' x e) := by
  cases r with
  | ok x => exact ⟨h, h'⟩
  | throw x e => exact ⟨h, h'⟩
  | ub => exact h

theorem HLog.stepOk {r : Res Heap} {P : Heap → Prop} {Q : Heap → XErr → Prop} (h : HStepOk r P Q) (hl : HLog D r) : HStepOk r (fun x => P x ∧ LogOk D x) (fun x e => Q x e ∧ LogOk D x) := by
  cases r with
  | ok x => exact ⟨h, hl⟩
  | throw x e => exact ⟨h, hl⟩
  | ub => exact h

theorem there_some {W : World} {t : TypeId} : compositionOf W d t ≠ none ↔ ∃ r, (W.doms d).typeAt d t = some r := by
  unfold compositionOf
  cases (W.doms d).typeAt d t <;> simp

theorem SysInv.used {S : Sys} (hi : SysInv D d S) (o : Nat) : typeThere d S.W S.h o = true := by
  unfold typeThere
  cases ho : S.h.obj? o with
  | none => rfl
  | some ob =>
    cases ht : ob.ty with
    | none => simp [ht]
    | some t =>
      obtain ⟨r, hr⟩ := hi.there o ob t ho ht
      simp [ht, hr]

theorem SysInv.obj {S : Sys} (hi : SysInv D d S) {h : Heap} (hg : Good D (TyEnv.ofWorld S.W d) h) (ht : TyIn (fun t => ∃ r, (S.W.doms d).typeAt d t = some r) h) (hl : LogOk D h) :
    SysInv D d ⟨S.W, h⟩ := ⟨hi.reg, hi.types, hg, ht, hl⟩

/-- An operation on a domain. -/
theorem sstep_dom {S : Sys} (hi : SysInv D d S) {op : Op} (hp : ProperDom D d S op) :
    SStepOk (sstep D orc d S (.dom op)) (SysInv D d) (fun S' _ => SysInv D d S') :=
  .ofDom hp.1 (hi.change (step_reg D S.W op hi.reg) (step_types D S.W hi.reg op d hi.types) (dom_stays hi hp))

theorem sstep_gc {S : Sys} (hi : SysInv D d S) : SStepOk (sstep D orc d S .gc) (SysInv D d) (fun S' _ => SysInv D d S') := by
  refine .ofDom (by simp [garbageCollect]) (hi.change ?_ ?_ (gc_stays hi))
  · exact step_reg D S.W (.gc d fun t => (S.h.count t).toNat) hi.reg
  · exact step_types D S.W hi.reg (.gc d fun t => (S.h.count t).toNat) d hi.types

theorem sstep_obj {S : Sys} (hi : SysInv D d S) (hE : EnvOk D (TyEnv.ofWorld S.W d)) {u : Bool} {op : OOp} (hp : ProperS D d S (.obj u op)) :
    SStepOk (sstep D orc d S (.obj u op)) (SysInv D d) (fun S' _ => SysInv D d S') := by
  obtain ⟨h1, h2, h3⟩ := hp
  unfold sstep
  simp only
  rw [if_pos]
  · refine .ofObj ?_
    have := HLog.stepOk ((good_step (orc := orc) hE hi.good (u := u) h1 h2).both
      (types_step (orc := orc) hE hi.good u h1 hi.there (fun t => ⟨emptyType d, typeAt_empty _ _⟩) (fun t ht => there_some.1 (h3 t ht)))) (log_ostep u hi.log op)
    exact this.mono (fun h hx => hi.obj hx.1.1 hx.1.2 hx.2) (fun h e hx => hi.obj hx.1.1 hx.1.2 hx.2)
  · rw [Bool.and_eq_true, List.all_eq_true, List.all_eq_true]
    refine ⟨fun o _ => hi.used o, fun t ht => ?_⟩
    obtain ⟨r, hr⟩ := there_some.1 (h3 t ht)
    rw [hr]; rfl

/-- After getting a type. -/
theorem SysInv.getType {S : Sys} (hi : SysInv D d S) (q : List Mix) : SysInv D d ⟨(getTypeMut D S.W d d q).2, S.h⟩ := by
  refine hi.change (step_reg D S.W (.getTypeMut d d q) hi.reg) (step_types D S.W hi.reg (.getTypeMut d d q) d hi.types) ?_
  intro o ob t h1 h2
  obtain ⟨r, h3⟩ := hi.there o ob t h1 h2
  exact ⟨r, h3, stays_append (getTypeMut_grow S.W d d q) h3⟩

theorem mutatedList_some {S : Sys} (hi : SysInv D d S) {o : Nat} (ha : Alive S.h o) (ops : List TmOp) : ∃ x, mutatedList D d S.W S.h o ops = some x := by
  unfold mutatedList
  cases ho : S.h.obj? o with
  | none => exact absurd ho ha
  | some ob =>
    cases ht : ob.ty with
    | none => exact absurd ht (hi.good.2 o ob ho)
    | some t =>
      obtain ⟨r, hr⟩ := hi.there o ob t ho ht
      simp [ht, hr]

/-- Getting a type and then using it. -/
theorem withMutatedType_ok {S : Sys} (hi : SysInv D d S) {o : Nat} (ha : Alive S.h o) {ops : List TmOp} {p : World → TypeId → Prop} (hf : ResultFits D d S o ops p)
    {k : World → TypeId → SRes} {ok : Sys → Prop} {bad : Sys → SErr → Prop}
    (hlist : ∀ e, mutatedList D d S.W S.h o ops = some (.error e) → bad S (.dom e))
    (hget : ∀ q e W, mutatedList D d S.W S.h o ops = some (.ok q) → getTypeMut D S.W d d q = (.error e, W) → e ≠ .ub → bad ⟨W, S.h⟩ (.dom e))
    (hk : ∀ q t W, mutatedList D d S.W S.h o ops = some (.ok q) → getTypeMut D S.W d d q = (.ok t, W) → TypesFit D W d → p W t → (∃ r, (W.doms d).typeAt d t = some r) →
      SysInv D d ⟨W, S.h⟩ → SStepOk (k W t) ok bad) :
    SStepOk (withMutatedType D d S o ops k) ok bad := by
  obtain ⟨x, hx⟩ := mutatedList_some hi ha ops
  unfold withMutatedType
  unfold ResultFits at hf
  rw [hx] at hf ⊢
  cases x with
  | error e => exact hlist e hx
  | ok q =>
    simp only at hf ⊢
    have hinv := hi.getType q
    have hth := (getCase_types (getTypeMut_cases D S.W d q) hi.types).2
    have hreg := (getCase_elems (getTypeMut_cases D S.W d q)).2.1
    cases hg : getTypeMut D S.W d d q with
    | mk r W =>
      rw [hg] at hf hinv hth hreg
      cases r with
      | ok t => exact hk q t W hx hg hf.1 hf.2 (hth t rfl) hinv
      | error e =>
        cases e <;> first | exact hget q _ W hx hg hf | exact absurd rfl hf

theorem cMutateOpSteps_proper (ops : List MutOp) : ∀ (ms : List Mix) (i : Nat), ∀ st ∈ cMutateOpSteps D ops i ms, properStep st.1 = true
  | [], i => by simp [cMutateOpSteps]
  | m :: ms, i => by
    unfold cMutateOpSteps
    cases cOverrideFor D m ops with
    | none => exact cMutateOpSteps_proper ops ms (i + 1)
    | some k =>
      intro st hst
      rcases List.mem_cons.1 hst with rfl | hst
      · rfl
      · exact cMutateOpSteps_proper ops ms (i + 1) st hst

theorem composition_mixins {W : World} {t : TypeId} (h : compositionOf W d t ≠ some []) (ht : ∃ r, (W.doms d).typeAt d t = some r) : (TyEnv.ofWorld W d).mixins t ≠ [] := by
  obtain ⟨r, hr⟩ := ht
  unfold compositionOf at h
  rw [hr] at h
  simp only [TyEnv.ofWorld, hr, Option.elim]
  simpa using h

theorem sstep_mutate {S : Sys} (hi : SysInv D d S) {u : Bool} {o : Nat} {ops : List MutOp} (hp : ProperS D d S (.mutate u o ops)) :
    SStepOk (sstep D orc d S (.mutate u o ops)) (SysInv D d) (fun S' _ => SysInv D d S') := by
  obtain ⟨ha, hf⟩ := hp
  refine withMutatedType_ok hi ha hf (fun e _ => hi) (fun q e W _ hg _ => by have := hi.getType q; rw [hg] at this; exact this) ?_
  intro q t W hx hg hfit hp ht hinv
  refine .ofObj ?_
  have hE := ofWorld_ok hinv.reg hinv.types hfit
  have hprop : Proper (TyEnv.ofWorld W d) S.h (.mutateTo o t (initsIn ops)) := by
    obtain ⟨ob, ho⟩ := alive_obj hE ha
    refine ⟨ob, ho, ?_⟩
    rcases hp with hp | hp
    · exact .inr (composition_mixins hp ht)
    · rw [ho] at hp; exact .inl hp
  have := HLog.stepOk ((good_step (orc := orc) hE hinv.good (u := u) hprop (by simp [makesObject])).both
    (types_step (orc := orc) hE hinv.good u hprop hinv.there (fun t => ⟨emptyType d, typeAt_empty _ _⟩) (fun t' ht' => by simp [typesIn] at ht'; subst ht'; exact ht)))
    (log_ostep u hinv.log (.mutateTo o t (initsIn ops)))
  exact this.mono (fun h hx => hinv.obj hx.1.1 hx.1.2 hx.2) (fun h e hx => hinv.obj hx.1.1 hx.1.2 hx.2)

theorem sstep_gradual {S : Sys} (hi : SysInv D d S) {u : Bool} {o : Nat} {ops : List TmOp} (hp : ProperS D d S (.gradual u o ops)) :
    SStepOk (sstep D orc d S (.gradual u o ops)) (SysInv D d) (fun S' _ => SysInv D d S') := by
  obtain ⟨ha, hf⟩ := hp
  cases u with
  | true =>
    unfold sstep
    simp only [if_true]
    obtain ⟨x, hx⟩ := mutatedList_some hi ha ops
    rw [hx]
    cases x <;> exact hi
  | false =>
    unfold sstep
    simp only [Bool.false_eq_true, if_false]
    refine withMutatedType_ok hi ha hf (fun e _ => hi) (fun q e W _ hg _ => by have := hi.getType q; rw [hg] at this; exact this) ?_
    intro q t W hx hg hfit hp ht hinv
    refine .ofObj ?_
    have hE := ofWorld_ok hinv.reg hinv.types hfit
    have := HLog.stepOk ((good_step (orc := orc) hE hinv.good (u := false) (op := .reset o t) ha (by simp [makesObject])).both
      (types_step (orc := orc) hE hinv.good false (op := .reset o t) ha hinv.there (fun t => ⟨emptyType d, typeAt_empty _ _⟩) (fun t' ht' => by simp [typesIn] at ht'; subst ht'; exact ht)))
      (log_ostep false hinv.log (.reset o t))
    exact this.mono (fun h hx => hinv.obj hx.1.1 hx.1.2 hx.2) (fun h e hx => hinv.obj hx.1.1 hx.1.2 hx.2)

theorem sstep_cMutate {S : Sys} (hi : SysInv D d S) {u : Bool} {o : Nat} {ops : List MutOp} (hp : ProperS D d S (.cMutate u o ops)) :
    SStepOk (sstep D orc d S (.cMutate u o ops)) (SysInv D d) (fun S' _ => SysInv D d S') := by
  obtain ⟨ha, hf⟩ := hp
  refine withMutatedType_ok hi ha hf (fun e _ => hi) (fun q e W _ hg _ => by have := hi.getType q; rw [hg] at this; exact this) ?_
  intro q t W hx hg hfit hp ht hinv
  refine .ofObj ?_
  have hE := ofWorld_ok hinv.reg hinv.types hfit
  have hprop : Proper (TyEnv.ofWorld W d) S.h (.mutation o t (cMutateOpSteps D ops 0 ((TyEnv.ofWorld W d).mixins t))) :=
    ⟨ha, composition_mixins hp ht, cMutateOpSteps_proper ops _ 0⟩
  have := HLog.stepOk ((good_step (orc := orc) hE hinv.good (u := u) hprop (by simp [makesObject])).both
    (types_step (orc := orc) hE hinv.good u hprop hinv.there (fun t => ⟨emptyType d, typeAt_empty _ _⟩) (fun t' ht' => by simp [typesIn] at ht'; subst ht'; exact ht)))
    (log_ostep u hinv.log (.mutation o t (cMutateOpSteps D ops 0 ((TyEnv.ofWorld W d).mixins t))))
  exact this.mono (fun h hx => hinv.obj hx.1.1 hx.1.2 hx.2) (fun h e hx => hinv.obj hx.1.1 hx.1.2 hx.2)

theorem sstep_ok {S : Sys} (hi : SysInv D d S) (hfit : TypesFit D S.W d) {op : SOp} (hp : ProperS D d S op) :
    SStepOk (sstep D orc d S op) (SysInv D d) (fun S' _ => SysInv D d S') := by
  cases op with
  | dom op => exact sstep_dom hi hp
  | gc => exact sstep_gc hi
  | obj u op => exact sstep_obj hi (ofWorld_ok hi.reg hi.types hfit) hp
  | mutate u o ops => exact sstep_mutate hi hp
  | gradual u o ops => exact sstep_gradual hi hp
  | cMutate u o ops => exact sstep_cMutate hi hp

theorem srun_ok : ∀ (ops : List SOp) (S : Sys), SysInv D d S → ProperSRun D orc d ops S → ∃ S', srun D orc d ops S = some S' ∧ SysInv D d S'
  | [], S, hi, _ => ⟨S, rfl, hi⟩
  | op :: ops, S, hi, hp => by
    obtain ⟨⟨hf, hp⟩, hrest⟩ := hp
    have := sstep_ok (orc := orc) hi hf hp
    unfold srun
    cases hr : sstep D orc d S op with
    | ub => rw [hr] at this; exact this.elim
    | ok S1 => rw [hr] at this; exact srun_ok ops S1 this (hrest S1 (.inl hr))
    | throw S1 e => rw [hr] at this; exact srun_ok ops S1 this (hrest S1 (.inr ⟨e, hr⟩))

theorem sys_start (D : Decls) (d : DomId) (s : DomId → Settings) : SysInv D d ⟨initWorld s, {}⟩ := by
  refine ⟨initWorld_reg s, initWorld_types D s d, ?_, ?_, log_start⟩
  · refine ⟨⟨?_, ?_, ?_, ?_, ?_⟩, ?_⟩
    · intro o ob h; simp [Heap.obj?] at h
    · intro a b h; simp at h
    · intro l x h; simp at h
    · intro a b h; simp at h
    · intro t; rfl
    · intro o ob h; simp [Heap.obj?] at h
  · intro o ob t h; simp [Heap.obj?] at h

theorem SysInv.ok {S : Sys} (hi : SysInv D d S) : SysOk D d S :=
  ⟨hi.good.1, hi.good.2, fun o ob t h1 h2 => there_some.2 (hi.there o ob t h1 h2)⟩


/-! ## what mutations by operations do -/

theorem erase_tmRemove (ms : List Mix) (m : Mix) : (tmRemove ms m).1 = ms.erase m := by
  induction ms with
  | nil => rfl
  | cons x xs ih =>
    unfold tmRemove
    by_cases h : x = m
    · rw [if_pos h]; subst h; simp
    · rw [if_neg h]
      simp only
      rw [List.erase_cons_tail (by simpa using h), ih]

theorem find_tmFindName (n : List UInt8) (ms : List Mix) : tmFindName D n ms = ms.find? (fun m => D.mixName m == n) := by
  induction ms with
  | nil => rfl
  | cons x xs ih =>
    unfold tmFindName
    by_cases h : D.mixName x = n
    · rw [if_pos h]; simp [h]
    · rw [if_neg h, ih, List.find?_cons_of_neg (by simpa using h)]

theorem erase_tmEraseName (n : List UInt8) (ms : List Mix) {m : Mix} (h : ms.find? (fun m => D.mixName m == n) = some m) : tmEraseName D n ms = ms.erase m := by
  induction ms with
  | nil => simp at h
  | cons x xs ih =>
    unfold tmEraseName
    by_cases hx : D.mixName x = n
    · rw [if_pos hx]
      rw [List.find?_cons_of_pos (by simpa using hx)] at h
      simp at h; subst h; simp
    · rw [if_neg hx]
      rw [List.find?_cons_of_neg (by simpa using hx)] at h
      have : x ≠ m := by
        intro e; subst e
        have := List.find?_some h
        exact hx (by simpa using this)
      rw [List.erase_cons_tail (by simpa using this), ih h]

theorem tmApply_wanted (v : ElemView) (ms : List Mix) (op : TmOp) : tmApply D v ms op = wanted D v.byName ms op := by
  have hadd : ∀ n, tmAddName v ms n = (v.byName n).elim (.error .missingMixin) (fun m => .ok (ms ++ [m])) := by
    intro n
    unfold tmAddName tmSafeAddName
    cases v.byName n <;> rfl
  cases op with
  | add m => rfl
  | addName n => exact hadd n
  | addIfLacking m =>
    unfold tmApply wanted tmAddIfLacking
    by_cases h : m ∈ ms
    · simp [h, (tmHas_iff ms m).2 h]
    · have : tmHas ms m = false := by rw [Bool.eq_false_iff]; intro h1; exact h ((tmHas_iff ms m).1 h1)
      simp [h, this, tmAdd]
  | addIfLackingName n =>
    unfold tmApply wanted tmAddIfLackingName
    simp only
    cases hf : tmFindName D n ms with
    | none =>
      have := (tmFindName_none D n ms).1 hf
      rw [if_neg (by rintro ⟨m, h1, h2⟩; exact this m h1 h2)]
      exact hadd n
    | some m =>
      obtain ⟨pre, post, h1, h2, -⟩ := (tmFindName_some D n ms m).1 hf
      rw [if_pos ⟨m, by rw [h1]; simp, h2⟩]
  | remove m => unfold tmApply wanted; simp only; rw [erase_tmRemove]
  | removeName n =>
    unfold tmApply wanted tmRemoveName
    simp only
    rw [find_tmFindName]
    cases hf : ms.find? (fun m => D.mixName m == n) with
    | none => rfl
    | some m => simp only [Option.elim]; rw [erase_tmEraseName n ms hf]
  | toBack m =>
    unfold tmApply wanted tmToBack
    simp only
    by_cases h : m ∈ ms
    · rw [if_pos ((tmHas_iff ms m).2 h), if_pos h, erase_tmRemove]
    · rw [if_neg (fun h1 => h ((tmHas_iff ms m).1 h1)), if_neg h]
  | toBackName n =>
    unfold tmApply wanted tmToBackName
    simp only
    rw [find_tmFindName]
    cases hf : ms.find? (fun m => D.mixName m == n) with
    | none => rfl
    | some m => simp only [Option.elim]; rw [erase_tmEraseName n ms hf]

theorem tmApplyAll_wanted (v : ElemView) : ∀ (ops : List TmOp) (ms : List Mix), tmApplyAll D v ops ms = wantedAll D v.byName ops ms
  | [], ms => rfl
  | op :: ops, ms => by
    unfold tmApplyAll wantedAll
    rw [List.foldlM_cons, tmApply_wanted]
    cases wanted D v.byName ms op with
    | error e => rfl
    | ok ms' => exact tmApplyAll_wanted v ops ms'

theorem mutatedList_wanted {S : Sys} {o : Nat} {ob : Obj} (ho : S.h.obj? o = some ob) {t : TypeId} (ht : ob.ty = some t) {ms : List Mix} (hc : compositionOf S.W d t = some ms)
    (ops : List TmOp) : mutatedList D d S.W S.h o ops = some (wantedAll D (getMixinByName D S.W d) ops ms) := by
  unfold mutatedList
  unfold compositionOf at hc
  cases hr : (S.W.doms d).typeAt d t with
  | none => rw [hr] at hc; simp at hc
  | some r =>
    rw [hr] at hc; simp at hc; subst hc
    simp only [ho, ht, hr, Option.bind_some, Option.map_some]
    rw [tmApplyAll_wanted]; rfl

/-- Getting a type and then using it, with the wanted list. -/
theorem withMutatedType_by {S : Sys} (hi : SysInv D d S) {o : Nat} {ob : Obj} (ho : S.h.obj? o = some ob) {t : TypeId} (ht : ob.ty = some t) {ms : List Mix} (hc : compositionOf S.W d t = some ms)
    {ops : List TmOp} {p : World → TypeId → Prop} (hf : ResultFits D d S o ops p) {k : World → TypeId → SRes} {change : World → TypeId → SRes → Prop}
    (hk : ∀ t W, TypesFit D W d → p W t → (∃ r, (W.doms d).typeAt d t = some r) → SysInv D d ⟨W, S.h⟩ → W.mixDom = S.W.mixDom → change W t (k W t)) :
    MutationBy D d S ms ops change (withMutatedType D d S o ops k) := by
  unfold MutationBy withMutatedType
  unfold ResultFits at hf
  rw [mutatedList_wanted ho ht hc] at hf ⊢
  cases hw : wantedAll D (getMixinByName D S.W d) ops ms with
  | error e => rfl
  | ok q =>
    rw [hw] at hf
    simp only at hf ⊢
    have hinv := hi.getType q
    have hth := (getCase_types (getTypeMut_cases D S.W d q) hi.types).2
    have hreg := (getCase_elems (getTypeMut_cases D S.W d q)).2.1
    cases hg : getTypeMut D S.W d d q with
    | mk r W =>
      rw [hg] at hf hinv hth hreg
      cases r with
      | ok t => exact hk t W hf.1 hf.2 (hth t rfl) hinv hreg
      | error e => cases e <;> first | rfl | exact absurd rfl hf

theorem mutateTo_changed {E : TyEnv} (hE : EnvOk D E) {h : Heap} (hk : HeapOk D E h) {o : Nat} {ob : Obj} (ho : h.obj? o = some ob) {t : TypeId} (hty : ob.ty ≠ some t) (hne : E.mixins t ≠ [])
    (ops : List InitOp) : HStepOk (mutateTo D E orc false h o t ops) (Mutated D E h o ob t (fun _ _ => True) (fun _ => True)) (fun h' _ => Untouched D E h h') := by
  unfold mutateTo
  rw [ho]
  simp only [if_neg hty]
  cases hsl : ob.isSealed with
  | true => rw [withMutation_sealed ho hsl]; exact untouched_refl h
  | false =>
    refine (withMutation_ok (orc := orc) hE hk ho hsl hty hne false _ false (fits_of_proper (mutateToSteps_proper _) (fun _ => mutateToSteps_noUpdate _))).mono ?_
      (fun h' _ hf => untouched_failed hE hk ho (fun _ => rfl) hf)
    rintro h' ⟨F, G, hc⟩
    exact completed_mutated hE hk ho hne hc (fun _ _ _ => trivial) (fun _ _ _ _ => rfl)

theorem composition_env {W : World} {t : TypeId} {r : TypeRec} (hr : (W.doms d).typeAt d t = some r) : compositionOf W d t = some ((TyEnv.ofWorld W d).mixins t) := by
  unfold compositionOf TyEnv.ofWorld; simp [hr]

theorem mutate_by {S : Sys} (hi : SysInv D d S) {o : Nat} {ob : Obj} (ho : S.h.obj? o = some ob) {t : TypeId} (ht : ob.ty = some t) {ms : List Mix} (hc : compositionOf S.W d t = some ms)
    {ops : List MutOp} (hp : ProperS D d S (.mutate false o ops)) :
    MutationBy D d S ms (ops.map (·.1)) (Changed D d S.h o ob (fun _ _ => True) (fun _ => True)) (sstep D orc d S (.mutate false o ops)) := by
  obtain ⟨ha, hf⟩ := hp
  refine withMutatedType_by hi ho ht hc hf ?_
  intro t' W hfit hp hth hinv hreg
  have hE := ofWorld_ok hinv.reg hinv.types hfit
  by_cases hty : ob.ty = some t'
  · left
    refine ⟨hty, ?_⟩
    unfold mutateTo
    rw [ho]
    simp only [if_pos hty]; rfl
  · right
    have hne : (TyEnv.ofWorld W d).mixins t' ≠ [] := by
      rcases hp with hp | hp
      · exact composition_mixins hp hth
      · rw [ho] at hp; exact absurd hp hty
    have := mutateTo_changed (orc := orc) hE hinv.good.1 ho hty hne (initsIn ops)
    cases hr : mutateTo D (TyEnv.ofWorld W d) orc false S.h o t' (initsIn ops) with
    | ok h' => rw [hr] at this; exact .inl ⟨hty, h', rfl, this⟩
    | throw h' e => rw [hr] at this; exact .inr ⟨h', e, rfl, this⟩
    | ub => rw [hr] at this; exact this.elim

theorem initsIn_eq (ops : List MutOp) : initsIn ops = initializers ops := by
  induction ops with
  | nil => rfl
  | cons op ops ih =>
    unfold initsIn initializers at ih ⊢
    obtain ⟨op, k⟩ := op
    rw [List.flatMap_cons, List.filterMap_cons]
    cases op <;> cases k <;> simp [ih]

theorem getType_elems {D : Decls} (W : World) (d : DomId) (q : List Mix) : (getTypeMut D W d d q).2.mixId = W.mixId ∧ (getTypeMut D W d d q).2.mixDom = W.mixDom := by
  have := getCase_elems (getTypeMut_cases D W d q)
  exact ⟨this.1, this.2.1⟩

theorem mutate_inits_by {S : Sys} (hi : SysInv D d S) {o : Nat} {ob : Obj} (ho : S.h.obj? o = some ob) {t : TypeId} (ht : ob.ty = some t) {ms : List Mix} (hc : compositionOf S.W d t = some ms)
    {ops : List MutOp} (hp : ProperS D d S (.mutate false o ops)) (hd : ((initializers ops).map Prod.fst).Nodup) (hm : ∀ x ∈ initializers ops, S.W.mixDom x.1 = some d) :
    MutationBy D d S ms (ops.map (·.1)) (Changed D d S.h o ob (fun m k => (∀ c, (m, c) ∈ initializers ops → k = .custom c) ∧ ((∀ c, (m, c) ∉ initializers ops) → k = .dflt)) (fun _ => True))
      (sstep D orc d S (.mutate false o ops)) := by
  obtain ⟨ha, hf⟩ := hp
  refine withMutatedType_by hi ho ht hc hf ?_
  intro t' W hfit hp hth hinv hreg
  have hE := ofWorld_ok hinv.reg hinv.types hfit
  by_cases hty : ob.ty = some t'
  · left
    refine ⟨hty, ?_⟩
    unfold mutateTo
    rw [ho]
    simp only [if_pos hty]; rfl
  · right
    have hne : (TyEnv.ofWorld W d).mixins t' ≠ [] := by
      rcases hp with hp | hp
      · exact composition_mixins hp hth
      · rw [ho] at hp; exact absurd hp hty
    cases hsl : ob.isSealed with
    | true =>
      right
      refine ⟨S.h, .isSealed, ?_, untouched_refl _⟩
      unfold mutateTo
      rw [ho]
      simp only [if_neg hty]
      rw [withMutation_sealed ho hsl]; rfl
    | false =>
      have := mutateTo_inits (orc := orc) hE hinv.good.1 ho hsl hty hne (initsIn ops) (by rw [initsIn_eq]; exact hd) (by
        intro x hx i hxi
        rw [initsIn_eq] at hx
        have h1 := hm x hx
        rw [← hreg] at h1
        cases hid : W.mixId x.1 with
        | none => rw [hinv.reg.mixFree _ hid] at h1; simp at h1
        | some y => exact (ofWorld_index hinv.reg hinv.types hid h1).1 hxi)
      rw [← initsIn_eq]
      cases hr : mutateTo D (TyEnv.ofWorld W d) orc false S.h o t' (initsIn ops) with
      | ok h' => rw [hr] at this; exact .inl ⟨hty, h', rfl, this⟩
      | throw h' e => rw [hr] at this; exact .inr ⟨h', e, rfl, untouched_failed hE hinv.good.1 ho (fun _ => rfl) this⟩
      | ub => rw [hr] at this; exact this.elim

/-! `dnmx_mutate` is like `dnmx_mutate_to` with overrides for each mixin. -/

def overridesOf (D : Decls) (ops : List MutOp) (ms : List Mix) : List COverride :=
  ms.filterMap (fun m => (cOverrideFor D m ops).map (fun k => ⟨m, some k, none⟩))

theorem overridesOf_find (ops : List MutOp) (m : Mix) : ∀ (ms : List Mix), m ∈ ms →
    (overridesOf D ops ms).find? (fun ov => ov.mixin = m) = (cOverrideFor D m ops).map (fun k => ⟨m, some k, none⟩)
  | [], h => by simp at h
  | x :: ms, h => by
    have ih := overridesOf_find ops m ms
    unfold overridesOf at ih ⊢
    rw [List.filterMap_cons]
    by_cases hx : x = m
    · subst hx
      cases hk : cOverrideFor D x ops with
      | some k => simp
      | none =>
        simp only [Option.map_none]
        by_cases hm : x ∈ ms
        · rw [ih hm, hk]; rfl
        · rw [List.find?_eq_none]
          intro ov hov
          rw [List.mem_filterMap] at hov
          obtain ⟨y, h1, h2⟩ := hov
          rw [Option.map_eq_some_iff] at h2
          obtain ⟨k, h2, rfl⟩ := h2
          simp
          intro e; subst e; exact hm h1
    · have hm : m ∈ ms := by
        rcases List.mem_cons.1 h with h | h
        · exact absurd h.symm hx
        · exact h
      cases hk : cOverrideFor D x ops with
      | none => simp only [Option.map_none]; exact ih hm
      | some k =>
        simp only [Option.map_some]
        rw [List.find?_cons_of_neg (by simpa using hx)]
        exact ih hm

theorem cMutateOpSteps_eq (ops : List MutOp) (all : List Mix) : ∀ (ms : List Mix) (i : Nat), (∀ m ∈ ms, m ∈ all) → cMutateOpSteps D ops i ms = cMutateSteps (overridesOf D ops all) i ms
  | [], i, _ => rfl
  | m :: ms, i, h => by
    unfold cMutateOpSteps cMutateSteps
    rw [overridesOf_find ops m all (h m (by simp)), cMutateOpSteps_eq ops all ms (i + 1) (fun x hx => h x (by simp [hx]))]
    cases cOverrideFor D m ops with
    | none => rfl
    | some k => rfl

theorem cOverrideFor_eq (m : Mix) (ops : List MutOp) : cOverrideFor D m ops = (ops.find? (addsWithInit D m)).bind (·.2) := by
  induction ops with
  | nil => rfl
  | cons op ops ih =>
    obtain ⟨op, k⟩ := op
    cases k with
    | none =>
      rw [List.find?_cons_of_neg (by simp [addsWithInit]), ← ih]
      cases op <;> simp [cOverrideFor]
    | some k =>
      by_cases h : op = .add m ∨ op = .addName (D.mixName m)
      · rw [List.find?_cons_of_pos (by simp [addsWithInit, h])]
        rcases h with rfl | rfl <;> simp [cOverrideFor]
      · rw [List.find?_cons_of_neg (by simp [addsWithInit]; simpa using h), ← ih]
        cases op <;> simp_all [cOverrideFor]

theorem noUpdate_cMutateOpSteps (ops : List MutOp) : ∀ (ms : List Mix) (i : Nat), ∀ st ∈ cMutateOpSteps D ops i ms, noUpdate st.1 = true
  | [], i, st, h => by simp [cMutateOpSteps] at h
  | m :: ms, i, st, h => by
    unfold cMutateOpSteps at h
    cases hk : cOverrideFor D m ops with
    | none => rw [hk] at h; exact noUpdate_cMutateOpSteps ops ms (i + 1) st h
    | some k =>
      rw [hk] at h
      simp only [List.mem_cons] at h
      rcases h with rfl | h
      · rfl
      · exact noUpdate_cMutateOpSteps ops ms (i + 1) st h

theorem cMutate_by {S : Sys} (hi : SysInv D d S) {o : Nat} {ob : Obj} (ho : S.h.obj? o = some ob) {t : TypeId} (ht : ob.ty = some t) {ms : List Mix} (hc : compositionOf S.W d t = some ms)
    {ops : List MutOp} (hp : ProperS D d S (.cMutate false o ops)) :
    MutationBy D d S ms (ops.map (·.1)) (ChangedC D d S.h o ob (fun m k => k = ((ops.find? (addsWithInit D m)).bind (·.2)).elim .dflt .custom)) (sstep D orc d S (.cMutate false o ops)) := by
  obtain ⟨ha, hf⟩ := hp
  refine withMutatedType_by hi ho ht hc hf ?_
  intro t' W hfit hp hth hinv hreg
  have hE := ofWorld_ok hinv.reg hinv.types hfit
  have hk := hinv.good.1
  have hne : (TyEnv.ofWorld W d).mixins t' ≠ [] := composition_mixins hp hth
  cases hsl : ob.isSealed with
  | true =>
    right; right
    rw [withMutation_sealed ho hsl]
    exact ⟨_, _, rfl, untouched_refl _⟩
  | false =>
    by_cases hty : ob.ty = some t'
    · have := withMutation_same_ok (orc := orc) hE hk ho hsl hty hne false (cMutateOpSteps D ops 0 ((TyEnv.ofWorld W d).mixins t')) false
        (fitsSame_of_proper (cMutateOpSteps_proper ops _ 0) (fun _ => noUpdate_cMutateOpSteps ops _ 0))
      cases hr : withMutation D (TyEnv.ofWorld W d) orc false S.h o t' (cMutateOpSteps D ops 0 ((TyEnv.ofWorld W d).mixins t')) with
      | ok h' => rw [hr] at this; exact .inl ⟨hty, h', rfl, untouched_failed hE hk ho (fun _ => rfl) (kept_failed this)⟩
      | throw h' e => rw [hr] at this; exact .inr (.inr ⟨h', e, rfl, untouched_failed hE hk ho (fun _ => rfl) (kept_failed this)⟩)
      | ub => rw [hr] at this; exact this.elim
    · right
      rw [cMutateOpSteps_eq ops ((TyEnv.ofWorld W d).mixins t') _ 0 (fun _ h => h)]
      have := cMutateTo_ok (orc := orc) hE hk ho hsl hty hne (overridesOf D ops ((TyEnv.ofWorld W d).mixins t'))
      unfold cMutateTo at this
      have hov : ∀ m ∈ (TyEnv.ofWorld W d).mixins t', cNew (overridesOf D ops ((TyEnv.ofWorld W d).mixins t')) m = ((ops.find? (addsWithInit D m)).bind (·.2)).elim .dflt .custom ∧
          cUpd (overridesOf D ops ((TyEnv.ofWorld W d).mixins t')) m = .noop := by
        intro m hm
        unfold cNew cUpd
        rw [overridesOf_find ops m _ hm, cOverrideFor_eq]
        cases (ops.find? (addsWithInit D m)).bind (·.2) <;> exact ⟨rfl, rfl⟩
      cases hr : withMutation D (TyEnv.ofWorld W d) orc false S.h o t' (cMutateSteps (overridesOf D ops ((TyEnv.ofWorld W d).mixins t')) 0 ((TyEnv.ofWorld W d).mixins t')) with
      | ok h' =>
        rw [hr] at this
        obtain ⟨F, G, T, h1, h2⟩ := this
        refine .inl ⟨hty, h', rfl, completed_mutated hE hk ho hne h1 ?_ ?_⟩
        · intro i m hm
          show kindOf (F i) = _
          rw [(h2 i m hm).1, (hov m (mem_of_at hm)).1]
          cases (ops.find? (addsWithInit D m)).bind (·.2) <;> rfl
        · intro i m hm _
          show T i = false
          rw [Bool.eq_false_iff]; intro hT
          exact (h2 i m hm).2.2 hT (hov m (mem_of_at hm)).2
      | throw h' e =>
        rw [hr] at this
        obtain ⟨T, h1, h2⟩ := this
        have hT : ∀ i, i < ((TyEnv.ofWorld W d).mixins t').length → T i = false := by
          intro i hi
          rw [Bool.eq_false_iff]; intro hT
          exact h2 i _ (List.getElem?_eq_getElem hi) hT (hov _ (List.getElem_mem hi)).2
        refine .inr ⟨h', e, rfl, ?_⟩
        exact untouched_failed hE hk ho (t := t') (T := fun _ => false) (fun _ => rfl) ⟨⟨h1.1.objs, h1.1.next, h1.1.blk, h1.1.slot, h1.1.owner, fun l => (h1.1.live l).imp id (fun ⟨j, m, b, i, sl, v, h3, h4, h5⟩ => absurd h3 (by rw [hT j (List.getElem?_eq_some_iff.1 h4).1]; simp)), h1.1.count⟩, h1.2⟩
      | ub => rw [hr] at this; exact this.elim

theorem gradual_by {S : Sys} (hi : SysInv D d S) {o : Nat} {ob : Obj} (ho : S.h.obj? o = some ob) {t : TypeId} (ht : ob.ty = some t) {ms : List Mix} (hc : compositionOf S.W d t = some ms)
    {ops : List TmOp} (hp : ProperS D d S (.gradual false o ops)) :
    MutationBy D d S ms ops (ChangedOrEmptied D d S.h o ob) (sstep D orc d S (.gradual false o ops)) := by
  obtain ⟨ha, hf⟩ := hp
  unfold sstep
  simp only [Bool.false_eq_true, if_false]
  refine withMutatedType_by hi ho ht hc hf ?_
  intro t' W hfit hp hth hinv hreg
  have hE := ofWorld_ok hinv.reg hinv.types hfit
  have hk := hinv.good.1
  cases hsl : ob.isSealed with
  | true =>
    left; right; right
    rw [resetType_sealed ho hsl]
    exact ⟨_, _, rfl, untouched_refl _⟩
  | false =>
    have := resetType_ok (orc := orc) hE hk ho hsl false t'
    cases hr : resetType D (TyEnv.ofWorld W d) orc false S.h o t' with
    | ub => rw [hr] at this; exact this.elim
    | throw h' e =>
      rw [hr] at this
      left; right; right
      exact ⟨h', e, rfl, untouched_failed hE hk ho (fun _ => rfl) this⟩
    | ok h' =>
      rw [hr] at this
      rcases this with (⟨hty, rfl⟩ | ⟨hty, hem, h1, hcl, rfl⟩ | ⟨hty, hne, -, F, G, hcp, hFG⟩ | ⟨-, -, hu, -⟩)
      · left; left; exact ⟨hty, rfl⟩
      · right
        obtain ⟨r, hr'⟩ := hth
        have hbare : Bare (TyEnv.ofWorld W d) (some ({ ob with ty := some t', data := none } : Obj)) := by
          intro y hy; simp at hy; subst hy
          exact ⟨rfl, fun t2 ht2 => by simp at ht2; subst ht2; exact hem⟩
        refine ⟨by rw [composition_env hr', hem], _, rfl, ?_, by rw [hcl.objs' ho, if_pos rfl], ?_, hcl.heapOk hE hk ho hbare⟩
        · have := cleared_destroyed hE hk ho hcl
          exact this
        · rintro m l v ⟨i, sl, hs, -⟩
          exact ((hcl.slots ho hbare).1 hs).1 rfl
      · left; right; left
        refine ⟨hty, h', rfl, completed_mutated hE hk ho hne hcp ?_ (fun _ _ _ _ => rfl)⟩
        intro i m _
        show kindOf (F i) = _
        rw [(hFG i).1]; rfl
      · simp at hu

/-! ## worlds of programs are worlds of histories -/

theorem sstep_world (S : Sys) (op : SOp) (S' : Sys) (hr : sstep D orc d S op = .ok S' ∨ ∃ e, sstep D orc d S op = .throw S' e) : ∃ more, S'.W = run D S.W more := by
  have hobj : ∀ W (x : Res Heap), (SRes.ofObj W x = .ok S' ∨ ∃ e, SRes.ofObj W x = .throw S' e) → S'.W = W := by
    intro W x h
    cases x with
    | ok h' => rcases h with h | ⟨e, h⟩ <;> simp [SRes.ofObj] at h; rw [← h]
    | throw h' e' => rcases h with h | ⟨e, h⟩ <;> simp [SRes.ofObj] at h; rw [← h.1]
    | ub => rcases h with h | ⟨e, h⟩ <;> simp [SRes.ofObj] at h
  have hdom : ∀ (r : Except Err Unit × World), (SRes.ofDom S.h r = .ok S' ∨ ∃ e, SRes.ofDom S.h r = .throw S' e) → S'.W = r.2 := by
    rintro ⟨x, W⟩ h
    unfold SRes.ofDom at h
    cases x with
    | ok u => rcases h with h | ⟨e, h⟩ <;> simp at h; rw [← h]
    | error e => cases e <;> (rcases h with h | ⟨e', h⟩ <;> simp at h; try rw [← h.1])
  have hmut : ∀ o ops (k : World → TypeId → SRes), (∀ W t, (k W t = .ok S' ∨ ∃ e, k W t = .throw S' e) → S'.W = W) →
      (withMutatedType D d S o ops k = .ok S' ∨ ∃ e, withMutatedType D d S o ops k = .throw S' e) → ∃ more, S'.W = run D S.W more := by
    intro o ops k hk h
    unfold withMutatedType at h
    cases hx : mutatedList D d S.W S.h o ops with
    | none => rw [hx] at h; simp at h
    | some x =>
      rw [hx] at h
      cases x with
      | error e => simp at h; exact ⟨[], by rw [← h]; rfl⟩
      | ok q =>
        simp only at h
        refine ⟨[.getTypeMut d d q], ?_⟩
        show S'.W = (getTypeMut D S.W d d q).2
        cases hg : getTypeMut D S.W d d q with
        | mk r W =>
          rw [hg] at h
          cases r with
          | ok t => exact hk W t h
          | error e => cases e <;> (rcases h with h | ⟨e', h⟩ <;> simp at h; try rw [← h.1])
  cases op with
  | dom op => exact ⟨[op], hdom _ hr⟩
  | gc => exact ⟨[.gc d (fun t => (S.h.count t).toNat)], hdom _ hr⟩
  | obj u op =>
    refine ⟨[], ?_⟩
    unfold sstep at hr
    simp only at hr
    split at hr
    · exact hobj _ _ hr
    · simp at hr
  | mutate u o ops => exact hmut o _ _ (fun W t h => hobj _ _ h) hr
  | gradual u o ops =>
    unfold sstep at hr
    cases u with
    | true =>
      simp only [if_true] at hr
      refine ⟨[], ?_⟩
      cases hx : mutatedList D d S.W S.h o ops with
      | none => rw [hx] at hr; simp at hr
      | some x =>
        rw [hx] at hr
        cases x with
        | error e => simp at hr; rw [← hr]; rfl
        | ok q => simp at hr; rw [← hr]; rfl
    | false =>
      simp only [Bool.false_eq_true, if_false] at hr
      exact hmut o _ _ (fun W t h => hobj _ _ h) hr
  | cMutate u o ops => exact hmut o _ _ (fun W t h => hobj _ _ h) hr

theorem run_append (D : Decls) : ∀ (a b : List Op) (W : World), run D W (a ++ b) = run D (run D W a) b
  | [], _, _ => rfl
  | op :: a, b, W => run_append D a b _

theorem srun_world : ∀ (ops : List SOp) (S S' : Sys), srun D orc d ops S = some S' → ∃ more, S'.W = run D S.W more
  | [], S, S', h => by simp [srun] at h; subst h; exact ⟨[], rfl⟩
  | op :: ops, S, S', h => by
    unfold srun at h
    cases hr : sstep D orc d S op with
    | ub => rw [hr] at h; simp at h
    | ok S1 =>
      rw [hr] at h
      obtain ⟨m1, h1⟩ := sstep_world S op S1 (.inl hr)
      obtain ⟨m2, h2⟩ := srun_world ops S1 S' h
      exact ⟨m1 ++ m2, by rw [run_append, ← h1, h2]⟩
    | throw S1 e =>
      rw [hr] at h
      obtain ⟨m1, h1⟩ := sstep_world S op S1 (.inr ⟨e, hr⟩)
      obtain ⟨m2, h2⟩ := srun_world ops S1 S' h
      exact ⟨m1 ++ m2, by rw [run_append, ← h1, h2]⟩

theorem reachable_inv {S : Sys} (h : Reachable D orc d S) : SysInv D d S := by
  obtain ⟨s, prog, h1, h2⟩ := h
  obtain ⟨S', h3, h4⟩ := srun_ok prog _ (sys_start D d s) h1
  rw [h2] at h3; simp at h3; subst h3; exact h4

end Dnmx
