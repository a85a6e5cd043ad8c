import Verif.Spec.CApi
import Verif.Proofs.SystemLemmas

/-!
# Lemmas about the C interface
-/

set_option linter.unusedSimpArgs false
set_option linter.unusedVariables false
set_option linter.unusedSectionVars false

namespace Dnmx
open Spec

variable {D : Decls} {orc : Orc} {d : DomId}

/-- What a C function does in terms of the C++ call `sop`; `ms` are the mutations after it. -/
def FollowsCall (op : COp) (ms : List (Option (DomId × List Mix))) (r : SRes) (c : CRes) : Prop :=
  match r with
  | .ok S => ∃ x, ¬ Reports x ∧ c = .ret x ⟨S, ms⟩
  | .throw S e => (∃ x, Reports x ∧ c = .ret x ⟨S, ms⟩) ∨ (c = .escaped ⟨S, ms⟩ e ∧ Leaky op)
  | .ub => c = .ub

theorem catching_follows (C : CSys) (op : COp) {good bad : CRet} (hg : ¬ Reports good) (hb : Reports bad) (r : SRes) :
    FollowsCall op C.muts r (C.catching good bad r) := by
  cases r with
  | ok S => exact ⟨good, hg, rfl⟩
  | throw S e => exact .inl ⟨bad, hb, rfl⟩
  | ub => rfl

theorem plain_follows (C : CSys) (op : COp) {good : CRet} (hg : ¬ Reports good) (r : SRes) (h : Leaky op ∨ ∀ S e, r ≠ .throw S e) :
    FollowsCall op C.muts r (C.plain good r) := by
  cases r with
  | ok S => exact ⟨good, hg, rfl⟩
  | throw S e =>
    rcases h with h | h
    · exact .inr ⟨rfl, h⟩
    · exact absurd rfl (h S e)
  | ub => rfl

theorem typeOrNull_follows (C : CSys) (op : COp) (r : Except Err TypeId × World) :
    FollowsCall op C.muts (SRes.ofDom C.S.h (discard r)) (C.typeOrNull r) := by
  obtain ⟨x, W⟩ := r
  cases x with
  | ok t => exact ⟨.handle (some t), by simp [Reports], rfl⟩
  | error e =>
    cases e <;> first | exact .inl ⟨.handle none, rfl, rfl⟩ | rfl

theorem destroyObject_no_throw (E : TyEnv) (h : Heap) (o : Nat) : ∀ h' e, destroyObject D E h o ≠ .throw h' e := by
  intro h' e
  unfold destroyObject
  cases clearMixinData D E h o <;> simp

theorem sealObject_no_throw (h : Heap) (o : Nat) : ∀ h' e, sealObject h o ≠ .throw h' e := by
  intro h' e
  unfold sealObject
  cases h.obj? o <;> simp

theorem clearObject_no_throw (E : TyEnv) (h : Heap) (o : Nat) (ob : Obj) (ho : h.obj? o = some ob) (hs : ob.isSealed = false) :
    ∀ h' e, clearObject D E h o ≠ .throw h' e := by
  intro h' e
  simp only [clearObject, ho, hs]
  cases clearMixinData D E h o with
  | none => simp
  | some h1 =>
    cases ob.ty with
    | none => simp
    | some t =>
      cases hx : h1.obj? o <;> simp [hx]

theorem ofObj_no_throw {W : World} {r : Res Heap} (h : ∀ h' e, r ≠ .throw h' e) : ∀ S e, SRes.ofObj W r ≠ .throw S e := by
  intro S e
  cases r with
  | ok h' => simp [SRes.ofObj]
  | throw h' e' => exact absurd rfl (h h' e')
  | ub => simp [SRes.ofObj]

theorem sstep_obj_no_throw {u : Bool} {S : Sys} {op : OOp} (h : ∀ h' e, ostep D (TyEnv.ofWorld S.W d) orc u S.h op ≠ .throw h' e) :
    ∀ S' e, sstep D orc d S (.obj u op) ≠ .throw S' e := by
  intro S' e
  show (if _ then _ else _) ≠ _
  split
  · exact ofObj_no_throw h S' e
  · simp

/-- The mutations after a call. -/
def mutsAfter (C : CSys) : COp → List (Option (DomId × List Mix))
  | .getType _ i => C.muts.set i none
  | _ => C.muts

theorem mixins_there {W : World} {h : Heap} {o : Nat} {t : TypeId} {steps : List (MStep × Bool)} :
    ((usedObjs (.mutation o t steps)).all (typeThere d W h) && (typesIn (.mutation o t steps)).all (fun t => ((W.doms d).typeAt d t).isSome)) =
      (typeThere d W h o && ((W.doms d).typeAt d t).isSome) := by
  simp [usedObjs, typesIn]

theorem removeRule_ok (D : Decls) (W : World) (d : DomId) (r : Rule) : (removeRule D W d r).1 = .ok () := by
  cases hr : ruleDecr D r (W.doms d).rules with
  | none => simp [removeRule, hr]
  | some p =>
    by_cases hp : p.2 > 0 <;> simp [removeRule, hr, hp]

theorem cstep_call (u : Bool) (C : CSys) (op : COp) (sop : SOp) (h : cppCall d u C op = some sop) :
    FollowsCall op (mutsAfter C op) (sstep D orc d C.S sop) (cstep D orc d u C op) := by
  cases op with
  | registerFeature d' f => simp [cppCall] at h; subst h; exact catching_follows C _ (by simp [Reports]) (by simp [Reports]) _
  | registerMixin d' f => simp [cppCall] at h; subst h; exact catching_follows C _ (by simp [Reports]) (by simp [Reports]) _
  | registerClass d' f => simp [cppCall] at h; subst h; exact catching_follows C _ (by simp [Reports]) (by simp [Reports]) _
  | addRule d' f => simp [cppCall] at h; subst h; exact catching_follows C _ (by simp [Reports]) (by simp [Reports]) _
  | unregisterFeature d' f => simp [cppCall] at h; subst h; exact plain_follows C _ (by simp [Reports]) _ (.inl trivial)
  | unregisterMixin d' f => simp [cppCall] at h; subst h; exact plain_follows C _ (by simp [Reports]) _ (.inl trivial)
  | unregisterClass d' f =>
    simp [cppCall] at h; subst h
    exact plain_follows C _ (by simp [Reports]) _ (.inr fun S e => by simp [sstep, step, unregisterTypeClass, SRes.ofDom])
  | removeRule d' r =>
    simp [cppCall] at h; subst h
    exact plain_follows C _ (by simp [Reports]) _ (.inr fun S e => by simp [sstep, step, SRes.ofDom, removeRule_ok])
  | collect =>
    simp [cppCall] at h; subst h
    exact plain_follows C _ (by simp [Reports]) _ (.inr fun S e => by simp [sstep, garbageCollect, SRes.ofDom])
  | getTypeFromInfos d' q => simp [cppCall] at h; subst h; exact typeOrNull_follows C _ _
  | getType d' i =>
    cases hm : C.muts[i]? with
    | none => simp [cppCall, hm] at h
    | some x =>
      cases x with
      | none => simp [cppCall, hm] at h
      | some x =>
        obtain ⟨md, q⟩ := x
        simp [cppCall, hm] at h; subst h
        simp only [cstep, hm]
        exact typeOrNull_follows { C with muts := C.muts.set i none } _ _
  | mutNew d' => simp [cppCall] at h
  | mutOf d' t => simp [cppCall] at h
  | mutDestroy i => simp [cppCall] at h
  | mutChange i op => simp [cppCall] at h
  | newEmpty t => simp [cppCall] at h; subst h; exact catching_follows C _ (good := .handle (some C.S.h.objs.length)) (bad := .handle none) (by simp [Reports]) (by simp [Reports]) _
  | newOfType t => simp [cppCall] at h; subst h; exact catching_follows C _ (good := .handle (some C.S.h.objs.length)) (bad := .handle none) (by simp [Reports]) (by simp [Reports]) _
  | copy o => simp [cppCall] at h; subst h; exact catching_follows C _ (good := .handle (some C.S.h.objs.length)) (bad := .handle none) (by simp [Reports]) (by simp [Reports]) _
  | usurp o => simp [cppCall] at h; subst h; exact catching_follows C _ (good := .handle (some C.S.h.objs.length)) (bad := .handle none) (by simp [Reports]) (by simp [Reports]) _
  | copyFrom o src => simp [cppCall] at h; subst h; exact catching_follows C _ (by simp [Reports]) (by simp [Reports]) _
  | destroy o =>
    simp [cppCall] at h; subst h
    exact plain_follows C _ (by simp [Reports]) _ (.inr (sstep_obj_no_throw (destroyObject_no_throw _ _ _)))
  | «seal» o =>
    simp [cppCall] at h; subst h
    exact plain_follows C _ (by simp [Reports]) _ (.inr (sstep_obj_no_throw (sealObject_no_throw _ _)))
  | clear o =>
    cases ho : C.S.h.obj? o with
    | none =>
      simp [cppCall, ho] at h; subst h
      simp only [cstep, ho]
      simp [sstep, typeThere, ho, usedObjs, typesIn, ostep, clearObject, SRes.ofObj, FollowsCall]
    | some ob =>
      simp only [cstep, ho]
      cases hs : ob.isSealed with
      | true => simp [cppCall, ho, hs] at h
      | false =>
        simp [cppCall, ho, hs] at h; subst h
        simp only [Bool.false_eq_true, if_false]
        exact plain_follows C _ (by simp [Reports]) _ (.inr (sstep_obj_no_throw (clearObject_no_throw _ _ _ _ ho hs)))
  | resetType o t =>
    cases t with
    | none => simp [cppCall] at h; subst h; exact plain_follows C _ (by simp [Reports]) _ (.inl trivial)
    | some t => simp [cppCall] at h; subst h; exact catching_follows C _ (by simp [Reports]) (by simp [Reports]) _
  | mutateTo o t ovs =>
    simp [cppCall] at h; subst h
    have := catching_follows C (.mutateTo o t ovs) (good := .code 0) (bad := .code (-1)) (by simp [Reports]) (by simp [Reports])
      (sstep D orc d C.S (.obj u (.mutation o t (cMutateSteps ovs 0 ((TyEnv.ofWorld C.S.W d).mixins t)))))
    simp only [sstep, mixins_there] at this ⊢
    exact this
  | mutate o ops => simp [cppCall] at h; subst h; exact catching_follows C _ (by simp [Reports]) (by simp [Reports]) _

/-- The calls that are not C++ calls leave domains and objects alone and do not throw. -/
theorem cstep_nocall (u : Bool) (C : CSys) (op : COp) (h : cppCall d u C op = none) :
    cstep D orc d u C op = .ub ∨ ∃ r C', cstep D orc d u C op = .ret r C' ∧ C'.S = C.S := by
  cases op with
  | getType d' i =>
    cases hm : C.muts[i]? with
    | none => exact .inl (by simp [cstep, hm])
    | some x =>
      cases x with
      | none => exact .inl (by simp [cstep, hm])
      | some x => simp [cppCall, hm] at h
  | mutNew d' => exact .inr ⟨_, _, rfl, rfl⟩
  | mutOf d' t =>
    cases hm : mixinsOfType C.S.W d' t with
    | none => exact .inl (by simp [cstep, hm])
    | some x => exact .inr ⟨_, { C with muts := C.muts ++ [some (d', x)] }, by simp only [cstep, hm]; rfl, rfl⟩
  | mutDestroy i =>
    cases hm : C.muts[i]? with
    | none => exact .inl (by simp [cstep, hm])
    | some x =>
      cases x with
      | none => exact .inl (by simp [cstep, hm])
      | some x => exact .inr ⟨_, { C with muts := C.muts.set i none }, by simp only [cstep, hm]; rfl, rfl⟩
  | mutChange i op =>
    cases hm : C.muts[i]? with
    | none => exact .inl (by simp [cstep, hm])
    | some x =>
      cases x with
      | none => exact .inl (by simp [cstep, hm])
      | some x => exact .inr ⟨_, { C with muts := C.muts.set i (some (x.1, (cMut D x.2 op).2)) }, by simp only [cstep, hm]; rfl, rfl⟩
  | clear o =>
    cases ho : C.S.h.obj? o with
    | none => simp [cppCall, ho] at h
    | some ob =>
      cases hs : ob.isSealed with
      | true => exact .inr ⟨.flag false, C, by simp [cstep, ho, hs], rfl⟩
      | false => simp [cppCall, ho, hs] at h
  | resetType o t => cases t <;> simp [cppCall] at h
  | _ => simp [cppCall] at h

/-- A C program does to domains and objects what a C++ program does. -/
theorem crun_srun : ∀ (prog : List (Bool × COp)) (C : CSys) (rets : List CRet) (C' : CSys), crun D orc d prog C = some (rets, C') →
    ∃ sprog, srun D orc d sprog C.S = some C'.S
  | [], C, rets, C', h => by simp [crun] at h; exact ⟨[], by rw [← h.2]; rfl⟩
  | (u, op) :: prog, C, rets, C', h => by
    unfold crun at h
    cases hc : cstep D orc d u C op with
    | ub => rw [hc] at h; simp at h
    | escaped C1 e => rw [hc] at h; simp at h
    | ret r C1 =>
      rw [hc] at h
      simp only at h
      cases hr : crun D orc d prog C1 with
      | none => rw [hr] at h; simp at h
      | some p =>
        obtain ⟨rs, C2⟩ := p
        rw [hr] at h; simp at h
        obtain ⟨-, h⟩ := h; subst h
        obtain ⟨sprog, hs⟩ := crun_srun prog C1 rs C2 hr
        cases hx : cppCall d u C op with
        | none =>
          rcases cstep_nocall (D := D) (orc := orc) u C op hx with h1 | ⟨r', C'', h1, h2⟩
          · rw [hc] at h1; simp at h1
          · rw [hc] at h1; simp at h1
            obtain ⟨-, h1⟩ := h1; subst h1
            exact ⟨sprog, by rw [← h2]; exact hs⟩
        | some sop =>
          have hf := cstep_call (D := D) (orc := orc) u C op sop hx
          rw [hc] at hf
          refine ⟨sop :: sprog, ?_⟩
          unfold srun
          cases hss : sstep D orc d C.S sop with
          | ok S =>
            rw [hss] at hf
            obtain ⟨x, -, h1⟩ := hf
            simp at h1
            rw [h1.2] at hs; exact hs
          | throw S e =>
            rw [hss] at hf
            rcases hf with ⟨x, -, h1⟩ | ⟨h1, -⟩
            · simp at h1; rw [h1.2] at hs; exact hs
            · simp at h1
          | ub => rw [hss] at hf; simp [FollowsCall] at hf

theorem creach_world {s : DomId → Settings} {C : CSys} (h : CReach D orc d s C) : ∃ ops, C.S.W = run D (initWorld s) ops := by
  obtain ⟨prog, rets, h⟩ := h
  obtain ⟨sprog, hs⟩ := crun_srun prog _ _ _ h
  exact srun_world sprog _ _ hs

theorem cstep_proper {u : Bool} {C : CSys} {op : COp} (hi : SysInv D d C.S) (hv : ValidHandles C op)
    (hp : ∀ sop, cppCall d u C op = some sop → TypesFit D C.S.W d ∧ ProperS D d C.S sop)
    (he : ∀ C' e, cstep D orc d u C op ≠ .escaped C' e) : ∃ r C', cstep D orc d u C op = .ret r C' ∧ SysInv D d C'.S := by
  cases hx : cppCall d u C op with
  | none =>
    rcases cstep_nocall (D := D) (orc := orc) u C op hx with h1 | ⟨r', C'', h1, h2⟩
    · exfalso
      cases op with
      | getType d' i => obtain ⟨x, hx'⟩ := hv; simp [cppCall, hx'] at hx
      | mutNew d' => simp [cstep] at h1
      | mutOf d' t =>
        cases hm : mixinsOfType C.S.W d' t with
        | none => exact hv hm
        | some x => simp [cstep, hm] at h1
      | mutDestroy i => obtain ⟨x, hx'⟩ := hv; simp [cstep, hx'] at h1
      | mutChange i op => obtain ⟨x, hx'⟩ := hv; simp [cstep, hx'] at h1
      | clear o =>
        cases ho : C.S.h.obj? o with
        | none => simp [cppCall, ho] at hx
        | some ob =>
          cases hs : ob.isSealed with
          | true => simp [cstep, ho, hs] at h1
          | false => simp [cppCall, ho, hs] at hx
      | resetType o t => cases t <;> simp [cppCall] at hx
      | _ => simp [cppCall] at hx
    · exact ⟨r', C'', h1, by rw [h2]; exact hi⟩
  | some sop =>
    have hf := cstep_call (D := D) (orc := orc) u C op sop hx
    have hok := sstep_ok (orc := orc) hi (hp sop hx).1 (hp sop hx).2
    cases hss : sstep D orc d C.S sop with
    | ok S =>
      rw [hss] at hf hok
      obtain ⟨x, -, h1⟩ := hf
      exact ⟨x, _, h1, hok⟩
    | throw S e =>
      rw [hss] at hf hok
      rcases hf with ⟨x, -, h1⟩ | ⟨h1, -⟩
      · exact ⟨x, _, h1, hok⟩
      · exact absurd h1 (he _ _)
    | ub => rw [hss] at hok; exact hok.elim

theorem crun_proper : ∀ (prog : List (Bool × COp)) (C : CSys), SysInv D d C.S → ProperCRun D orc d prog C →
    ∃ rets C', crun D orc d prog C = some (rets, C') ∧ SysInv D d C'.S
  | [], C, hi, _ => ⟨[], C, rfl, hi⟩
  | (u, op) :: prog, C, hi, hp => by
    obtain ⟨⟨h1, h2, h3⟩, h4⟩ := hp
    obtain ⟨r, C1, k1, k2⟩ := cstep_proper hi h1 h2 h3
    obtain ⟨rets, C2, k3, k4⟩ := crun_proper prog C1 k2 (h4 r C1 k1)
    exact ⟨r :: rets, C2, by simp only [crun, k1, k3], k4⟩

end Dnmx
