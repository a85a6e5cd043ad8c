import Verif.Proofs.CApiLemmas
import Verif.Props.System
import Verif.Props.Types
import Verif.Props.TypeMutation
import Verif.Props.Compare

/-!
# C63: the C interface

A C program is a list of calls of C functions; `CReach` says that a state is reached by one.
-/

namespace Dnmx.Props
open Spec

set_option linter.unusedVariables false

variable (D : Decls) (orc : Orc) (d : DomId)

/-- C63: a C function that returns has done to domains and objects what the C++ function does which it stands for, and reports a
failure exactly if this throws. The functions that stand for none leave domains and objects alone. -/
theorem C63_effect (u : Bool) (C : CSys) (op : COp) (r : CRet) (C' : CSys) (h : cstep D orc d u C op = .ret r C') :
    match cppCall d u C op with
    | none => C'.S = C.S
    | some sop => (sstep D orc d C.S sop = .ok C'.S ∧ ¬ Reports r) ∨ (∃ e, sstep D orc d C.S sop = .throw C'.S e) ∧ Reports r := by
  cases hx : cppCall d u C op with
  | none =>
    rcases cstep_nocall (D := D) (orc := orc) u C op hx with h1 | ⟨r', C'', h1, h2⟩
    · rw [h] at h1; simp at h1
    · rw [h] at h1; simp at h1; rw [h1.2]; exact h2
  | some sop =>
    have hf := cstep_call (D := D) (orc := orc) u C op sop hx
    rw [h] at hf
    cases hs : sstep D orc d C.S sop with
    | ok S =>
      rw [hs] at hf
      obtain ⟨x, h1, h2⟩ := hf
      simp at h2
      obtain ⟨rfl, rfl⟩ := h2
      exact .inl ⟨hs, h1⟩
    | throw S e =>
      rw [hs] at hf
      rcases hf with ⟨x, h1, h2⟩ | ⟨h2, -⟩
      · simp at h2
        obtain ⟨rfl, rfl⟩ := h2
        exact .inr ⟨⟨e, hs⟩, h1⟩
      · simp at h2
    | ub => rw [hs] at hf; simp [FollowsCall] at hf

/-- C63 (partial: not for `dnmx_unregister_feature`, `dnmx_unregister_mixin` and `dnmx_object_reset_type` with a null type): no
exception leaves a C function. Missing: these three, for which it is false (`C63_unregister_refuted`, `C63_reset_type_refuted`). -/
theorem C63_no_escape_partial (u : Bool) (C : CSys) (op : COp) (hl : ¬ Leaky op) : ∀ C' e, cstep D orc d u C op ≠ .escaped C' e := by
  intro C' e h
  cases hx : cppCall d u C op with
  | none =>
    rcases cstep_nocall (D := D) (orc := orc) u C op hx with h1 | ⟨r', C'', h1, h2⟩ <;> rw [h] at h1 <;> simp at h1
  | some sop =>
    have hf := cstep_call (D := D) (orc := orc) u C op sop hx
    rw [h] at hf
    cases hs : sstep D orc d C.S sop with
    | ok S => rw [hs] at hf; obtain ⟨x, -, h2⟩ := hf; simp at h2
    | throw S e' =>
      rw [hs] at hf
      rcases hf with ⟨x, -, h2⟩ | ⟨-, h2⟩
      · simp at h2
      · exact hl h2
    | ub => rw [hs] at hf; simp [FollowsCall] at hf

/-- C63: when exceptions leave the three functions: if the element is not registered in the domain, and if the object is
sealed. -/
theorem C63_escapes_iff (s : DomId → Settings) (C : CSys) (hC : CReach D orc d s C) (u : Bool) :
    (∀ d' f, (∃ C' e, cstep D orc d u C (.unregisterFeature d' f) = .escaped C' e) ↔ f ∉ featuresOf C.S.W d') ∧
    (∀ d' m, (∃ C' e, cstep D orc d u C (.unregisterMixin d' m) = .escaped C' e) ↔ m ∉ mixinsOf C.S.W d') ∧
    (∀ o ob, C.S.h.obj? o = some ob → typeThere d C.S.W C.S.h o = true →
      ((∃ C' e, cstep D orc d u C (.resetType o none) = .escaped C' e) ↔ ob.isSealed = true)) := by
  obtain ⟨ops, hw⟩ := creach_world hC
  refine ⟨?_, ?_, ?_⟩
  · intro d' f
    show (∃ C' e, C.plain .void (SRes.ofDom C.S.h (unregisterFeature C.S.W d' f)) = .escaped C' e) ↔ _
    rcases unregisterFeature_cases C.S.W d' f with ⟨h1, h2⟩ | ⟨i, h0, h2, h3⟩
    · rw [h1]
      refine ⟨fun _ hf => ?_, fun _ => ⟨_, _, rfl⟩⟩
      rw [hw] at hf h1
      obtain ⟨j, hj⟩ := (mem_featuresOf _ _ _).1 hf
      have hid := (reachable_reg D s ops).featSlot d' j f hj
      rw [← hw] at hid hj
      exact (ownSlot_none _ _ _).1 h2 j hid hj
    · rw [h3]
      refine ⟨fun ⟨C', e, h⟩ => by simp [SRes.ofDom, CSys.plain] at h, fun hn => absurd ((mem_featuresOf _ _ _).2 ⟨i, h2⟩) hn⟩
  · intro d' m
    show (∃ C' e, C.plain .void (SRes.ofDom C.S.h (unregisterMixin C.S.W d' m)) = .escaped C' e) ↔ _
    by_cases hm : m ∈ mixinsOf C.S.W d'
    · have h1 : mixinRegistered d' m (trace D (initWorld s) ops) = true := by
        rw [mixinRegistered_iff, ← hw]; exact hm
      have h2 := (C19_unregistered_mixin_gone D s ops d' m h1).1
      rw [← hw] at h2
      have h2 : (unregisterMixin C.S.W d' m).1 = .ok () := h2
      refine ⟨fun ⟨C', e, h⟩ => ?_, fun h => absurd hm h⟩
      simp [SRes.ofDom, h2, CSys.plain] at h
    · have h1 : mixinRegistered d' m (trace D (initWorld s) ops) = false := by
        cases hx : mixinRegistered d' m (trace D (initWorld s) ops) with
        | false => rfl
        | true => rw [mixinRegistered_iff, ← hw] at hx; exact absurd hx hm
      have h2 := C06_unregister_foreign_mixin_outcome_partial D s ops d' m h1
      rw [← hw] at h2
      have h2 : (unregisterMixin C.S.W d' m).1 = .error .unregForeign := h2
      exact ⟨fun _ => hm, fun _ => ⟨_, _, by simp only [SRes.ofDom, h2, CSys.plain]; rfl⟩⟩
  · intro o ob ho ht
    have hstep : sstep D orc d C.S (.obj u (.clear o)) = .ofObj C.S.W (clearObject D (TyEnv.ofWorld C.S.W d) C.S.h o) := by
      simp [sstep, ht, usedObjs, typesIn, ostep]
    show (∃ C' e, C.plain (.code 0) (sstep D orc d C.S (.obj u (.clear o))) = .escaped C' e) ↔ _
    rw [hstep]
    cases hs : ob.isSealed with
    | true =>
      simp only [iff_true]
      exact ⟨_, _, by simp only [clearObject, ho, hs, if_true, SRes.ofObj, CSys.plain]; rfl⟩
    | false =>
      simp only [Bool.false_eq_true, iff_false]
      rintro ⟨C', e, h⟩
      have hn := ofObj_no_throw (W := C.S.W) (clearObject_no_throw (D := D) (TyEnv.ofWorld C.S.W d) C.S.h o ob ho hs)
      cases hr : SRes.ofObj C.S.W (clearObject D (TyEnv.ofWorld C.S.W d) C.S.h o) with
      | ok S => rw [hr] at h; simp [CSys.plain] at h
      | throw S e' => exact hn _ _ hr
      | ub => rw [hr] at h; simp [CSys.plain] at h

/-- C63: a failed request for a type returns null and changes nothing, except that `dnmx_get_type` has consumed the mutation. -/
theorem C63_failed_get_type (s : DomId → Settings) (C : CSys) (hC : CReach D orc d s C) (u : Bool) :
    (∀ d' q C', cstep D orc d u C (.getTypeFromInfos d' q) = .ret (.handle none) C' → C' = C) ∧
    (∀ d' i C', cstep D orc d u C (.getType d' i) = .ret (.handle none) C' → C' = { C with muts := C.muts.set i none }) := by
  obtain ⟨ops, hw⟩ := creach_world hC
  have key : ∀ (C0 : CSys) (r : Except Err TypeId × World) (C' : CSys), (∀ e, r.1 = .error e → r.2 = C0.S.W) →
      C0.typeOrNull r = .ret (.handle none) C' → C' = C0 := by
    intro C0 r C' hr h
    obtain ⟨x, W⟩ := r
    cases x with
    | ok t => simp [CSys.typeOrNull] at h
    | error e =>
      have := hr e rfl
      simp only at this
      subst this
      unfold CSys.typeOrNull at h
      cases e <;> simp at h <;> exact h.symm
  constructor
  · intro d' q C' h
    refine key C _ C' (fun e he => ?_) h
    rw [hw] at he ⊢
    exact C20_failure_changes_nothing D s ops d' q e he
  · intro d' i C' h
    simp only [cstep] at h
    cases hm : C.muts[i]? with
    | none => rw [hm] at h; simp at h
    | some x =>
      cases x with
      | none => rw [hm] at h; simp at h
      | some x =>
        obtain ⟨md, q⟩ := x
        rw [hm] at h
        refine key { C with muts := C.muts.set i none } _ C' (fun e he => ?_) h
        simp only
        rw [hw] at he ⊢
        exact C20_mutation_failure_changes_nothing D s ops d' md q e he

/-- C63: `dnmx_get_type` consumes the mutation in any case; a later use of the handle is undefined. -/
theorem C63_get_type_consumes (u : Bool) (C : CSys) (d' : DomId) (i : Nat) (r : CRet) (C' : CSys)
    (h : cstep D orc d u C (.getType d' i) = .ret r C') :
    C'.muts = C.muts.set i none ∧ cstep D orc d u C' (.mutDestroy i) = .ub ∧ cstep D orc d u C' (.getType d' i) = .ub := by
  have hm : C'.muts = C.muts.set i none ∧ i < C.muts.length := by
    simp only [cstep] at h
    cases hm : C.muts[i]? with
    | none => rw [hm] at h; simp at h
    | some x =>
      have hlt := (List.getElem?_eq_some_iff.1 hm).1
      refine ⟨?_, hlt⟩
      cases x with
      | none => rw [hm] at h; simp at h
      | some x =>
        obtain ⟨md, q⟩ := x
        rw [hm] at h
        simp only [CSys.typeOrNull] at h
        cases hr : (getTypeMut D C.S.W d' md q).1 with
        | ok t => rw [hr] at h; simp at h; rw [← h.2]
        | error e => rw [hr] at h; cases e <;> simp at h <;> rw [← h.2]
  have hg : C'.muts[i]? = some none := by rw [hm.1]; simp [hm.2]
  exact ⟨hm.1, by simp [cstep, hg], by simp [cstep, hg]⟩

/-- C63: a failed registration of a feature or type class, or of a rule, reports -1 and changes nothing. -/
theorem C63_failed_registration (s : DomId → Settings) (C : CSys) (hC : CReach D orc d s C) (u : Bool) (d' : DomId) (r : CRet) (hr : Reports r) (C' : CSys) :
    (∀ f, cstep D orc d u C (.registerFeature d' f) = .ret r C' → C' = C) ∧
    (∀ c, cstep D orc d u C (.registerClass d' c) = .ret r C' → C' = C) ∧
    (∀ x, cstep D orc d u C (.addRule d' x) = .ret r C' → C' = C) := by
  obtain ⟨ops, hw⟩ := creach_world hC
  have key : ∀ (x : Except Err Unit × World), (∀ e, x.1 = .error e → x.2 = C.S.W) →
      C.catching (.code 0) (.code (-1)) (SRes.ofDom C.S.h x) = .ret r C' → C' = C := by
    rintro ⟨x, W⟩ hx h
    cases x with
    | ok t =>
      simp [SRes.ofDom, CSys.catching] at h
      rw [← h.1] at hr; simp [Reports] at hr
    | error e =>
      have := hx e rfl
      simp only at this
      subst this
      unfold SRes.ofDom at h
      cases e <;> simp [CSys.catching] at h <;> exact h.2.symm
  refine ⟨fun f h => key _ (fun e he => ?_) h, fun c h => key _ (fun e he => ?_) h, fun x h => key _ (fun e he => ?_) h⟩
  · exact registerFeature_error D C.S.W d' f e he
  · have he : (registerTypeClass D C.S.W d' c).1 = .error e := he
    show (registerTypeClass D C.S.W d' c).2 = C.S.W
    unfold registerTypeClass at he ⊢
    by_cases h1 : (D.clsName c).isEmpty = true
    · simp [h1]
    · by_cases h2 : (D.cls c).isNull = true
      · simp [h1, h2]
      · by_cases h3 : classNameTaken D (D.clsName c) (C.S.W.doms d').classes = true
        · simp [h1, h2, h3]
        · by_cases h4 : none ∈ (C.S.W.doms d').classes
          · simp [h1, h2, h3, h4]
          · simp [h1, h2, h3, h4] at he
  · have he : (addRule D C.S.W d' x).1 = .error e := he
    show (addRule D C.S.W d' x).2 = C.S.W
    unfold addRule at he ⊢
    cases hn : (ruleOf D x).apply.isNone with
    | true => simp [hn]
    | false =>
      by_cases hc : (ruleIncr D x (C.S.W.doms d').rules).2 = 1
      · simp [hn, hc] at he
      · simp [hn, hc] at he

/-- C63: the functions on a type mutation report as their C++ counterparts and leave the list alone if they fail. -/
theorem C63_mutation_functions (ms : List Mix) :
    (∀ m, (m ∈ ms → ∃ r, RemovesFirst ms m r ∧ cMut D ms (.toBack m) = (.flag true, r ++ [m])) ∧ (m ∉ ms → cMut D ms (.toBack m) = (.flag false, ms))) ∧
    (∀ pre m post name, ms = pre ++ m :: post → D.mixName m = name → (∀ x ∈ pre, D.mixName x ≠ name) →
      cMut D ms (.toBackName name) = (.info (some m), pre ++ post ++ [m]) ∧ cMut D ms (.removeName name) = (.info (some m), pre ++ post)) ∧
    (∀ name, (∀ x ∈ ms, D.mixName x ≠ name) → cMut D ms (.toBackName name) = (.info none, ms) ∧ cMut D ms (.removeName name) = (.info none, ms)) ∧
    (∀ m, (m ∈ ms → ∃ r, RemovesFirst ms m r ∧ cMut D ms (.remove m) = (.flag true, r)) ∧ (m ∉ ms → cMut D ms (.remove m) = (.flag false, ms))) ∧
    (∀ m, (m ∈ ms → cMut D ms (.addIfLacking m) = (.flag false, ms)) ∧ (m ∉ ms → cMut D ms (.addIfLacking m) = (.flag true, ms ++ [m]))) ∧
    (∀ m, cMut D ms (.add m) = (.flag true, ms ++ [m])) ∧ (∀ ms', cMut D ms (.setMixins ms') = (.flag true, ms')) ∧
    (cMut D ms .dedup).1 = .void ∧ KeepsLast ms (cMut D ms .dedup).2 := by
  refine ⟨?_, ?_, ?_, ?_, ?_, fun m => rfl, fun ms' => rfl, rfl, C09_dedup_keeps_last ms⟩
  · intro m
    refine ⟨fun h => ?_, fun h => ?_⟩
    · obtain ⟨r, h1, h2⟩ := (C08_to_back ms m).1 h
      exact ⟨r, h1, by simp [cMut, h2]⟩
    · simp [cMut, (C08_to_back ms m).2 h]
  · intro pre m post name h1 h2 h3
    simp [cMut, (C08_to_back_by_name D ms name).1 pre m post h1 h2 h3, (C08_remove_by_name D ms name).1 pre m post h1 h2 h3]
  · intro name h
    simp [cMut, (C08_to_back_by_name D ms name).2 h, (C08_remove_by_name D ms name).2 h]
  · intro m
    refine ⟨fun h => ?_, fun h => ?_⟩
    · exact ⟨_, ((C08_remove ms m).1 h).2, by simp [cMut, ((C08_remove ms m).1 h).1]⟩
    · simp [cMut, (C08_remove ms m).2 h]
  · intro m
    refine ⟨fun h => ?_, fun h => ?_⟩
    · simp [cMut, (C08_add_if_lacking ms m).1 h]
    · simp [cMut, (C08_add_if_lacking ms m).2 h]

/-- C63: `dnmx_type_is_of_name` holds exactly if the domain has a type class with the name which the type fulfils. -/
theorem C63_is_of_name (s : DomId → Settings) (ops : List Op) (t : TypeRec) (name : List UInt8) :
    cTypeIsOfName D (run D (initWorld s) ops) t name = true ↔
      ∃ c, classRegistered t.dom c (trace D (initWorld s) ops) = true ∧ D.clsName c = name ∧ (D.cls c).matchesT t.mixins = true := by
  have h := C51_is_of D s ops t name
  unfold cTypeIsOfName
  cases hx : typeIsOf D (run D (initWorld s) ops) t name with
  | ok b =>
    simp only
    obtain ⟨c, h1, h2, h3⟩ := (h.1 b).1 hx
    constructor
    · intro hb; subst hb; exact ⟨c, h1, h2, h3.symm⟩
    · rintro ⟨c', k1, k2, k3⟩
      have := (h.1 true).2 ⟨c', k1, k2, k3.symm⟩
      rw [hx] at this; simpa using this
  | error e =>
    simp only [Bool.false_eq_true, false_iff]
    rintro ⟨c', k1, k2, k3⟩
    have := (h.1 true).2 ⟨c', k1, k2, k3.symm⟩
    rw [hx] at this; simp at this

example : let W := run regDecls (initWorld fun _ => {}) [.regClass 0 1, .regClass 1 2]
    cTypeIsOfName regDecls W (emptyType 0) [2] = true ∧ cTypeIsOfName regDecls W (emptyType 0) [3] = false := by decide +kernel

/-- C63: `dnmx_object_compare` gives the result of the comparison or reports that there is none. -/
theorem C63_compare (F : CmpFns) (addr : DomId → Nat) (S : Sys) (o o' : Nat) (r : CIntResult) (h : cObjCompare D F addr d S o o' = some r) :
    (∀ c, objCompare D F addr d S o o' = some (.ok c) ↔ r.error = 0 ∧ r.result = some c) ∧
    ((∃ e, objCompare D F addr d S o o' = some (.error e)) ↔ r.error ≠ 0) := by
  unfold cObjCompare at h
  cases hx : objCompare D F addr d S o o' with
  | none => rw [hx] at h; simp at h
  | some x =>
    rw [hx] at h
    simp at h
    subst h
    cases x with
    | ok c => simp [eq_comm]
    | error e => simp

example : cObjCompare cmpDecls cmpFns (fun d => d) 0 cmpSys 1 0 = some ⟨some 1, 0⟩ ∧ cObjCompare cmpDecls cmpFns (fun d => d) 0 cmpSys 3 7 = some ⟨none, -1⟩ :=
  ⟨by decide +kernel, by decide +kernel⟩

/-- C63: a C program that comes to its end leaves domains and objects as some C++ program does. -/
theorem C63_programs (s : DomId → Settings) (prog : List (Bool × COp)) (rets : List CRet) (C : CSys)
    (h : crun D orc d prog ⟨⟨initWorld s, {}⟩, []⟩ = some (rets, C)) : ∃ sprog, srun D orc d sprog ⟨initWorld s, {}⟩ = some C.S :=
  crun_srun prog _ rets C h

/-- C63: proper C programs are safe: nothing undefined happens, and domains and objects are in order in the end. (Partial in that
no exception may leave one of the three functions.) -/
theorem C63_programs_are_safe_partial (s : DomId → Settings) (prog : List (Bool × COp)) (hp : ProperCRun D orc d prog ⟨⟨initWorld s, {}⟩, []⟩) :
    ∃ rets C, crun D orc d prog ⟨⟨initWorld s, {}⟩, []⟩ = some (rets, C) ∧ SysOk D d C.S ∧ LogOk D C.S.h ∧ rets.length = prog.length := by
  obtain ⟨rets, C, h1, h2⟩ := crun_proper prog _ (sys_start D d s) hp
  refine ⟨rets, C, h1, h2.ok, h2.log, ?_⟩
  clear h2 hp
  generalize (⟨⟨initWorld s, {}⟩, []⟩ : CSys) = C0 at h1
  induction prog generalizing C0 rets with
  | nil => simp [crun] at h1; rw [h1.1]; rfl
  | cons x prog ih =>
    obtain ⟨u, op⟩ := x
    unfold crun at h1
    cases hc : cstep D orc d u C0 op with
    | ub => rw [hc] at h1; simp at h1
    | escaped C1 e => rw [hc] at h1; simp at h1
    | ret r C1 =>
      rw [hc] at h1
      simp only at h1
      cases hr : crun D orc d prog C1 with
      | none => rw [hr] at h1; simp at h1
      | some p =>
        obtain ⟨rs, C2⟩ := p
        rw [hr] at h1; simp at h1
        rw [← h1.1, List.length_cons, List.length_cons, ih rs C1 (by rw [hr, h1.2])]

/-! ## Examples

A C program makes types and objects; some of its calls fail. -/

def cStart : CSys := ⟨⟨initWorld fun _ => {}, {}⟩, []⟩

def cProg : List (Bool × COp) :=
  [(false, .registerMixin 0 1), (false, .registerMixin 0 2), (false, .registerMixin 0 3), (false, .registerMixin 0 2),
   (false, .mutNew 0), (false, .mutChange 0 (.add 1)), (false, .mutChange 0 (.add 3)), (false, .mutChange 0 (.toBackName [1])), (false, .mutChange 0 (.toBackName [2])),
   (false, .getType 0 0), (false, .getTypeFromInfos 0 [1, 1]), (false, .newOfType 1), (false, .seal 0), (false, .clear 0), (false, .copy 0), (false, .clear 1),
   (false, .mutate 1 [(.add 2, some 7)])]

def cAfter (n : Nat) : List CRet × CSys := (crun objDecls objOrc 0 (cProg.take n) cStart).getD ([], cStart)

example : ProperCRun objDecls objOrc 0 cProg cStart ∧
    (cAfter 17).1 = [.code 0, .code 0, .code 0, .code (-1), .handle (some 0), .flag true, .flag true, .info (some 1), .info none, .handle (some 1), .handle none, .handle (some 0),
      .void, .flag false, .handle (some 1), .flag true, .code 0] ∧
    (cAfter 17).2.muts = [none] ∧ (typesOf (cAfter 17).2.S.W 0).map (·.mixins) = [[3, 1], [2]] ∧
    (cAfter 17).2.S.h.objs.map (fun x => x.bind (fun x => x.ty.map (TyEnv.ofWorld (cAfter 17).2.S.W 0).mixins)) = [some [3, 1], some [2]] :=
  ⟨by decide +kernel, by decide +kernel, by decide +kernel, by decide +kernel, by decide +kernel⟩

/-- The states after the first calls are reached by a C program. -/
theorem cAfter_reach (n : Nat) : CReach objDecls objOrc 0 (fun _ => {}) (cAfter n).2 := by
  unfold cAfter
  cases h : crun objDecls objOrc 0 (cProg.take n) cStart with
  | none => exact ⟨[], [], rfl⟩
  | some p => exact ⟨_, p.1, h⟩

/-- C63, refuted: a C program registers a mixin and unregisters it twice; the second time the exception of
`domain::unregister_mixin` leaves `dnmx_unregister_mixin`. Likewise for features. -/
theorem C63_unregister_refuted :
    ∃ (C : CSys), CReach objDecls objOrc 0 (fun _ => {}) C ∧ (∃ C' e, cstep objDecls objOrc 0 false C (.unregisterMixin 0 1) = .escaped C' e) ∧
      ∃ C' e, cstep objDecls objOrc 0 false C (.unregisterFeature 0 1) = .escaped C' e := by
  have hr : CReach objDecls objOrc 0 (fun _ => {})
      ((crun objDecls objOrc 0 [(false, .registerMixin 0 1), (false, .registerFeature 0 1), (false, .unregisterMixin 0 1), (false, .unregisterFeature 0 1)] cStart).getD ([], cStart)).2 := by
    cases h : crun objDecls objOrc 0 [(false, .registerMixin 0 1), (false, .registerFeature 0 1), (false, .unregisterMixin 0 1), (false, .unregisterFeature 0 1)] cStart with
    | none => exact ⟨[], [], rfl⟩
    | some p => exact ⟨_, p.1, h⟩
  have h := C63_escapes_iff objDecls objOrc 0 _ _ hr false
  exact ⟨_, hr, (h.2.1 0 1).2 (by decide +kernel), (h.1 0 1).2 (by decide +kernel)⟩

/-- C63, refuted: the exception of `object::clear` leaves `dnmx_object_reset_type` if the object is sealed and the type is
null. (`dnmx_object_clear` looks first, and a type that is not null is set within a `try`.) -/
theorem C63_reset_type_refuted :
    ∃ (C : CSys), CReach objDecls objOrc 0 (fun _ => {}) C ∧ (∃ C' e, cstep objDecls objOrc 0 false C (.resetType 0 none) = .escaped C' e) ∧
      cstep objDecls objOrc 0 false C (.clear 0) = .ret (.flag false) C ∧ cstep objDecls objOrc 0 false C (.resetType 0 (some 1)) = .ret (.code (-1)) C := by
  have h := (C63_escapes_iff objDecls objOrc 0 _ _ (cAfter_reach 13) false).2.2 0
  refine ⟨_, cAfter_reach 13, ?_⟩
  cases ho : (cAfter 13).2.S.h.obj? 0 with
  | none => exact absurd ho (by decide +kernel)
  | some ob =>
    have hs : ob.isSealed = true := by
      have : ((cAfter 13).2.S.h.obj? 0).map (·.isSealed) = some true := by decide +kernel
      rw [ho] at this; simpa using this
    have ht : typeThere 0 (cAfter 13).2.S.W (cAfter 13).2.S.h 0 = true := by decide +kernel
    have ht1 : (((cAfter 13).2.S.W.doms 0).typeAt 0 1).isSome = true := by decide +kernel
    refine ⟨(h ob ho ht).2 hs, by simp [cstep, ho, hs], ?_⟩
    simp [cstep, sstep, usedObjs, typesIn, ht, ht1, ostep, resetType, ho, hs, SRes.ofObj, CSys.catching]

end Dnmx.Props
