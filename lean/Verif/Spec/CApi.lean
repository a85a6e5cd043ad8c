import Verif.Model.CApi
import Verif.Spec.System

/-!
# Specification: what the functions of the C interface stand for

From the model only the calls (`COp`) and results (`CRet`) of C functions and the state of a C program are used.
-/

namespace Spec
open Dnmx

/-- The C++ call that a C function stands for; none for the functions that only concern type mutations, and for
`dnmx_object_clear` of a sealed object, which is documented to do nothing. -/
def cppCall (d : DomId) (u : Bool) (C : CSys) : COp → Option SOp
  | .registerFeature d' f => some (.dom (.regFeature d' f))
  | .unregisterFeature d' f => some (.dom (.unregFeature d' f))
  | .registerMixin d' m => some (.dom (.regMixin d' m))
  | .unregisterMixin d' m => some (.dom (.unregMixin d' m))
  | .registerClass d' c => some (.dom (.regClass d' c))
  | .unregisterClass d' c => some (.dom (.unregClass d' c))
  | .addRule d' r => some (.dom (.addRule d' r))
  | .removeRule d' r => some (.dom (.removeRule d' r))
  | .getTypeFromInfos d' q => some (.dom (.getType d' q))
  | .getType d' i => ((C.muts[i]?).getD none).map (fun x => .dom (.getTypeMut d' x.1 x.2))
  | .collect => some .gc
  | .newEmpty t => some (.obj u (.newEmpty t 0))
  | .newOfType t => some (.obj u (.newOfType t 0 false))
  | .copy o => some (.obj u (.copy o 0))
  | .usurp o => some (.obj u (.moveNew o))
  | .destroy o => some (.obj u (.destroy o))
  | .copyFrom o src => some (.obj u (.copyFrom o src))
  | .clear o => if ((C.S.h.obj? o).map (·.isSealed)) = some true then none else some (.obj u (.clear o))
  | .resetType o (some t) => some (.obj u (.reset o t))
  | .resetType o none => some (.obj u (.clear o))
  | .seal o => some (.obj u (.seal o))
  | .mutateTo o t ovs => some (.obj u (.mutation o t (cMutateSteps ovs 0 ((TyEnv.ofWorld C.S.W d).mixins t))))
  | .mutate o ops => some (.cMutate u o ops)
  | _ => none

/-- Results that report a failure: a code that is not 0, null, `false`. -/
def Reports : CRet → Prop
  | .code c => c ≠ 0
  | .handle h => h = none
  | .flag b => b = false
  | _ => False

/-- The functions with a `void` result, or a code that does not tell, which throw in C++. -/
def Leaky : COp → Prop
  | .unregisterFeature _ _ => True
  | .unregisterMixin _ _ => True
  | .resetType _ none => True
  | _ => False

/-- States that a C program can reach. -/
def CReach (D : Decls) (orc : Orc) (d : DomId) (s : DomId → Settings) (C : CSys) : Prop :=
  ∃ prog rets, crun D orc d prog ⟨⟨initWorld s, {}⟩, []⟩ = some (rets, C)

/-- The mutation and type handles that are passed to a function are valid. -/
def ValidHandles (C : CSys) : COp → Prop
  | .getType _ i => ∃ x, C.muts[i]? = some (some x)
  | .mutDestroy i => ∃ x, C.muts[i]? = some (some x)
  | .mutChange i _ => ∃ x, C.muts[i]? = some (some x)
  | .mutOf d t => compositionOf C.S.W d t ≠ none
  | _ => True

/-- C programs that use what they have properly, and with which no exception leaves a C function. -/
def ProperCRun (D : Decls) (orc : Orc) (d : DomId) : List (Bool × COp) → CSys → Prop
  | [], _ => True
  | (u, op) :: ops, C =>
    (ValidHandles C op ∧ (∀ sop, cppCall d u C op = some sop → TypesFit D C.S.W d ∧ ProperS D d C.S sop) ∧
      ∀ C' e, cstep D orc d u C op ≠ .escaped C' e) ∧
    ∀ r C', cstep D orc d u C op = .ret r C' → ProperCRun D orc d ops C'

/-! To run examples. -/

instance (C : CSys) : (op : COp) → Decidable (ValidHandles C op) := by
  have hx : ∀ i : Nat, Decidable (∃ x, C.muts[i]? = some (some x)) := fun i =>
    match h : C.muts[i]? with
    | some (some x) => isTrue ⟨x, rfl⟩
    | some none => isFalse (by rintro ⟨x, hx⟩; simp at hx)
    | none => isFalse (by rintro ⟨x, hx⟩; simp at hx)
  intro op
  cases op <;> unfold ValidHandles <;> first | exact hx _ | infer_instance

instance instDecidableProperCRun (D : Decls) (orc : Orc) (d : DomId) : (ops : List (Bool × COp)) → (C : CSys) → Decidable (ProperCRun D orc d ops C)
  | [], _ => isTrue trivial
  | (u, op) :: ops, C =>
    let _ : Decidable (∀ sop, cppCall d u C op = some sop → TypesFit D C.S.W d ∧ ProperS D d C.S sop) :=
      match h : cppCall d u C op with
      | none => isTrue (by intro sop h'; simp at h')
      | some sop =>
        if hp : TypesFit D C.S.W d ∧ ProperS D d C.S sop then isTrue (by intro sop' h'; simp at h'; subst h'; exact hp)
        else isFalse (fun hx => hp (hx sop rfl))
    if hp : ValidHandles C op ∧ (∀ sop, cppCall d u C op = some sop → TypesFit D C.S.W d ∧ ProperS D d C.S sop) then
      match hr : cstep D orc d u C op with
      | .ub => isTrue ⟨⟨hp.1, hp.2, by rw [hr]; simp⟩, by rw [hr]; simp⟩
      | .escaped C1 e => isFalse (fun hx => hx.1.2.2 C1 e hr)
      | .ret r C1 =>
        match instDecidableProperCRun D orc d ops C1 with
        | isTrue hq => isTrue ⟨⟨hp.1, hp.2, by rw [hr]; simp⟩, by rw [hr]; intro r' C' h; simp at h; rw [← h.2]; exact hq⟩
        | isFalse hq => isFalse (fun hx => hq (hx.2 r C1 hr))
    else isFalse (fun hx => hp ⟨hx.1.1, hx.1.2.1⟩)

end Spec
