import Verif.Model.ObjectDomains
import Verif.Spec.Programs
import Verif.Spec.System

/-!
# Specification: objects of several domains
-/

namespace Spec
open Dnmx

/-- Different mixins have different ids. -/
def NoClash (mixId : Mix → Option Nat) (l l' : List Mix) : Prop := ∀ m ∈ l, ∀ m' ∈ l', mixId m = mixId m' → m = m'

instance (mixId : Mix → Option Nat) (l l' : List Mix) : Decidable (NoClash mixId l l') := by unfold NoClash; infer_instance

/-- The mixins that the type of object `o` has. -/
def mixinsNow (E : TyEnv) (h : Heap) (o : Nat) : List Mix := (h.obj? o).elim [] (ownMixins E)

/-- The mixins that an operation compares with each other have no common ids by accident. -/
def Close (mixId : Mix → Option Nat) (E : TyEnv) (h : Heap) : OOp → Prop
  | .copyFrom o src => NoClash mixId (mixinsNow E h o) (mixinsNow E h src)
  | .copyMatching o src => NoClash mixId (mixinsNow E h o) (mixinsNow E h src)
  | .moveMatching o src _ => NoClash mixId (mixinsNow E h o) (mixinsNow E h src)
  | .reset o t => NoClash mixId (mixinsNow E h o) (E.mixins t)
  | .mutation o t _ => NoClash mixId (mixinsNow E h o) (E.mixins t)
  | .mutateTo o t ops => NoClash mixId (mixinsNow E h o) (E.mixins t) ∧ NoClash mixId (ops.map Prod.fst) (E.mixins t)
  | _ => True

instance (mixId : Mix → Option Nat) (E : TyEnv) (h : Heap) : (op : OOp) → Decidable (Close mixId E h op)
  | .newEmpty _ _ => isTrue trivial
  | .newOfType _ _ _ => isTrue trivial
  | .moveNew _ => isTrue trivial
  | .destroy _ => isTrue trivial
  | .moveAssign _ _ => isTrue trivial
  | .copy _ _ => isTrue trivial
  | .clear _ => isTrue trivial
  | .seal _ => isTrue trivial
  | .copyFrom o src => inferInstanceAs (Decidable (NoClash mixId (mixinsNow E h o) (mixinsNow E h src)))
  | .copyMatching o src => inferInstanceAs (Decidable (NoClash mixId (mixinsNow E h o) (mixinsNow E h src)))
  | .moveMatching o src _ => inferInstanceAs (Decidable (NoClash mixId (mixinsNow E h o) (mixinsNow E h src)))
  | .reset o t => inferInstanceAs (Decidable (NoClash mixId (mixinsNow E h o) (E.mixins t)))
  | .mutation o t _ => inferInstanceAs (Decidable (NoClash mixId (mixinsNow E h o) (E.mixins t)))
  | .mutateTo o t ops =>
    inferInstanceAs (Decidable (NoClash mixId (mixinsNow E h o) (E.mixins t) ∧ NoClash mixId (ops.map Prod.fst) (E.mixins t)))

/-- Programs all of whose operations are close. -/
def CloseRun (mixId : Mix → Option Nat) (D : Decls) (E : TyEnv) (orc : Orc) : List (Bool × OOp) → Heap → Prop
  | [], _ => True
  | (u, op) :: ops, h => Close mixId E h op ∧
    ∀ h', (ostep D E orc u h op = .ok h' ∨ ∃ e, ostep D E orc u h op = .throw h' e) → CloseRun mixId D E orc ops h'

/-- The domain of a type with the given number (see `typeCode`). -/
def codeDomain (k : Nat) (n : TypeId) : DomId := n % k

/-- The domain of the type of an object. -/
def domainNow (k : Nat) (h : Heap) (o : Nat) : Option DomId := (h.obj? o).bind (fun ob => ob.ty.map (codeDomain k))

/-- The operation combines only objects and types of one domain; moves of whole objects and complete copies are not restricted. -/
def WithinDomain (W : World) (k : Nat) (h : Heap) : OOp → Prop
  | .copyFrom o src => domainNow k h o = domainNow k h src
  | .copyMatching o src => domainNow k h o = domainNow k h src
  | .moveMatching o src _ => domainNow k h o = domainNow k h src
  | .reset o t => domainNow k h o = some (codeDomain k t)
  | .mutation o t _ => domainNow k h o = some (codeDomain k t)
  | .mutateTo o t ops => domainNow k h o = some (codeDomain k t) ∧ ∀ op ∈ ops, W.mixDom op.1 = some (codeDomain k t) ∨ W.mixDom op.1 = none
  | _ => True

end Spec
