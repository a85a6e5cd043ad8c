import Verif.Model.Concurrent
import Verif.Spec.Types

/-!
# Specification: calls that overlap

Which calls of different threads must not overlap, and schedules that respect this.
-/

namespace Spec
open Dnmx

/-- The call is a `get_type` of domain `d`. -/
def asks (op : Op) (d : DomId) : Prop := ∃ q, op.asked = some (d, q)

/-- The domain whose types a call may remove or (if `b`) whose rules it may change. -/
def disturbed (b : Bool) : Op → Option DomId
  | .addRule d _ => if b then some d else none
  | .removeRule d _ => if b then some d else none
  | .unregMixin d _ => some d
  | .gc d _ => some d
  | _ => none

/-- The call has begun and is not over. -/
def _root_.Dnmx.Stage.begun : Stage → Prop
  | .todo => False
  | .done _ => False
  | _ => True

/-- Calls that should not overlap: one may remove types or (if `b`) change the rules of a domain, the other does so as well
or is a `get_type` of this domain. -/
def clash (b : Bool) (o o' : Op) : Prop :=
  ∃ d, (disturbed b o = some d ∧ (disturbed b o' = some d ∨ asks o' d)) ∨ (asks o d ∧ disturbed b o' = some d)

/-- Thread `i` may execute its next part: no clashing call of another thread is being executed. -/
def mayRun (b : Bool) (C : Threads) (i : Nat) : Prop :=
  ∀ th, C.threads[i]? = some th → ∀ (j : Nat) th', j ≠ i → C.threads[j]? = some th' → th'.stage.begun → ¬ clash b th.op th'.op

/-- A schedule in which clashing calls do not overlap. -/
def Disciplined (b : Bool) (D : Decls) : Threads → List Nat → Prop
  | _, [] => True
  | C, i :: is => mayRun b C i ∧ Disciplined b D (C.step D i) is

/-- The result of a `get_type`. -/
def withType : Except Err TypeId → Except Err (Option TypeId)
  | .ok t => .ok (some t)
  | .error e => .error e

/-- Outcome and effect of a call that no other call overlaps. -/
def alone (D : Decls) (W : World) : Op → Except Err (Option TypeId) × World
  | .getType d q => (withType (getType D W d q).1, (getType D W d q).2)
  | .getTypeMut d md q => (withType (getTypeMut D W d md q).1, (getTypeMut D W d md q).2)
  | op => (noType (step D W op).1, (step D W op).2)

end Spec
