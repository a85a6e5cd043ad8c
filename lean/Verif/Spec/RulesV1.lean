import Verif.Model.RulesV1
import Verif.Model.RegistryV1

/-!
# Specification: what rules of version 1 promise
-/

namespace Spec
open Dnmx

/-- What a rule promises about a list of mixins. -/
def Promise : V1Rule → List Mix → Prop
  | .dependent master infos, ms | .dependentDep master infos, ms => master ∈ ms → ∀ i ∈ infos, i ∈ ms
  | .exclusive infos, ms => (ms.filter (fun m => decide (m ∈ infos))).length ≤ 1
  | .deprecated m, ms => m ∉ ms
  | .mandatory m, ms => m ∈ ms
  | .substitute source target, ms => source ≠ target → source ∉ ms

/-- Rules that only add mixins. -/
def V1Adds : V1Rule → Bool
  | .dependent _ _ | .dependentDep _ _ | .mandatory _ => true
  | _ => false

/-- Rules that only remove mixins. -/
def V1Removes : V1Rule → Bool
  | .exclusive _ | .deprecated _ => true
  | _ => false

/-- The calls of a history with their results. -/
def v1Trace (D : Decls) (d : DomId) : V1State → List V1Op → List (V1Op × V1Out)
  | _, [] => []
  | st, op :: ops => (op, (v1Step D d st op).1) :: v1Trace D d (v1Step D d st op).2 ops

/-- How one call changes the rule that belongs to an id. -/
def holderStep (id : Nat) (b : Option Rule) : V1Op × V1Out → Option Rule
  | (.add r, .id i) => if i = id then some r else b
  | (.remove i, _) => if i = id then none else b
  | _ => b

/-- The rule that was added under `id` and not removed since. -/
def holder (id : Nat) (h : List (V1Op × V1Out)) : Option Rule := h.foldl (holderStep id) none

/-- A call that does not go round the registry to add or remove rules of domain `d`. -/
def V1Proper (d : DomId) : V1Op → Prop
  | .other (.addRule d' _) => d' ≠ d
  | .other (.removeRule d' _) => d' ≠ d
  | _ => True

end Spec
