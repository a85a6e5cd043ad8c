import Verif.Model.TypeMutation

/-!
# What resolving a query should give

All rules are applied one after the other, again and again, `n` times. If one more time changes nothing, what there is then is the answer.
-/

namespace Spec
open Dnmx

/-- All rules applied `k` times. The first error ends it. -/
def passes (rules : List RuleFn) : Nat → List Nat → Except Err (List Nat)
  | 0, ms => .ok ms
  | k + 1, ms =>
    match passes rules k ms with
    | .error e => .error e
    | .ok ms' => applyPass rules ms'

/-- What is there after `k` times, if it is stable then. -/
def settled (rules : List RuleFn) (k : Nat) (ms : List Nat) : Except Err (List Nat) :=
  match passes rules k ms with
  | .error e => .error e
  | .ok y =>
    match applyPass rules y with
    | .error e => .error e
    | .ok z => if z = y then .ok y else .error .cyclicRuleDeps

end Spec
