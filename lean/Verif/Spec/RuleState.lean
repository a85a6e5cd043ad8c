import Verif.Model.RuleState
import Verif.Spec.Types
import Verif.Spec.Registry

/-!
# Specification: rules with state
-/

namespace Spec
open Dnmx

/-- Calls of rules on one mutation: each begins with what the one before left. -/
def Chained : List Mix → List RuleCall → List Mix → Prop
  | first, [], last => first = last
  | first, c :: cs, last => c.before = first ∧ Chained c.after cs last

instance decChained : (a : List Mix) → (cs : List RuleCall) → (b : List Mix) → Decidable (Chained a cs b)
  | a, [], b => by unfold Chained; infer_instance
  | a, c :: cs, b => by unfold Chained; have := decChained c.after cs b; infer_instance

/-- Calls are whole passes of the rules `rs`, `k` times, and then perhaps a part of one. -/
def InPasses (rs : List Rule) (k : Nat) (part : List Rule) (calls : List RuleCall) : Prop :=
  calls.map (·.rule) = (List.replicate k rs).flatten ++ part ∧ part <+: rs

/-- The rules (as functions `fn`), called one after the other from state `s` on, did just what the calls say, left state `s'`, and the last one failed with `e` if that is an error. -/
inductive CallsDone {σ : Type} (fn : Rule → StFn σ) : σ → List RuleCall → Option Err → σ → Prop
  | none (s : σ) : CallsDone fn s [] none s
  | failed {s s' : σ} {c : RuleCall} {e : Err} : fn c.rule s c.before = (some e, c.after, s') → CallsDone fn s [c] (some e) s'
  | more {s s' s'' : σ} {c : RuleCall} {cs : List RuleCall} {e : Option Err} : fn c.rule s c.before = (Option.none, c.after, s') → CallsDone fn s' cs e s'' → CallsDone fn s (c :: cs) e s''

/-- The answers of the rules do not depend on the state: they are as declared. (State may change, and failing rules may have changed the mutation.) -/
def AsDeclared {σ : Type} (D : Decls) (f : ElemView → Rule → StFn σ) : Prop :=
  ∀ v r s ms, match ruleFn D v r ms with
    | .ok ms' => (f v r s ms).1 = none ∧ (f v r s ms).2.1 = ms'
    | .error e => (f v r s ms).1 = some e

/-- The calls that may take a stored query away from domain `d`. -/
def mayForget (d : DomId) : Op → Bool
  | .unregMixin d' _ => d' == d
  | .addRule d' _ => d' == d
  | .removeRule d' _ => d' == d
  | .gc d' _ => d' == d
  | _ => false

end Spec
