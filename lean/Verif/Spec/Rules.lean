import Verif.Model.Domain

/-!
# Specification: rules in force
-/

namespace Spec
open Dnmx

/-- How one call changes how often rule `r` counts as added to domain `d`; removing a rule that is not there has no
effect. -/
def ruleCountStep (d : DomId) (r : Rule) (n : Nat) : Op × Except Err Unit → Nat
  | (.addRule d' r', .ok _) => if d' = d ∧ r' = r then n + 1 else n
  | (.removeRule d' r', _) => if d' = d ∧ r' = r then n - 1 else n
  | _ => n

/-- How often rule `r` counts as added to domain `d` after a history, starting from `n`. -/
def ruleCount (d : DomId) (r : Rule) (n : Nat) (h : List (Op × Except Err Unit)) : Nat := h.foldl (ruleCountStep d r) n

/-- A new domain has only the canonicalization rule (rule 0), and only if so constructed. -/
def initialCount (s : Settings) (r : Rule) : Nat := if s.canonicalize ∧ r = 0 then 1 else 0

end Spec
