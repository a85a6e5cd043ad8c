import Verif.Model.Domain

/-!
# The registry of version-1 rules

Model of v1compat/code/dynamix/v1compat/mutation_rules.cpp 26-66. A version-1 rule is identified with the rule info in it
(33-38). The registry is used under a mutex, so calls on it are single steps.
-/

namespace Dnmx

/-- `the_registry` (26-30; `none` is a null pointer) together with all domains. -/
structure V1State where
  slots : List (Option Rule) := []
  world : World

/-- Results of calls: an id (`mutation_rule_id`), a pointer to a rule, or the outcome of a call on a domain. -/
inductive V1Out
  | id (i : Nat)
  | rule (r : Option Rule)
  | call (r : Except Err Unit)
deriving DecidableEq

/-- `add_mutation_rule` (42-54), `d` is `domain::instance()`: a null slot is searched or appended, the rule is added to the
domain, then it is stored in the slot. (If the domain throws, an appended null slot stays.) -/
def v1Add (D : Decls) (d : DomId) (st : V1State) (r : Rule) : V1Out × V1State :=
  let (i, slots) := match scanFwd 0 st.slots with
    | some i => (i, st.slots)
    | none => (st.slots.length, st.slots ++ [none])
  match addRule D st.world d r with
  | (.error e, W) => (.call (.error e), ⟨slots, W⟩)
  | (.ok (), W) => (.id i, ⟨slots.set i (some r), W⟩)

/-- `remove_mutation_rule` (60-69). -/
def v1Remove (D : Decls) (d : DomId) (st : V1State) (id : Nat) : V1Out × V1State :=
  match st.slots[id]? with
  | none => (.rule none, st)
  | some none => (.rule none, st)
  | some (some r) => (.rule (some r), ⟨st.slots.set id none, (removeRule D st.world d r).2⟩)

/-- Calls on the registry, and other calls on domains. -/
inductive V1Op
  | add (r : Rule)
  | remove (id : Nat)
  | other (op : Op)

/-- Execute one call. -/
def v1Step (D : Decls) (d : DomId) (st : V1State) : V1Op → V1Out × V1State
  | .add r => v1Add D d st r
  | .remove id => v1Remove D d st id
  | .other op => (.call (step D st.world op).1, ⟨st.slots, (step D st.world op).2⟩)

/-- Execute calls one after the other. -/
def v1Run (D : Decls) (d : DomId) : V1State → List V1Op → V1State
  | st, [] => st
  | st, op :: ops => v1Run D d (v1Step D d st op).2 ops

end Dnmx
