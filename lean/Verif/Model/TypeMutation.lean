import Verif.Model.Decl

/-!
# Type mutations and mutation rules

Model of `type_mutation` (code/dynamix/type_mutation.{hpp,cpp}) as functions on the list of mixins, of the rule
application loop of the domain (code/dynamix/domain.cpp 438-487) and of the common rules
(code/dynamix/common_mutation_rules.hpp).
-/

namespace Dnmx

/-- `type_mutation::has(info)` (type_mutation.cpp 66-68). -/
def tmHas (ms : List Mix) (m : Mix) : Bool := ms.any (· == m)

/-- `type_mutation::add(info)` (type_mutation.hpp 37): `push_back`. -/
def tmAdd (ms : List Mix) (m : Mix) : List Mix := ms ++ [m]

/-- `type_mutation::add_if_lacking(info)` (type_mutation.hpp 48-52): new list and return value. -/
def tmAddIfLacking (ms : List Mix) (m : Mix) : List Mix × Bool :=
  if tmHas ms m then (ms, false) else (tmAdd ms m, true)

/-- `itlib::erase_first` as used by `remove` (type_mutation.cpp 56-58): new list and whether something was erased. -/
def tmRemove : List Mix → Mix → List Mix × Bool
  | [], _ => ([], false)
  | x :: xs, m =>
    if x = m then (xs, true)
    else let r := tmRemove xs m; (x :: r.1, r.2)

/-- `type_mutation::to_back(info)` (type_mutation.cpp 33-45): find, erase the found position, push_back;
an error leaves the list as it was. -/
def tmToBack (ms : List Mix) (m : Mix) : Except Err (List Mix) :=
  if tmHas ms m then .ok ((tmRemove ms m).1 ++ [m]) else .error .missingMixin

/-- `itlib::qfind_if(mixins, by_name)` (type_mutation.cpp 31): first mixin with the name. -/
def tmFindName (D : Decls) (name : List UInt8) : List Mix → Option Mix
  | [] => none
  | x :: xs => if D.mixName x = name then some x else tmFindName D name xs

/-- Erasing the position found by name (type_mutation.cpp 63): position of the first mixin with the name. -/
def tmEraseName (D : Decls) (name : List UInt8) : List Mix → List Mix
  | [] => []
  | x :: xs => if D.mixName x = name then xs else x :: tmEraseName D name xs

/-- `type_mutation::remove(name)` (type_mutation.cpp 59-65). -/
def tmRemoveName (D : Decls) (ms : List Mix) (name : List UInt8) : List Mix × Option Mix :=
  match tmFindName D name ms with
  | none => (ms, none)
  | some m => (tmEraseName D name ms, some m)

/-- `type_mutation::to_back(name)` (type_mutation.cpp 47-54). -/
def tmToBackName (D : Decls) (ms : List Mix) (name : List UInt8) : Except Err (List Mix) :=
  match tmFindName D name ms with
  | none => .error .missingMixin
  | some m => .ok (tmEraseName D name ms ++ [m])

/-- `type_mutation::safe_add(name)` (type_mutation.cpp 99-104). -/
def tmSafeAddName (view : ElemView) (ms : List Mix) (name : List UInt8) : List Mix × Option Mix :=
  match view.byName name with
  | none => (ms, none)
  | some m => (tmAdd ms m, some m)

/-- `type_mutation::add(name)` (type_mutation.cpp 106-110). -/
def tmAddName (view : ElemView) (ms : List Mix) (name : List UInt8) : Except Err (List Mix) :=
  match tmSafeAddName view ms name with
  | (_, none) => .error .missingMixin
  | (ms', some _) => .ok ms'

/-- `type_mutation::add_if_lacking(name)` (type_mutation.cpp 118-122). -/
def tmAddIfLackingName (D : Decls) (view : ElemView) (ms : List Mix) (name : List UInt8) : Except Err (List Mix) :=
  match tmFindName D name ms with
  | some _ => .ok ms
  | none => tmAddName view ms name

/-- `type_mutation::safe_add_if_lacking(name)` (type_mutation.cpp 112-116). -/
def tmSafeAddIfLackingName (D : Decls) (view : ElemView) (ms : List Mix) (name : List UInt8) : List Mix × Option Mix :=
  match tmFindName D name ms with
  | some _ => (ms, none)
  | none => tmSafeAddName view ms name

/-- Inner loop of `dedup` (type_mutation.cpp 130-136): `info` becomes null when an equal later element is met;
the loop goes on with the null pointer. -/
def dedupInner (info : Option Mix) : List Mix → Option Mix
  | [] => info
  | j :: js => dedupInner (if info = some j then none else info) js

/-- Outer loop of `dedup` (type_mutation.cpp 126-137); the elements behind the current one are still unmarked. -/
def dedupMark : List Mix → List (Option Mix)
  | [] => []
  | m :: rest => dedupInner (some m) rest :: dedupMark rest

/-- `type_mutation::dedup` (type_mutation.cpp 124-141): mark, then erase the nulls. -/
def tmDedup (ms : List Mix) : List Mix := (dedupMark ms).filterMap id

/-- `type_mutation::implements_strong(info)` (type_mutation.cpp 77-84). -/
def tmImplementsStrong (D : Decls) (ms : List Mix) (f : Feat) : Bool :=
  ms.any (fun m => (D.mix m).feats.any (fun x => x.feat == f))

/-- `type_mutation::implements_strong(name)` (type_mutation.cpp 85-93); `none` is null. -/
def tmImplementsStrongName (D : Decls) (name : List UInt8) : List Mix → Option Feat
  | [] => none
  | m :: ms =>
    match (D.mix m).feats.find? (fun x => D.featName x.feat = name) with
    | some x => some x.feat
    | none => tmImplementsStrongName D name ms

/-- `type_mutation::implements(info)` (type_mutation.cpp 94-97). -/
def tmImplements (D : Decls) (ms : List Mix) (f : Feat) : Bool :=
  (D.feat f).defaultPayload.isSome || tmImplementsStrong D ms f

/-! ## Rules -/

/-- An applicable rule: what it does to the mixin list, or an error. -/
abbrev RuleFn := List Mix → Except Err (List Mix)

/-- One application of all rules in order (domain.cpp 466-471). A rule's error stops the application. -/
def applyPass : List RuleFn → RuleFn
  | [], ms => .ok ms
  | r :: rs, ms =>
    match r ms with
    | .error e => .error e
    | .ok ms' => applyPass rs ms'

/-- `max_depenency_depth` (domain.cpp 449). -/
def maxDependencyDepth : Nat := 5

/-- Outcome of rule application. `passes` counts how often the rules were applied (not in the code, it makes
the number of applications observable). On success: the query to remember and the mixins of the type. -/
structure RulesOutcome where
  passes : Nat
  result : Except Err (List Mix × List Mix)

/-- The loop of `apply_mutation_rules_l` (domain.cpp 464-486). `left` is `max_depenency_depth - i`, so that
`left = 0` is the test `i == max_depenency_depth`. -/
def rulesLoop (rules : List RuleFn) : (left : Nat) → (original last nt : List Mix) → RulesOutcome
  | left, original, last, nt =>
    let i := maxDependencyDepth - left
    match applyPass rules nt with
    | .error e => ⟨i + 1, .error e⟩
    | .ok nt' =>
      if last = nt' then
        if i = 0 then ⟨i + 1, .ok (last, nt')⟩ else ⟨i + 1, .ok (original, nt')⟩
      else
        match left with
        | 0 => ⟨i + 1, .error .cyclicRuleDeps⟩
        | left' + 1 =>
          if i = rules.length then ⟨i + 1, .error .cyclicRuleDeps⟩
          else rulesLoop rules left' (if i = 0 then last else original) nt' nt'

/-- `apply_mutation_rules_l` (domain.cpp 438-487): mixins flagged as dependency are erased from the query
(458-462), then the loop runs. Simplification: what an error leaves in the caller's mutation object is not
modelled. -/
def applyMutationRules (D : Decls) (rules : List RuleFn) (query : List Mix) : RulesOutcome :=
  rulesLoop rules maxDependencyDepth [] query (query.filter (fun m => !(D.mix m).dependency))

/-- `apply_basic_mixin_dep` (code/dynamix/common_mutation_rules.hpp 13-20): used by `attaches_to` and `also_adds`. -/
def basicDepRule (primary dependent : Mix) : RuleFn := fun ms =>
  .ok (if tmHas ms primary then (tmAddIfLacking ms dependent).1 else ms)

end Dnmx
