import Verif.Model.TypeMutation

/-!
# Mutation rules of version 1

Model of the rules of v1compat/code/dynamix/v1compat/common_mutation_rules.hpp (29-74) and mutation_rules.cpp (68-98), as functions on the list of mixins, and of the registry of these rules
(mutation_rules.cpp 26-66). The registry is used under a mutex and is modelled sequentially.
-/

namespace Dnmx

/-- The loop `for (auto i : infos) mut.add_if_lacking(*i)` (mutation_rules.cpp 70-72). -/
def addAllIfLacking : List Mix → List Mix → List Mix
  | ms, [] => ms
  | ms, i :: is => addAllIfLacking (tmAddIfLacking ms i).1 is

/-- The loop of `dependent_mixins_dep::apply_to` (mutation_rules.cpp 77-80). -/
def addAllDeps (D : Decls) : List Mix → List Mix → Except Err (List Mix)
  | ms, [] => .ok ms
  | ms, i :: is => if !(D.mix i).dependency then .error .missingMixin else addAllDeps D (tmAddIfLacking ms i).1 is

/-- The loop of `itlib::erase_all_if` with the function of `mutually_exclusive_mixins::apply_to` (mutation_rules.cpp 87-94). -/
def eraseExclusive (infos : List Mix) : Bool → List Mix → List Mix
  | _, [] => []
  | found, x :: xs =>
    if !infos.contains x then x :: eraseExclusive infos found xs
    else if found then eraseExclusive infos found xs
    else x :: eraseExclusive infos true xs

/-- The classes of rules. -/
inductive V1Rule
  | dependent (master : Mix) (infos : List Mix)
  | dependentDep (master : Mix) (infos : List Mix)
  | exclusive (infos : List Mix)
  | deprecated (m : Mix)
  | mandatory (m : Mix)
  | substitute (source target : Mix)
deriving DecidableEq, Repr

/-- `apply_to` (mutation_rules.cpp 68-96, common_mutation_rules.hpp 50-74). -/
def V1Rule.applyTo (D : Decls) : V1Rule → RuleFn
  | .dependent master infos => fun ms => if !tmHas ms master then .ok ms else .ok (addAllIfLacking ms infos)
  | .dependentDep master infos => fun ms => if !tmHas ms master then .ok ms else addAllDeps D ms infos
  | .exclusive infos => fun ms => .ok (eraseExclusive infos false ms.reverse).reverse
  | .deprecated m => fun ms => .ok (tmRemove ms m).1
  | .mandatory m => fun ms => .ok (tmAddIfLacking ms m).1
  | .substitute source target => fun ms => if tmHas ms source then .ok (tmAdd (tmRemove ms source).1 target) else .ok ms

end Dnmx
