import Verif.Model.Domain

/-!
# Mixin definitions with rules

Model of `util::mixin_info_data` (code/dynamix/mixin_info_data.cpp 9-21): a mixin info together with the mutation rules that are
added to a domain with it.
-/

namespace Dnmx

/-- The loop of `register_in` (mixin_info_data.cpp 10-12): an exception ends it. -/
def addRules (D : Decls) (W : World) (d : DomId) : List Rule → Except Err Unit × World
  | [] => (.ok (), W)
  | r :: rs =>
    match addRule D W d r with
    | (.error e, W') => (.error e, W')
    | (.ok (), W') => addRules D W' d rs

/-- `mixin_info_data::register_in` (mixin_info_data.cpp 9-14). -/
def registerIn (D : Decls) (W : World) (d : DomId) (m : Mix) (rules : List Rule) : Except Err Unit × World :=
  match addRules D W d rules with
  | (.error e, W') => (.error e, W')
  | (.ok (), W') => registerMixin D W' d m

/-- The loop of `unregister_from` (mixin_info_data.cpp 18-20). -/
def removeRules (D : Decls) (W : World) (d : DomId) : List Rule → World
  | [] => W
  | r :: rs => removeRules D (removeRule D W d r).2 d rs

/-- `mixin_info_data::unregister_from` (mixin_info_data.cpp 16-21). The function is `noexcept`: `none` means that
`std::terminate` is called (or the behaviour is undefined). -/
def unregisterFrom (D : Decls) (W : World) (d : DomId) (m : Mix) (rules : List Rule) : Option World :=
  match unregisterMixin W d m with
  | (.error _, _) => none
  | (.ok (), W') => some (removeRules D W' d rules)

end Dnmx
