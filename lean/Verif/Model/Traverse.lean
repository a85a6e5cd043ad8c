import Verif.Model.Domain

/-!
# `domain_traverse`

What the functions of a `domain_traverse` call their argument with, in order, and the counters of a domain.
-/

namespace Dnmx

/-- The loops over sparse vectors (domain.cpp 879-883, 884-888, 894-898). -/
def visitSparse : List (Option Nat) → List Nat
  | [] => []
  | none :: xs => visitSparse xs
  | some x :: xs => x :: visitSparse xs

/-- `traverse_mixins` (domain.cpp 879-883). -/
def traverseMixins (W : World) (d : DomId) : List Mix := visitSparse (W.doms d).mixins
/-- `traverse_features` (domain.cpp 884-888). -/
def traverseFeatures (W : World) (d : DomId) : List Feat := visitSparse (W.doms d).feats
/-- `traverse_mutation_rules` (domain.cpp 889-893): the rules with the number of references. -/
def traverseRules (W : World) (d : DomId) : List (Rule × Nat) := (W.doms d).rules
/-- `traverse_type_classes` (domain.cpp 894-898). -/
def traverseClasses (W : World) (d : DomId) : List Cls := visitSparse (W.doms d).classes
/-- `traverse_types` (domain.cpp 899-903). The order is that of the set of types, which is not modelled. -/
def traverseTypes (W : World) (d : DomId) : List TypeId := (W.doms d).types.map (·.tid)
/-- `traverse_type_queries` (domain.cpp 904-908). The order is that of the map, which is not modelled. -/
def traverseQueries (W : World) (d : DomId) : List (List Mix × TypeId) := (W.doms d).queries

/-- `num_types` (domain.cpp 988-990). -/
def numTypes (W : World) (d : DomId) : Nat := (W.doms d).types.length
/-- `num_type_queries` (domain.cpp 997-999). -/
def numTypeQueries (W : World) (d : DomId) : Nat := (W.doms d).queries.length
/-- `num_mutation_rules` (domain.cpp 1001-1003). -/
def numMutationRules (W : World) (d : DomId) : Nat := (W.doms d).rules.length

end Dnmx
