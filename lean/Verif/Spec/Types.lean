import Verif.Model.Domain

/-!
# Specification: the types of a domain

What can be observed of the types and stored queries of a domain.
-/

namespace Spec
open Dnmx

/-- `domain_traverse::traverse_types` (code/dynamix/domain.cpp 899-903): the (non-empty) types of a domain. -/
def typesOf (W : World) (d : DomId) : List TypeRec := (W.doms d).types

/-- `domain_traverse::traverse_type_queries` (code/dynamix/domain.cpp 904-908): a query and the type it leads to. -/
def queriesOf (W : World) (d : DomId) : List (List Mix × TypeId) := (W.doms d).queries

/-- `type::mixins()` of the type at an address; `none` if there is no type (any more). -/
def compositionOf (W : World) (d : DomId) (t : TypeId) : Option (List Mix) := ((W.doms d).typeAt d t).map (·.mixins)

/-- A domain in which nothing is stored about earlier queries. -/
def forgetQueries (W : World) (d : DomId) : World := W.setDom d { W.doms d with queries := [] }

end Spec
