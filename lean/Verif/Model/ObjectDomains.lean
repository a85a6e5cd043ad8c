import Verif.Model.Object

/-!
# Objects of several domains

The functions of `Model/Object.lean` look mixins up by their numeric id, as the code does: `m_old_type->has(info.id)`
(object_mutation.cpp 119, 150, 180, object_mutation.hpp 42), `m_target_type.has(info.id)` (object_mutation.cpp 215),
`get_type().has(info->id)` (object.cpp 101, 131, 159), `mtype.index_of(info.id)` (object.cpp 142, 169), `type.index_of(mixin.id)` (mutate_to.hpp
33-45). Ids are dense in each domain and start at 0 in each domain, so mixins of different domains have the same ids.
Nothing in object.cpp or object_mutation.cpp compares domains. Here the environment for objects has the types of several domains.
-/

namespace Dnmx

/-- The number of type `t` of domain `d`, if there are `k` domains. -/
def typeCode (k : Nat) (d : DomId) (t : TypeId) : TypeId := t * k + d

/-- The types of the domains 0, ..., k-1: number `n` is type `n / k` of domain `n % k` (`typeCode`). -/
def TyEnv.ofDomains (W : World) (k : Nat) : TyEnv where
  mixins n := (TyEnv.ofWorld W (n % k)).mixins (n / k)
  internal n i := (TyEnv.ofWorld W (n % k)).internal (n / k) i
  indexOf n m := (TyEnv.ofWorld W (n % k)).indexOf (n / k) m
  emptyOf n := typeCode k (n % k) emptyTid

/-- The same types, but with lookups of the mixins themselves instead of their ids: what the code would do if it compared `mixin_info`
pointers. -/
def TyEnv.byIdentity (E : TyEnv) : TyEnv := { E with indexOf := fun t m => (E.mixins t).idxOf? m }

end Dnmx
