import Verif.Model.Domain

/-!
# Specification: which elements are registered

Registration is defined by the history of calls and their outcomes, without looking at the registries.
-/

namespace Spec
open Dnmx

/-- The calls of a history with their outcomes. -/
def trace (D : Decls) : World → List Op → List (Op × Except Err Unit)
  | _, [] => []
  | W, op :: ops => (op, (step D W op).1) :: trace D (step D W op).2 ops

/-- How one call changes whether mixin `m` is registered in domain `d`. -/
def mixinRegStep (d : DomId) (m : Mix) (b : Bool) : Op × Except Err Unit → Bool
  | (.regMixin d' m', .ok _) => if d' = d ∧ m' = m then true else b
  | (.unregMixin d' m', .ok _) => if d' = d ∧ m' = m then false else b
  | _ => b

/-- Mixin `m` is registered in domain `d` after a history that began with nothing registered: it was successfully
registered and not successfully unregistered since. -/
def mixinRegistered (d : DomId) (m : Mix) (h : List (Op × Except Err Unit)) : Bool :=
  h.foldl (mixinRegStep d m) false

/-- `domain_traverse::traverse_features` (code/dynamix/domain.cpp 886-890): the features of a domain. -/
def featuresOf (W : World) (d : DomId) : List Feat := (W.doms d).feats.filterMap id

/-- `domain_traverse::traverse_mixins` (code/dynamix/domain.cpp 881-885): the mixins of a domain. -/
def mixinsOf (W : World) (d : DomId) : List Mix := (W.doms d).mixins.filterMap id

/-- `domain_traverse::traverse_type_classes` (code/dynamix/domain.cpp 896-900): the type classes of a domain. -/
def classesOf (W : World) (d : DomId) : List Cls := (W.doms d).classes.filterMap id

/-- The greatest number of mixins that were registered in `d` at the same time during a history. -/
def peakMixins (D : Decls) (d : DomId) : World → List Op → Nat
  | W, [] => (mixinsOf W d).length
  | W, op :: ops => max (mixinsOf W d).length (peakMixins D d (step D W op).2 ops)

/-- Likewise for features. -/
def peakFeatures (D : Decls) (d : DomId) : World → List Op → Nat
  | W, [] => (featuresOf W d).length
  | W, op :: ops => max (featuresOf W d).length (peakFeatures D d (step D W op).2 ops)

/-- How one call changes whether type class `c` is registered in domain `d`. -/
def classRegStep (d : DomId) (c : Cls) (b : Bool) : Op × Except Err Unit → Bool
  | (.regClass d' c', .ok _) => if d' = d ∧ c' = c then true else b
  | (.unregClass d' c', _) => if d' = d ∧ c' = c then false else b
  | _ => b

/-- Type class `c` is registered in domain `d` after a history: it was successfully registered and not unregistered
since. -/
def classRegistered (d : DomId) (c : Cls) (h : List (Op × Except Err Unit)) : Bool :=
  h.foldl (classRegStep d c) false

end Spec
