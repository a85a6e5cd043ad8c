import Verif.Model.System

/-!
# Initializers by name

Model of `construct` (code/dynamix/mutate_to_ops.hpp) together with `mutate_to` (code/dynamix/mutate_to.hpp 16-56) in a domain.
-/

namespace Dnmx

/-- How `construct` names the mixin: by info (mutate_to_ops.hpp 28-31, 37-38) or by name (32-35). -/
inductive InitKey
  | info (m : Mix)
  | name (n : List UInt8)
deriving DecidableEq, Repr

section
variable (D : Decls) (orc : Orc) (d : DomId)

/-- `to_obj_mutate` (object_mutate_ops.hpp 26, mutate_to_ops.hpp 21-24): the affected mixin; `none` is a null pointer. The domain is
that of the object. -/
def InitKey.affected (W : World) : InitKey → Option Mix
  | .info m => some m
  | .name n => getMixinByName D W d n

/-- The operations of `mutate_to` with their mixins, if none is null. -/
def affectedAll (W : World) : List (InitKey × Nat) → Option (List InitOp)
  | [] => some []
  | (k, c) :: l =>
    match k.affected D d W, affectedAll W l with
    | some m, some l' => some ((m, c) :: l')
    | _, _ => none

/-- `mutate_to(obj, type, construct(...)...)` (mutate_to.hpp 16-56). A null mixin is dereferenced in line 38. -/
def mutateToNamed (u : Bool) (S : Sys) (o : Nat) (t : TypeId) (ops : List (InitKey × Nat)) : SRes :=
  match S.h.obj? o, (S.W.doms d).typeAt d t with
  | some ob, some _ =>
    if ob.ty = some t then .ok S
    else
      match affectedAll D d S.W ops with
      | none => .ub
      | some inits => .ofObj S.W (mutateTo D (TyEnv.ofWorld S.W d) orc u S.h o t inits)
  | _, _ => .ub

/-- `dnmx_mutate_to_override` (mutate.h) as the caller gives it: by info or by name. -/
structure CNamed where
  key : InitKey
  initNew : Option Nat
  updateCommon : Option Nat

/-- The search of `dnmx_mutate_to` for the override of a mixin of the type (mutate-c.cpp 30-33). -/
def CNamed.matches (m : Mix) (ov : CNamed) : Bool :=
  match ov.key with
  | .info m' => m' = m
  | .name n => n = D.mixName m

/-- The loop of `dnmx_mutate_to` (mutate-c.cpp 28-60), from index `i` on. -/
def cNamedSteps (ovs : List CNamed) : Nat → List Mix → List (MStep × Bool)
  | _, [] => []
  | i, m :: ms =>
    match ovs.find? (CNamed.matches D m) with
    | none => cNamedSteps ovs (i + 1) ms
    | some ov => (.at i (ov.initNew.elim .dflt .custom) (ov.updateCommon.elim .noop .custom), false) :: cNamedSteps ovs (i + 1) ms

/-- `dnmx_mutate_to` (mutate-c.cpp 22-68). -/
def cMutateToNamed (E : TyEnv) (u : Bool) (h : Heap) (o : Nat) (t : TypeId) (ovs : List CNamed) : Res Heap :=
  withMutation D E orc u h o t (cNamedSteps D ovs 0 (E.mixins t))

end

end Dnmx
