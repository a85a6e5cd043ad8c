import Verif.Model.Object

/-!
# Domains together with objects

The objects of one domain `d` and all domains: operations on domains and on objects change the same state. Here objects use the
types that are in the domain at that time; using a type that is not there any more is undefined behaviour.

Model of `mutate` and `gradual_mutation` (code/dynamix/mutate.hpp) and `dnmx_mutate` (code/dynamix/mutate-c.cpp 70-122), which
first make a type and then mutate an object to it, and of garbage collection with the true numbers of objects.

Simplification: there are only objects of one domain; they are used from one thread.
-/

namespace Dnmx

/-- Operations on a type mutation (type_mutation.hpp 36-72), as in `mutate_ops.hpp` and `gradual_mutation`. -/
inductive TmOp
  | add (m : Mix)
  | addName (name : List UInt8)
  | addIfLacking (m : Mix)
  | addIfLackingName (name : List UInt8)
  | remove (m : Mix)
  | removeName (name : List UInt8)
  | toBack (m : Mix)
  | toBackName (name : List UInt8)
deriving DecidableEq, Repr

def tmApply (D : Decls) (v : ElemView) (ms : List Mix) : TmOp → Except Err (List Mix)
  | .add m => .ok (tmAdd ms m)
  | .addName n => tmAddName v ms n
  | .addIfLacking m => .ok (tmAddIfLacking ms m).1
  | .addIfLackingName n => tmAddIfLackingName D v ms n
  | .remove m => .ok (tmRemove ms m).1
  | .removeName n => .ok (tmRemoveName D ms n).1
  | .toBack m => tmToBack ms m
  | .toBackName n => tmToBackName D ms n

/-- Operations one after the other, until one throws. -/
def tmApplyAll (D : Decls) (v : ElemView) : List TmOp → List Mix → Except Err (List Mix)
  | [], ms => .ok ms
  | op :: ops, ms =>
    match tmApply D v ms op with
    | .error e => .error e
    | .ok ms' => tmApplyAll D v ops ms'

/-- Domains and objects. -/
structure Sys where
  W : World
  h : Heap

inductive SErr
  | dom (e : Err)
  | obj (e : XErr)
deriving DecidableEq, Repr

inductive SRes
  | ok (S : Sys)
  | throw (S : Sys) (e : SErr)
  | ub

/-- The end of an operation on an object in a world. -/
def SRes.ofObj (W : World) : Res Heap → SRes
  | .ok h => .ok ⟨W, h⟩
  | .throw h e => .throw ⟨W, h⟩ (.obj e)
  | .ub => .ub

/-- The end of an operation on a domain. -/
def SRes.ofDom (h : Heap) (r : Except Err Unit × World) : SRes :=
  match r.1 with
  | .ok () => .ok ⟨r.2, h⟩
  | .error .ub => .ub
  | .error e => .throw ⟨r.2, h⟩ (.dom e)

/-- An operation of `mutate(obj, ops...)` (mutate_ops.hpp): the effect on the type mutation, and for `add` possibly an initializer.
(`add` by name with a function is not included: it does not compile.) -/
abbrev MutOp := TmOp × Option Nat

/-- The initializers of the operations (`to_obj_mutate` and `overrides_init`; mutate_ops.hpp 13-84). -/
def initsIn (ops : List MutOp) : List InitOp := ops.filterMap (fun op =>
  match op with
  | (.add m, some k) => some (m, k)
  | _ => none)

/-- The override for mixin `m` in `dnmx_mutate` (mutate-c.cpp 98-105): the first `add` of this mixin (by info or by name) that has one. -/
def cOverrideFor (D : Decls) (m : Mix) : List MutOp → Option Nat
  | [] => none
  | (.add m', some k) :: ops => if m' = m then some k else cOverrideFor D m ops
  | (.addName n, some k) :: ops => if n = D.mixName m then some k else cOverrideFor D m ops
  | _ :: ops => cOverrideFor D m ops

/-- The loop of `dnmx_mutate` (mutate-c.cpp 96-118), from index `i` on. -/
def cMutateOpSteps (D : Decls) (ops : List MutOp) : Nat → List Mix → List (MStep × Bool)
  | _, [] => []
  | i, m :: ms =>
    match cOverrideFor D m ops with
    | none => cMutateOpSteps D ops (i + 1) ms
    | some k => (.at i (.custom k) .noop, false) :: cMutateOpSteps D ops (i + 1) ms

/-- Operations on domains and objects. -/
inductive SOp
  /-- an operation on a domain -/
  | dom (op : Op)
  /-- `garbage_collect_types` of `d` -/
  | gc
  /-- an operation on objects; `u`: during unwinding -/
  | obj (u : Bool) (op : OOp)
  /-- `mutate(obj, ops...)` -/
  | mutate (u : Bool) (o : Nat) (ops : List MutOp)
  /-- `mutate(obj).op()...;` with the destructor of `gradual_mutation` -/
  | gradual (u : Bool) (o : Nat) (ops : List TmOp)
  /-- `dnmx_mutate` -/
  | cMutate (u : Bool) (o : Nat) (ops : List MutOp)

/-- The objects that an operation uses. -/
def usedObjs : OOp → List Nat
  | .newEmpty _ _ => []
  | .newOfType _ _ _ => []
  | .moveNew src => [src]
  | .destroy o => [o]
  | .moveAssign o src => [o, src]
  | .copy src _ => [src]
  | .copyFrom o src => [o, src]
  | .copyMatching o src => [o, src]
  | .moveMatching o src _ => [o, src]
  | .clear o => [o]
  | .reset o _ => [o]
  | .seal o => [o]
  | .mutation o _ _ => [o]
  | .mutateTo o _ _ => [o]

/-- The types that are passed to an operation. -/
def typesIn : OOp → List TypeId
  | .newOfType t _ _ => [t]
  | .reset _ t => [t]
  | .mutation _ t _ => [t]
  | .mutateTo _ t _ => [t]
  | _ => []

section
variable (D : Decls) (orc : Orc) (d : DomId)

/-- The type of an object is null or there is such a type. -/
def typeThere (W : World) (h : Heap) (o : Nat) : Bool :=
  match (h.obj? o).bind (·.ty) with
  | none => true
  | some t => ((W.doms d).typeAt d t).isSome

/-- The list of mixins at the end of the operations on a type mutation that begins with the object's type (`type_mutation(obj.get_type())`,
type_mutation.cpp 24-28). `none`: undefined. -/
def mutatedList (W : World) (h : Heap) (o : Nat) (ops : List TmOp) : Option (Except Err (List Mix)) :=
  ((h.obj? o).bind (·.ty)).bind (fun t => ((W.doms d).typeAt d t).map (fun r => tmApplyAll D (W.view D d) ops r.mixins))

/-- Apply operations to the type of an object, get the type, and go on with it. -/
def withMutatedType (S : Sys) (o : Nat) (ops : List TmOp) (k : World → TypeId → SRes) : SRes :=
  match mutatedList D d S.W S.h o ops with
  | none => .ub
  | some (.error e) => .throw S (.dom e)
  | some (.ok q) =>
    match getTypeMut D S.W d d q with
    | (.error .ub, _) => .ub
    | (.error e, W) => .throw ⟨W, S.h⟩ (.dom e)
    | (.ok t, W) => k W t

def sstep (S : Sys) : SOp → SRes
  | .dom op => .ofDom S.h (step D S.W op)
  | .gc => .ofDom S.h (garbageCollect S.W d (fun t => (S.h.count t).toNat))
  | .obj u op =>
    if (usedObjs op).all (typeThere d S.W S.h) && (typesIn op).all (fun t => ((S.W.doms d).typeAt d t).isSome) then
      .ofObj S.W (ostep D (TyEnv.ofWorld S.W d) orc u S.h op)
    else .ub
  | .mutate u o ops => withMutatedType D d S o (ops.map (·.1)) (fun W t => .ofObj W (mutateTo D (TyEnv.ofWorld W d) orc u S.h o t (initsIn ops)))
  | .gradual u o ops =>
    if u then
      match mutatedList D d S.W S.h o ops with
      | none => .ub
      | some (.error e) => .throw S (.dom e)
      | some (.ok _) => .ok S
    else withMutatedType D d S o ops (fun W t => .ofObj W (resetType D (TyEnv.ofWorld W d) orc u S.h o t))
  | .cMutate u o ops => withMutatedType D d S o (ops.map (·.1))
      (fun W t => .ofObj W (withMutation D (TyEnv.ofWorld W d) orc u S.h o t (cMutateOpSteps D ops 0 ((TyEnv.ofWorld W d).mixins t))))

/-- A program; exceptions are caught between operations. `none`: undefined behaviour. -/
def srun : List SOp → Sys → Option Sys
  | [], S => some S
  | op :: ops, S =>
    match sstep D orc d S op with
    | .ok S => srun ops S
    | .throw S _ => srun ops S
    | .ub => none

end

end Dnmx
