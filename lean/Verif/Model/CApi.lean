import Verif.Model.Compare

/-!
# The C interface

Model of the functions of code/dynamix/{domain,type,type_mutation,object,mutate}-c.cpp, in terms of the C++ functions that they
call. A C function catches exceptions and reports them by its result, or it does not, and the exception leaves the function
(`escaped`), which a C program cannot handle.

Simplifications: allocation does not fail except where the object model says so; handles of objects and types are their
numbers; the mutations of `dnmx_mutate` and overrides of `dnmx_mutate_to` are as in the models of these functions.
-/

namespace Dnmx

/-- The state of a C program: domains and objects, and the type mutations that it has made (`none`: destroyed). -/
structure CSys where
  S : Sys
  muts : List (Option (DomId × List Mix)) := []

/-- Results of C functions. -/
inductive CRet
  | void
  /-- `dnmx_error_return_t` -/
  | code (c : Int)
  /-- a type, an object or a type mutation, or null -/
  | handle (h : Option Nat)
  | flag (b : Bool)
  /-- a mixin info or null -/
  | info (m : Option Mix)
deriving DecidableEq, Repr

inductive CRes
  | ret (r : CRet) (C : CSys)
  | escaped (C : CSys) (e : SErr)
  | ub

/-- A call in a `try` block with a handler that returns `bad`. -/
def CSys.catching (C : CSys) (good bad : CRet) : SRes → CRes
  | .ok S => .ret good { C with S := S }
  | .throw S _ => .ret bad { C with S := S }
  | .ub => .ub

/-- A call without `try`. -/
def CSys.plain (C : CSys) (good : CRet) : SRes → CRes
  | .ok S => .ret good { C with S := S }
  | .throw S e => .escaped { C with S := S } e
  | .ub => .ub

/-- A call that makes a type, in a `try` block; null is returned for an exception. -/
def CSys.typeOrNull (C : CSys) (r : Except Err TypeId × World) : CRes :=
  match r.1 with
  | .ok t => .ret (.handle (some t)) { C with S := { C.S with W := r.2 } }
  | .error .ub => .ub
  | .error _ => .ret (.handle none) { C with S := { C.S with W := r.2 } }

/-- Functions that change a type mutation (type_mutation-c.cpp 59-116). -/
inductive CMutOp
  | add (m : Mix)
  | addIfLacking (m : Mix)
  | remove (m : Mix)
  | removeName (name : List UInt8)
  | toBack (m : Mix)
  | toBackName (name : List UInt8)
  | dedup
  | setMixins (ms : List Mix)

def cMut (D : Decls) (ms : List Mix) : CMutOp → CRet × List Mix
  | .add m => (.flag true, tmAdd ms m)
  | .addIfLacking m => (.flag (tmAddIfLacking ms m).2, (tmAddIfLacking ms m).1)
  | .remove m => (.flag (tmRemove ms m).2, (tmRemove ms m).1)
  | .removeName n => (.info (tmRemoveName D ms n).2, (tmRemoveName D ms n).1)
  | .toBack m =>
    match tmToBack ms m with
    | .ok ms' => (.flag true, ms')
    | .error _ => (.flag false, ms)
  | .toBackName n =>
    match tmToBackName D ms n with
    | .ok ms' => (.info ms'.getLast?, ms')
    | .error _ => (.info none, ms)
  | .dedup => (.void, tmDedup ms)
  | .setMixins ms' => (.flag true, ms')

/-- Calls of C functions. -/
inductive COp
  /-- `dnmx_register_feature` (domain-c.cpp 32-40) -/
  | registerFeature (d : DomId) (f : Feat)
  /-- `dnmx_unregister_feature` (domain-c.cpp 41-43) -/
  | unregisterFeature (d : DomId) (f : Feat)
  /-- `dnmx_register_mixin` (domain-c.cpp 45-53) -/
  | registerMixin (d : DomId) (m : Mix)
  /-- `dnmx_unregister_mixin` (domain-c.cpp 54-56) -/
  | unregisterMixin (d : DomId) (m : Mix)
  /-- `dnmx_register_type_class` (domain-c.cpp 74-82) -/
  | registerClass (d : DomId) (c : Cls)
  /-- `dnmx_unregister_type_class` (domain-c.cpp 84-86) -/
  | unregisterClass (d : DomId) (c : Cls)
  /-- `dnmx_add_mutation_rule` (domain-c.cpp 92-100) -/
  | addRule (d : DomId) (r : Rule)
  /-- `dnmx_remove_mutation_rule` (domain-c.cpp 101-103) -/
  | removeRule (d : DomId) (r : Rule)
  /-- `dnmx_get_type_from_infos` (domain-c.cpp 105-112) -/
  | getTypeFromInfos (d : DomId) (q : List Mix)
  /-- `dnmx_get_type` (domain-c.cpp 114-123) of the type mutation with number `i` -/
  | getType (d : DomId) (i : Nat)
  /-- `dnmx_garbage_collect_types` (domain-c.cpp 133-135) of the domain of the objects -/
  | collect
  /-- `dnmx_create_type_mutation_empty` (type_mutation-c.cpp 15-23) -/
  | mutNew (d : DomId)
  /-- `dnmx_create_type_mutation_from_type` (type_mutation-c.cpp 25-33) -/
  | mutOf (d : DomId) (t : TypeId)
  /-- `dnmx_destroy_unused_type_mutation` (type_mutation-c.cpp 35-37) -/
  | mutDestroy (i : Nat)
  /-- a function that changes a type mutation -/
  | mutChange (i : Nat) (op : CMutOp)
  /-- `dnmx_create_object_empty` (object-c.cpp 15-23) for the domain of the objects, whose empty type is `t` -/
  | newEmpty (t : TypeId)
  /-- `dnmx_create_object_default` (object-c.cpp 24-32) -/
  | newOfType (t : TypeId)
  /-- `dnmx_create_object_copy` (object-c.cpp 33-41) -/
  | copy (o : Nat)
  /-- `dnmx_create_object_usurp` (object-c.cpp 42-50) -/
  | usurp (o : Nat)
  /-- `dnmx_destroy_object` (object-c.cpp 51-53) -/
  | destroy (o : Nat)
  /-- `dnmx_object_copy_from` (object-c.cpp 55-63) -/
  | copyFrom (o src : Nat)
  /-- `dnmx_object_clear` (object-c.cpp 102-106) -/
  | clear (o : Nat)
  /-- `dnmx_object_reset_type` (object-c.cpp 107-121) -/
  | resetType (o : Nat) (t : Option TypeId)
  /-- `dnmx_object_seal` (object-c.cpp 127-129) -/
  | seal (o : Nat)
  /-- `dnmx_mutate_to` (mutate-c.cpp 22-68) -/
  | mutateTo (o : Nat) (t : TypeId) (ovs : List COverride)
  /-- `dnmx_mutate` (mutate-c.cpp 70-126) -/
  | mutate (o : Nat) (ops : List MutOp)

section
variable (D : Decls) (orc : Orc) (d : DomId)

/-- The default allocator of objects (object.hpp 25). -/
abbrev defaultAlloc : Nat := 0

/-- The mixins of the type of which a mutation is made; `none` if there is no such type. -/
def mixinsOfType (W : World) (d : DomId) (t : TypeId) : Option (List Mix) := ((W.doms d).typeAt d t).map (·.mixins)

/-- One call; `u`: it happens while an exception is being handled by unwinding (of C++ code that calls C). -/
def cstep (u : Bool) (C : CSys) : COp → CRes
  | .registerFeature d' f => C.catching (.code 0) (.code (-1)) (sstep D orc d C.S (.dom (.regFeature d' f)))
  | .unregisterFeature d' f => C.plain .void (sstep D orc d C.S (.dom (.unregFeature d' f)))
  | .registerMixin d' m => C.catching (.code 0) (.code (-1)) (sstep D orc d C.S (.dom (.regMixin d' m)))
  | .unregisterMixin d' m => C.plain .void (sstep D orc d C.S (.dom (.unregMixin d' m)))
  | .registerClass d' c => C.catching (.code 0) (.code (-1)) (sstep D orc d C.S (.dom (.regClass d' c)))
  | .unregisterClass d' c => C.plain .void (sstep D orc d C.S (.dom (.unregClass d' c)))
  | .addRule d' r => C.catching (.code 0) (.code (-1)) (sstep D orc d C.S (.dom (.addRule d' r)))
  | .removeRule d' r => C.plain .void (sstep D orc d C.S (.dom (.removeRule d' r)))
  | .getTypeFromInfos d' q => C.typeOrNull (getType D C.S.W d' q)
  | .getType d' i =>
    match C.muts[i]? with
    | some (some (md, q)) => { C with muts := C.muts.set i none }.typeOrNull (getTypeMut D C.S.W d' md q)
    | _ => .ub
  | .collect => C.plain .void (sstep D orc d C.S .gc)
  | .mutNew d' => .ret (.handle (some C.muts.length)) { C with muts := C.muts ++ [some (d', [])] }
  | .mutOf d' t =>
    match mixinsOfType C.S.W d' t with
    | some ms => .ret (.handle (some C.muts.length)) { C with muts := C.muts ++ [some (d', ms)] }
    | none => .ub
  | .mutDestroy i =>
    match C.muts[i]? with
    | some (some _) => .ret .void { C with muts := C.muts.set i none }
    | _ => .ub
  | .mutChange i op =>
    match C.muts[i]? with
    | some (some (md, ms)) => .ret (cMut D ms op).1 { C with muts := C.muts.set i (some (md, (cMut D ms op).2)) }
    | _ => .ub
  | .newEmpty t => C.catching (.handle (some C.S.h.objs.length)) (.handle none) (sstep D orc d C.S (.obj u (.newEmpty t defaultAlloc)))
  | .newOfType t => C.catching (.handle (some C.S.h.objs.length)) (.handle none) (sstep D orc d C.S (.obj u (.newOfType t defaultAlloc false)))
  | .copy o => C.catching (.handle (some C.S.h.objs.length)) (.handle none) (sstep D orc d C.S (.obj u (.copy o defaultAlloc)))
  | .usurp o => C.catching (.handle (some C.S.h.objs.length)) (.handle none) (sstep D orc d C.S (.obj u (.moveNew o)))
  | .destroy o => C.plain .void (sstep D orc d C.S (.obj u (.destroy o)))
  | .copyFrom o src => C.catching (.code 0) (.code (-1)) (sstep D orc d C.S (.obj u (.copyFrom o src)))
  | .clear o =>
    match C.S.h.obj? o with
    | none => .ub
    | some ob => if ob.isSealed then .ret (.flag false) C else C.plain (.flag true) (sstep D orc d C.S (.obj u (.clear o)))
  | .resetType o (some t) => C.catching (.code 0) (.code (-1)) (sstep D orc d C.S (.obj u (.reset o t)))
  | .resetType o none => C.plain (.code 0) (sstep D orc d C.S (.obj u (.clear o)))
  | .seal o => C.plain .void (sstep D orc d C.S (.obj u (.seal o)))
  | .mutateTo o t ovs => C.catching (.code 0) (.code (-1))
      (if typeThere d C.S.W C.S.h o && ((C.S.W.doms d).typeAt d t).isSome then
        .ofObj C.S.W (cMutateTo D (TyEnv.ofWorld C.S.W d) orc u C.S.h o t ovs)
      else .ub)
  | .mutate o ops => C.catching (.code 0) (.code (-1)) (sstep D orc d C.S (.cMutate u o ops))

/-- A C program: the results of the calls and the state after them. `none`: undefined behaviour, or an exception leaves a C
function. -/
def crun : List (Bool × COp) → CSys → Option (List CRet × CSys)
  | [], C => some ([], C)
  | (u, op) :: ops, C =>
    match cstep D orc d u C op with
    | .ret r C =>
      match crun ops C with
      | some (rs, C) => some (r :: rs, C)
      | none => none
    | .escaped _ _ => none
    | .ub => none

end

/-- `dnmx_type_is_of_name` (type-c.cpp 54-61). -/
def cTypeIsOfName (D : Decls) (W : World) (t : TypeRec) (name : List UInt8) : Bool :=
  match typeIsOf D W t name with
  | .ok b => b
  | .error _ => false

/-- `dnmx_int_result` (code/dnmx/object.h 58-61); `result` is `none` if it is not set. -/
structure CIntResult where
  result : Option Int
  error : Int
deriving DecidableEq, Repr

/-- `dnmx_object_compare` (object-c.cpp 139-149). -/
def cObjCompare (D : Decls) (F : CmpFns) (addr : DomId → Nat) (d : DomId) (S : Sys) (o o' : Nat) : Option CIntResult :=
  (objCompare D F addr d S o o').map (fun r =>
    match r with
    | .ok c => ⟨some c, 0⟩
    | .error _ => ⟨none, -1⟩)

end Dnmx
