import Verif.Model.System

/-!
# Queries and comparison of objects

Model of `type::compare` (code/dynamix/type.cpp 89-114), of `equals` and `compare` of objects (object.cpp 256-293) and of `has` and `get` (object.cpp 189-238,
object.hpp 135-167).

The `equals` and `compare` functions of mixins depend on the values only and do not throw (simplification). Assertions are off.
-/

namespace Dnmx

/-- What the mixin functions `equals` and `compare` return (code/dnmx/mixin_info.h 82-85). Those that are null are not used. -/
structure CmpFns where
  eq : Mix → Nat → Nat → Bool
  cmp : Mix → Nat → Nat → Int

/-- The loop of `type::compare` (type.cpp 93-113). -/
def cmpMixins (lt : Mix → Mix → Bool) : List Mix → List Mix → Int
  | [], _ => -1
  | _ :: _, [] => 1
  | a :: as, b :: bs => if a ≠ b then (if lt a b then -1 else 1) else cmpMixins lt as bs

/-- `type::compare` (type.cpp 89-114) of type `t` of domain `d` and type `t'` of domain `d'`. `addr`: the addresses of domains. `none`: there is no such type. -/
def typeCompare (D : Decls) (W : World) (addr : DomId → Nat) (d : DomId) (t : TypeId) (d' : DomId) (t' : TypeId) : Option Int :=
  if d = d' ∧ t = t' then some 0
  else if d ≠ d' then some (if addr d < addr d' then -1 else 1)
  else
    match (W.doms d).typeAt d t, (W.doms d).typeAt d t' with
    | some r, some r' => some (cmpMixins (canonicalOrder D W.mixId) r.mixins r'.mixins)
    | _, _ => none

/-- Reading the mixin with index `i`: `m_mixin_data[i].mixin`. -/
def valueAt (h : Heap) (data : Option Nat) (i : Nat) : Option (Mix × Nat) :=
  match data with
  | none => none
  | some a =>
    match h.slot? a i with
    | none => none
    | some sl => h.live sl.loc

/-- The loop of `object::equals` (object.cpp 260-273). `none`: undefined. -/
def equalsFrom (D : Decls) (F : CmpFns) (h : Heap) (a b : Option Nat) : Nat → List Mix → Option Bool
  | _, [] => some true
  | i, m :: ms =>
    match valueAt h a i, valueAt h b i with
    | some (m1, v), some (m2, w) =>
      if m1 ≠ m ∨ m2 ≠ m then none
      else if (D.mix m).hasEquals then (if F.eq m v w then equalsFrom D F h a b (i + 1) ms else some false)
      else if (D.mix m).hasCompare then (if F.cmp m v w ≠ 0 then some false else equalsFrom D F h a b (i + 1) ms)
      else some false
    | _, _ => none

/-- `object::equals` (object.cpp 256-276). -/
def objEquals (D : Decls) (E : TyEnv) (F : CmpFns) (h : Heap) (o o' : Nat) : Option Bool :=
  match h.obj? o, h.obj? o' with
  | some ob, some ob' =>
    if o = o' then some true
    else if ob.ty ≠ ob'.ty then some false
    else
      match ob.ty with
      | none => none
      | some t => equalsFrom D F h ob.data ob'.data 0 (E.mixins t)
  | _, _ => none

/-- The loop of `object::compare` (object.cpp 284-290). The function is looked for before the mixins are used. -/
def compareFrom (D : Decls) (F : CmpFns) (h : Heap) (a b : Option Nat) : Nat → List Mix → Option (Except XErr Int)
  | _, [] => some (.ok 0)
  | i, m :: ms =>
    if !(D.mix m).hasCompare then some (.error (.missingFunc m))
    else
      match valueAt h a i, valueAt h b i with
      | some (m1, v), some (m2, w) =>
        if m1 ≠ m ∨ m2 ≠ m then none
        else if F.cmp m v w ≠ 0 then some (.ok (F.cmp m v w))
        else compareFrom D F h a b (i + 1) ms
      | _, _ => none

/-- `object::compare` (object.cpp 278-293) for objects of domain `d`. -/
def objCompare (D : Decls) (F : CmpFns) (addr : DomId → Nat) (d : DomId) (S : Sys) (o o' : Nat) : Option (Except XErr Int) :=
  match S.h.obj? o, S.h.obj? o' with
  | some ob, some ob' =>
    if o = o' then some (.ok 0)
    else
      match ob.ty, ob'.ty with
      | some t, some t' =>
        match typeCompare D S.W addr d t d t' with
        | none => none
        | some c =>
          if c ≠ 0 then some (.ok c)
          else compareFrom D F S.h ob.data ob'.data 0 ((TyEnv.ofWorld S.W d).mixins t)
      | _, _ => none
  | _, _ => none

/-! ## has and get -/

/-- How a mixin is asked for. -/
inductive MixKey
  | id (i : Option Nat)
  | info (m : Mix)
  | name (n : List UInt8)
deriving DecidableEq, Repr

/-- `type::index_of` (type.hpp 71-75, type.cpp 16-21). -/
def TypeRec.indexOfKey (D : Decls) (W : World) (r : TypeRec) : MixKey → Option Nat
  | .id i => r.indexOf i
  | .info m => r.indexOf (W.mixId m)
  | .name n => r.indexOfName D n

/-- The type of an object (`get_type`); `none`: undefined. -/
def typeOf (W : World) (d : DomId) (h : Heap) (o : Nat) : Option (Obj × TypeRec) :=
  match h.obj? o with
  | none => none
  | some ob =>
    match ob.ty with
    | none => none
    | some t =>
      match (W.doms d).typeAt d t with
      | none => none
      | some r => some (ob, r)

/-- `object::has` (object.cpp 197-205). -/
def objHas (D : Decls) (d : DomId) (S : Sys) (o : Nat) (k : MixKey) : Option Bool :=
  match typeOf S.W d S.h o with
  | none => none
  | some (_, r) => some (r.indexOfKey D S.W k).isSome

/-- `unchecked_get_at` (code/dnmx/basic_object.h 37-38). -/
def uncheckedGetAt (h : Heap) (ob : Obj) (i : Nat) : Option Loc :=
  match ob.data with
  | none => none
  | some a => (h.slot? a i).map (·.loc)

/-- `object::get` (object.cpp 207-238): `some none` is a null pointer, `none` is undefined. -/
def objGet (D : Decls) (d : DomId) (S : Sys) (o : Nat) (k : MixKey) : Option (Option Loc) :=
  match typeOf S.W d S.h o with
  | none => none
  | some (ob, r) =>
    match r.indexOfKey D S.W k with
    | none => some none
    | some i => (uncheckedGetAt S.h ob i).map some

/-- `object::get_at` (object.hpp 144-151). -/
def objGetAt (d : DomId) (S : Sys) (o : Nat) (i : Nat) : Option (Option Loc) :=
  match typeOf S.W d S.h o with
  | none => none
  | some (ob, r) => if i < r.mixins.length then (uncheckedGetAt S.h ob i).map some else some none

end Dnmx
