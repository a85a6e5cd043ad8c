import Verif.Model.Bytes
import Verif.Model.Object

/-!
# Objects of plain mixins, on bytes

Model of `copy_matching_from`, `move_matching_from`, `equals` and `compare` of objects (code/dynamix/object.cpp 125-188, 256-293) whose mixins have the byte functions of
code/dnmx/mixin_common_funcs.c (`DNMX_COMMON_INIT_MI`, code/dnmx/mixin_info_util.h 17-27; `common_init_mixin_info` for trivial types, code/dynamix/mixin_info_util.hpp 59-89).
`Model/Object.lean` has the same functions for values that are not looked into.

Each of a mixin's functions may be null (as declared); those that are not are the byte functions, which do not fail. `equals` is null or `dnmx_mixin_common_eq_func`, `compare` null or
`dnmx_mixin_common_cmp_func`. Objects of one domain. Simplification: the order of types is given as a number (`type::compare` is in `Model/Compare.lean`).
-/

namespace Dnmx

/-- An object: its type and where its mixins are (`m_mixin_data[i].mixin`). -/
structure PlainObj where
  ty : TypeId
  data : List Nat
deriving DecidableEq, Repr

section
variable (D : Decls) (E : TyEnv)

/-- The check of `copy_matching_from` (130-135): the mixin that has no `copy_asgn`. -/
def copyPlainCheck (o : PlainObj) : List Mix → Option Mix
  | [] => none
  | m :: ms => if (E.indexOf o.ty m).isSome && !(D.mix m).hasCopyAsgn then some m else copyPlainCheck o ms

/-- The loop of `copy_matching_from` (140-149), with the mixins of the source that are left and where they are; `none` is undefined behaviour. -/
def copyPlain (o : PlainObj) (mem : Mem) : List Mix → List Nat → Option Mem
  | [], _ => some mem
  | _ :: _, [] => none
  | m :: ms, s :: ss =>
    match E.indexOf o.ty m with
    | none => copyPlain o mem ms ss
    | some i =>
      match o.data[i]? with
      | none => none
      | some p => copyPlain o (bytesCopy mem (D.mix m).size p s) ms ss

/-- `o.copy_matching_from(src)` (125-150). -/
def copyMatchingPlain (mem : Mem) (o src : PlainObj) : Option (Except XErr Mem) :=
  match copyPlainCheck D E o (E.mixins src.ty) with
  | some m => some (.error (.missingFunc m))
  | none => (copyPlain D E o mem (E.mixins src.ty) src.data).map .ok

/-- The check of `move_matching_from` (157-165). -/
def movePlainCheck (fallback : Bool) (o : PlainObj) : List Mix → Option Mix
  | [] => none
  | m :: ms =>
    if (E.indexOf o.ty m).isSome && !(D.mix m).hasMoveAsgn && !(fallback && (D.mix m).hasMoveInit) then some m else movePlainCheck fallback o ms

/-- One mixin of `move_matching_from` (171-186): `move_asgn`, or `destroy` and `move_init`. -/
def movePlainOne (mem : Mem) (m : Mix) (p s : Nat) : Mem :=
  if (D.mix m).hasMoveAsgn then bytesMove mem (D.mix m).size p s
  else bytesMove (if (D.mix m).hasDestroy then bytesDestroy mem (D.mix m).size p else mem) (D.mix m).size p s

/-- The loop of `move_matching_from` (167-187). -/
def movePlain (o : PlainObj) (mem : Mem) : List Mix → List Nat → Option Mem
  | [], _ => some mem
  | _ :: _, [] => none
  | m :: ms, s :: ss =>
    match E.indexOf o.ty m with
    | none => movePlain o mem ms ss
    | some i =>
      match o.data[i]? with
      | none => none
      | some p => movePlain o (movePlainOne D mem m p s) ms ss

/-- `o.move_matching_from(src, fallback)` (152-188). -/
def moveMatchingPlain (mem : Mem) (fallback : Bool) (o src : PlainObj) : Option (Except XErr Mem) :=
  match movePlainCheck D E fallback o (E.mixins src.ty) with
  | some m => some (.error (.missingFunc m))
  | none => (movePlain D E o mem (E.mixins src.ty) src.data).map .ok

/-- The loop of `equals` (260-273). -/
def equalsPlainFrom (mem : Mem) : List Mix → List Nat → List Nat → Option Bool
  | [], _, _ => some true
  | m :: ms, p :: ps, q :: qs =>
    if (D.mix m).hasEquals then (if bytesEq mem (D.mix m).size p q then equalsPlainFrom mem ms ps qs else some false)
    else if (D.mix m).hasCompare then (if bytesCmp mem (D.mix m).size p q ≠ 0 then some false else equalsPlainFrom mem ms ps qs)
    else some false
  | _ :: _, _, _ => none

/-- `o.equals(other)` (256-276) for two objects. -/
def equalsPlain (mem : Mem) (o other : PlainObj) : Option Bool :=
  if o.ty ≠ other.ty then some false else equalsPlainFrom D mem (E.mixins o.ty) o.data other.data

/-- The loop of `compare` (284-290). -/
def comparePlainFrom (mem : Mem) : List Mix → List Nat → List Nat → Option (Except XErr Int)
  | [], _, _ => some (.ok 0)
  | m :: ms, p :: ps, q :: qs =>
    if !(D.mix m).hasCompare then some (.error (.missingFunc m))
    else if bytesCmp mem (D.mix m).size p q ≠ 0 then some (.ok (bytesCmp mem (D.mix m).size p q))
    else comparePlainFrom mem ms ps qs
  | _ :: _, _, _ => none

/-- `o.compare(other)` (278-293) for two objects; `tyCmp` is `type::compare`. -/
def comparePlain (tyCmp : TypeId → TypeId → Int) (mem : Mem) (o other : PlainObj) : Option (Except XErr Int) :=
  if tyCmp o.ty other.ty ≠ 0 then some (.ok (tyCmp o.ty other.ty)) else comparePlainFrom D mem (E.mixins o.ty) o.data other.data

end

end Dnmx
