import Verif.Model.Object
import Verif.Model.Messages
import Verif.Model.Dispatch

/-!
# What exceptions of operations on objects say

Model of code/dynamix/throw_exception.cpp 194-216 and of its calls in object.cpp, object_mutation.cpp, msg/msg_caller.hpp and msg/next_impl.hpp: which
exception an operation throws, with its text. The operations themselves are in `Verif.Model.Object` and `Verif.Model.Dispatch`; here they are walked
through again up to the `throw`. The texts in mutate-c.cpp are left out: the C functions catch all of these exceptions and return -1.

Functions of mixins fail by returning a code other than zero, which the library makes an exception from, or by an exception of their own, which passes
through; an oracle decides. Functions that users give to a mutation have no result and can only throw.
-/

namespace Dnmx

/-- An exception: its kind, and the text if it is an `object_error`. All others (`std::bad_alloc`, those of the user's functions) have no text of the
library. -/
structure ObjThrown where
  err : XErr
  text : Option (List Piece)
deriving DecidableEq, Repr

/-- Where the texts come from: the domains of types (`type::dom`), and what the function that fails at its n-th call does: return a code, or throw. -/
structure Telling where
  dom : TypeId → DomId
  code : Nat → Option Int

section
variable (D : Decls) (E : TyEnv) (orc : Orc) (T : Telling)

/-- `obj_mut_error` (throw_exception.cpp 194-196). -/
def objMutText (t : TypeId) (op err : String) (m : Mix) : List Piece :=
  [.dom (T.dom t), .lit ": ", .lit op, .lit " object of type ", .comp (E.mixins t), .lit ": ", .mix m, .lit " ", .lit err]

/-- `obj_mut_user_error` (throw_exception.cpp 198-200). -/
def objUserText (t : TypeId) (op ovr : String) (m : Mix) (c : Int) : List Piece :=
  [.dom (T.dom t), .lit ": ", .lit op, .lit " object of type ", .comp (E.mixins t), .lit ": ", .lit ovr, .lit " ", .mix m,
    .lit " failed with error ", .code c]

/-- `obj_mut_sealed_object` (throw_exception.cpp 202-204). -/
def objSealedText (t : TypeId) (op : String) : List Piece :=
  [.dom (T.dom t), .lit ": ", .lit op, .lit " sealed object of type ", .comp (E.mixins t)]

/-- `obj_error` (throw_exception.cpp 206-208). -/
def objText (t : TypeId) (op : String) : List Piece :=
  [.dom (T.dom t), .lit ": ", .lit op, .lit " object of type ", .comp (E.mixins t)]

/-- A function of mixin `m` failed at its n-th call of the outside world. -/
def userThrown (n : Nat) (t : TypeId) (op ovr : String) (m : Mix) : ObjThrown := ⟨.user n, (T.code n).map (objUserText E T t op ovr m)⟩

/-- Exceptions of `constructNew`: `default_init_new_func` (object_mutation.cpp 259-264), the functions in `object::copy` (object.cpp 78-84) and
`copy_from` (110-115). -/
def constructThrows (f : NewFn) (s : Sess) (m : Mix) : Option ObjThrown :=
  match f with
  | .dflt =>
    if !(D.mix m).hasInit then some ⟨.missingFunc m, some (objMutText E T s.ty "mutate to" "missing default init" m)⟩
    else if orc.fail s.h.tick then some (userThrown E T s.h.tick s.ty "mutate to" "deafult init" m)
    else none
  | .custom _ => if orc.fail s.h.tick then some ⟨.user s.h.tick, none⟩ else none
  | .copy _ checked =>
    if !(D.mix m).hasCopyInit then (if checked then some ⟨.missingFunc m, some (objMutText E T s.ty "copy" "missing copy init" m)⟩ else none)
    else if orc.fail s.h.tick then some (userThrown E T s.h.tick s.ty (if checked then "copy" else "copy_from") "copy init" m)
    else none

/-- Exceptions of `updateCommon` (object.cpp 117-121). -/
def updateThrows (g : UpdFn) (s : Sess) (m : Mix) : Option ObjThrown :=
  match g with
  | .noop => none
  | .custom _ => if orc.fail s.h.tick then some ⟨.user s.h.tick, none⟩ else none
  | .assign _ => if orc.fail s.h.tick then some (userThrown E T s.h.tick s.ty "copy_from" "copy assign" m) else none

/-- Exceptions of `update_next_mixin` (object_mutation.hpp 38-55). -/
def nextThrows (f : NewFn) (g : UpdFn) (s : Sess) : Option ObjThrown :=
  match updateNext D E orc f g s, (E.mixins s.ty)[s.updated]? with
  | .throw _ _, some m => if (s.oldIndex E m).isSome then updateThrows E orc T g s m else constructThrows D E orc T f s m
  | _, _ => none

def loopThrows (f : NewFn) (g : UpdFn) : Nat → Sess → Option ObjThrown
  | 0, _ => none
  | n + 1, s =>
    match updateNext D E orc f g s with
    | .ok s' => loopThrows f g n s'
    | _ => nextThrows D E orc T f g s

/-- Exceptions of `update_each_mixin` (object_mutation.hpp 60-66). -/
def eachThrows (f : NewFn) (g : UpdFn) (upto : Option Nat) (s : Sess) : Option ObjThrown :=
  loopThrows D E orc T f g (min (upto.getD (E.mixins s.ty).length) (E.mixins s.ty).length - s.updated) s

/-- Exceptions of `update_at` (object_mutation.hpp 86-92), `throw_bad_piecewise_mutation` (object_mutation.cpp 271-273). -/
def atThrows (i : Nat) (f : NewFn) (g : UpdFn) (s : Sess) : Option ObjThrown :=
  if i < s.updated ∨ i > (E.mixins s.ty).length then
    some ⟨.outOfOrder, some (objText E T s.ty "piecewise mutation out of order while mtating to")⟩
  else
    match updateEach D E orc .dflt .noop (some i) s with
    | .ok s' => nextThrows D E orc T f g s'
    | _ => eachThrows D E orc T .dflt .noop (some i) s

def mstepThrows (s : Sess) : MStep → Option ObjThrown
  | .next f g => nextThrows D E orc T f g s
  | .each f g upto => eachThrows D E orc T f g upto s
  | .at i f g => atThrows D E orc T i f g s
  | .finalize => none
  | .rollback => none
  | .throw => some ⟨.outside, none⟩

/-- Exceptions that leave a list of steps. -/
def mstepsThrows : List (MStep × Bool) → Sess → Option ObjThrown
  | [], _ => none
  | (st, caught) :: rest, s =>
    match mstep D E orc s st with
    | .ok s' => mstepsThrows rest s'
    | .throw s' _ => if caught then mstepsThrows rest s' else mstepThrows D E orc T s st
    | .ub => none

/-- Exceptions of the destructor (object_mutation.cpp 48-66). -/
def dtorThrows (u : Bool) (s : Sess) : Option ObjThrown :=
  if s.movedOut then none else if u then none else eachThrows D E orc T .dflt .noop none s

/-- An exception for a sealed object. `get_type` of an object without type is undefined. -/
def sealedThrown (ty : Option TypeId) (op : String) : ObjThrown := ⟨.isSealed, ty.map (fun t => objSealedText E T t op)⟩

/-- Exceptions of a mutation with constructor (object_mutation.cpp 14-23) and destructor. -/
def mutationThrows (u : Bool) (h : Heap) (o : Nat) (t : TypeId) (steps : List (MStep × Bool)) : Option ObjThrown :=
  match h.obj? o with
  | none => none
  | some ob =>
    let s := Sess.begin h o ob t
    if ob.isSealed then some (sealedThrown E T ob.ty "mutate")
    else
      match allocateMixinData D E orc s with
      | .ub => none
      | .throw _ e => some ⟨e, none⟩
      | .ok s =>
        match msteps D E orc steps s with
        | .ub => none
        | .throw _ _ => mstepsThrows D E orc T steps s
        | .ok s => dtorThrows D E orc T u s

/-- Exceptions of `perform_object_mutation` (object_mutation.hpp 168-183). -/
def performThrows (u : Bool) (h : Heap) (o : Nat) (t : TypeId) (f : NewFn) (g : UpdFn) : Option ObjThrown :=
  mutationThrows D E orc T u h o t [(.each f g none, false)]

/-- Exceptions of `reset_type` (object.cpp 242-254). -/
def resetThrows (u : Bool) (h : Heap) (o : Nat) (t : TypeId) : Option ObjThrown :=
  match h.obj? o with
  | none => none
  | some ob =>
    if ob.isSealed then some (sealedThrown E T ob.ty "reset_type")
    else if ob.ty = some t then none
    else if (E.mixins t).length = 0 then none
    else performThrows D E orc T u h o t .dflt .noop

/-- Exceptions of `operator=(object&&)` (object.cpp 46-57). -/
def moveAssignThrows (h : Heap) (o src : Nat) : Option ObjThrown :=
  if o = src then none
  else
    match h.obj? o, h.obj? src with
    | some ob, some sb =>
      if ob.alloc = sb.alloc then (if ob.isSealed then some (sealedThrown E T ob.ty "move assign") else none)
      else some ⟨.allocMismatch, ob.ty.map (fun t => objText E T t "move assign with mismatched allocators")⟩
    | _, _ => none

/-- Exceptions of `copy` (object.cpp 68-87). -/
def copyThrows (u : Bool) (h : Heap) (src : Nat) (al : Nat) : Option ObjThrown :=
  match h.obj? src with
  | none => none
  | some sb =>
    match sb.data, sb.ty with
    | some _, some t => performThrows D E orc T u (newNull h al) h.objs.length t (.copy src true) .noop
    | _, _ => none

/-- What the check of `copy_from` says (object.cpp 101-108). -/
def copyFromText (own t : TypeId) (m : Mix) : List Piece :=
  objMutText E T t "copy_from" (if (E.indexOf own m).isSome then "missing copy assign" else "missing copy init") m

/-- Exceptions of `copy_from` (object.cpp 89-123). -/
def copyFromThrows (u : Bool) (h : Heap) (o src : Nat) : Option ObjThrown :=
  match h.obj? o, h.obj? src with
  | some ob, some sb =>
    match sb.data, sb.ty, ob.ty with
    | none, _, _ => if ob.isSealed then some (sealedThrown E T ob.ty "copy_from") else none
    | some _, some t, some own =>
      match copyFromCheck D E own (E.mixins t) with
      | some m => some ⟨.missingFunc m, some (copyFromText E T own t m)⟩
      | none => performThrows D E orc T u h o t (.copy src false) (.assign src)
    | _, _, _ => none
  | _, _ => none

/-- Exceptions of the loop of `copy_matching_from` (object.cpp 140-149). -/
def copyMatchingLoopThrows (own : TypeId) (a b : Option Nat) : Nat → List Mix → Heap → Option ObjThrown
  | _, [], _ => none
  | i, m :: ms, h =>
    match E.indexOf own m with
    | none => copyMatchingLoopThrows own a b (i + 1) ms h
    | some oi =>
      match a.bind (fun a => mixinAt h a oi), b.bind (fun b => mixinAt h b i) with
      | some (l, m', _), some (sl, m'', v) =>
        if m' ≠ m ∨ m'' ≠ m ∨ (D.mix m).hasCopyAsgn = false then none
        else if orc.fail h.tick then some (userThrown E T h.tick own "copy_matching_from" "copy assign" m)
        else copyMatchingLoopThrows own a b (i + 1) ms ((h.setLive l (some (m, v))).ticked.logged (.copyAsgn m l sl))
      | _, _ => none

/-- Exceptions of `copy_matching_from` (object.cpp 125-150). -/
def copyMatchingThrows (h : Heap) (o src : Nat) : Option ObjThrown :=
  match h.obj? o, h.obj? src with
  | some ob, some sb =>
    match ob.ty, sb.ty with
    | some own, some t =>
      match copyMatchingCheck D E own (E.mixins t) with
      | some m => some ⟨.missingFunc m, some (objMutText E T own "copy_matching_from" "missing copy assign" m)⟩
      | none => copyMatchingLoopThrows D E orc T own ob.data sb.data 0 (E.mixins t) h
    | _, _ => none
  | _, _ => none

/-- Exceptions of `move_matching_from` (object.cpp 152-188). -/
def moveMatchingThrows (h : Heap) (o src : Nat) (fallback : Bool) : Option ObjThrown :=
  match h.obj? o, h.obj? src with
  | some ob, some sb =>
    match ob.ty, sb.ty with
    | some own, some t =>
      (moveMatchingCheck D E own fallback (E.mixins t)).map
        (fun m => ⟨.missingFunc m, some (objMutText E T own "move_matching_from" "cannot be moved" m)⟩)
    | _, _ => none
  | _, _ => none

/-- Exceptions of `clear` (object.cpp 236-240). -/
def clearThrows (h : Heap) (o : Nat) : Option ObjThrown :=
  match h.obj? o with
  | none => none
  | some ob => if ob.isSealed then some (sealedThrown E T ob.ty "clear") else none

/-- Exceptions of `mutate_to` (mutate_to.hpp 16-56). -/
def mutateToThrows (u : Bool) (h : Heap) (o : Nat) (t : TypeId) (ops : List InitOp) : Option ObjThrown :=
  match h.obj? o with
  | none => none
  | some ob =>
    if ob.ty = some t then none
    else mutationThrows D E orc T u h o t (mutateToSteps (sortedOps E t ops))

/-- Exceptions of all operations. -/
def oopThrows (u : Bool) (h : Heap) : OOp → Option ObjThrown
  | .newEmpty _ _ => none
  | .newOfType t al _ => resetThrows D E orc T u (newNull h al) h.objs.length t
  | .moveNew _ => none
  | .destroy _ => none
  | .moveAssign o src => moveAssignThrows E T h o src
  | .copy src al => copyThrows D E orc T u h src al
  | .copyFrom o src => copyFromThrows D E orc T u h o src
  | .copyMatching o src => copyMatchingThrows D E orc T h o src
  | .moveMatching o src fb => moveMatchingThrows D E T h o src fb
  | .clear o => clearThrows E T h o
  | .reset o t => resetThrows D E orc T u h o t
  | .seal _ => none
  | .mutation o t steps => mutationThrows D E orc T u h o t steps
  | .mutateTo o t ops => mutateToThrows D E orc T u h o t ops

end

/-! ## Messages -/

/-- `generic_feature_error` without a mixin (throw_exception.cpp 210-212), from `try_default_payload` (msg_caller.hpp 17-19): text of the exception for a
message which is not implemented. -/
def notImplementedThrows (D : Decls) (t : TypeRec) (f : Feat) (fid : Option Nat) : Option (List Piece) :=
  match t.ftableAt fid, (D.feat f).defaultPayload with
  | none, none => some [.dom t.dom, .lit ": ", .comp t.mixins, .lit " ", .lit "does not implement", .lit " ", .lit "dynamix msg", .lit " ", .feat f]
  | _, _ => none

/-- `generic_feature_error` with a mixin (throw_exception.cpp 214-216). -/
def noNextText (t : TypeRec) (err : String) (f : Feat) (m : Mix) : List Piece :=
  [.dom t.dom, .lit ": ", .comp t.mixins, .lit " ", .lit err, .lit " ", .lit "dynamix msg", .lit " ", .feat f, .lit " with ", .mix m]

/-- Exception of `call_next_impl_msg` (next_impl.hpp 26-28). -/
def nextImplThrows (t : TypeRec) (f : Feat) (m : Mix) (fid mid : Option Nat) : Option (List Piece) :=
  match t.findNextImplementer fid mid with
  | none => some (noNextText t "no next implementer of" f m)
  | some _ => none

/-- Exceptions of `call_next_bidder_set` (next_impl.hpp 46-48) and `call_next_bidder_top` (67-69). -/
def nextBidderThrows (t : TypeRec) (set : Bool) (f : Feat) (m : Mix) (fid mid : Option Nat) : Option (List Piece) :=
  match t.findNextBidderSet fid mid with
  | [] => some (noNextText t (if set then "no next bidder set of" else "no next bidder of") f m)
  | _ :: _ => none

end Dnmx
