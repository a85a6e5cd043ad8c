import Verif.Model.Object

/-!
# When the functions of mixins are called

For each operation on objects: the calls of functions that start or end the life of a mixin (initialization, also by copying,
moving, or with functions of the user; destruction), each with the memory at the time of the call. The states come from the
functions of `Verif.Model.Object`; the functions here follow these and collect the calls.
-/

namespace Dnmx

/-- A call of a function of a mixin. -/
inductive MixinCall
  /-- `init`, `copy_init` or a function given by the user, for the place `l` -/
  | init (m : Mix) (l : Loc)
  /-- `move_init` to the place `l` from `src` -/
  | move (m : Mix) (l src : Loc)
  /-- `destroy` -/
  | destroy (m : Mix) (l : Loc)
deriving DecidableEq, Repr

/-- The mixin's place: its `this`. -/
def MixinCall.this : MixinCall → Loc
  | .init _ l => l
  | .move _ l _ => l
  | .destroy _ l => l

/-- Calls with the memory at that time. -/
abbrev Seen := List (MixinCall × Heap)

section
variable (D : Decls) (E : TyEnv) (orc : Orc)

/-- Whether there is a function to call (object_mutation.cpp 259-261, object.cpp 80-82). -/
def NewFn.there (f : NewFn) (m : Mix) : Bool :=
  match f with
  | .dflt => (D.mix m).hasInit
  | .custom _ => true
  | .copy _ _ => (D.mix m).hasCopyInit

/-- `update_next_mixin` (object_mutation.hpp 38-55). -/
def callsNext (f : NewFn) (s : Sess) : Seen :=
  if s.complete then []
  else
    match (E.mixins s.ty)[s.updated]? with
    | none => []
    | some m =>
      match s.oldIndex E m with
      | some _ => []
      | none =>
        match s.data with
        | none => []
        | some a =>
          match s.h.slot? a s.updated with
          | none => []
          | some sl => if f.there D m then [(.init m sl.loc, s.h)] else []

/-- Rounds of `update_next_mixin`. -/
def callsLoop (f : NewFn) (g : UpdFn) : Nat → Sess → Seen
  | 0, _ => []
  | n + 1, s => callsNext D E f s ++ match updateNext D E orc f g s with
    | .ok s' => callsLoop f g n s'
    | _ => []

/-- `update_each_mixin` (object_mutation.hpp 60-66). -/
def callsEach (f : NewFn) (g : UpdFn) (upto : Option Nat) (s : Sess) : Seen :=
  callsLoop D E orc f g (min (upto.getD (E.mixins s.ty).length) (E.mixins s.ty).length - s.updated) s

/-- `update_at` (object_mutation.hpp 86-92). -/
def callsAt (i : Nat) (f : NewFn) (s : Sess) : Seen :=
  if i < s.updated ∨ i > (E.mixins s.ty).length then []
  else callsEach D E orc .dflt .noop (some i) s ++ match updateEach D E orc .dflt .noop (some i) s with
    | .ok s' => callsNext D E f s'
    | _ => []

/-- `destroy_new_mixins` (object_mutation.cpp 176-185). -/
def callsDestroy (s : Sess) : Nat → Heap → Seen
  | 0, _ => []
  | i + 1, h =>
    match s.data, (E.mixins s.ty)[i]? with
    | some a, some m =>
      match s.oldIndex E m with
      | some _ => callsDestroy s i h
      | none =>
        match h.slot? a i with
        | none => []
        | some sl => (if (D.mix m).hasDestroy then [(.destroy m sl.loc, h)] else []) ++ match h.destroy D sl.loc m with
          | none => []
          | some h' => callsDestroy s i h'
    | _, _ => []

/-- `rollback` (object_mutation.cpp 187-196). -/
def callsRollback (s : Sess) : Seen := if s.oldTy = some s.ty then [] else callsDestroy D E s s.updated s.h

/-- One round of the loop of `finalize` (object_mutation.cpp 211-245). -/
def callsFinalizeOne (s : Sess) (b a : Nat) (oi : Nat) (m : Mix) (h : Heap) : Seen :=
  match h.slot? b oi with
  | none => []
  | some old =>
    match E.indexOf s.ty m with
    | some ti =>
      match old.buf with
      | some _ => []
      | none =>
        match h.slot? a ti, h.live old.loc with
        | some new, some (_, v) => (.move m new.loc old.loc, h) :: match h.construct new.loc m v (.moved old.loc) with
          | none => []
          | some h' => if (D.mix m).hasDestroy then [(.destroy m old.loc, (h'.setLive old.loc (some (m, orc.val h'.tick))).ticked)] else []
        | _, _ => []
    | none => if (D.mix m).hasDestroy then [(.destroy m old.loc, h)] else []

/-- The loop. -/
def callsFinalizeLoop (s : Sess) (b a : Nat) : Nat → List Mix → Heap → Seen
  | _, [], _ => []
  | oi, m :: ms, h => callsFinalizeOne D E orc s b a oi m h ++ match finalizeOne D E orc s b a oi m h with
    | none => []
    | some h' => callsFinalizeLoop s b a (oi + 1) ms h'

/-- `finalize` (object_mutation.cpp 198-256). -/
def callsFinalize (s : Sess) : Seen :=
  if !s.complete then []
  else if s.oldTy = some s.ty then []
  else
    match s.oldData, s.oldTy, s.data with
    | some b, some t, some a => callsFinalizeLoop D E orc s b a 0 (E.mixins t) s.h
    | _, _, _ => []

/-- One step of a mutation. -/
def callsStep (s : Sess) : MStep → Seen
  | .next f _ => callsNext D E f s
  | .each f g upto => callsEach D E orc f g upto s
  | .at i f _ => callsAt D E orc i f s
  | .finalize => callsFinalize D E orc s
  | .rollback => callsRollback D E s
  | .throw => []

/-- Steps, with a flag each whether exceptions are caught. -/
def callsSteps : List (MStep × Bool) → Sess → Seen
  | [], _ => []
  | (st, caught) :: rest, s => callsStep D E orc s st ++ match mstep D E orc s st with
    | .ok s' => callsSteps rest s'
    | .throw s' _ => if caught then callsSteps rest s' else []
    | .ub => []

/-- Destructor of a mutation (object_mutation.cpp 48-66). -/
def callsDtor (u : Bool) (s : Sess) : Seen :=
  if s.movedOut then []
  else if u then callsRollback D E s
  else callsEach D E orc .dflt .noop none s ++ match updateEach D E orc .dflt .noop none s with
    | .ub => []
    | .throw s' _ => callsRollback D E s'
    | .ok s' => callsFinalize D E orc (if s'.complete then s' else { s' with h := s'.h.logged .assertFailed })

/-- A whole mutation. -/
def callsMutation (u : Bool) (h : Heap) (o : Nat) (t : TypeId) (steps : List (MStep × Bool)) : Seen :=
  match h.obj? o with
  | none => []
  | some ob =>
    if ob.isSealed then callsDtor D E orc true (Sess.begin h o ob t)
    else
      match allocateMixinData D E orc (Sess.begin h o ob t) with
      | .ub => []
      | .throw s _ => callsDtor D E orc true s
      | .ok s => callsSteps D E orc steps s ++ match msteps D E orc steps s with
        | .ok s' => callsDtor D E orc u s'
        | .throw s' _ => callsDtor D E orc true s'
        | .ub => []

/-- `clear_mixin_data` (object.cpp 295-301). -/
def callsClear (h : Heap) (o : Nat) : Seen :=
  match h.obj? o with
  | none => []
  | some ob =>
    match ob.data, ob.ty with
    | some a, some t => callsRollback D E ⟨h, o, ob.alloc, none, none, t, some a, (E.mixins t).length, (E.mixins t).length, false, false⟩
    | _, _ => []

/-- `reset_type` (object.cpp 242-254). -/
def callsReset (u : Bool) (h : Heap) (o : Nat) (t : TypeId) : Seen :=
  match h.obj? o with
  | none => []
  | some ob =>
    if ob.isSealed then []
    else if ob.ty = some t then []
    else if (E.mixins t).length = 0 then callsClear D E h o
    else callsMutation D E orc u h o t [(.each .dflt .noop none, false)]

/-- The loop of `move_matching_from` (object.cpp 167-187). -/
def callsMoveMatching (own : TypeId) (a b : Option Nat) : Nat → List Mix → Heap → Seen
  | _, [], _ => []
  | i, m :: ms, h =>
    match E.indexOf own m with
    | none => callsMoveMatching own a b (i + 1) ms h
    | some oi =>
      match a.bind (fun a => mixinAt h a oi), b.bind (fun b => mixinAt h b i) with
      | some (l, _, _), some (sl, _, v) =>
        if (D.mix m).hasMoveAsgn then
          callsMoveMatching own a b (i + 1) ms
            (((h.setLive l (some (m, v))).setLive sl (some (m, orc.val h.tick))).ticked.logged (.moveAsgn m l sl))
        else
          (if (D.mix m).hasDestroy then [(.destroy m l, h)] else []) ++
          match h.destroy D l m with
          | none => []
          | some h =>
            (.move m l sl, h) ::
            match (h.live sl).bind (fun x => h.construct l m x.2 (.moved sl)) with
            | none => []
            | some h => callsMoveMatching own a b (i + 1) ms ((h.setLive sl (some (m, orc.val h.tick))).ticked)
      | _, _ => []

/-- The calls in an operation. -/
def callsOp (u : Bool) (h : Heap) : OOp → Seen
  | .newEmpty _ _ => []
  | .newOfType t al _ => callsReset D E orc u (newNull h al) h.objs.length t ++ match resetType D E orc u (newNull h al) h.objs.length t with
    | .throw h' _ => callsClear D E h' h.objs.length
    | _ => []
  | .moveNew _ => []
  | .destroy o => callsClear D E h o
  | .moveAssign o src =>
    match h.obj? o, h.obj? src with
    | some ob, some sb => if o = src ∨ ob.alloc ≠ sb.alloc ∨ ob.isSealed = true then [] else callsClear D E h o
    | _, _ => []
  | .copy src al =>
    match h.obj? src with
    | none => []
    | some sb =>
      match sb.data, sb.ty with
      | some _, some t => callsMutation D E orc u (newNull h al) h.objs.length t [(.each (.copy src true) .noop none, false)] ++
        match perform D E orc u (newNull h al) h.objs.length t (.copy src true) .noop with
        | .throw h' _ => callsClear D E h' h.objs.length
        | _ => []
      | _, _ => []
  | .copyFrom o src =>
    match h.obj? o, h.obj? src with
    | some ob, some sb =>
      match sb.data, sb.ty, ob.ty with
      | none, _, _ => if ob.isSealed then [] else callsClear D E h o
      | some _, some t, some own =>
        match copyFromCheck D E own (E.mixins t) with
        | some _ => []
        | none => callsMutation D E orc u h o t [(.each (.copy src false) (.assign src) none, false)]
      | _, _, _ => []
    | _, _ => []
  | .copyMatching _ _ => []
  | .moveMatching o src fb =>
    match h.obj? o, h.obj? src with
    | some ob, some sb =>
      match ob.ty, sb.ty with
      | some own, some t =>
        match moveMatchingCheck D E own fb (E.mixins t) with
        | some _ => []
        | none => callsMoveMatching D E orc own ob.data sb.data 0 (E.mixins t) h
      | _, _ => []
    | _, _ => []
  | .clear o =>
    match h.obj? o with
    | none => []
    | some ob => if ob.isSealed then [] else callsClear D E h o
  | .reset o t => callsReset D E orc u h o t
  | .seal _ => []
  | .mutation o t steps => callsMutation D E orc u h o t steps
  | .mutateTo o t ops =>
    match h.obj? o with
    | none => []
    | some ob => if ob.ty = some t then [] else callsMutation D E orc u h o t (mutateToSteps (sortedOps E t ops))

end

end Dnmx
